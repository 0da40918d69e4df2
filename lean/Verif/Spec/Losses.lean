import Verif.Model.Api

/-! # Specification: losses entered in a configuration, and the cycle of a report

The entries of a configuration that describe what is lost around the gas (flow resistances, friction and
pump power, heat leaking past the gas), and what in a report describes the gas itself.  Any arithmetic. -/

namespace Sett.Spec

open api

variable {α : Type}

/-- The loss entries of a configuration. -/
structure Losses (α : Type) where
  /-- flow resistance of the cold exchanger, the regenerator and the hot exchanger (`R_hyd`) -/
  flowChx : α
  flowRegen : α
  flowHhx : α
  /-- mechanical loss in the two working spaces (`W_parasitic_c`, `W_parasitic_e`) -/
  workComp : α
  workExp : α
  /-- power drawn by the cold and the hot exchanger (`W_parasitic`) -/
  workChx : α
  workHhx : α
  /-- heat leaking past the regenerator and the hot exchanger (`Q_parasitic`) -/
  heatRegen : α
  heatHhx : α

/-- The same drive with other mechanical losses. -/
def chargeWs (L : Losses α) : ws.Config α → ws.Config α
  | .Sinusoidal p => .Sinusoidal { p with W_parasitic_c := L.workComp, W_parasitic_e := L.workExp }
  | .Rhombic p => .Rhombic { p with W_parasitic_c := L.workComp, W_parasitic_e := L.workExp }
  | d => d

/-- The same cold exchanger with other losses. -/
def chargeChx (L : Losses α) : chx.Config α → chx.Config α
  | .FixedApproach p => .FixedApproach { p with R_hyd := L.flowChx, W_parasitic := L.workChx }
  | .FixedConductance p => .FixedConductance { p with R_hyd := L.flowChx, W_parasitic := L.workChx }
  | d => d

/-- The same regenerator with other losses. -/
def chargeRegen (L : Losses α) : regen.Config α → regen.Config α
  | .FixedApproach p => .FixedApproach { p with R_hyd := L.flowRegen, Q_parasitic := L.heatRegen }
  | .FixedConductance p =>
    .FixedConductance { p with R_hyd := L.flowRegen, Q_parasitic := L.heatRegen }
  | d => d

/-- The same hot exchanger with other losses. -/
def chargeHhx (L : Losses α) : hhx.Config α → hhx.Config α
  | .FixedApproach p => .FixedApproach { p with
      R_hyd := L.flowHhx, W_parasitic := L.workHhx, Q_parasitic := L.heatHhx }
  | .FixedConductance p => .FixedConductance { p with
      R_hyd := L.flowHhx, W_parasitic := L.workHhx, Q_parasitic := L.heatHhx }
  | d => d

/-- The configuration of the same engine with the losses `L` instead of its own. -/
def charge (L : Losses α) (c : Config α) : Config α :=
  { c with engine := { c.engine with components :=
      { chx := chargeChx L c.engine.components.chx
        regen := chargeRegen L c.engine.components.regen
        hhx := chargeHhx L c.engine.components.hhx
        ws := chargeWs L c.engine.components.ws } } }

/-- Two reports describe the same motion of the gas: everything but the space pressures, the powers below
the ideal indicated power, the total heats, the torque and the efficiencies. -/
structure SameCycle (r r' : RunResults α) : Prop where
  temperature : r'.temperature = r.temperature
  pressure : r'.pressure = r.pressure
  mass_flow : r'.mass_flow = r.mass_flow
  regen_imbalance : r'.regen_imbalance = r.regen_imbalance
  heat_chx : r'.heat_flow.chx = r.heat_flow.chx
  heat_regen : r'.heat_flow.regen = r.heat_flow.regen
  heat_hhx : r'.heat_flow.hhx = r.heat_flow.hhx
  ideal : r'.power.ideal_indicated = r.power.ideal_indicated
  series : ∀ Pc Pe, { r'.values with P_c := Pc, P_e := Pe } = { r.values with P_c := Pc, P_e := Pe }

end Sett.Spec
