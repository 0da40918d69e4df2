import Verif.Spec.Balances
import Verif.Model.State

/-! # Specification: what a reported sample of a run says about the gas

The ten balances written with the gas property functions, the components and the temperatures of the returned
state; neither the inputs of the state equations nor any function that prepares them is used. -/

namespace Sett.Spec

/-- Rate of change of the mass held in a volume `V` at temperature `T` and pressure `P`. -/
def heldMassRate (f : Fluid ℝ) (V dV T dT P dP : ℝ) : ℝ :=
  massRate V (f.dens T P) (f.dd_dP_T T P) (f.dd_dT_P T P) dV dP dT

/-- Rate of change of the internal energy held in a volume `V` at temperature `T` and pressure `P`. -/
def heldEnergyRate (f : Fluid ℝ) (V dV T dT P dP : ℝ) : ℝ :=
  energyRate V (f.dens T P) (f.inte T P) (f.dd_dP_T T P) (f.dd_dT_P T P) (f.du_dP_T T P) (f.du_dT_P T P)
    dV dP dT

open Classical in
/-- Enthalpy carried by a flow `m` from gas at `left` to gas at `right`, or back. -/
noncomputable def carried (f : Fluid ℝ) (P m left right : ℝ) : ℝ :=
  m * if 0 ≤ m then f.enth left P else f.enth right P

/-- The balances of the five gas volumes at one reported sample. -/
structure SampleBalances (c : Components ℝ) (s : State ℝ) (v : state_equations.Values ℝ) : Prop where
  comp_mass : heldMassRate s.fluid (c.ws.volumes s.ws v.time).1.value (c.ws.volumes s.ws v.time).1.deriv
    v.conditions.T_c v.solution.dTc_dt v.conditions.P v.solution.dP_dt = -v.solution.m_dot_ck
  comp_energy : heldEnergyRate s.fluid (c.ws.volumes s.ws v.time).1.value
    (c.ws.volumes s.ws v.time).1.deriv v.conditions.T_c v.solution.dTc_dt v.conditions.P v.solution.dP_dt
    = -carried s.fluid v.conditions.P v.solution.m_dot_ck v.conditions.T_c s.temp.chx
      - v.conditions.P * (c.ws.volumes s.ws v.time).1.deriv - (c.ws.parasitics s.ws).comp.thermal
  chx_mass : heldMassRate s.fluid c.chx.volume 0 s.temp.chx 0 v.conditions.P v.solution.dP_dt
    = v.solution.m_dot_ck - v.solution.m_dot_kr
  chx_energy : heldEnergyRate s.fluid c.chx.volume 0 s.temp.chx 0 v.conditions.P v.solution.dP_dt
    = carried s.fluid v.conditions.P v.solution.m_dot_ck v.conditions.T_c s.temp.chx
      - carried s.fluid v.conditions.P v.solution.m_dot_kr s.temp.chx s.temp.regen.cold
      - v.solution.Q_dot_k
  regen_mass : heldMassRate s.fluid c.regen.volume 0 s.temp.regen.avg 0 v.conditions.P v.solution.dP_dt
    = v.solution.m_dot_kr - v.solution.m_dot_rl
  regen_energy : heldEnergyRate s.fluid c.regen.volume 0 s.temp.regen.avg 0 v.conditions.P v.solution.dP_dt
    = carried s.fluid v.conditions.P v.solution.m_dot_kr s.temp.chx s.temp.regen.cold
      - carried s.fluid v.conditions.P v.solution.m_dot_rl s.temp.regen.hot s.temp.hhx
      - v.solution.Q_dot_r
  hhx_mass : heldMassRate s.fluid c.hhx.volume 0 s.temp.hhx 0 v.conditions.P v.solution.dP_dt
    = v.solution.m_dot_rl - v.solution.m_dot_le
  hhx_energy : heldEnergyRate s.fluid c.hhx.volume 0 s.temp.hhx 0 v.conditions.P v.solution.dP_dt
    = carried s.fluid v.conditions.P v.solution.m_dot_rl s.temp.regen.hot s.temp.hhx
      - carried s.fluid v.conditions.P v.solution.m_dot_le s.temp.hhx v.conditions.T_e
      + v.solution.Q_dot_l
  exp_mass : heldMassRate s.fluid (c.ws.volumes s.ws v.time).2.value (c.ws.volumes s.ws v.time).2.deriv
    v.conditions.T_e v.solution.dTe_dt v.conditions.P v.solution.dP_dt = v.solution.m_dot_le
  exp_energy : heldEnergyRate s.fluid (c.ws.volumes s.ws v.time).2.value
    (c.ws.volumes s.ws v.time).2.deriv v.conditions.T_e v.solution.dTe_dt v.conditions.P v.solution.dP_dt
    = carried s.fluid v.conditions.P v.solution.m_dot_le s.temp.hhx v.conditions.T_e
      - v.conditions.P * (c.ws.volumes s.ws v.time).2.deriv - (c.ws.parasitics s.ws).exp.thermal

end Sett.Spec
