import Verif.Model.Api

/-! # Specification: cylinder walls

The thermal resistance between the gas in a working space and its exchanger, as entered in a
configuration, and what of a report does not concern heat.  Any arithmetic. -/

namespace Sett.Spec

open api

variable {α : Type}

/-- The configuration of the same engine with other wall resistances (`R_c`, `R_e`). -/
def rewall (Rc Re : α) (c : Config α) : Config α :=
  { c with engine := { c.engine with components := { c.engine.components with
      ws := match c.engine.components.ws with
        | .Sinusoidal p => .Sinusoidal { p with R_c := Rc, R_e := Re }
        | .Rhombic p => .Rhombic { p with R_c := Rc, R_e := Re }
        | d => d } } }

/-- All three exchangers are configured by their approach. -/
structure FixedApproaches (c : Config α) : Prop where
  chx : ∃ p, c.engine.components.chx = .FixedApproach p
  regen : ∃ p, c.engine.components.regen = .FixedApproach p
  hhx : ∃ p, c.engine.components.hhx = .FixedApproach p

/-- Two reports agree in everything that does not concern heat. -/
structure SameButHeat (r r' : RunResults α) : Prop where
  temperature : r'.temperature = r.temperature
  pressure : r'.pressure = r.pressure
  mass_flow : r'.mass_flow = r.mass_flow
  regen_imbalance : r'.regen_imbalance = r.regen_imbalance
  power : r'.power = r.power
  shaft_torque : r'.shaft_torque = r.shaft_torque
  values : r'.values = r.values

end Sett.Spec
