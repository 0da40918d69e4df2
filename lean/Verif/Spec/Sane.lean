import Verif.Spec.Autonomous
import Verif.Spec.Cycle

/-! # Specification: sane runs, and integrators that keep the gas warm -/

namespace Sett.Spec

open state_equations

/-- The parts of a run that do not change during a cycle are physical: working spaces never empty,
exchangers of non-negative volume, exchanger gas at 100 K or more. -/
structure SaneRun (r : Run ℝ) : Prop where
  norm : r.enth_norm ≠ 0
  comp_vol : ∀ t, 0 < (r.ws_vol_fn t).1.value
  exp_vol : ∀ t, 0 < (r.ws_vol_fn t).2.value
  chx_vol : 0 ≤ r.vol_chx
  regen_vol : 0 ≤ r.vol_regen
  hhx_vol : 0 ≤ r.vol_hhx
  regen_temp : 0 < r.temp.regen.avg
  chx_temp : 100 ≤ r.temp.chx
  hhx_temp : 100 ≤ r.temp.hhx

/-- The gas is under pressure and both working spaces are at 100 K or more. -/
structure Warm (y : Conditions ℝ) : Prop where
  pres : 0 < y.P
  comp : 100 ≤ y.T_c
  exp : 100 ≤ y.T_e

/-- `f` gives the rates of the ten balances with upwind enthalpies, wherever the gas is warm. -/
def RatesOf (r : Run ℝ) (f : ℝ → V3 ℝ → V3 ℝ) : Prop :=
  ∀ t y, Warm (conditionsOf y) → IsRate r t y (f t y)

/-- One integration of the rates `f` stays where the gas is warm: every derivative is asked for at a warm
state and, if the integrator succeeds, it reports at least one point, and only warm ones. -/
structure StaysWarm (f : ℝ → V3 ℝ → V3 ℝ) (st : Stepper ℝ) : Prop where
  asked : ∀ t y, Asks f st t y → Warm (conditionsOf y)
  reported : ∀ xs ys, Integrated f st = some (xs, ys) →
    xs ≠ [] ∧ ys ≠ [] ∧ ∀ y ∈ ys, Warm (conditionsOf y)

/-- The integrator, on the equations of the run and from any warm start at pressure `P`, stays warm; with
the step of two output points and with that of `num_points`. -/
def KeepsWarm (env : Env ℝ) (r : Run ℝ) (f : ℝ → V3 ℝ → V3 ℝ) (tol : OdeTolerance ℝ)
    (num_points : UInt32) (P : ℝ) : Prop :=
  ∀ (T_c T_e dx : ℝ), 100 ≤ T_c → 100 ≤ T_e →
    (timeStep env.build r.period 2 = .ok dx ∨ timeStep env.build r.period num_points = .ok dx) →
    StaysWarm f (env.ode 0.0 (r.period + 1e-14) dx ⟨P, T_c, T_e⟩ tol.rel tol.abs)

/-- The inner solve ended in one of the two ways its signature announces: values, at least one of them and
all warm, or an error.  In particular it did not panic. -/
def Orderly {ε : Type} : Exec ε (List (state_equations.Values ℝ)) → Prop
  | .ok vs => vs ≠ [] ∧ ∀ v ∈ vs, Warm v.conditions
  | .error (.err _) => True
  | .error (.panic _) => False

/-- Sane components, gas and operating conditions of an engine whose exchangers have fixed approaches. -/
structure SaneEngine (c : Components ℝ) (n : GasName) (i : RunInputs ℝ) : Prop where
  chx_fixed : ∀ s, c.chx.approach s = c.chx.initial_approach
  regen_fixed : ∀ s, c.regen.approach s = c.regen.initial_approach
  hhx_fixed : ∀ s, c.hhx.approach s = c.hhx.initial_approach
  comp_vol : ∀ s t, 0 < (c.ws.volumes s t).1.value
  exp_vol : ∀ s t, 0 < (c.ws.volumes s t).2.value
  chx_vol : 0 ≤ c.chx.volume
  regen_vol : 0 ≤ c.regen.volume
  hhx_vol : 0 ≤ c.hhx.volume
  chx_temp : 100 ≤ i.temp_sink + c.chx.initial_approach
  hhx_temp : 100 ≤ i.temp_source - c.hhx.initial_approach
  cold_end : 0 < i.temp_sink + c.chx.initial_approach + c.regen.initial_approach / 2
  hot_end : 0 < i.temp_source - c.hhx.initial_approach - c.regen.initial_approach / 2
  ends_differ : i.temp_sink + c.chx.initial_approach + c.regen.initial_approach / 2
    ≠ i.temp_source - c.hhx.initial_approach - c.regen.initial_approach / 2
  norm : (IdealGas.new n : IdealGas ℝ).enth i.temp_sink i.pres_zero
    + (IdealGas.new n : IdealGas ℝ).enth i.temp_source i.pres_zero ≠ 0

end Sett.Spec
