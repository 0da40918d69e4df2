import Verif.Spec.Shadow

/-! # Specification: what an integration asks about -/

namespace Sett.Spec

open state_equations

/-- Every state the integration of one cycle asks about, the questions before having been answered by the state
equations, is within the limits. -/
def StaysWithin (env : Env ℝ) (r : Run ℝ) (L : Limits) (ic : Conditions ℝ) (num : UInt32) (tol : OdeTolerance ℝ) : Prop :=
  ∀ dx log t y k, timeStep env.build r.period num = .ok dx →
    Reaches (env.ode 0.0 (r.period + 1e-14) dx (stateVector ic) tol.rel tol.abs) (log.map question) (.eval t y k) →
    GoodLog r.toCycle ⟨.Unknown, .Unknown, .Unknown, .Unknown⟩ log → WithinLimits r L t (conditionsOf y)

/-- Within the limits none of the three rates exceeds `M`. -/
def RatesUpTo (r : Run ℝ) (L : Limits) (M : ℝ) : Prop :=
  ∀ t y hint s, WithinLimits r L t y → solve r.solver (r.calculate_inputs t y) hint = .ok s →
    |s.dP_dt| ≤ M ∧ |s.dTc_dt| ≤ M ∧ |s.dTe_dt| ≤ M

/-- The smallest error the tolerances allow per step within the limits, in any of pressure and temperatures. -/
noncomputable def leastAllowed (tol : OdeTolerance ℝ) (L : Limits) : ℝ := tol.abs + min L.Pmin 100 * tol.rel

/-- The two runs differ in no more than the motion of the pistons and the period. -/
def SameEngine (r r' : Run ℝ) : Prop :=
  r' = { r with ws_vol_fn := r'.ws_vol_fn, period := r'.period }

/-- A drive that keeps the volumes within the limits, and whose speeds and accelerations are at most `w` (the latter
in the sense that volumes and speeds together change by no more than `w` per second). -/
structure SlowDrive (r : Run ℝ) (L : Limits) (w : ℝ) : Prop where
  comp_vol : ∀ t, L.Vmin ≤ (r.ws_vol_fn t).1.value ∧ (r.ws_vol_fn t).1.value ≤ L.Vmax
  exp_vol : ∀ t, L.Vmin ≤ (r.ws_vol_fn t).2.value ∧ (r.ws_vol_fn t).2.value ≤ L.Vmax
  comp_rate : ∀ t, |(r.ws_vol_fn t).1.deriv| ≤ w
  exp_rate : ∀ t, |(r.ws_vol_fn t).2.deriv| ≤ w
  steady : SteadyDrive r w

/-- The state is no further than `δ` from the initial one. -/
structure Nearby (δ : ℝ) (ic y : Conditions ℝ) : Prop where
  pres : |y.P - ic.P| ≤ δ
  comp_temp : |y.T_c - ic.T_c| ≤ δ
  exp_temp : |y.T_e - ic.T_e| ≤ δ

/-- The working spaces take up no parasitic heat. -/
structure NoParasiticHeat (r : Run ℝ) : Prop where
  comp : r.ws_parasitics.comp.thermal = 0
  exp : r.ws_parasitics.exp.thermal = 0

end Sett.Spec
