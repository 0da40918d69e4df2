import Verif.Spec.Trajectory
import Verif.Spec.Sane

/-! # Specification: how far two instants of a run are apart -/

namespace Sett.Spec

open state_equations

/-- Limits within which an engine operates. -/
structure Limits where
  Pmin : ℝ
  Pmax : ℝ
  Tmax : ℝ
  Vmin : ℝ
  Vmax : ℝ
  /-- of the rates of volume change -/
  Wmax : ℝ
  Pmin_pos : 0 < Pmin
  Vmin_pos : 0 < Vmin

/-- At time `t` and in state `y` the run is within the limits, with the gas in the working spaces at 100 K
or more. -/
structure WithinLimits (r : Run ℝ) (L : Limits) (t : ℝ) (y : Conditions ℝ) : Prop where
  pres : L.Pmin ≤ y.P ∧ y.P ≤ L.Pmax
  comp_temp : 100 ≤ y.T_c ∧ y.T_c ≤ L.Tmax
  exp_temp : 100 ≤ y.T_e ∧ y.T_e ≤ L.Tmax
  comp_vol : L.Vmin ≤ (r.ws_vol_fn t).1.value ∧ (r.ws_vol_fn t).1.value ≤ L.Vmax
  exp_vol : L.Vmin ≤ (r.ws_vol_fn t).2.value ∧ (r.ws_vol_fn t).2.value ≤ L.Vmax
  comp_rate : |(r.ws_vol_fn t).1.deriv| ≤ L.Wmax
  exp_rate : |(r.ws_vol_fn t).2.deriv| ≤ L.Wmax

/-- Distance of two gas states. -/
def stateGap (y y' : Conditions ℝ) : ℝ := |y.P - y'.P| + |y.T_c - y'.T_c| + |y.T_e - y'.T_e|

/-- Distance of the pistons (volumes and their rates) at two times. -/
def driveGap (r : Run ℝ) (t t' : ℝ) : ℝ :=
  |(r.ws_vol_fn t).1.value - (r.ws_vol_fn t').1.value| + |(r.ws_vol_fn t).2.value - (r.ws_vol_fn t').2.value|
    + |(r.ws_vol_fn t).1.deriv - (r.ws_vol_fn t').1.deriv|
    + |(r.ws_vol_fn t).2.deriv - (r.ws_vol_fn t').2.deriv|

/-- Distance of two solutions of the state equations, over all ten unknowns. -/
def solutionGap (s s' : Solution ℝ) : ℝ :=
  |s.m_dot_ck - s'.m_dot_ck| + |s.m_dot_kr - s'.m_dot_kr| + |s.m_dot_rl - s'.m_dot_rl|
    + |s.m_dot_le - s'.m_dot_le| + |s.Q_dot_k - s'.Q_dot_k| + |s.Q_dot_r - s'.Q_dot_r|
    + |s.Q_dot_l - s'.Q_dot_l| + |s.dTc_dt - s'.dTc_dt| + |s.dTe_dt - s'.dTe_dt|
    + |s.dP_dt - s'.dP_dt|

/-- The volumes and their rates are continuous functions of time. -/
structure ContinuousDrive (r : Run ℝ) : Prop where
  comp_vol : Continuous fun t => (r.ws_vol_fn t).1.value
  exp_vol : Continuous fun t => (r.ws_vol_fn t).2.value
  comp_rate : Continuous fun t => (r.ws_vol_fn t).1.deriv
  exp_rate : Continuous fun t => (r.ws_vol_fn t).2.deriv

/-- At time `t` the state `y` moves with rates that differ by no more than `e` (summed) from those of `s`,
and `s` is what `solve` returns for the inputs of that time and state (with some hint). -/
structure NearlyFollows (r : Run ℝ) (y : ℝ → Conditions ℝ) (t : ℝ) (s : Solution ℝ) (e : ℝ) : Prop where
  solved : ∃ hint, solve r.solver (r.calculate_inputs t (y t)) hint = .ok s
  moves : ∃ p c x, HasDerivWithinAt (fun t => (y t).P) p (Set.Ici t) t ∧
    HasDerivWithinAt (fun t => (y t).T_c) c (Set.Ici t) t ∧
    HasDerivWithinAt (fun t => (y t).T_e) x (Set.Ici t) t ∧
    |p - s.dP_dt| + |c - s.dTc_dt| + |x - s.dTe_dt| ≤ e

/-- All three state variables are continuous on `[a, b]`. -/
structure ContinuousState (y : ℝ → Conditions ℝ) (a b : ℝ) : Prop where
  pres : ContinuousOn (fun t => (y t).P) (Set.Icc a b)
  comp : ContinuousOn (fun t => (y t).T_c) (Set.Icc a b)
  exp : ContinuousOn (fun t => (y t).T_e) (Set.Icc a b)

/-- `y` is an exact trajectory of the run on `[a, b]`, with the gas warm throughout. -/
structure Trajectory (r : Run ℝ) (y : ℝ → Conditions ℝ) (a b : ℝ) : Prop where
  cont : ContinuousState y a b
  warm : ∀ t ∈ Set.Icc a b, Warm (y t)
  follows : ∀ t ∈ Set.Ico a b, ∃ s, Follows r y t s

end Sett.Spec
