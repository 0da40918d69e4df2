import Verif.Spec.Trajectory
import Mathlib.Analysis.SpecialFunctions.Log.Basic
import Mathlib.MeasureTheory.Integral.IntervalIntegral.Basic

/-! # Specification: the second law for an engine filled with a perfect gas

A gas of constant heat capacity, its entropy, and closed cycles of an engine filled with it. -/

namespace Sett.Spec

open state_equations

/-- A fluid which is an ideal gas of constant heat capacity `cp`, with its zeros of enthalpy and of internal energy
at `h0` and `u0`.  For a gas `h - u = P / ρ`, which here means `u0 = h0`. -/
structure PerfectGas (f : Fluid ℝ) (R cp h0 u0 : ℝ) : Prop where
  R_pos : 0 < R
  cp_pos : 0 < cp
  dens : ∀ T P, f.dens T P = P / (R * T)
  enth : ∀ T P, f.enth T P = cp * T + h0
  inte : ∀ T P, f.inte T P = (cp - R) * T + u0
  dd_dP_T : ∀ T P, f.dd_dP_T T P = 1 / (R * T)
  dd_dT_P : ∀ T P, f.dd_dT_P T P = -P / (R * T ^ 2)
  du_dP_T : ∀ T P, f.du_dP_T T P = 0
  du_dT_P : ∀ T P, f.du_dT_P T P = cp - R

/-- A motion of the gas from time `a` to time `b` that ends in the state it started from, with the flows and heats
at every instant. -/
structure ClosedCycle (r : Run ℝ) (y : ℝ → Conditions ℝ) (s : ℝ → Solution ℝ) (a b : ℝ) : Prop where
  le : a ≤ b
  regular : Regular y a b
  pres_pos : ∀ t ∈ Set.Icc a b, 0 < (y t).P
  drive : ∀ t, HasDerivAt (fun t => (r.ws_vol_fn t).1.value) (r.ws_vol_fn t).1.deriv t ∧
    HasDerivAt (fun t => (r.ws_vol_fn t).2.value) (r.ws_vol_fn t).2.deriv t
  rates : Continuous (fun t => (r.ws_vol_fn t).1.deriv) ∧ Continuous fun t => (r.ws_vol_fn t).2.deriv
  follows : ∀ t ∈ Set.Ico a b, Follows r y t (s t)
  ck : ContinuousOn (fun t => (s t).m_dot_ck) (Set.Icc a b)
  kr : ContinuousOn (fun t => (s t).m_dot_kr) (Set.Icc a b)
  rl : ContinuousOn (fun t => (s t).m_dot_rl) (Set.Icc a b)
  le' : ContinuousOn (fun t => (s t).m_dot_le) (Set.Icc a b)
  Qk : ContinuousOn (fun t => (s t).Q_dot_k) (Set.Icc a b)
  Qr : ContinuousOn (fun t => (s t).Q_dot_r) (Set.Icc a b)
  Ql : ContinuousOn (fun t => (s t).Q_dot_l) (Set.Icc a b)
  closed : y b = y a
  volumes : (r.ws_vol_fn b).1.value = (r.ws_vol_fn a).1.value ∧ (r.ws_vol_fn b).2.value = (r.ws_vol_fn a).2.value

/-- Work done by the gas on the pistons. -/
noncomputable def workOf (r : Run ℝ) (y : ℝ → Conditions ℝ) (a b : ℝ) : ℝ :=
  ∫ t in a..b, (y t).P * ((r.ws_vol_fn t).1.deriv + (r.ws_vol_fn t).2.deriv)

/-- Specific entropy of the gas, up to a constant. -/
noncomputable def entropyOf (R cp T P : ℝ) : ℝ := cp * Real.log T - R * Real.log P

/-- Heat received by the gas over the temperature at which it is received, per unit of time. -/
noncomputable def heatOverTemp (r : Run ℝ) (y : Conditions ℝ) (s : Solution ℝ) : ℝ :=
  s.Q_dot_l / r.temp.hhx - s.Q_dot_k / r.temp.chx - r.ws_parasitics.comp.thermal / y.T_c
    - r.ws_parasitics.exp.thermal / y.T_e

/-- A fluid which is an ideal gas whose heat capacity `cp` may depend on the temperature: `H` is an integral of `cp`, `σ` one of
`cp / T`.  Its enthalpy and internal energy are `H + E` and `H + E - R T + w`.  For a gas `h' = cp` and `h - u = P / ρ`, which here
means that `E` is constant and `w = 0`. -/
structure CaloricGas (f : Fluid ℝ) (R w : ℝ) (cp H σ E : ℝ → ℝ) : Prop where
  R_pos : 0 < R
  cp_pos : ∀ T, 0 < T → 0 < cp T
  heat : ∀ T, 0 < T → HasDerivAt H (cp T) T
  entropy : ∀ T, 0 < T → HasDerivAt σ (cp T / T) T
  error : ContinuousOn E (Set.Ioi 0)
  dens : ∀ T P, f.dens T P = P / (R * T)
  enth : ∀ T P, f.enth T P = H T + E T
  inte : ∀ T P, f.inte T P = H T + E T - R * T + w
  dd_dP_T : ∀ T P, f.dd_dP_T T P = 1 / (R * T)
  dd_dT_P : ∀ T P, f.dd_dT_P T P = -P / (R * T ^ 2)
  du_dP_T : ∀ T P, f.du_dP_T T P = 0
  du_dT_P : ∀ T P, f.du_dT_P T P = cp T - R

/-- What an error `E` in the enthalpy adds to the entropy of the gas where gas enters the spaces and the exchangers beside them. -/
noncomputable def errorMade (r : Run ℝ) (E : ℝ → ℝ) (y : Conditions ℝ) (s : Solution ℝ) : ℝ :=
  max s.m_dot_ck 0 * ((E y.T_c - E r.temp.chx) / r.temp.chx) + max (-s.m_dot_ck) 0 * ((E r.temp.chx - E y.T_c) / y.T_c)
    + max s.m_dot_le 0 * ((E r.temp.hhx - E y.T_e) / y.T_e) + max (-s.m_dot_le) 0 * ((E y.T_e - E r.temp.hhx) / r.temp.hhx)

/-- The energy it adds to the gas in the spaces. -/
noncomputable def errorEnergy (E : ℝ → ℝ) (y : Conditions ℝ) (s : Solution ℝ) : ℝ := s.m_dot_ck * E y.T_c - s.m_dot_le * E y.T_e

end Sett.Spec
