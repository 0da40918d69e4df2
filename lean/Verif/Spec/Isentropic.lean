import Verif.Spec.SecondLaw
import Verif.Spec.Succeeds
import Mathlib.Analysis.SpecialFunctions.Pow.Real

/-! # Specification: how hot and cold the gas gets

What compressing or expanding a gas without heat does to its temperature, and motions of the gas of any length. -/

namespace Sett.Spec

open state_equations

/-- Temperature of a perfect gas, at first of temperature `T` and pressure `P`, when it has been brought to the pressure `P'` without
exchange of heat; `κ` is `R / cp`. -/
noncomputable def isentropic (κ T P P' : ℝ) : ℝ := T * (P' / P) ^ κ

/-- A motion of the gas from time `a` to time `b`. -/
structure GasMotion (r : Run ℝ) (y : ℝ → Conditions ℝ) (a b : ℝ) : Prop where
  regular : Regular y a b
  pres_pos : ∀ t ∈ Set.Icc a b, 0 < (y t).P
  follows : ∀ t ∈ Set.Ico a b, ∃ s, Follows r y t s

/-- The volumes of the engine: those of the spaces never vanish and are at most `Vmax`, and their reported rates are their
derivatives.  No exchanger has a negative volume. -/
structure Vessel (r : Run ℝ) (Vmax : ℝ) : Prop where
  drive : ∀ t, HasDerivAt (fun t => (r.ws_vol_fn t).1.value) (r.ws_vol_fn t).1.deriv t ∧
    HasDerivAt (fun t => (r.ws_vol_fn t).2.value) (r.ws_vol_fn t).2.deriv t
  comp : ∀ t, 0 < (r.ws_vol_fn t).1.value ∧ (r.ws_vol_fn t).1.value ≤ Vmax
  exp : ∀ t, 0 < (r.ws_vol_fn t).2.value ∧ (r.ws_vol_fn t).2.value ≤ Vmax
  chx : 0 ≤ r.vol_chx
  regen : 0 ≤ r.vol_regen
  hhx : 0 ≤ r.vol_hhx
  chx_temp : 0 < r.temp.chx
  regen_temp : 0 < r.temp.regen.avg
  hhx_temp : 0 < r.temp.hhx

end Sett.Spec
