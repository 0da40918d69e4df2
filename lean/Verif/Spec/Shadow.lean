import Verif.Spec.DormandPrince

/-! # Specification: staying clear of limits -/

namespace Sett.Spec

/-- The state is inside the limits with `d` to spare on every side. -/
structure Inside (L : Limits) (d : ℝ) (y : Conditions ℝ) : Prop where
  pres : L.Pmin + d ≤ y.P ∧ y.P ≤ L.Pmax - d
  comp_temp : 100 + d ≤ y.T_c ∧ y.T_c ≤ L.Tmax - d
  exp_temp : 100 + d ≤ y.T_e ∧ y.T_e ≤ L.Tmax - d

/-- The volumes and their rates are within the limits at all times. -/
structure DriveWithin (r : Run ℝ) (L : Limits) : Prop where
  comp_vol : ∀ t, L.Vmin ≤ (r.ws_vol_fn t).1.value ∧ (r.ws_vol_fn t).1.value ≤ L.Vmax
  exp_vol : ∀ t, L.Vmin ≤ (r.ws_vol_fn t).2.value ∧ (r.ws_vol_fn t).2.value ≤ L.Vmax
  comp_rate : ∀ t, |(r.ws_vol_fn t).1.deriv| ≤ L.Wmax
  exp_rate : ∀ t, |(r.ws_vol_fn t).2.deriv| ≤ L.Wmax

end Sett.Spec
