import Verif.Model.Types
import Mathlib.Tactic.Linarith
import Mathlib.Tactic.FieldSimp

/-! # C01, C03: the convergence test in exact arithmetic

The IEEE special values (zero reference, infinities, NaN) are C02. -/

namespace Sett

/-- **C01.** For a non-zero reference the test accepts exactly when the change is below the absolute
tolerance and below the relative tolerance times the magnitude of the old value. -/
theorem C01_is_converged_iff (tol : ConvergenceTolerance ℝ) (old new : ℝ) (h : old ≠ 0) :
    tol.is_converged old new = true ↔ |new - old| < tol.abs ∧ |new - old| < tol.rel * |old| := by
  have hp : 0 < |old| := abs_pos.2 h
  simp only [ConvergenceTolerance.is_converged, Bool.and_eq_true, real_lt, real_abs]
  rw [abs_div, div_lt_iff₀ hp]

example : (⟨1, 0.1⟩ : ConvergenceTolerance ℝ).is_converged 300 300.5 = true := by
  rw [C01_is_converged_iff _ _ _ (by norm_num)]; norm_num [abs_of_pos]

example : (⟨1, 0.001⟩ : ConvergenceTolerance ℝ).is_converged 300 300.5 = false := by
  rw [Bool.eq_false_iff, ne_eq, C01_is_converged_iff _ _ _ (by norm_num)]; norm_num [abs_of_pos]

/-- **C03**, tolerances: loosening either tolerance keeps an accepted pair accepted.  (No condition on
`old`: with a zero reference the two sides are the same test.) -/
theorem C03_tolerance_monotone (t t' : ConvergenceTolerance ℝ) (old new : ℝ) (ha : t.abs ≤ t'.abs)
    (hr : t.rel ≤ t'.rel) (h : t.is_converged old new = true) : t'.is_converged old new = true := by
  simp only [ConvergenceTolerance.is_converged, Bool.and_eq_true, real_lt, real_abs] at h ⊢
  exact ⟨h.1.trans_le ha, h.2.trans_le hr⟩

/-- **C03**, sign: negating both values does not change the verdict. -/
theorem C03_negation_invariant (t : ConvergenceTolerance ℝ) (old new : ℝ) :
    t.is_converged (-old) (-new) = t.is_converged old new := by
  have h1 : -new - -old = -(new - old) := by ring
  simp only [ConvergenceTolerance.is_converged, h1, neg_div_neg_eq]
  simp only [real_abs, abs_neg]

/-- **C03**, scale: shrinking both values by the same non-zero factor of magnitude at most one keeps an
accepted pair accepted. -/
theorem C03_scaling (t : ConvergenceTolerance ℝ) (old new k : ℝ) (ho : old ≠ 0) (hk0 : k ≠ 0)
    (hk : |k| ≤ 1) (h : t.is_converged old new = true) :
    t.is_converged (k * old) (k * new) = true := by
  rw [C01_is_converged_iff _ _ _ ho] at h
  rw [C01_is_converged_iff _ _ _ (mul_ne_zero hk0 ho), ← mul_sub, abs_mul, abs_mul]
  have hkp : 0 < |k| := abs_pos.2 hk0
  constructor
  · calc |k| * |new - old| ≤ 1 * |new - old| := by gcongr
      _ < t.abs := by rw [one_mul]; exact h.1
  · calc |k| * |new - old| < |k| * (t.rel * |old|) := by gcongr; exact h.2
      _ = t.rel * (|k| * |old|) := by ring

example : (⟨1, 0.1⟩ : ConvergenceTolerance ℝ).is_converged (0.5 * 300) (0.5 * 300.5) = true :=
  C03_scaling _ _ _ _ (by norm_num) (by norm_num) (by norm_num [abs_of_pos])
    (by rw [C01_is_converged_iff _ _ _ (by norm_num)]; norm_num [abs_of_pos])

end Sett
