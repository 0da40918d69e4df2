import Verif.Model.Scalar

/-! Scientific literals of the model, at `ℝ`, as ordinary numerals. -/

namespace Sett

theorem lit_0 : (0.0 : ℝ) = 0 := by norm_num
theorem lit_1 : (1.0 : ℝ) = 1 := by norm_num
theorem lit_2 : (2.0 : ℝ) = 2 := by norm_num
theorem lit_3 : (3.0 : ℝ) = 3 := by norm_num
theorem lit_4 : (4.0 : ℝ) = 4 := by norm_num
theorem lit_5 : (5.0 : ℝ) = 5 := by norm_num
theorem lit_6 : (6.0 : ℝ) = 6 := by norm_num
theorem lit_10 : (10.0 : ℝ) = 10 := by norm_num
theorem lit_180 : (180.0 : ℝ) = 180 := by norm_num
theorem lit_half : (0.5 : ℝ) = 1 / 2 := by norm_num

/-- Rewrites the model's scalar operations and literals at `ℝ`. -/
macro "scalars" loc:(Lean.Parser.Tactic.location)? : tactic =>
  `(tactic| simp only [real_abs, real_sin, real_cos, real_exp, real_ln, real_sqrt, real_powi2,
    real_pi, real_lt, real_le, real_totalLe, real_isInfinite, real_ofNat, lit_0, lit_1, lit_2,
    lit_3, lit_4, lit_5, lit_6, lit_10, lit_180, lit_half] $[$loc]?)

end Sett
