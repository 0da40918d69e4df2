import Verif.Model.Float64

/-! # Facts about the binary64 model -/

namespace Sett
open Float64 Raw

namespace Float64

theorem Raw.ext_eq {x y : ℝ} {hx : Rep x ∧ x ≠ 0} {hy : Rep y ∧ y ≠ 0} (h : x = y) :
    fin x hx = fin y hy := by subst h; rfl

theorem rne_rep {x : ℝ} (h : Rep x) : rne x = x := rne_fits h.1

theorem pack_fin (neg : Bool) {x : ℝ} (h : Rep x ∧ x ≠ 0) : pack neg x = fin x h := by
  have hr := rne_rep h.1
  unfold pack
  rw [dif_neg (by rw [hr]; exact h.2), dif_pos (by rw [hr]; exact h.1.2)]
  exact Raw.ext_eq hr

theorem pack_zero (neg : Bool) : pack neg 0 = zero neg := by
  unfold pack
  rw [dif_pos rne_zero, if_pos rfl]

theorem pack_ne_nan (neg : Bool) (x : ℝ) : pack neg x ≠ nan := by
  unfold pack
  split_ifs <;> simp

/-- Below the overflow threshold a result is finite and its value is the rounded one. -/
theorem pack_finite (neg : Bool) {x : ℝ} (h : |rne x| < 2 ^ 1024) :
    (pack neg x).Finite ∧ (pack neg x).real = rne x := by
  unfold pack
  by_cases h0 : rne x = 0
  · rw [dif_pos h0]; exact ⟨trivial, h0.symm⟩
  · rw [dif_neg h0, dif_pos h]; exact ⟨trivial, rfl⟩

theorem Raw.rep_real (a : Raw) : Rep a.real := by
  have h0 : Rep 0 := ⟨⟨0, 0, by norm_num, by norm_num, by norm_num⟩, by rw [abs_zero]; positivity⟩
  cases a with
  | fin x h => exact h.1
  | _ => exact h0

/-- A result no larger than some double does not overflow. -/
theorem rne_lt_of_le {x r : ℝ} (hr : Rep r) (h : |x| ≤ r) : |rne x| < 2 ^ 1024 := by
  have h1 := rne_mono h
  rw [rne_rep hr, ← abs_rne] at h1
  exact h1.trans_lt ((le_abs_self r).trans_lt hr.2)

theorem Raw.finite_iff (a : Raw) : a.Finite ↔ (∃ s, a = zero s) ∨ ∃ x h, a = fin x h := by
  cases a with
  | nan => simp [Raw.Finite]
  | inf s => simp [Raw.Finite]
  | zero s => simp [Raw.Finite]
  | fin x h => exact ⟨fun _ => .inr ⟨x, h, rfl⟩, fun _ => trivial⟩

theorem Raw.ext_of_finite {a : Raw} (h : a.Finite) : a.ext = some (a.real : EReal) := by
  cases a with
  | nan => exact absurd h id
  | inf s => exact absurd h id
  | zero s => rfl
  | fin x h => rfl

/-! ## Comparisons -/

theorem Raw.lt_iff (a b : Raw) : a.lt b = true ↔ ∃ x y, a.ext = some x ∧ b.ext = some y ∧ x < y := by
  unfold Raw.lt
  cases a.ext <;> cases b.ext <;> simp

theorem Raw.le_iff (a b : Raw) : a.le b = true ↔ ∃ x y, a.ext = some x ∧ b.ext = some y ∧ x ≤ y := by
  unfold Raw.le
  cases a.ext <;> cases b.ext <;> simp

theorem Raw.lt_finite {a b : Raw} (ha : a.Finite) (hb : b.Finite) :
    a.lt b = true ↔ a.real < b.real := by
  rw [Raw.lt_iff, ext_of_finite ha, ext_of_finite hb]
  simp

theorem Raw.le_finite {a b : Raw} (ha : a.Finite) (hb : b.Finite) :
    a.le b = true ↔ a.real ≤ b.real := by
  rw [Raw.le_iff, ext_of_finite ha, ext_of_finite hb]
  simp

theorem Raw.nan_lt (a : Raw) : nan.lt a = false := by cases a <;> rfl
theorem Raw.lt_nan (a : Raw) : a.lt nan = false := by
  unfold Raw.lt
  cases a.ext <;> rfl
theorem Raw.nan_le (a : Raw) : nan.le a = false := by cases a <;> rfl
theorem Raw.le_nan (a : Raw) : a.le nan = false := by
  unfold Raw.le
  cases a.ext <;> rfl
theorem Raw.inf_lt (a : Raw) : (inf false).lt a = false := by
  rw [Bool.eq_false_iff, ne_eq, Raw.lt_iff]
  rintro ⟨x, y, h1, -, h3⟩
  cases h1
  exact not_top_lt h3

theorem Raw.lt_of_lt_of_le {a b c : Raw} (h1 : a.lt b = true) (h2 : b.le c = true) : a.lt c = true := by
  rw [Raw.lt_iff] at h1 ⊢
  rw [Raw.le_iff] at h2
  obtain ⟨x, y, hx, hy, h⟩ := h1
  obtain ⟨y', z, hy', hz, h'⟩ := h2
  rw [hy] at hy'; cases hy'
  exact ⟨x, z, hx, hz, h.trans_le h'⟩

/-! ## NaN propagates -/

theorem Raw.nan_add (a : Raw) : add nan a = nan := by cases a <;> rfl
theorem Raw.add_nan (a : Raw) : add a nan = nan := by cases a <;> rfl
theorem Raw.nan_sub (a : Raw) : sub nan a = nan := Raw.nan_add _
theorem Raw.sub_nan (a : Raw) : sub a nan = nan := Raw.add_nan _
theorem Raw.nan_mul (a : Raw) : mul nan a = nan := by cases a <;> rfl
theorem Raw.mul_nan (a : Raw) : mul a nan = nan := by cases a <;> rfl
theorem Raw.nan_div (a : Raw) : div nan a = nan := by cases a <;> rfl
theorem Raw.div_nan (a : Raw) : div a nan = nan := by cases a <;> rfl

/-! ## Finite operands -/

theorem Raw.neg_real (a : Raw) : a.neg.real = -a.real := by cases a <;> simp [Raw.neg, Raw.real]
theorem Raw.abs_real (a : Raw) : a.abs.real = |a.real| := by cases a <;> simp [Raw.abs, Raw.real]
theorem Raw.neg_finite {a : Raw} (h : a.Finite) : a.neg.Finite := by cases a <;> exact h
theorem Raw.abs_finite {a : Raw} (h : a.Finite) : a.abs.Finite := by cases a <;> exact h

/-- Addition of finite operands: the rounded sum, or an overflow. -/
theorem Raw.add_finite {a b : Raw} (ha : a.Finite) (hb : b.Finite)
    (h : |rne (a.real + b.real)| < 2 ^ 1024) :
    (add a b).Finite ∧ (add a b).real = rne (a.real + b.real) := by
  rcases (Raw.finite_iff a).1 ha with ⟨s, rfl⟩ | ⟨x, hx, rfl⟩ <;>
  rcases (Raw.finite_iff b).1 hb with ⟨t, rfl⟩ | ⟨y, hy, rfl⟩
  · refine ⟨trivial, ?_⟩
    show (0 : ℝ) = rne (0 + 0)
    rw [add_zero, rne_zero]
  all_goals exact pack_finite _ h

theorem Raw.sub_finite {a b : Raw} (ha : a.Finite) (hb : b.Finite)
    (h : |rne (a.real - b.real)| < 2 ^ 1024) :
    (sub a b).Finite ∧ (sub a b).real = rne (a.real - b.real) := by
  have e : a.real - b.real = a.real + b.neg.real := by rw [Raw.neg_real]; ring
  rw [e] at h ⊢
  exact Raw.add_finite ha (Raw.neg_finite hb) h

theorem Raw.mul_finite {a b : Raw} (ha : a.Finite) (hb : b.Finite)
    (h : |rne (a.real * b.real)| < 2 ^ 1024) :
    (mul a b).Finite ∧ (mul a b).real = rne (a.real * b.real) := by
  rcases (Raw.finite_iff a).1 ha with ⟨s, rfl⟩ | ⟨x, hx, rfl⟩ <;>
  rcases (Raw.finite_iff b).1 hb with ⟨t, rfl⟩ | ⟨y, hy, rfl⟩
  all_goals exact pack_finite _ h

theorem Raw.div_finite {a b : Raw} (ha : a.Finite) (hb : b.Finite) (h0 : b.real ≠ 0)
    (h : |rne (a.real / b.real)| < 2 ^ 1024) :
    (div a b).Finite ∧ (div a b).real = rne (a.real / b.real) := by
  rcases (Raw.finite_iff b).1 hb with ⟨t, rfl⟩ | ⟨y, hy, rfl⟩
  · exact absurd rfl h0
  rcases (Raw.finite_iff a).1 ha with ⟨s, rfl⟩ | ⟨x, hx, rfl⟩
  all_goals exact pack_finite _ h

/-- A finite number minus itself is +0 (round to nearest). -/
theorem Raw.sub_self {a : Raw} (h : a.Finite) : sub a a = zero false := by
  rcases (Raw.finite_iff a).1 h with ⟨s, rfl⟩ | ⟨x, hx, rfl⟩
  · cases s <;> rfl
  · show pack false (x + -x) = _
    rw [add_neg_cancel, pack_zero]

/-- A finite non-zero number divided by itself is 1. -/
theorem Raw.div_self {x : ℝ} (hx : Rep x ∧ x ≠ 0) : div (fin x hx) (fin x hx) = one := by
  show pack _ (x / x) = _
  rw [_root_.div_self hx.2, pack_fin _ rep_one]
  rfl

/-- A sum, difference, product, quotient is NaN only in the listed cases; here: infinity minus itself. -/
theorem Raw.inf_sub_inf (s : Bool) : sub (inf s) (inf s) = nan := by cases s <;> rfl

/-! ## A mathematics library exists -/

theorem rep_2048 : Rep 2048 := by
  refine ⟨⟨2048, 0, by norm_num, by norm_num, by norm_num⟩, ?_⟩
  rw [abs_of_pos (by norm_num)]
  calc (2048 : ℝ) < 2 ^ 12 := by norm_num
    _ ≤ 2 ^ 1024 := pow_le_pow_right₀ (by norm_num) (by norm_num)

/-- The smallest positive double is 2⁻¹⁰⁷⁴. -/
theorem rep_ge {x : ℝ} (h : Rep x) (hx : 0 < x) : (2 : ℝ) ^ (-1074 : ℤ) ≤ x := by
  obtain ⟨⟨m, e, -, he, rfl⟩, -⟩ := h
  have hm : (0 : ℝ) < m := by
    by_contra hc
    exact absurd hx (not_lt.2 (mul_nonpos_of_nonpos_of_nonneg (not_lt.1 hc) (two_pow_pos e).le))
  have hm : (1 : ℝ) ≤ m := by
    have : (0 : ℤ) < m := by exact_mod_cast hm
    exact_mod_cast this
  calc (2 : ℝ) ^ (-1074 : ℤ) ≤ 2 ^ e := zpow_le_zpow_right₀ (by norm_num) he
    _ ≤ m * 2 ^ e := le_mul_of_one_le_left (two_pow_pos e).le hm

theorem abs_log_le {x : ℝ} (h : Rep x) (hx : 0 < x) : |Real.log x| ≤ 2048 := by
  have h2 : Real.log 2 ≤ 1 := by
    have := Real.log_le_sub_one_of_pos (show (0 : ℝ) < 2 by norm_num)
    linarith
  have h0 : 0 ≤ Real.log 2 := Real.log_nonneg (by norm_num)
  rw [abs_le]
  constructor
  · have := Real.log_le_log (two_pow_pos _) (rep_ge h hx)
    rw [Real.log_zpow] at this
    push_cast at this
    linarith
  · have := Real.log_le_log hx ((le_abs_self x).trans h.2.le)
    rw [Real.log_pow] at this
    push_cast at this
    linarith

open Classical in
/-- The correctly rounded library. -/
noncomputable def exactLibm (nanNeg : Bool) : Libm where
  sin a := match a with
    | nan => nan | inf _ => nan | zero s => zero s | fin x _ => pack false (Real.sin x)
  cos a := match a with
    | nan => nan | inf _ => nan | zero _ => one | fin x _ => pack false (Real.cos x)
  exp a := match a with
    | nan => nan | inf s => if s then zero false else inf false | zero _ => one
    | fin x _ => pack false (Real.exp x)
  ln a := match a with
    | nan => nan | inf s => if s then nan else inf false | zero _ => inf true
    | fin x _ => if x < 0 then nan else pack false (Real.log x)
  nanNeg := nanNeg
  exp_nan := rfl
  exp_inf := rfl
  exp_neg_inf := rfl
  exp_zero _ := rfl
  exp_fin x h := by
    refine ⟨pack_ne_nan _ _, ?_⟩
    have hp := Real.exp_pos x
    have hr := rne_nonneg hp.le
    show (pack false (Real.exp x)).sign = false
    unfold pack
    split_ifs
    · exact absurd ‹_› hp.ne'
    · simp [sign, hp.le]
    · simp [sign, hr]
    · simp [sign, hp.le]
  ln_nan := rfl
  ln_inf := rfl
  ln_neg_inf := rfl
  ln_zero _ := rfl
  ln_one := by
    show (if (1 : ℝ) < 0 then nan else pack false (Real.log 1)) = _
    rw [if_neg (by norm_num), Real.log_one, pack_zero]
  ln_neg x h hx := if_pos hx
  ln_pos x h hx := by
    show (if x < 0 then nan else pack false (Real.log x)).Finite
    rw [if_neg (not_lt.2 hx.le)]
    refine (pack_finite _ ?_).1
    exact rne_lt_of_le rep_2048 (abs_log_le h.1 hx)
  sin_nan := rfl
  sin_inf _ := rfl
  sin_zero _ := rfl
  sin_fin x h := (pack_finite _ (rne_lt_of_le rep_one.1 (Real.abs_sin_le_one x))).1
  cos_nan := rfl
  cos_inf _ := rfl
  cos_zero _ := rfl
  cos_fin x h := (pack_finite _ (rne_lt_of_le rep_one.1 (Real.abs_cos_le_one x))).1

/-! ## Exact subtraction -/

theorem fits_neg {x : ℝ} (h : Fits x) : Fits (-x) := by
  obtain ⟨m, e, hm, he, rfl⟩ := h
  exact ⟨-m, e, by rwa [abs_neg], he, by push_cast; ring⟩

/-- A difference of doubles is a multiple of the smaller last place. -/
theorem sub_multiple {m n e f : ℤ} (h : e ≤ f) :
    ∃ k : ℤ, (m : ℝ) * 2 ^ e - n * 2 ^ f = k * 2 ^ e := by
  refine ⟨m - n * 2 ^ (f - e).toNat, ?_⟩
  have : ((2 : ℝ) ^ (f - e).toNat) = 2 ^ (f - e) := by
    rw [← zpow_natCast, Int.toNat_of_nonneg (by omega)]
  have h2 : (2 : ℝ) ^ f = 2 ^ (f - e) * 2 ^ e := by
    rw [← zpow_add₀ (by norm_num)]; congr 1; omega
  push_cast
  rw [this, h2]; ring

theorem fits_of_multiple {d : ℝ} {k e : ℤ} (he : -1074 ≤ e) (hd : d = k * 2 ^ e)
    (hb : |d| ≤ 2 ^ 53 * 2 ^ e) : Fits d := by
  refine ⟨k, e, ?_, he, hd⟩
  rw [hd, abs_mul, abs_of_pos (two_pow_pos e)] at hb
  have := le_of_mul_le_mul_right hb (two_pow_pos e)
  exact_mod_cast this

/-- Sterbenz: a difference no larger than either operand is exact. -/
theorem sterbenz {x y : ℝ} (hx : Fits x) (hy : Fits y) (h1 : |x - y| ≤ |x|) (h2 : |x - y| ≤ |y|) :
    Fits (x - y) := by
  obtain ⟨m, e, hm, he, rfl⟩ := hx
  obtain ⟨n, f, hn, hf, rfl⟩ := hy
  have bound : ∀ (m e : ℤ), |m| ≤ 2 ^ 53 → |(m : ℝ) * 2 ^ e| ≤ 2 ^ 53 * 2 ^ e := by
    intro m e hm
    rw [abs_mul, abs_of_pos (two_pow_pos e)]
    refine mul_le_mul_of_nonneg_right ?_ (two_pow_pos e).le
    exact_mod_cast hm
  rcases le_total e f with h | h
  · obtain ⟨k, hk⟩ := sub_multiple (m := m) (n := n) h
    exact fits_of_multiple he hk (h1.trans (bound m e hm))
  · obtain ⟨k, hk⟩ := sub_multiple (m := n) (n := m) h
    have hk' : (m : ℝ) * 2 ^ e - n * 2 ^ f = ((-k : ℤ) : ℝ) * 2 ^ f := by
      push_cast; linarith
    exact fits_of_multiple hf hk' (h2.trans (bound n f hn))

/-- Half a double is a double, unless it drops below the last place of the format. -/
theorem fits_half {y : ℝ} (h : Fits y) : Fits (y / 2) ∨ ∃ n : ℤ, |n| ≤ 2 ^ 53 ∧ y = n * 2 ^ (-1074 : ℤ) := by
  obtain ⟨n, e, hn, he, rfl⟩ := h
  rcases eq_or_lt_of_le he with rfl | he
  · exact .inr ⟨n, hn, rfl⟩
  · refine .inl ⟨n, e - 1, hn, by omega, ?_⟩
    rw [zpow_sub_one₀ (by norm_num)]; ring

/-- Rounding cannot bring a number down across a double. -/
theorem lt_of_rne_lt {x r : ℝ} (hr : Fits r) (h : |rne x| < r) : |x| < r := by
  by_contra hc
  have := rne_mono (not_lt.1 hc)
  rw [rne_fits hr, ← abs_rne] at this
  linarith

theorem fits_abs {y : ℝ} (hy : Fits y) : Fits |y| := by
  rcases abs_choice y with h | h <;> rw [h]
  · exact hy
  · exact fits_neg hy

/-- If the rounded difference is less than half the reference, the difference was exact. -/
theorem sub_exact {x y : ℝ} (hx : Fits x) (hy : Fits y) (h : |rne (x - y)| < |y| / 2) :
    rne (x - y) = x - y := by
  have hay := fits_abs hy
  have hy0 := abs_nonneg y
  apply rne_fits
  rcases fits_half hay with h2 | ⟨n, hn, hy'⟩
  · have hd := lt_of_rne_lt h2 h
    refine sterbenz hx hy ?_ (hd.le.trans (by linarith))
    have := abs_sub_abs_le_abs_sub y x
    rw [abs_sub_comm y x] at this
    linarith
  · have hd : |x - y| < |y| := lt_of_rne_lt hay (h.trans_le (by linarith))
    have hb : |y| ≤ 2 ^ 53 * 2 ^ (-1074 : ℤ) := by
      rw [hy']
      refine mul_le_mul_of_nonneg_right ?_ (two_pow_pos _).le
      exact_mod_cast (le_abs_self n).trans hn
    have hm : ∃ k : ℤ, y = k * 2 ^ (-1074 : ℤ) := by
      rcases abs_choice y with h | h
      · exact ⟨n, by rw [← h, hy']⟩
      · refine ⟨-n, ?_⟩
        push_cast
        linarith
    obtain ⟨n', hn'⟩ := hm
    obtain ⟨m, e, -, he, rfl⟩ := hx
    obtain ⟨k, hk⟩ := sub_multiple (m := n') (n := m) he
    have hk' : (m : ℝ) * 2 ^ e - y = ((-k : ℤ) : ℝ) * 2 ^ (-1074 : ℤ) := by
      rw [hn']; push_cast; linarith
    exact fits_of_multiple le_rfl hk' (hd.le.trans hb)

end Float64
end Sett
