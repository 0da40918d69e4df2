import Verif.Proofs.SumError

/-! # Error bounds for numbers derived from cycle integrals -/

namespace Sett

open Float64 lu Spec

variable {L : Libm}

/-- `a` is within `e·s + 2^-d` of `v`, where `s ≥ |v|` is the size of what was added up. -/
structure Err64 (e : ℝ) (d P : ℕ) (a : F64 L) (v s : ℝ) : Prop where
  fin : ok a
  bound : |v| ≤ s
  size : s ≤ 2 ^ P
  err : |re a - v| ≤ e * s + 1 / 2 ^ d

namespace Err64

variable {e : ℝ} {d d' P P' : ℕ} {a b : F64 L} {v w s t : ℝ}

theorem nonneg (h : Err64 e d P a v s) : 0 ≤ s := (abs_nonneg _).trans h.bound

theorem tiny_le {n : ℕ} (h : n ≤ 1000) : tiny ≤ 1 / 2 ^ n := by
  have h1 := tiny_pow_le (q := 1000) le_rfl
  have ht := tiny_pos
  have h2 : (2 : ℝ) ^ n ≤ 2 ^ 1000 := pow_le_pow_right₀ (by norm_num) h
  rw [le_div_iff₀ (by positivity)]
  have h3 : tiny * 2 ^ n ≤ tiny * 2 ^ 1000 := mul_le_mul_of_nonneg_left h2 ht.le
  have h4 : (1 : ℝ) / 2 ^ 75 ≤ 1 := by norm_num
  exact h3.trans (h1.trans h4)

theorem half_pow {m n : ℕ} (c : ℕ) (h : n + c ≤ m) : (1 : ℝ) / 2 ^ m ≤ 1 / 2 ^ n / 2 ^ c := by
  rw [div_div, ← pow_add]
  exact one_div_le_one_div_of_le (by positivity) (pow_le_pow_right₀ (by norm_num) h)

theorem mono (h : Err64 e d P a v s) {e' : ℝ} (he : e ≤ e') (hd : d' ≤ d) (hP : P ≤ P') : Err64 e' d' P' a v s :=
  ⟨h.fin, h.bound, h.size.trans (pow_le_pow_right₀ (by norm_num) hP), h.err.trans (add_le_add
    (mul_le_mul_of_nonneg_right he h.nonneg)
    (one_div_le_one_div_of_le (by positivity) (pow_le_pow_right₀ (by norm_num) hd)))⟩

theorem exact (he : 0 ≤ e) (h : ok a) (hb : |re a| ≤ 2 ^ P) : Err64 e d P a (re a) |re a| :=
  ⟨h, le_rfl, hb, by rw [sub_self, abs_zero]; positivity⟩

/-- A rounded result whose argument is close to `v`. -/
theorem round {x z : ℝ} (he : 0 ≤ e) (he1 : e ≤ 1 / 100) (hok : ok a) (ha : re a = rne x) (hb : |v| ≤ s)
    (hs : s ≤ 2 ^ P) (hx : |x - v| ≤ e * s + z) (hz0 : 0 ≤ z) (hz : z ≤ 1 / 2 ^ d / 4) (hd : d ≤ 900) :
    Err64 (e + 2 * ulp) d P a v s := by
  have hu := ulp_pos
  have hu3 : ulp ≤ 1 / 1000 := by unfold ulp; norm_num
  have hs0 : 0 ≤ s := (abs_nonneg _).trans hb
  refine ⟨hok, hb, hs, ?_⟩
  have hr := (rne_error x).1
  have ht : tiny ≤ 1 / 2 ^ d / 4 := by
    have := half_pow (m := d + 2) (n := d) 2 le_rfl
    have h2 := tiny_le (n := d + 2) (by omega)
    norm_num at this h2 ⊢
    linarith
  have hxa : |x| ≤ s + (e * s + z) := by
    have := abs_add_le v (x - v)
    rw [add_sub_cancel] at this
    linarith
  rw [ha]
  have tri := abs_add_le (rne x - x) (x - v)
  rw [sub_add_sub_cancel] at tri
  have h1 : ulp * |x| ≤ ulp * (s + (e * s + z)) := mul_le_mul_of_nonneg_left hxa hu.le
  have h2 : ulp * (s + (e * s + z)) = ulp * s + e * (ulp * s) + ulp * z := by ring
  have h3 : e * (ulp * s) ≤ 1 / 100 * (ulp * s) := mul_le_mul_of_nonneg_right he1 (by positivity)
  have h4 : ulp * z ≤ 1 / 1000 * z := mul_le_mul_of_nonneg_right hu3 hz0
  have h5 : 0 ≤ ulp * s := by positivity
  have h6 : (0 : ℝ) < 1 / 2 ^ d := by positivity
  generalize (1 : ℝ) / 2 ^ d = D at *
  have : (e + 2 * ulp) * s = e * s + 2 * (ulp * s) := by ring
  rw [this]
  linarith

theorem size_le (he1 : e ≤ 1 / 100) (h : Err64 e d P a v s) : |re a| ≤ 3 * 2 ^ P := by
  have h1 := abs_add_le v (re a - v)
  rw [add_sub_cancel] at h1
  have h2 := h.err
  have h3 := h.bound
  have h4 := h.size
  have h5 : (1 : ℝ) ≤ 2 ^ P := one_le_pow₀ (by norm_num)
  have h6 : (1 : ℝ) / 2 ^ d ≤ 1 := by
    rw [div_le_one (by positivity)]; exact one_le_pow₀ (by norm_num)
  have h7 : e * s ≤ 1 / 100 * s := mul_le_mul_of_nonneg_right he1 h.nonneg
  linarith

theorem three_pow {n : ℕ} (h : n ≤ 1000) : 8 * (2 : ℝ) ^ n ≤ 2 ^ 1023 := by
  have : 8 * (2 : ℝ) ^ n = 2 ^ (n + 3) := by rw [pow_add]; ring
  rw [this]
  exact pow_le_pow_right₀ (by norm_num) (by omega)

theorem add (he : 0 ≤ e) (he1 : e ≤ 1 / 100) (h : Err64 e d P a v s) (h' : Err64 e d P b w t) (hd : d' + 3 ≤ d)
    (hd' : d' ≤ 900) (hP : P + 1 ≤ P') (hP' : P' ≤ 1000) : Err64 (e + 2 * ulp) d' P' (a + b) (v + w) (s + t) := by
  have hs : s + t ≤ 2 ^ P' := by
    have : (2 : ℝ) ^ (P + 1) ≤ 2 ^ P' := pow_le_pow_right₀ (by norm_num) hP
    rw [pow_succ] at this
    linarith [h.size, h'.size]
  have hbig : |re a + re b| ≤ 2 ^ 1023 := by
    have h1 := h.size_le he1
    have h2 := h'.size_le he1
    have h3 := three_pow (n := P) (by omega)
    have h4 : (0 : ℝ) < 2 ^ P := by positivity
    have h5 := abs_add_le (re a) (re b)
    refine le_trans ?_ h3
    linarith
  have hok : ok (a + b) := add_ok h.fin h'.fin hbig
  refine round he he1 hok (add_inv hok).2.2 ((abs_add_le _ _).trans (add_le_add h.bound h'.bound)) hs
    (z := 1 / 2 ^ d + 1 / 2 ^ d) ?_ (by positivity) ?_ hd'
  · have e1 : re a + re b - (v + w) = (re a - v) + (re b - w) := by ring
    rw [e1]
    have := abs_add_le (re a - v) (re b - w)
    have h1 := h.err
    have h2 := h'.err
    rw [mul_add]; linarith
  · have := half_pow (m := d) (n := d') 3 hd
    norm_num at this ⊢
    linarith

theorem neg (h : Err64 e d P a v s) : Err64 e d P (-a) (-v) s :=
  ⟨ok_neg.2 h.fin, by rw [abs_neg]; exact h.bound, h.size, by
    rw [re_neg, ← neg_sub_neg, neg_neg, neg_neg, abs_sub_comm]; exact h.err⟩

theorem sub (he : 0 ≤ e) (he1 : e ≤ 1 / 100) (h : Err64 e d P a v s) (h' : Err64 e d P b w t) (hd : d' + 3 ≤ d)
    (hd' : d' ≤ 900) (hP : P + 1 ≤ P') (hP' : P' ≤ 1000) : Err64 (e + 2 * ulp) d' P' (a - b) (v - w) (s + t) := by
  have := h.add he he1 h'.neg hd hd' hP hP'
  rw [← sub_eq_add_neg v w] at this
  exact this

/-- A known factor. -/
theorem mul (he : 0 ≤ e) (he1 : e ≤ 1 / 100) (h : Err64 e d P a v s) {f : F64 L} (hf : ok f) (hf1 : |re f| ≤ 2 ^ 100)
    (hd : d' + 102 ≤ d) (hd' : d' ≤ 900) (hP : P + 100 ≤ P') (hP' : P' ≤ 1000) :
    Err64 (e + 2 * ulp) d' P' (f * a) (re f * v) (|re f| * s) := by
  have hs0 := h.nonneg
  have hs : |re f| * s ≤ 2 ^ P' := by
    calc |re f| * s ≤ 2 ^ 100 * 2 ^ P := mul_le_mul hf1 h.size hs0 (by positivity)
      _ = 2 ^ (P + 100) := by rw [← pow_add, add_comm]
      _ ≤ _ := pow_le_pow_right₀ (by norm_num) hP
  have hbig : |re f * re a| ≤ 2 ^ 1023 := by
    rw [abs_mul]
    have h1 := h.size_le he1
    calc |re f| * |re a| ≤ 2 ^ 100 * (3 * 2 ^ P) := mul_le_mul hf1 h1 (abs_nonneg _) (by positivity)
      _ = 3 * 2 ^ (P + 100) := by rw [pow_add]; ring
      _ ≤ 8 * 2 ^ (P + 100) := by
        have : (0 : ℝ) < 2 ^ (P + 100) := by positivity
        linarith
      _ ≤ _ := three_pow (by omega)
  have hok : ok (f * a) := mul_ok hf h.fin hbig
  refine round he he1 hok (mul_inv hok).2.2 (by rw [abs_mul]; exact mul_le_mul_of_nonneg_left h.bound (abs_nonneg _))
    hs (z := 2 ^ 100 * (1 / 2 ^ d)) ?_ (by positivity) ?_ hd'
  · rw [← mul_sub, abs_mul]
    have h1 := mul_le_mul_of_nonneg_left h.err (abs_nonneg (re f))
    have h2 : |re f| * (1 / 2 ^ d) ≤ 2 ^ 100 * (1 / 2 ^ d) := mul_le_mul_of_nonneg_right hf1 (by positivity)
    have h3 : |re f| * (e * s + 1 / 2 ^ d) = e * (|re f| * s) + |re f| * (1 / 2 ^ d) := by ring
    linarith
  · have := half_pow (m := d) (n := d') 102 hd
    have h2 : (2 : ℝ) ^ 102 = 4 * 2 ^ 100 := by norm_num
    rw [h2] at this
    calc (2 : ℝ) ^ 100 * (1 / 2 ^ d) ≤ 2 ^ 100 * (1 / 2 ^ d' / (4 * 2 ^ 100)) :=
          mul_le_mul_of_nonneg_left this (by positivity)
      _ = _ := by field_simp

/-- A known divisor. -/
theorem div (he : 0 ≤ e) (he1 : e ≤ 1 / 100) (h : Err64 e d P a v s) {f : F64 L} (hf : ok f)
    (hf1 : 1 / 2 ^ 100 ≤ |re f|) (hd : d' + 102 ≤ d) (hd' : d' ≤ 900) (hP : P + 100 ≤ P') (hP' : P' ≤ 1000) :
    Err64 (e + 2 * ulp) d' P' (a / f) (v / re f) (s / |re f|) := by
  have hs0 := h.nonneg
  have hf0 : 0 < |re f| := lt_of_lt_of_le (by positivity) hf1
  have hfi : 1 / |re f| ≤ 2 ^ 100 := by
    rw [div_le_iff₀ hf0]
    have := mul_le_mul_of_nonneg_left hf1 (by positivity : (0 : ℝ) ≤ 2 ^ 100)
    rw [mul_one_div_cancel (by positivity)] at this
    exact this
  have hs : s / |re f| ≤ 2 ^ P' := by
    calc s / |re f| = s * (1 / |re f|) := by rw [mul_one_div]
      _ ≤ 2 ^ P * 2 ^ 100 := mul_le_mul h.size hfi (by positivity) (by positivity)
      _ = 2 ^ (P + 100) := by rw [← pow_add]
      _ ≤ _ := pow_le_pow_right₀ (by norm_num) hP
  have hbig : |re a / re f| ≤ 2 ^ 1023 := by
    rw [abs_div]
    have h1 := h.size_le he1
    calc |re a| / |re f| = |re a| * (1 / |re f|) := by rw [mul_one_div]
      _ ≤ (3 * 2 ^ P) * 2 ^ 100 := mul_le_mul h1 hfi (by positivity) (by positivity)
      _ = 3 * 2 ^ (P + 100) := by rw [pow_add]; ring
      _ ≤ 8 * 2 ^ (P + 100) := by
        have : (0 : ℝ) < 2 ^ (P + 100) := by positivity
        linarith
      _ ≤ _ := three_pow (by omega)
  have hne : re f ≠ 0 := abs_pos.1 hf0
  obtain ⟨hok, hre⟩ : ok (a / f) ∧ re (a / f) = rne (re a / re f) := Raw.div_finite h.fin hf hne (rne_bound hbig)
  refine round he he1 hok hre (by rw [abs_div]; exact div_le_div_of_nonneg_right h.bound hf0.le)
    hs (z := 2 ^ 100 * (1 / 2 ^ d)) ?_ (by positivity) ?_ hd'
  · rw [← sub_div, abs_div]
    have h1 := div_le_div_of_nonneg_right h.err hf0.le
    have h2 : 1 / |re f| * (1 / 2 ^ d) ≤ 2 ^ 100 * (1 / 2 ^ d) := mul_le_mul_of_nonneg_right hfi (by positivity)
    have h3 : (e * s + 1 / 2 ^ d) / |re f| = e * (s / |re f|) + 1 / |re f| * (1 / 2 ^ d) := by
      rw [add_div, mul_div_assoc]; congr 1; rw [div_eq_mul_inv, mul_comm, ← one_div]
    linarith
  · have := half_pow (m := d) (n := d') 102 hd
    have h2 : (2 : ℝ) ^ 102 = 4 * 2 ^ 100 := by norm_num
    rw [h2] at this
    calc (2 : ℝ) ^ 100 * (1 / 2 ^ d) ≤ 2 ^ 100 * (1 / 2 ^ d' / (4 * 2 ^ 100)) :=
          mul_le_mul_of_nonneg_left this (by positivity)
      _ = _ := by field_simp

end Err64

/-- The trapezoidal rule for non-decreasing times. -/
theorem integrate_near {k p q : ℕ} (hk : k ≤ 80) (hp : p ≤ 300) (hq : q ≤ 300) (hpq : p + q ≤ 330) (x : List (F64 L))
    (hx : ∀ t ∈ x, ok t ∧ |re t| ≤ 2 ^ 100) (hi : Increasing (x.map re)) (y : List (F64 L × ℝ × ℝ))
    (hy : ∀ z ∈ y, Ap k p q z.1 z.2.1 z.2.2) (hn : x.length ≤ 2 ^ 30) :
    Err64 ((2 * x.length + k + 11) * ulp) 590 (p + 140) (integrate x (y.map (·.1)))
      (trapezoid (x.map re) (y.map (·.2.1))) (trapezoid (x.map re) (y.map (·.2.2))) := by
  obtain ⟨h1, h2, h3, h4⟩ := integrate_error hk (by omega) (by omega) x hx y hy hn
  rw [trapezoidSize_eq hi] at h2 h3 h4
  refine ⟨h1, h2, h3, h4.trans (add_le_add le_rfl ?_)⟩
  have ht := tiny_pos
  have hnR : (x.length : ℝ) ≤ 2 ^ 30 := by exact_mod_cast hn
  calc (x.length : ℝ) * (tiny * 2 ^ (p + q + 120)) ≤ 2 ^ 30 * (tiny * 2 ^ (p + q + 120)) :=
        mul_le_mul_of_nonneg_right hnR (by positivity)
    _ = tiny * 2 ^ (p + q + 150) := by rw [pow_add _ (p + q) 120, pow_add _ (p + q) 150]; ring
    _ ≤ tiny * 2 ^ 480 := mul_le_mul_of_nonneg_left (pow_le_pow_right₀ (by norm_num) (by omega)) ht.le
    _ ≤ 1 / 2 ^ 590 := by
      rw [le_div_iff₀ (by positivity)]
      have h7 : tiny * 2 ^ 480 * 2 ^ 590 = tiny * 2 ^ 1070 := by rw [mul_assoc, ← pow_add]
      rw [h7]
      unfold tiny
      rw [show (2 : ℝ) ^ 1070 = 2 ^ (1070 : ℤ) from (zpow_natCast 2 1070).symm, ← zpow_add₀ (by norm_num)]
      norm_num [zpow_neg]

end Sett
