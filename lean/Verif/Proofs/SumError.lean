import Verif.Proofs.Approx
import Verif.Proofs.LuError
import Verif.Proofs.Integrate

/-! # Rounding errors of sums and of the trapezoidal rule -/

namespace Sett

open Float64 lu Spec

variable {L : Libm}

/-- Difference of two exact numbers: the error is relative to the difference itself. -/
theorem Float64.Ap.diff {x y : F64 L} {p : ℕ} (hx : ok x) (hy : ok y) (hp : p ≤ 1000) (hx1 : |re x| ≤ 2 ^ p)
    (hy1 : |re y| ≤ 2 ^ p) : Ap 1 (p + 1) 0 (x - y) (re x - re y) |re x - re y| := by
  have hb : |re x - re y| ≤ 2 ^ (p + 1) := by
    have := abs_sub (re x) (re y)
    rw [pow_succ]; linarith
  have hb' : |re x - re y| ≤ 2 ^ 1023 := hb.trans (pow_le_pow_right₀ (by norm_num) (by omega))
  obtain ⟨h1, h2⟩ := Raw.sub_finite hx hy (rne_bound hb')
  refine ⟨h1, le_rfl, hb, ?_⟩
  have h3 := (rne_error (re x - re y)).1
  have h4 : re (x - y) = rne (re x - re y) := h2
  rw [h4, Nat.cast_one, one_mul, pow_zero, mul_one]
  exact h3

theorem Float64.Ap.plus {x y : F64 L} {p : ℕ} (hx : ok x) (hy : ok y) (hp : p ≤ 1000) (hx1 : |re x| ≤ 2 ^ p)
    (hy1 : |re y| ≤ 2 ^ p) : Ap 1 (p + 1) 0 (x + y) (re x + re y) |re x + re y| := by
  have hb : |re x + re y| ≤ 2 ^ (p + 1) := by
    have := abs_add_le (re x) (re y)
    rw [pow_succ]; linarith
  have hb' : |re x + re y| ≤ 2 ^ 1023 := hb.trans (pow_le_pow_right₀ (by norm_num) (by omega))
  obtain ⟨h1, h2⟩ := Raw.add_finite hx hy (rne_bound hb')
  refine ⟨h1, le_rfl, hb, ?_⟩
  have h3 := (rne_error (re x + re y)).1
  have h4 : re (x + y) = rne (re x + re y) := h2
  rw [h4, Nat.cast_one, one_mul, pow_zero, mul_one]
  exact h3

theorem Float64.Ap.abs' {k p q : ℕ} {a : F64 L} {v s : ℝ} (h : Ap k p q a v s) : Ap k p q (Scalar.abs a) |v| s := by
  have hr : re (Scalar.abs a) = |re a| := Raw.abs_real _
  exact ⟨Raw.abs_finite h.fin, by rw [abs_abs]; exact h.bound, h.size, by
    rw [hr]; exact (abs_abs_sub_abs_le _ _).trans h.err⟩

/-- A running sum after `m` terms. -/
structure Acc (k p q m : ℕ) (a : F64 L) (v s : ℝ) : Prop where
  fin : ok a
  bound : |v| ≤ s
  size : s ≤ m * 2 ^ p
  err : |re a - v| ≤ (2 * m + k + 2) * ulp * s + m * (tiny * 2 ^ (q + 2))

theorem Acc.step {k p q m : ℕ} {a t : F64 L} {v s w z : ℝ} (h : Acc k p q m a v s) (ht : Ap k p q t w z)
    (hk : k ≤ 90) (hp : p ≤ 900) (hq : q ≤ 900) (hm : m ≤ 2 ^ 30) : Acc k p q (m + 1) (a + t) (v + w) (s + z) := by
  have hu := ulp_pos
  have hty := tiny_pos
  have hs0 : 0 ≤ s := (abs_nonneg _).trans h.bound
  have hz0 := ht.nonneg
  have hmR : (m : ℝ) ≤ 2 ^ 30 := by exact_mod_cast hm
  have hm0 : (0 : ℝ) ≤ m := Nat.cast_nonneg _
  have hkR : (k : ℝ) ≤ 90 := by exact_mod_cast hk
  have hk0 : (0 : ℝ) ≤ k := Nat.cast_nonneg _
  have hB : |v + w| ≤ s + z := (abs_add_le _ _).trans (add_le_add h.bound ht.bound)
  have hS : s + z ≤ ((m + 1 : ℕ) : ℝ) * 2 ^ p := by
    push_cast; rw [add_mul, one_mul]; exact add_le_add h.size ht.size
  obtain ⟨τ, hτ⟩ : ∃ τ, τ = tiny * 2 ^ q := ⟨_, rfl⟩
  have hτ0 : 0 < τ := by rw [hτ]; positivity
  have hτ1 : tiny ≤ τ := by
    rw [hτ]; exact le_mul_of_one_le_right hty.le (one_le_pow₀ (by norm_num))
  have hτ4 : tiny * 2 ^ (q + 2) = 4 * τ := by rw [hτ, pow_add]; ring
  have hτs : τ ≤ 1 := by
    rw [hτ]; exact (tiny_pow_le (by omega)).trans (by norm_num)
  have e1 := h.err
  have e2 := ht.err
  rw [hτ4] at e1
  rw [← hτ] at e2
  obtain ⟨c, hc⟩ : ∃ c : ℝ, c = (2 * m + k + 2) * ulp := ⟨_, rfl⟩
  have hc0 : 0 ≤ c := by rw [hc]; positivity
  have hmu : m * ulp ≤ 1 / 1000 := by
    calc (m : ℝ) * ulp ≤ 2 ^ 30 * ulp := mul_le_mul_of_nonneg_right hmR hu.le
      _ ≤ _ := by unfold ulp; norm_num
  have hku : k * ulp ≤ 1 / 1000 := by
    calc (k : ℝ) * ulp ≤ 90 * ulp := mul_le_mul_of_nonneg_right hkR hu.le
      _ ≤ _ := by unfold ulp; norm_num
  have hu3 : ulp ≤ 1 / 1000 := by unfold ulp; norm_num
  have hc1 : c ≤ 1 / 100 := by rw [hc]; linarith
  rw [← hc] at e1
  have hsum : |re a + re t - (v + w)| ≤ c * s + m * (4 * τ) + (k * ulp * z + τ) := by
    have e : re a + re t - (v + w) = (re a - v) + (re t - w) := by ring
    rw [e]; exact (abs_add_le _ _).trans (add_le_add e1 e2)
  have hmτ : m * (4 * τ) ≤ 2 ^ 40 := by
    calc (m : ℝ) * (4 * τ) ≤ 2 ^ 30 * (4 * 1) := mul_le_mul hmR (by linarith) (by positivity) (by norm_num)
      _ ≤ _ := by norm_num
  have habs : |re a + re t| ≤ (s + z) + (c * s + m * (4 * τ) + (k * ulp * z + τ)) := by
    have := abs_add_le (v + w) (re a + re t - (v + w))
    rw [add_sub_cancel] at this
    linarith
  have hbig : |re a + re t| ≤ 2 ^ 1023 := by
    have h1 : c * s ≤ s := by nlinarith
    have h2 : k * ulp * z ≤ z := by nlinarith
    have h3 : s + z ≤ 2 ^ 31 * 2 ^ 900 := by
      refine hS.trans (mul_le_mul ?_ (pow_le_pow_right₀ (by norm_num) hp) (by positivity) (by norm_num))
      push_cast
      calc (m : ℝ) + 1 ≤ 2 ^ 30 + 1 := by linarith
        _ ≤ _ := by norm_num
    have h4 : (2 : ℝ) ^ 1023 = 2 ^ 123 * 2 ^ 900 := by rw [← pow_add]
    have h5 : (1 : ℝ) ≤ 2 ^ 900 := one_le_pow₀ (by norm_num)
    rw [h4]
    clear h4 hS
    clear hτ hτ4
    have hsz := h.size
    clear hsz
    generalize (2 : ℝ) ^ 900 = B at *
    have h6 : (2 : ℝ) ^ 40 ≤ 2 ^ 40 * B := le_mul_of_one_le_right (by norm_num) h5
    have h7 : (2 : ℝ) * (2 ^ 31 * B) + (2 ^ 40 * B + B) ≤ 2 ^ 123 * B := by nlinarith
    linarith
  have hok : ok (a + t) := add_ok h.fin ht.fin hbig
  have hre := (add_inv hok).2.2
  refine ⟨hok, hB, hS, ?_⟩
  have hr := (rne_error (re a + re t)).1
  rw [hre, hτ4]
  have tri := abs_add_le (rne (re a + re t) - (re a + re t)) (re a + re t - (v + w))
  rw [sub_add_sub_cancel] at tri
  have hr2 : ulp * |re a + re t| ≤ ulp * ((s + z) + (c * s + m * (4 * τ) + (k * ulp * z + τ))) :=
    mul_le_mul_of_nonneg_left habs hu.le
  have n1 : ulp * ((s + z) + (c * s + m * (4 * τ) + (k * ulp * z + τ)))
      = ulp * s + ulp * z + c * (ulp * s) + (m * ulp) * (4 * τ) + (k * ulp) * (ulp * z) + ulp * τ := by ring
  have us : 0 ≤ ulp * s := by positivity
  have uz : 0 ≤ ulp * z := by positivity
  have m1 : c * (ulp * s) ≤ 1 / 100 * (ulp * s) := mul_le_mul_of_nonneg_right hc1 us
  have m2 : (m * ulp) * (4 * τ) ≤ 1 / 1000 * (4 * τ) := mul_le_mul_of_nonneg_right hmu (by positivity)
  have m3 : (k * ulp) * (ulp * z) ≤ 1 / 1000 * (ulp * z) := mul_le_mul_of_nonneg_right hku uz
  have m4 : ulp * τ ≤ 1 / 1000 * τ := mul_le_mul_of_nonneg_right hu3 hτ0.le
  have g : (2 * ((m + 1 : ℕ) : ℝ) + k + 2) * ulp * (s + z) + ((m + 1 : ℕ) : ℝ) * (4 * τ)
      = c * s + 2 * (ulp * s) + (2 * m + 4) * (ulp * z) + k * ulp * z + m * (4 * τ) + 4 * τ := by
    rw [hc]; push_cast; ring
  rw [g]
  have g2 : 0 ≤ (2 * m) * (ulp * z) := by positivity
  have g3 : (2 * m + 4) * (ulp * z) = (2 * m) * (ulp * z) + 4 * (ulp * z) := by ring
  rw [g3]
  linarith

theorem Acc.fold {k p q : ℕ} (hk : k ≤ 90) (hp : p ≤ 900) (hq : q ≤ 900) (l : List (F64 L × ℝ × ℝ))
    (hl : ∀ z ∈ l, Ap k p q z.1 z.2.1 z.2.2) {m : ℕ} (hm : m + l.length ≤ 2 ^ 30) {a : F64 L} {v s : ℝ}
    (h : Acc k p q m a v s) :
    Acc k p q (m + l.length) ((l.map (·.1)).foldl (· + ·) a) (v + (l.map (·.2.1)).sum) (s + (l.map (·.2.2)).sum) := by
  induction l generalizing m a v s with
  | nil => simpa using h
  | cons z l ih =>
    simp only [List.length_cons] at hm
    have h1 := h.step (hl z (by simp)) hk hp hq (by omega)
    have h2 := ih (fun y hy => hl y (by simp [hy])) (m := m + 1) (by omega) h1
    simp only [List.map_cons, List.foldl_cons, List.sum_cons, List.length_cons]
    rw [show m + (l.length + 1) = m + 1 + l.length by ring, ← add_assoc, ← add_assoc]
    exact h2

theorem sum_error {k p q : ℕ} (hk : k ≤ 90) (hp : p ≤ 900) (hq : q ≤ 900) (l : List (F64 L × ℝ × ℝ))
    (hl : ∀ z ∈ l, Ap k p q z.1 z.2.1 z.2.2) (hn : l.length ≤ 2 ^ 30) :
    Acc k p q l.length (sum (l.map (·.1))) (l.map (·.2.1)).sum (l.map (·.2.2)).sum := by
  have h0 : Acc k p q 0 (0.0 : F64 L) 0 0 := by
    refine ⟨lit_zero_ok.1, by simp, by simp, ?_⟩
    rw [lit_zero_ok.2]; simp
  have := Acc.fold hk hp hq l hl (by omega) h0
  unfold sum
  simpa using this

/-- Size of the terms of the trapezoidal rule. -/
noncomputable def Spec.trapezoidSize : List ℝ → List ℝ → ℝ
  | x0 :: x1 :: xs, y0 :: y1 :: ys =>
    |x1 - x0| * ((y0 + y1) / 2) + Spec.trapezoidSize (x1 :: xs) (y1 :: ys)
  | _, _ => 0

theorem trapezoidSize_eq : ∀ {x : List ℝ}, Increasing x → ∀ y, trapezoidSize x y = trapezoid x y
  | [], _, _ => rfl
  | [_], _, _ => rfl
  | _ :: _ :: _, _, [] => rfl
  | _ :: _ :: _, _, [_] => rfl
  | x0 :: x1 :: xs, hx, y0 :: y1 :: ys => by
    rw [Increasing, List.isChain_cons_cons] at hx
    simp only [trapezoidSize, trapezoid]
    rw [trapezoidSize_eq hx.2, abs_of_nonneg (by linarith [hx.1])]

/-- One window of the rule: machine value, exact value, size. -/
noncomputable def window (w : (F64 L × F64 L) × ((F64 L × ℝ × ℝ) × (F64 L × ℝ × ℝ))) : F64 L × ℝ × ℝ :=
  ((w.2.2.1 + w.2.1.1) * (w.1.2 - w.1.1) * 0.5, (w.2.2.2.1 + w.2.1.2.1) * (re w.1.2 - re w.1.1) * (1 / 2),
    (w.2.2.2.2 + w.2.1.2.2) * |re w.1.2 - re w.1.1| * (1 / 2))

theorem windows_map {β γ : Type} (f : β → γ) (l : List β) :
    windows (l.map f) = (windows l).map (Prod.map f f) := by
  unfold windows
  rw [← List.map_tail, List.zip_map]

theorem window_sum : ∀ (x : List (F64 L)) (y : List (F64 L × ℝ × ℝ)),
    ((((windows x).zip (windows y)).map window).map (·.2.1)).sum = trapezoid (x.map re) (y.map (·.2.1)) ∧
    ((((windows x).zip (windows y)).map window).map (·.2.2)).sum = trapezoidSize (x.map re) (y.map (·.2.2))
  | [], _ => by simp [windows, trapezoid, trapezoidSize]
  | [_], _ => by simp [windows, trapezoid, trapezoidSize]
  | _ :: _ :: _, [] => by simp [windows, trapezoid, trapezoidSize]
  | _ :: _ :: _, [_] => by simp [windows, trapezoid, trapezoidSize]
  | x0 :: x1 :: xs, y0 :: y1 :: ys => by
    have ih := window_sum (x1 :: xs) (y1 :: ys)
    simp only [windows, List.tail_cons, List.zip_cons_cons, List.map_cons, List.sum_cons, trapezoid, trapezoidSize]
      at ih ⊢
    rw [ih.1, ih.2]
    unfold window
    constructor <;> ring

theorem half_ok : ok (0.5 : F64 L) ∧ re (0.5 : F64 L) = 1 / 2 := by
  have hr : Rep (1 / 2) := by
    refine ⟨⟨1, -1, by norm_num, by norm_num, by norm_num⟩, ?_⟩
    rw [abs_of_pos (by norm_num)]
    exact lt_of_lt_of_le (by norm_num : (1 / 2 : ℝ) < 1) (one_le_pow₀ (by norm_num))
  have e : (OfScientific.ofScientific 5 true 1 : ℝ) = 1 / 2 := by norm_num
  have h := pack_finite (x := 1 / 2) false (by rw [rne_rep hr]; exact hr.2)
  have : (0.5 : F64 L) = (Raw.pack false (OfScientific.ofScientific 5 true 1 : ℝ) : Raw) := rfl
  rw [this, e]
  exact ⟨h.1, h.2.trans (rne_rep hr)⟩

/-- The trapezoidal rule in floating point, for samples known approximately. -/
theorem integrate_error {k p q : ℕ} (hk : k ≤ 80) (hp : p ≤ 350) (hq : q ≤ 350) (x : List (F64 L))
    (hx : ∀ t ∈ x, ok t ∧ |re t| ≤ 2 ^ 100) (y : List (F64 L × ℝ × ℝ)) (hy : ∀ z ∈ y, Ap k p q z.1 z.2.1 z.2.2)
    (hn : x.length ≤ 2 ^ 30) :
    ok (integrate x (y.map (·.1))) ∧
    |trapezoid (x.map re) (y.map (·.2.1))| ≤ trapezoidSize (x.map re) (y.map (·.2.2)) ∧
    trapezoidSize (x.map re) (y.map (·.2.2)) ≤ 2 ^ (p + 140) ∧
    |re (integrate x (y.map (·.1))) - trapezoid (x.map re) (y.map (·.2.1))|
      ≤ (2 * x.length + k + 11) * ulp * trapezoidSize (x.map re) (y.map (·.2.2))
        + x.length * (tiny * 2 ^ (p + q + 120)) := by
  have hterm : ∀ z ∈ ((windows x).zip (windows y)).map window, Ap (k + 9) (p + 102) (p + q + 118) z.1 z.2.1 z.2.2 := by
    intro z hz
    obtain ⟨⟨w1, w2⟩, hw, rfl⟩ := List.mem_map.1 hz
    obtain ⟨hw1, hw2⟩ := List.of_mem_zip hw
    have h1 := List.of_mem_zip hw1
    have h2 := List.of_mem_zip hw2
    have y2 := hy _ (List.mem_of_mem_tail h2.2)
    have y1 := hy _ h2.1
    have x2 := hx _ (List.mem_of_mem_tail h1.2)
    have x1 := hx _ h1.1
    have a1 := y2.add y1 (K := k) (P := p + 1) (Q := q + 3) le_rfl le_rfl (by omega) (by omega) (by omega) (by omega)
      (by omega) (by omega) (by omega)
    have a2 := Ap.diff x2.1 x1.1 (by omega) x2.2 x1.2
    have a3 := a1.mul a2 (Q := p + q + 112) (by omega) (by omega) (by omega) (by omega) (by omega)
    have hh : Ap 0 0 0 (0.5 : F64 L) (1 / 2) (1 / 2) := by
      have := Ap.exact (p := 0) (half_ok (L := L)).1 (by rw [half_ok.2]; norm_num)
      rw [half_ok.2, abs_of_pos (by norm_num : (0 : ℝ) < 1 / 2)] at this
      exact this
    have a4 := a3.mul hh (Q := p + q + 118) (by omega) (by omega) (by omega) (by omega) (by omega)
    refine a4.weaken (by omega) le_rfl le_rfl ?_
    exact a4.size.trans (pow_le_pow_right₀ (by norm_num) (by omega))
  have hlen : (((windows x).zip (windows y)).map window).length ≤ x.length := by
    simp only [List.length_map, List.length_zip, windows]; omega
  have h := sum_error (by omega) (by omega) (by omega) _ hterm (hlen.trans hn)
  have hint : integrate x (y.map (·.1)) = sum ((((windows x).zip (windows y)).map window).map (·.1)) := by
    unfold integrate
    rw [windows_map, List.zip_map_right, List.map_map, List.map_map]
    rfl
  obtain ⟨s1, s2⟩ := window_sum x y
  rw [← hint, s1, s2] at h
  have hS0 : 0 ≤ trapezoidSize (x.map re) (y.map (·.2.2)) := (abs_nonneg _).trans h.bound
  have hlenR : ((((windows x).zip (windows y)).map window).length : ℝ) ≤ x.length := by exact_mod_cast hlen
  refine ⟨h.fin, h.bound, ?_, h.err.trans ?_⟩
  · refine h.size.trans ?_
    have : ((((windows x).zip (windows y)).map window).length : ℝ) ≤ 2 ^ 30 := hlenR.trans (by exact_mod_cast hn)
    calc _ ≤ (2 : ℝ) ^ 30 * 2 ^ (p + 102) := mul_le_mul_of_nonneg_right this (by positivity)
      _ = 2 ^ (p + 132) := by rw [← pow_add]; congr 1; ring
      _ ≤ _ := pow_le_pow_right₀ (by norm_num) (by omega)
  · have hu := ulp_pos
    have ht := tiny_pos
    refine add_le_add (mul_le_mul_of_nonneg_right (mul_le_mul_of_nonneg_right ?_ hu.le) hS0) ?_
    · push_cast; linarith
    · rw [show p + q + 118 + 2 = p + q + 120 by ring]
      exact mul_le_mul_of_nonneg_right hlenR (by positivity)

end Sett
