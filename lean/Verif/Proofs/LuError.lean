import Verif.Proofs.Lu
import Verif.Proofs.FloatError

/-! # Elimination with partial pivoting in binary64: backward error -/

namespace Sett.lu

open Float64

variable {L : Libm} {n : Nat}

/-! ## Single operations -/

theorem lit_zero_ok : ok (0.0 : F64 L) ∧ re (0.0 : F64 L) = 0 := by
  have : (0.0 : F64 L) = (Raw.zero false : Raw) := by
    show Raw.pack false (OfScientific.ofScientific 0 true 1 : ℝ) = _
    have : (OfScientific.ofScientific 0 true 1 : ℝ) = 0 := by norm_num
    rw [this, pack_zero]
  rw [this]; exact ⟨trivial, rfl⟩

theorem lit_one_ok : ok (1.0 : F64 L) ∧ re (1.0 : F64 L) = 1 := by
  have : (1.0 : F64 L) = (Raw.one : Raw) := by
    show Raw.pack false (OfScientific.ofScientific 10 true 1 : ℝ) = _
    have : (OfScientific.ofScientific 10 true 1 : ℝ) = 1 := by norm_num
    rw [this, pack_fin false Raw.rep_one]; rfl
  rw [this]; exact ⟨trivial, rfl⟩

theorem isZero_ok {x : F64 L} (h : ok x) : isZero x = isZero (re x) := by
  have e1 : Scalar.le x 0.0 = Scalar.le (re x) (0.0 : ℝ) := by
    rw [Bool.eq_iff_iff]
    refine (Raw.le_finite h lit_zero_ok.1).trans ?_
    rw [real_le]
    show re x ≤ re (0.0 : F64 L) ↔ _
    rw [lit_zero_ok.2]; norm_num
  have e2 : Scalar.le 0.0 x = Scalar.le (0.0 : ℝ) (re x) := by
    rw [Bool.eq_iff_iff]
    refine (Raw.le_finite lit_zero_ok.1 h).trans ?_
    rw [real_le]
    show re (0.0 : F64 L) ≤ re x ↔ _
    rw [lit_zero_ok.2]; norm_num
  rw [isZero, isZero, e1, e2]

theorem lt_abs_ok {x y : F64 L} (hx : ok x) (hy : ok y) :
    Scalar.lt (Scalar.abs x) (Scalar.abs y) = Scalar.lt (Scalar.abs (re x)) (Scalar.abs (re y)) := by
  rw [Bool.eq_iff_iff]
  refine (Raw.lt_finite (Raw.abs_finite hx) (Raw.abs_finite hy)).trans ?_
  rw [real_lt, Raw.abs_real, Raw.abs_real]
  rfl

theorem pivotRow_ok {m : Fin n → Fin n → F64 L} (h : ∀ r c, ok (m r c)) (i : Fin n) :
    pivotRow m i = pivotRow (fun r c => re (m r c)) i := by
  unfold pivotRow
  congr 1
  funext best r
  rw [lt_abs_ok (h best i) (h r i)]

/-- `-p * q + s`, a posteriori. -/
theorem mulAdd_inv {p q s : F64 L} (h : ok (-p * q + s)) : ok p ∧ ok q ∧ ok s ∧
    |re (-p * q + s) - (re s - re p * re q)|
      ≤ ulp * |re (-p * q + s)| + ulp * |re p * re q| + 2 * tiny := by
  obtain ⟨h1, h2, h3⟩ := add_inv h
  obtain ⟨h4, h5, h6⟩ := mul_inv h1
  refine ⟨ok_neg.1 h4, h5, h2, ?_⟩
  have e1 := (rne_error (re (-p * q) + re s)).2
  have e2 := (rne_error (re (-p) * re q)).1
  rw [← h3] at e1
  rw [← h6, re_neg, neg_mul, abs_neg] at e2
  have e3 := abs_le.1 e1
  have e4 := abs_le.1 e2
  rw [abs_le]
  constructor <;> linarith [e3.1, e3.2, e4.1, e4.2]

/-- `-p * q + s` does not overflow. -/
theorem mulAdd_ok {p q s : F64 L} (hp : ok p) (hq : ok q) (hs : ok s) (h1 : |re p * re q| ≤ 2 ^ 1021)
    (h2 : |re s| ≤ 2 ^ 1021) : ok (-p * q + s) := by
  have hu : ulp ≤ 1 / 4 := by unfold ulp; norm_num
  have ht := tiny_le_ulp
  have hu0 := ulp_pos
  have e : |re (-p) * re q| ≤ 2 ^ 1021 := by rw [re_neg, neg_mul, abs_neg]; exact h1
  have hpow : (2 : ℝ) ^ 1023 = 4 * 2 ^ 1021 := by rw [show 1023 = 1021 + 2 by norm_num, pow_add]; ring
  have hbig : (1 : ℝ) ≤ 2 ^ 1021 := one_le_pow₀ (by norm_num)
  have e1 := (rne_error (re (-p) * re q)).1
  have h3 : ok (-p * q) := mul_ok (ok_neg.2 hp) hq (by
    rw [hpow]; clear hpow; generalize (2 : ℝ) ^ 1021 = B at *; linarith)
  rw [← (mul_inv h3).2.2] at e1
  refine add_ok h3 hs ?_
  rw [hpow]
  clear hpow
  generalize (2 : ℝ) ^ 1021 = B at *
  have e3 := abs_le.1 e1
  have e4 := abs_le.1 e
  have e5 := abs_le.1 h2
  have e6 : ulp * |re (-p) * re q| ≤ 1 / 4 * B := mul_le_mul hu e (abs_nonneg _) (by norm_num)
  rw [abs_le]
  constructor <;> linarith [e3.1, e3.2, e4.1, e4.2, e5.1, e5.2]

/-- The multiplier `m * (1.0 / d)`. -/
theorem multiplier {m d : F64 L} (hd : ok d) (h0 : re d ≠ 0) (hmd : |re m| ≤ |re d|)
    (h : ok (m * (1.0 / d))) :
    |re (m * (1.0 / d))| ≤ 1 + 8 * ulp ∧ |re (m * (1.0 / d)) * re d - re m| ≤ 8 * ulp * |re d| := by
  obtain ⟨hm, hi, hl⟩ := mul_inv h
  obtain ⟨-, hr⟩ := div_inv_finite hi hd
  rw [lit_one_ok.2] at hr
  set l : ℝ := re (m * (1.0 / d)) with hl'
  have hl2 : l = rne (re m * rne (1 / re d)) := by rw [hl, hr]
  set v := rne (1 / re d) with hv
  set D := re d
  set M := re m
  have hu := ulp_pos
  have hu2 : ulp ≤ 1 / 1000 := by unfold ulp; norm_num
  have ht := tiny_pos
  have hD : 0 < |D| := abs_pos.2 h0
  have hDlt : |D| < 2 ^ 1024 := re_lt d
  have htD : tiny * |D| ≤ 4 * ulp := by
    have e : tiny * 2 ^ 1024 = 4 * ulp := by
      have e1 : tiny = 2 ^ (-1075 : ℤ) := rfl
      have e2 : (2 : ℝ) ^ 1024 = 2 ^ (1024 : ℤ) := (zpow_natCast 2 1024).symm
      have e3 : ulp = 2 ^ (-53 : ℤ) := by unfold ulp; norm_num [zpow_neg]
      have e4 : (4 : ℝ) = 2 ^ (2 : ℤ) := by norm_num
      rw [e1, e2, e3, e4, ← zpow_add₀ (by norm_num), ← zpow_add₀ (by norm_num)]; norm_num
    rw [← e]
    exact mul_le_mul_of_nonneg_left hDlt.le ht.le
  have hvd : |v * D - 1| ≤ 5 * ulp := by
    have e := (rne_error (1 / D)).1
    have e1 : v * D - 1 = (v - 1 / D) * D := by field_simp
    rw [e1, abs_mul]
    calc |v - 1 / D| * |D| ≤ (ulp * |1 / D| + tiny) * |D| := mul_le_mul_of_nonneg_right e hD.le
      _ = ulp + tiny * |D| := by rw [abs_div, abs_one]; field_simp
      _ ≤ _ := by linarith
  have hvd2 : |v| * |D| ≤ 1 + 5 * ulp := by
    rw [← abs_mul]
    have := abs_le.1 hvd
    rw [abs_le]; constructor <;> linarith [this.1, this.2]
  have hMv : |M * v| ≤ 1 + 5 * ulp := by
    rw [abs_mul]
    calc |M| * |v| ≤ |D| * |v| := mul_le_mul_of_nonneg_right hmd (abs_nonneg _)
      _ ≤ _ := by linarith [mul_comm |D| |v|]
  have hlerr := (rne_error (M * v)).1
  rw [← hl2] at hlerr
  have huu : ulp * ulp ≤ ulp / 1000 := by nlinarith
  have h3 : ulp * |M * v| ≤ ulp * (1 + 5 * ulp) := mul_le_mul_of_nonneg_left hMv hu.le
  constructor
  · have := abs_le.1 hlerr
    have h2 := abs_le.1 hMv
    have h4 := tiny_le_ulp
    rw [abs_le]
    constructor <;> nlinarith [this.1, this.2, h2.1, h2.2]
  · have e : l * D - M = (l - M * v) * D + M * (v * D - 1) := by ring
    rw [e]
    have hA : |(l - M * v) * D| ≤ (ulp * (1 + 5 * ulp) + tiny) * |D| := by
      rw [abs_mul]
      exact mul_le_mul_of_nonneg_right (hlerr.trans (by linarith)) hD.le
    have hB : |M * (v * D - 1)| ≤ |D| * (5 * ulp) := by
      rw [abs_mul]
      exact mul_le_mul hmd hvd (abs_nonneg _) hD.le
    have h4 := tiny_le_ulp
    have h5 : (ulp * (1 + 5 * ulp) + tiny) ≤ 3 * ulp := by nlinarith
    have h6 := mul_le_mul_of_nonneg_right h5 hD.le
    calc _ ≤ _ := abs_add_le _ _
      _ ≤ (ulp * (1 + 5 * ulp) + tiny) * |D| + |D| * (5 * ulp) := add_le_add hA hB
      _ ≤ _ := by linarith

/-- One entry of the rest of the matrix. -/
theorem entry {p q s : F64 L} {G : ℝ} (h : ok (-p * q + s)) (hp : |re p| ≤ G) (hs : |re s| ≤ G)
    (hq : |re q| ≤ 1 + 8 * ulp) :
    |re (-p * q + s)| ≤ 2 * (1 + 16 * ulp) * G + 3 * tiny ∧
      |re q * re p + re (-p * q + s) - re s| ≤ 4 * ulp * G + 3 * tiny := by
  obtain ⟨-, -, -, he⟩ := mulAdd_inv h
  set r := re (-p * q + s)
  have hu := ulp_pos
  have hu2 : ulp ≤ 1 / 1000 := by unfold ulp; norm_num
  have ht := tiny_pos
  have hG : 0 ≤ G := (abs_nonneg _).trans hp
  have hpq : |re p * re q| ≤ G * (1 + 8 * ulp) := by
    rw [abs_mul]; exact mul_le_mul hp hq (abs_nonneg _) hG
  have huG : 0 ≤ ulp * G := by positivity
  have huuG : ulp * (ulp * G) ≤ ulp * G / 1000 := by nlinarith
  have hut : ulp * tiny ≤ tiny / 1000 := by nlinarith
  have h1 : ulp * |re p * re q| ≤ ulp * (G * (1 + 8 * ulp)) := mul_le_mul_of_nonneg_left hpq hu.le
  have hr : |r| ≤ |re s - re p * re q| + |r - (re s - re p * re q)| := by
    have := abs_add_le (re s - re p * re q) (r - (re s - re p * re q))
    rwa [add_sub_cancel] at this
  have hsub : |re s - re p * re q| ≤ |re s| + |re p * re q| := abs_sub _ _
  have hb : |r| ≤ 2 * (1 + 16 * ulp) * G + 3 * tiny := by
    have h2 : (1 - ulp) * |r| ≤ (2 + 10 * ulp) * G + 2 * tiny := by nlinarith
    have h3 : (1 - ulp) * |r| ≤ (1 - ulp) * (2 * (1 + 16 * ulp) * G + 3 * tiny) := by nlinarith
    exact le_of_mul_le_mul_left h3 (by linarith)
  refine ⟨hb, ?_⟩
  have e : re q * re p + r - re s = r - (re s - re p * re q) := by ring
  rw [e]
  have h2 : ulp * |r| ≤ ulp * (2 * (1 + 16 * ulp) * G + 3 * tiny) := mul_le_mul_of_nonneg_left hb hu.le
  nlinarith

/-! ## Factorisation -/

/-- What one elimination pass, exact or not, does to the product of the packed factors. -/
theorem gauss_change (m g : Fin n → Fin n → ℝ) (i : Fin n)
    (hg : ∀ r c, ¬ (i < r ∧ i ≤ c) → g r c = m r c) (r c : Fin n) :
    (∑ k, low (i + 1) g r k * upp (i + 1) g k c) - ∑ k, low i m r k * upp i m k c
      = if i < r then (if c < i then 0 else if c = i then g r i * m i i - m r i
          else g r i * m i c + g r c - m r c) else 0 := by
  have low_top : ∀ r k : Fin n, r ≤ i → low (i + 1) g r k = low i m r k := by
    intro r k hr
    unfold low
    by_cases hk : k < r
    · have h1 : (k : ℕ) < i := by
        have := Fin.lt_def.1 hk; have := Fin.le_def.1 hr; omega
      have h2 : (k : ℕ) < i + 1 := by omega
      rw [hg r k (fun h => absurd h.1 (not_lt.2 hr))]
      simp only [h1, h2]
    · simp only [hk, and_false, if_false]
  have low_left : ∀ r k : Fin n, k < i → low (i + 1) g r k = low i m r k := by
    intro r k hk
    have h1 : (k : ℕ) < i := Fin.lt_def.1 hk
    have h2 : (k : ℕ) < i + 1 := by omega
    unfold low
    rw [hg r k (fun h => absurd h.2 (not_le.2 hk))]
    simp only [h1, h2, true_and]
  have low_right : ∀ r k : Fin n, i < k → low (i + 1) g r k = low i m r k := by
    intro r k hk
    have h1 : ¬ (k : ℕ) < i := by have := Fin.lt_def.1 hk; omega
    have h2 : ¬ (k : ℕ) < i + 1 := by have := Fin.lt_def.1 hk; omega
    unfold low
    simp only [h1, h2, false_and, if_false]
  have upp_top : ∀ k c : Fin n, k ≤ i → upp (i + 1) g k c = upp i m k c := by
    intro k c hk
    unfold upp
    by_cases hc : c < k
    · have h1 : (c : ℕ) < i := by
        have := Fin.lt_def.1 hc; have := Fin.le_def.1 hk; omega
      have h2 : (c : ℕ) < i + 1 := by omega
      simp only [h1, h2, hc, and_self, if_true]
    · rw [hg k c (fun h => absurd h.1 (not_lt.2 hk))]
      simp only [hc, and_false, if_false]
  rw [← Finset.sum_sub_distrib]
  by_cases hr : r ≤ i
  · rw [if_neg (not_lt.2 hr)]
    refine Finset.sum_eq_zero fun k _ => ?_
    rw [low_top r k hr]
    by_cases hk : k ≤ i
    · rw [upp_top k c hk, sub_self]
    · have h1 : low i m r k = 0 := by
        have h2 : k ≠ r := by rintro rfl; exact hk hr
        have h3 : ¬ k < r := fun h => hk (h.le.trans hr)
        simp only [low, h2, h3, and_false, if_false]
      rw [h1, zero_mul, zero_mul, sub_zero]
  · have hir : i < r := not_le.1 hr
    rw [if_pos hir, Finset.sum_eq_add i r hir.ne]
    · rw [upp_top i c le_rfl]
      have h1 : low i m r i = 0 := by
        simp only [low, hir.ne, lt_irrefl, false_and, if_false]
      have h2 : low (i + 1) g r i = g r i := by
        simp only [low, hir.ne, Nat.lt_succ_self, hir, and_self, if_true, if_false]
      have h3 : low i m r r = 1 := by simp [low]
      have h4 : low (i + 1) g r r = 1 := by simp [low]
      rw [h1, h2, h3, h4]
      rcases lt_trichotomy c i with hc | hc | hc
      · have e1 : (c : ℕ) < i := Fin.lt_def.1 hc
        have e2 : (c : ℕ) < i + 1 := by omega
        simp [upp, e1, e2, hc, hc.trans hir]
      · subst hc
        simp [upp, hir]
        ring
      · have e1 : ¬ (c : ℕ) < i := by have := Fin.lt_def.1 hc; omega
        have e2 : ¬ (c : ℕ) < i + 1 := by have := Fin.lt_def.1 hc; omega
        have e3 : c ≠ i := hc.ne'
        simp only [upp, e1, e2, false_and, if_false, hc.not_gt, e3]
        ring
    · intro k _ hk
      rcases lt_trichotomy k i with hki | hki | hki
      · rw [low_left r k hki, upp_top k c hki.le, sub_self]
      · exact absurd hki hk.1
      · rw [low_right r k hki]
        have h1 : ¬ (k : ℕ) < i := by have := Fin.lt_def.1 hki; omega
        simp only [low, hk.2, h1, false_and, if_false, zero_mul, sub_self]
    · intro hh; exact absurd (Finset.mem_univ _) hh
    · intro hh; exact absurd (Finset.mem_univ _) hh

theorem permute_perm (p : List (Fin n × Fin n)) :
    ∃ σ : Equiv.Perm (Fin n), ∀ {β : Type} (b : Fin n → β), permuteRows p b = fun r => b (σ r) := by
  induction p using List.reverseRecOn with
  | nil => exact ⟨Equiv.refl _, fun _ => rfl⟩
  | append_singleton p ij ih =>
    obtain ⟨i, j⟩ := ij
    obtain ⟨σ, hσ⟩ := ih
    refine ⟨(Equiv.swap i j).trans σ, fun b => ?_⟩
    rw [permute_append, hσ]
    funext r
    rw [swapRows_eq]; rfl

/-- The factorisation, seen in real numbers. -/
noncomputable def reLu (f : Lu n (F64 L)) : Lu n ℝ := ⟨fun r c => re (f.packed r c), f.p⟩

/-- The multipliers of the first `s` columns are finite. -/
def LowFin (s : Nat) (f : Lu n (F64 L)) : Prop := ∀ r c : Fin n, c.val < s → c < r → ok (f.packed r c)

theorem pivot_ge {α : Type} [Scalar α] (m : Fin n → Fin n → α) (i : Fin n) : i ≤ pivotRow m i := by
  unfold pivotRow
  have : ∀ (l : List (Fin n)) (b : Fin n), i ≤ b → i ≤ l.foldl (fun best r => if i < r ∧
      Scalar.lt (Scalar.abs (m best i)) (Scalar.abs (m r i)) = true then r else best) b := by
    intro l
    induction l with
    | nil => exact fun _ h => h
    | cons a l ih =>
      intro b hb
      rw [List.foldl_cons]
      apply ih
      split
      · next h => exact h.1.le
      · exact hb
  exact this _ _ le_rfl

theorem swap_ge {i j r : Fin n} (hj : i ≤ j) (hr : i ≤ r) : i ≤ Equiv.swap i j r := by
  rw [Equiv.swap_apply_def]
  split_ifs
  · exact hj
  · exact le_rfl
  · exact hr

theorem swap_lt {i j r : Fin n} (hj : i ≤ j) (hr : r < i) : Equiv.swap i j r = r :=
  Equiv.swap_apply_of_ne_of_ne hr.ne (hr.trans_le hj).ne

/-- Multipliers, once computed, are only moved. -/
theorem lowFin_back {f : Lu n (F64 L)} {i : Fin n} (h : LowFin (i + 1) (step f i)) : LowFin i f := by
  intro r c hc hr
  have hc' : c < i := Fin.lt_def.2 hc
  have hci : c ≠ i := hc'.ne
  have hle := pivot_ge f.packed i
  unfold step at h
  simp only at h
  split at h
  · exact h r c (by omega) hr
  split at h
  · have := h r c (by omega) hr
    simpa only [gaussStep, hci, hc'.not_gt, if_false, ite_self] using this
  · have hr' : c < Equiv.swap i (pivotRow f.packed i) r := by
      by_cases hri : r < i
      · rwa [swap_lt hle hri]
      · exact hc'.trans_le (swap_ge hle (not_lt.1 hri))
    have := h (Equiv.swap i (pivotRow f.packed i) r) c (by omega) hr'
    simpa only [gaussStep, hci, hc'.not_gt, if_false, ite_self, swapRows_eq, Equiv.swap_apply_self] using this

theorem lowFin_to {a : Fin n → Fin n → F64 L} (h : LowFin n (factorTo a n)) :
    ∀ j ≤ n, LowFin (n - j) (factorTo a (n - j))
  | 0, _ => h
  | j + 1, hj => by
    have ih := lowFin_to h j (by omega)
    have hk : n - (j + 1) < n := by omega
    have e : n - j = n - (j + 1) + 1 := by omega
    rw [e] at ih
    simp only [factorTo, hk, dite_true] at ih
    exact lowFin_back (i := ⟨n - (j + 1), hk⟩) ih

/-- Growth of the largest entry of a column with initial bound `M`, `k` passes. -/
noncomputable def grown (k : Nat) (M : ℝ) : ℝ := (2 * (1 + 16 * ulp)) ^ k * (M + 3 * tiny) - 3 * tiny

/-- State of the elimination after `k` passes. -/
structure Eliminated (a : Fin n → Fin n → F64 L) (M : Fin n → ℝ) (k : Nat) (f : Lu n (F64 L)) : Prop where
  fin : ∀ r c, ok (f.packed r c)
  mult : ∀ r c : Fin n, c.val < k → c < r → |re (f.packed r c)| ≤ 1 + 8 * ulp
  rest : ∀ r c : Fin n, ¬ (c.val < k ∧ c < r) → |re (f.packed r c)| ≤ grown k (M c)
  near : ∃ a', Factored a' k (reLu f) ∧ ∀ r c, |a' r c - re (a r c)| ≤ k * (8 * ulp * grown 10 (M c) + 3 * tiny)

theorem base_one : 1 ≤ 2 * (1 + 16 * ulp) := by have := ulp_pos; linarith

theorem grown_mono {j k : Nat} (h : j ≤ k) {M : ℝ} (hM : 0 ≤ M) : grown j M ≤ grown k M := by
  have ht := tiny_pos
  have := pow_le_pow_right₀ base_one h
  unfold grown
  have := mul_le_mul_of_nonneg_right this (by linarith : 0 ≤ M + 3 * tiny)
  linarith

theorem grown_zero (M : ℝ) : grown 0 M = M := by unfold grown; ring

theorem grown_succ (k : Nat) (M : ℝ) :
    2 * (1 + 16 * ulp) * grown k M + 3 * tiny ≤ grown (k + 1) M := by
  have ht := tiny_pos
  have hu := ulp_pos
  unfold grown
  rw [pow_succ]
  nlinarith [mul_pos hu ht]

theorem grown_ten {M : ℝ} (hM : 0 ≤ M) : grown 10 M ≤ 1025 * M + 3072 * tiny := by
  have ht := tiny_pos
  have h : (2 * (1 + 16 * ulp)) ^ 10 ≤ 1025 := by
    calc (2 * (1 + 16 * ulp)) ^ 10 ≤ (2 + 1 / 2 ^ 30) ^ 10 := by
          apply pow_le_pow_left₀ (by linarith [base_one])
          unfold ulp; norm_num
      _ ≤ 1025 := by norm_num
  unfold grown
  have := mul_le_mul_of_nonneg_right h (by linarith : 0 ≤ M + 3 * tiny)
  linarith

theorem grown_small {k : Nat} (hk : k ≤ 10) {M : ℝ} (hM : 0 ≤ M) (h : M ≤ 2 ^ 1000) :
    grown k M ≤ 2 ^ 1011 := by
  have h1 := (grown_mono hk hM).trans (grown_ten hM)
  have e : (2 : ℝ) ^ 1011 = 2048 * 2 ^ 1000 := by
    rw [show 1011 = 1000 + 11 by norm_num, pow_add]; ring
  have ht := tiny_le_ulp
  have hu : ulp ≤ 1 / 10000 := by unfold ulp; norm_num
  have hb : (1 : ℝ) ≤ 2 ^ 1000 := one_le_pow₀ (by norm_num)
  rw [e]
  clear e
  generalize (2 : ℝ) ^ 1000 = B at *
  linarith

/-- The elimination pass itself, the pivot being in place. -/
theorem eliminated_gauss {a : Fin n → Fin n → F64 L} {M : Fin n → ℝ} {i : Fin n} {f : Lu n (F64 L)}
    (hi : (i : ℕ) < 10) (hM : ∀ c, 0 ≤ M c ∧ M c ≤ 2 ^ 1000) (h : Eliminated a M i f)
    (h0 : re (f.packed i i) ≠ 0) (hpiv : ∀ r, i ≤ r → |re (f.packed r i)| ≤ |re (f.packed i i)|)
    (hlow : LowFin (i + 1) ⟨gaussStep f.packed (f.packed i i) i, f.p⟩) :
    Eliminated a M (i + 1) ⟨gaussStep f.packed (f.packed i i) i, f.p⟩ := by
  obtain ⟨hfin, hmult, hrest, a', hfac, hnear⟩ := h
  have hu := ulp_pos
  have ht := tiny_pos
  set m := f.packed with hm
  set g := gaussStep m (m i i) i with hg
  have g_i : ∀ r, i < r → g r i = m r i * (1.0 / m i i) := by
    intro r hr; simp only [hg, gaussStep, hr, if_true]
  have g_c : ∀ r c, i < r → i < c → g r c = -m i c * g r i + m r c := by
    intro r c hr hc
    rw [g_i r hr]
    simp only [hg, gaussStep, hr, hc, hc.ne', if_true, if_false]
  have g_old : ∀ r c, ¬ (i < r ∧ i ≤ c) → g r c = m r c := by
    intro r c hn
    simp only [hg, gaussStep]
    by_cases hr : i < r
    · have hc : ¬ i ≤ c := fun hc => hn ⟨hr, hc⟩
      have h1 : c ≠ i := by rintro rfl; exact hc le_rfl
      have h2 : ¬ i < c := fun h => hc h.le
      simp only [h1, h2, if_false, ite_self]
    · simp only [hr, if_false]
  have mul_ok : ∀ r, i < r → ok (g r i) := fun r hr => hlow r i (Nat.lt_succ_self _) hr
  have mul_b : ∀ r, i < r → |re (g r i)| ≤ 1 + 8 * ulp ∧
      |re (g r i) * re (m i i) - re (m r i)| ≤ 8 * ulp * |re (m i i)| := by
    intro r hr
    have := mul_ok r hr
    rw [g_i r hr] at this ⊢
    exact multiplier (hfin i i) h0 (hpiv r hr.le) this
  have old_b : ∀ c, i ≤ c → ∀ r, i ≤ r → |re (m r c)| ≤ grown i (M c) := by
    intro c hc r _
    apply hrest
    rintro ⟨h1, -⟩
    have := Fin.le_def.1 hc
    omega
  have ent_ok : ∀ r c, i < r → i < c → ok (g r c) := by
    intro r c hr hc
    rw [g_c r c hr hc]
    have hb := grown_small (k := i) hi.le (hM c).1 (hM c).2
    have e1 : (2 : ℝ) ^ 1021 = 1024 * 2 ^ 1011 := by
      rw [show 1021 = 1011 + 10 by norm_num, pow_add]; ring
    have e0 : (0 : ℝ) < 2 ^ 1011 := by positivity
    refine mulAdd_ok (hfin i c) (mul_ok r hr) (hfin r c) ?_ ?_
    · rw [abs_mul, e1]
      have hu2 : ulp ≤ 1 / 1000 := by unfold ulp; norm_num
      calc |re (m i c)| * |re (g r i)| ≤ 2 ^ 1011 * (1 + 8 * ulp) :=
            mul_le_mul ((old_b c hc.le i le_rfl).trans hb) (mul_b r hr).1 (abs_nonneg _) e0.le
        _ ≤ _ := by clear e1 hM; generalize (2 : ℝ) ^ 1011 = B at *; nlinarith
    · rw [e1]
      have := (old_b c hc.le r hr.le).trans hb
      clear e1 hM
      generalize (2 : ℝ) ^ 1011 = B at *
      linarith
  have ent_b : ∀ r c, i < r → i < c →
      |re (g r c)| ≤ 2 * (1 + 16 * ulp) * grown i (M c) + 3 * tiny ∧
      |re (g r i) * re (m i c) + re (g r c) - re (m r c)| ≤ 4 * ulp * grown i (M c) + 3 * tiny := by
    intro r c hr hc
    have := ent_ok r c hr hc
    rw [g_c r c hr hc] at this ⊢
    exact entry this (old_b c hc.le i le_rfl) (old_b c hc.le r hr.le) (mul_b r hr).1
  have grown_nonneg : ∀ k c, 0 ≤ grown k (M c) := fun k c =>
    (by rw [grown_zero]; exact (hM c).1 : 0 ≤ grown 0 (M c)).trans (grown_mono (Nat.zero_le _) (hM c).1)
  refine ⟨fun r c => ?_, fun r c hc hr => ?_, fun r c hn => ?_, ?_⟩
  · show ok (g r c)
    by_cases hrc : i < r ∧ i ≤ c
    · rcases hrc.2.eq_or_lt with e | hc
      · rw [← e]; exact mul_ok r hrc.1
      · exact ent_ok r c hrc.1 hc
    · rw [g_old r c hrc]; exact hfin r c
  · show |re (g r c)| ≤ _
    by_cases hci : c = i
    · rw [hci]; exact (mul_b r (hci ▸ hr)).1
    · have : (c : ℕ) ≠ i := fun e => hci (Fin.ext e)
      rw [g_old r c (by rintro ⟨-, h⟩; have := Fin.le_def.1 h; omega)]
      exact hmult r c (by omega) hr
  · show |re (g r c)| ≤ _
    by_cases hrc : i < r ∧ i ≤ c
    · rcases hrc.2.eq_or_lt with e | hc
      · exact absurd ⟨by rw [← e]; exact Nat.lt_succ_self _, e ▸ hrc.1⟩ hn
      · exact (ent_b r c hrc.1 hc).1.trans (grown_succ _ _)
    · rw [g_old r c hrc]
      refine (hrest r c ?_).trans (grown_mono (Nat.le_succ _) (hM c).1)
      rintro ⟨h1, h2⟩
      exact hn ⟨by omega, h2⟩
  · obtain ⟨σ, hσ⟩ := permute_perm f.p
    set mr : Fin n → Fin n → ℝ := fun r c => re (m r c) with hmr
    set gr : Fin n → Fin n → ℝ := fun r c => re (g r c) with hgr
    refine ⟨fun r c => ∑ k, low (i + 1) gr (σ.symm r) k * upp (i + 1) gr k c, ?_, fun r c => ?_⟩
    · intro r c
      refine (congrFun (congrFun (hσ _) r) c).trans ?_
      simp only [Equiv.symm_apply_apply]
      rfl
    · have h1 := hfac (σ.symm r) c
      have h2 : a' r c = ∑ k, low i mr (σ.symm r) k * upp i mr k c := by
        rw [← show permuteRows (reLu f).p a' (σ.symm r) c = a' r c by
          show permuteRows f.p a' (σ.symm r) c = _
          rw [hσ]; simp only [Equiv.apply_symm_apply]]
        exact h1
      have h3 := gauss_change mr gr i (fun r c hn => by rw [hgr, hmr]; simp only [g_old r c hn]) (σ.symm r) c
      have hstep : |(∑ k, low (i + 1) gr (σ.symm r) k * upp (i + 1) gr k c) - a' r c|
          ≤ 8 * ulp * grown 10 (M c) + 3 * tiny := by
        rw [h2, h3]
        have hG := grown_nonneg 10 c
        have hpos : 0 ≤ 8 * ulp * grown 10 (M c) + 3 * tiny := by positivity
        have hG' : grown i (M c) ≤ grown 10 (M c) := grown_mono hi.le (hM c).1
        split_ifs with hir hci hce
        · rw [abs_zero]; exact hpos
        · rw [hce] at hG' ⊢
          refine (mul_b _ hir).2.trans ?_
          have := (old_b i le_rfl i le_rfl).trans hG'
          have := mul_le_mul_of_nonneg_left this (by positivity : 0 ≤ 8 * ulp)
          linarith
        · have hic : i < c := lt_of_le_of_ne (not_lt.1 hci) (Ne.symm hce)
          refine (ent_b _ c hir hic).2.trans ?_
          have h5 := mul_le_mul_of_nonneg_left hG' (by positivity : 0 ≤ 4 * ulp)
          have h6 : 0 ≤ 4 * ulp * grown 10 (M c) := by positivity
          linarith
        · rw [abs_zero]; exact hpos
      have := abs_add_le ((∑ k, low (i + 1) gr (σ.symm r) k * upp (i + 1) gr k c) - a' r c)
        (a' r c - re (a r c))
      rw [sub_add_sub_cancel] at this
      push_cast
      linarith [hnear r c]

theorem eliminated_step {a : Fin n → Fin n → F64 L} {M : Fin n → ℝ} {i : Fin n} {f : Lu n (F64 L)}
    (hi : (i : ℕ) < 10) (hM : ∀ c, 0 ≤ M c ∧ M c ≤ 2 ^ 1000) (h : Eliminated a M i f)
    (hlow : LowFin (i + 1) (step f i)) : Eliminated a M (i + 1) (step f i) := by
  have hu := ulp_pos
  have ht := tiny_pos
  have hp := pivotRow_ok h.fin i
  obtain ⟨hle, hmax⟩ := pivot_spec (fun r c => re (f.packed r c)) i
  rw [← hp] at hle hmax
  unfold step at hlow ⊢
  simp only at hlow ⊢
  by_cases hz : isZero (f.packed (pivotRow f.packed i) i) = true
  · simp only [hz, if_true] at hlow ⊢
    rw [isZero_ok (h.fin _ _), isZero_iff] at hz
    have hcol : ∀ r, i ≤ r → re (f.packed r i) = 0 := by
      intro r hr
      have := hmax r hr
      rw [hz, abs_zero] at this
      exact abs_nonpos_iff.1 this
    obtain ⟨a', h1, h2⟩ := h.near
    refine ⟨h.fin, fun r c hc hr => ?_, fun r c hn => ?_, a', factored_skip h1 hcol, fun r c => ?_⟩
    · by_cases hci : c = i
      · rw [hci, hcol r (hci ▸ hr.le), abs_zero]; linarith
      · have : (c : ℕ) ≠ i := fun e => hci (Fin.ext e)
        exact h.mult r c (by omega) hr
    · refine (h.rest r c ?_).trans (grown_mono (Nat.le_succ _) (hM c).1)
      rintro ⟨h1, h2⟩
      exact hn ⟨by omega, h2⟩
    · refine (h2 r c).trans ?_
      have hG : 0 ≤ grown 10 (M c) :=
        (by rw [grown_zero]; exact (hM c).1 : 0 ≤ grown 0 (M c)).trans (grown_mono (Nat.zero_le _) (hM c).1)
      have hpos : 0 ≤ 8 * ulp * grown 10 (M c) + 3 * tiny := by positivity
      push_cast
      linarith
  · simp only [hz, Bool.false_eq_true, if_false] at hlow ⊢
    rw [isZero_ok (h.fin _ _), isZero_iff] at hz
    by_cases hpi : pivotRow f.packed i = i
    · simp only [hpi, if_true] at hlow ⊢
      rw [hpi] at hz hmax
      exact eliminated_gauss hi hM h hz hmax hlow
    · simp only [hpi, if_false] at hlow ⊢
      set j := pivotRow f.packed i
      have e : swapRows f.packed i j i i = f.packed j i := by simp [swapRows]
      rw [← e] at hlow ⊢
      have hsw : Eliminated a M i ⟨swapRows f.packed i j, f.p ++ [(i, j)]⟩ := by
        obtain ⟨a', h1, h2⟩ := h.near
        refine ⟨fun r c => ?_, fun r c hc hr => ?_, fun r c hn => ?_, a', ?_, h2⟩
        · show ok (swapRows f.packed i j r c)
          rw [swapRows_eq]; exact h.fin _ _
        · show |re (swapRows f.packed i j r c)| ≤ _
          rw [swapRows_eq]
          refine h.mult _ c hc ?_
          by_cases hri : r < i
          · rwa [swap_lt hle hri]
          · exact (Fin.lt_def.2 hc).trans_le (swap_ge hle (not_lt.1 hri))
        · show |re (swapRows f.packed i j r c)| ≤ _
          rw [swapRows_eq]
          refine h.rest _ c ?_
          rintro ⟨hc, hr⟩
          by_cases hri : r < i
          · rw [swap_lt hle hri] at hr; exact hn ⟨hc, hr⟩
          · exact hn ⟨hc, (Fin.lt_def.2 hc).trans_le (not_lt.1 hri)⟩
        · have := factored_swap h1 i j le_rfl hle
          have e2 : (⟨swapRows (reLu f).packed i j, (reLu f).p ++ [(i, j)]⟩ : Lu n ℝ)
              = reLu ⟨swapRows f.packed i j, f.p ++ [(i, j)]⟩ := by
            unfold reLu
            congr 1
            funext r c
            simp only [swapRows_eq]
          rw [← e2]; exact this
      refine eliminated_gauss (f := ⟨swapRows f.packed i j, f.p ++ [(i, j)]⟩) hi hM hsw ?_ ?_ hlow
      · show re (swapRows f.packed i j i i) ≠ 0
        rw [e]; exact hz
      · intro r hr
        show |re (swapRows f.packed i j r i)| ≤ |re (swapRows f.packed i j i i)|
        rw [e, swapRows_eq]
        exact hmax _ (swap_ge hle hr)

theorem eliminated_to {a : Fin n → Fin n → F64 L} {M : Fin n → ℝ} (hn : n ≤ 10)
    (hM : ∀ c, 0 ≤ M c ∧ M c ≤ 2 ^ 1000) (ha : ∀ r c, ok (a r c) ∧ |re (a r c)| ≤ M c)
    (hlow : LowFin n (factorTo a n)) : ∀ k ≤ n, Eliminated a M k (factorTo a k)
  | 0, _ => ⟨fun r c => (ha r c).1, fun _ _ h => absurd h (Nat.not_lt_zero _), fun r c _ => by
      rw [grown_zero]; exact (ha r c).2, fun r c => re (a r c), factored_zero _, fun r c => by
      rw [sub_self, abs_zero]; simp⟩
  | k + 1, hk => by
    have hk' : k < n := hk
    have ih := eliminated_to hn hM ha hlow k hk'.le
    have hl := lowFin_to hlow (n - (k + 1)) (by omega)
    rw [show n - (n - (k + 1)) = k + 1 by omega] at hl
    have e : factorTo a (k + 1) = step (factorTo a k) ⟨k, hk'⟩ := by
      simp only [factorTo, hk', dite_true]
    rw [e] at hl ⊢
    exact eliminated_step (i := ⟨k, hk'⟩) (by show k < 10; omega) hM ih hl

/-! ## Substitution -/

/-- A sum subtracted term by term. -/
theorem drift : ∀ (N : Nat), N ≤ 1000 → ∀ (s t : Nat → ℝ),
    (∀ k < N, |s (k + 1) - (s k - t k)| ≤ ulp * |s (k + 1)| + ulp * |t k| + 2 * tiny) →
    |s 0 - s N - ∑ k ∈ Finset.range N, t k|
      ≤ 4 * N * ulp * (|s N| + ∑ k ∈ Finset.range N, |t k|) + 4 * N * tiny
  | 0, _, s, t, _ => by simp
  | N + 1, hN, s, t, h => by
    have ih := drift N (by omega) (fun k => s (k + 1)) (fun k => t (k + 1)) fun k hk => h (k + 1) (by omega)
    have h0 := h 0 (by omega)
    simp only [zero_add] at ih h0
    rw [Finset.sum_range_succ', Finset.sum_range_succ']
    set S := ∑ k ∈ Finset.range N, t (k + 1)
    set A := ∑ k ∈ Finset.range N, |t (k + 1)| with hA
    have hA0 : 0 ≤ A := Finset.sum_nonneg fun _ _ => abs_nonneg _
    have hS : |S| ≤ A := Finset.abs_sum_le_sum_abs _ _
    have hu := ulp_pos
    have hu2 : ulp ≤ 1 / 10 ^ 9 := by unfold ulp; norm_num
    have ht := tiny_pos
    have hNr : (N : ℝ) ≤ 1000 := by exact_mod_cast (by omega : N ≤ 1000)
    have hN0 : (0 : ℝ) ≤ N := Nat.cast_nonneg _
    set v := |s (N + 1)| + A with hv
    have hv0 : 0 ≤ v := by positivity
    set E := 4 * N * ulp * v + 4 * N * tiny with hE
    have hs1 : |s 1| ≤ v + E := by
      have h1 := abs_le.1 ih
      have h2 := abs_le.1 hS
      have h3 := neg_abs_le (s (N + 1))
      have h4 := le_abs_self (s (N + 1))
      rw [abs_le]; constructor <;> linarith [h1.1, h1.2, h2.1, h2.2]
    have huE : ulp * E ≤ ulp * v + tiny := by
      have e1 : (N : ℝ) * ulp ≤ 1 / 10 ^ 6 := by
        calc (N : ℝ) * ulp ≤ 1000 * (1 / 10 ^ 9) := mul_le_mul hNr hu2 hu.le (by norm_num)
          _ ≤ _ := by norm_num
      have e2 : ulp * E = 4 * (N * ulp) * (ulp * v) + 4 * (N * ulp) * tiny := by rw [hE]; ring
      rw [e2]
      have e3 : 4 * (N * ulp) * (ulp * v) ≤ 1 * (ulp * v) :=
        mul_le_mul_of_nonneg_right (by linarith) (by positivity)
      have e4 : 4 * (N * ulp) * tiny ≤ 1 * tiny := mul_le_mul_of_nonneg_right (by linarith) ht.le
      linarith
    have hus : ulp * |s 1| ≤ ulp * (v + E) := mul_le_mul_of_nonneg_left hs1 hu.le
    have tri : |s 0 - s (N + 1) - (S + t 0)| ≤ |s 1 - s (N + 1) - S| + |s 1 - (s 0 - t 0)| := by
      have := abs_sub (s 1 - s (N + 1) - S) (s 1 - (s 0 - t 0))
      have e : s 1 - s (N + 1) - S - (s 1 - (s 0 - t 0)) = s 0 - s (N + 1) - (S + t 0) := by ring
      rwa [e] at this
    have ht0 := abs_nonneg (t 0)
    push_cast
    calc _ ≤ E + (ulp * |s 1| + ulp * |t 0| + 2 * tiny) := tri.trans (add_le_add ih h0)
      _ ≤ E + (2 * ulp * v + ulp * |t 0| + 3 * tiny) := by linarith
      _ ≤ 4 * (N + 1) * ulp * (v + |t 0|) + 4 * (N + 1) * tiny := by
          have : 0 ≤ ulp * v := by positivity
          have : 0 ≤ N * ulp * |t 0| := by positivity
          have : 0 ≤ ulp * |t 0| := by positivity
          rw [hE]; nlinarith
      _ = _ := by rw [hv]; ring

theorem forward_succ {α : Type} [Scalar α] (m : Fin n → Fin n → α) (b : Fin n → α) {k : Nat} (hk : k < n) (r : Fin n) :
    forwardTo m b (k + 1) r = if ⟨k, hk⟩ < r then -forwardTo m b k ⟨k, hk⟩ * m r ⟨k, hk⟩ + forwardTo m b k r
      else forwardTo m b k r := by
  simp only [forwardTo, hk, dite_true]

theorem forward_stable {α : Type} [Scalar α] (m : Fin n → Fin n → α) (b : Fin n → α) (r : Fin n) :
    ∀ j, r.val + j ≤ n → forwardTo m b (r + j) r = forwardTo m b r r
  | 0, _ => rfl
  | j + 1, hj => by
    rw [← add_assoc, forward_succ m b (by omega), if_neg (by rw [Fin.lt_def]; simp), forward_stable m b r j (by omega)]

theorem forward_final {α : Type} [Scalar α] (m : Fin n → Fin n → α) (b : Fin n → α) {k : Nat} (hk : k < n) :
    forwardTo m b n ⟨k, hk⟩ = forwardTo m b k ⟨k, hk⟩ := by
  have := forward_stable m b ⟨k, hk⟩ (n - k) (by simp; omega)
  simpa [Nat.add_sub_cancel' hk.le] using this

/-- A finite result of the forward substitution has been computed from finite numbers. -/
theorem forward_fin {m : Fin n → Fin n → F64 L} {b : Fin n → F64 L} (h : ∀ r, ok (forwardTo m b n r)) :
    ∀ j ≤ n, ∀ r, ok (forwardTo m b (n - j) r)
  | 0, _, r => h r
  | j + 1, hj, r => by
    have ih := forward_fin h j (by omega) r
    rw [show n - j = n - (j + 1) + 1 by omega, forward_succ m b (by omega)] at ih
    split at ih
    · exact (mulAdd_inv ih).2.2.1
    · exact ih

theorem forward_low {m : Fin n → Fin n → F64 L} {b : Fin n → F64 L} (h : ∀ r, ok (forwardTo m b n r))
    (r c : Fin n) (hc : c < r) : ok (m r c) := by
  have := forward_fin h (n - (c + 1)) (by omega) r
  rw [show n - (n - (c.val + 1)) = c + 1 by omega, forward_succ m b c.2, if_pos (by exact hc)] at this
  exact (mulAdd_inv this).2.1

/-- Forward substitution. -/
theorem forward_error (hn : n ≤ 10) {m : Fin n → Fin n → F64 L} {b : Fin n → F64 L}
    (h : ∀ r, ok (forwardTo m b n r)) (r : Fin n) :
    |(∑ k, low n (fun r c => re (m r c)) r k * re (forwardTo m b n k)) - re (b r)|
      ≤ 40 * ulp * (∑ k, |low n (fun r c => re (m r c)) r k| * |re (forwardTo m b n k)|) + 40 * tiny := by
  set y := forwardTo m b n with hy
  set t : Nat → ℝ := fun k => if hk : k < n then (if (⟨k, hk⟩ : Fin n) < r then re (y ⟨k, hk⟩) * re (m r ⟨k, hk⟩) else 0) else 0
    with ht
  have hstep : ∀ k < n, |re (forwardTo m b (k + 1) r) - (re (forwardTo m b k r) - t k)|
      ≤ ulp * |re (forwardTo m b (k + 1) r)| + ulp * |t k| + 2 * tiny := by
    intro k hk
    have hu := ulp_pos
    have htp := tiny_pos
    have hok := forward_fin h (n - (k + 1)) (by omega) r
    rw [show n - (n - (k + 1)) = k + 1 by omega] at hok
    have hyk : y ⟨k, hk⟩ = forwardTo m b k ⟨k, hk⟩ := forward_final m b hk
    simp only [ht, hk, dite_true, hyk]
    rw [forward_succ m b hk] at hok ⊢
    split at hok
    · next hlt =>
      simp only [hlt, if_true]
      exact (mulAdd_inv hok).2.2.2
    · next hlt =>
      simp only [hlt, if_false, sub_zero, sub_self, abs_zero]
      positivity
  have hd := drift n (by omega) (fun k => re (forwardTo m b k r)) t hstep
  rw [Finset.sum_range, Finset.sum_range] at hd
  have hlow : ∀ k : Fin n, low n (fun r c => re (m r c)) r k * re (y k)
      = t k + if k = r then re (y r) else 0 := by
    intro k
    simp only [ht, k.2, dite_true, low, true_and]
    by_cases hkr : k = r
    · subst hkr; simp
    · simp only [hkr, if_false, add_zero]
      split <;> ring
  have hlowabs : ∀ k : Fin n, |low n (fun r c => re (m r c)) r k| * |re (y k)|
      = |t k| + if k = r then |re (y r)| else 0 := by
    intro k
    rw [← abs_mul, hlow k]
    by_cases hkr : k = r
    · subst hkr; simp [ht]
    · simp [hkr]
  simp only [hlow, hlowabs, Finset.sum_add_distrib, Finset.sum_ite_eq', Finset.mem_univ, if_true]
  have e : forwardTo m b 0 r = b r := rfl
  rw [e] at hd
  rw [abs_sub_comm]
  have e2 : re (b r) - ((∑ x : Fin n, t x) + re (y r)) = re (b r) - re (forwardTo m b n r) - ∑ i : Fin n, t i := by
    rw [hy]; ring
  rw [e2]
  refine hd.trans ?_
  have hnr : (n : ℝ) ≤ 10 := by exact_mod_cast hn
  have hu := ulp_pos
  have htp := tiny_pos
  have hT : 0 ≤ |re (forwardTo m b n r)| + ∑ i : Fin n, |t i| :=
    add_nonneg (abs_nonneg _) (Finset.sum_nonneg fun _ _ => abs_nonneg _)
  rw [add_comm (∑ x : Fin n, |t x|)]
  have h1 : 4 * (n : ℝ) * ulp ≤ 40 * ulp := by nlinarith
  have h2 := mul_le_mul_of_nonneg_right h1 hT
  have h3 : 4 * (n : ℝ) * tiny ≤ 40 * tiny := by nlinarith
  exact add_le_add h2 h3

theorem backward_succ {α : Type} [Scalar α] (m : Fin n → Fin n → α) (b : Fin n → α) {k : Nat} (hk : k < n) :
    backward m (k + 1) b = if isZero (m ⟨k, hk⟩ ⟨k, hk⟩) = true then none else
      backward m k fun r => if r = ⟨k, hk⟩ then b ⟨k, hk⟩ / m ⟨k, hk⟩ ⟨k, hk⟩ else if r < ⟨k, hk⟩ then
        -(b ⟨k, hk⟩ / m ⟨k, hk⟩ ⟨k, hk⟩) * m r ⟨k, hk⟩ + b r else b r := by
  simp only [backward, hk, dite_true]

/-- A finite solution has been computed from a finite right-hand side. -/
theorem backward_fin (m : Fin n → Fin n → F64 L) : ∀ k ≤ n, ∀ (b x : Fin n → F64 L),
    backward m k b = some x → (∀ r, ok (x r)) → ∀ r, ok (b r)
  | 0, _, b, x, h, hx, r => by cases h; exact hx r
  | k + 1, hk, b, x, h, hx, r => by
    have hk' : k < n := hk
    rw [backward_succ m b hk'] at h
    split at h
    · cases h
    have ih := backward_fin m k hk'.le _ x h hx r
    split at ih
    · next e => rw [e]; exact div_inv ih
    split at ih
    · exact (mulAdd_inv ih).2.2.1
    · exact ih

/-- The part of row `r` of the upper triangle in the first `k` columns. -/
noncomputable def part (m : Fin n → Fin n → ℝ) (k : Nat) (r c : Fin n) : ℝ :=
  if r ≤ c ∧ c.val < k then m r c else 0

theorem part_succ (m : Fin n → Fin n → ℝ) {k : Nat} (hk : k < n) (r : Fin n) (hr : r.val ≤ k) (f : ℝ → ℝ → ℝ)
    (hf : ∀ z, f 0 z = 0) (x : Fin n → ℝ) :
    ∑ c, f (part m (k + 1) r c) (x c) = (∑ c, f (part m k r c) (x c)) + f (m r ⟨k, hk⟩) (x ⟨k, hk⟩) := by
  have : ∀ c, f (part m (k + 1) r c) (x c)
      = f (part m k r c) (x c) + if c = ⟨k, hk⟩ then f (m r ⟨k, hk⟩) (x ⟨k, hk⟩) else 0 := by
    intro c
    by_cases hc : c = ⟨k, hk⟩
    · have h1 : r ≤ c := by rw [hc, Fin.le_def]; exact hr
      have h2 : ¬ (r ≤ c ∧ c.val < k) := by rintro ⟨-, h⟩; rw [hc] at h; simp at h
      have h3 : (r ≤ c ∧ c.val < k + 1) := ⟨h1, by rw [hc]; simp⟩
      rw [if_pos hc, part, part, if_pos h3, if_neg h2, hf, zero_add, hc]
    · have : (c : ℕ) ≠ k := fun e => hc (Fin.ext e)
      have : (c.val < k + 1) ↔ c.val < k := by omega
      simp only [part, this, hc, if_false, add_zero]
  simp only [this, Finset.sum_add_distrib, Finset.sum_ite_eq', Finset.mem_univ, if_true]

/-- Backward substitution. -/
theorem backward_error (m : Fin n → Fin n → F64 L) (hm : ∀ r c, ok (m r c)) : ∀ k ≤ n, k ≤ 10 →
    ∀ (b x : Fin n → F64 L), backward m k b = some x → (∀ r, ok (x r)) →
    (∀ r : Fin n, k ≤ r.val → x r = b r) ∧ ∀ r : Fin n, r.val < k →
      |re (b r) - ∑ c, part (fun r c => re (m r c)) k r c * re (x c)|
        ≤ 4 * k * ulp * (∑ c, |part (fun r c => re (m r c)) k r c| * |re (x c)|) + 4 * k * tiny
          + k * (tiny * |re (m r r)|)
  | 0, _, _, b, x, h, _ => ⟨fun r _ => by cases h; rfl, fun r hr => absurd hr (Nat.not_lt_zero _)⟩
  | k + 1, hk, hk10, b, x, h, hx => by
    have hk' : k < n := hk
    have hu := ulp_pos
    have hu2 : ulp ≤ 1 / 10 ^ 9 := by unfold ulp; norm_num
    have htp := tiny_pos
    rw [backward_succ m b hk'] at h
    split at h
    · cases h
    obtain ⟨hge, herr⟩ := backward_error m hm k hk'.le (by omega) _ x h hx
    have hfin := backward_fin m k hk'.le _ x h hx
    set i : Fin n := ⟨k, hk'⟩ with hi
    have hxi : x i = b i / m i i := by
      have := hge i le_rfl
      simpa using this
    refine ⟨fun r hr => ?_, fun r hr => ?_⟩
    · have h1 := hge r (by omega)
      have h2 : r ≠ i := by rintro rfl; simp [hi] at hr
      have h3 : ¬ r < i := by rw [Fin.lt_def]; simp only [hi]; omega
      simpa only [h2, h3, if_false] using h1
    · rw [part_succ (fun r c => re (m r c)) hk' r (by omega) (fun a z => a * z) (fun z => zero_mul z) (fun c => re (x c)),
        part_succ (fun r c => re (m r c)) hk' r (by omega) (fun a z => |a| * |z|) (fun z => by simp) (fun c => re (x c))]
      simp only [← hi]
      set P := ∑ c, part (fun r c => re (m r c)) k r c * re (x c) with hP
      set T := ∑ c, |part (fun r c => re (m r c)) k r c| * |re (x c)| with hT
      have hT0 : 0 ≤ T := Finset.sum_nonneg fun _ _ => mul_nonneg (abs_nonneg _) (abs_nonneg _)
      have hPT : |P| ≤ T := (Finset.abs_sum_le_sum_abs _ _).trans_eq (by simp only [abs_mul]; rfl)
      have hk0 : (0 : ℝ) ≤ k := Nat.cast_nonneg _
      have hkr : (k : ℝ) ≤ 10 := by exact_mod_cast (by omega : k ≤ 10)
      rcases Nat.lt_succ_iff_lt_or_eq.1 hr with hlt | heq
      · have hri : r < i := by rw [Fin.lt_def]; exact hlt
        have hne : r ≠ i := hri.ne
        have hok := hfin r
        have ih := herr r hlt
        simp only [hne, hri, if_true, if_false] at ih hok
        obtain ⟨-, -, -, he⟩ := mulAdd_inv hok
        rw [← hxi] at ih he
        set b' := re (-(x i) * m r i + b r)
        rw [← hP, ← hT] at ih
        set q := re (x i) * re (m r i) with hq
        set D := tiny * |re (m r r)| with hD
        have hD0 : 0 ≤ D := by positivity
        have eq1 : re (m r i) * re (x i) = q := mul_comm _ _
        have eq2 : |re (m r i)| * |re (x i)| = |q| := by rw [hq, abs_mul, mul_comm]
        rw [eq1, eq2]
        set E := 4 * k * ulp * T + 4 * k * tiny + k * D with hE
        have hb' : |b'| ≤ T + E := by
          have h1 := abs_le.1 ih
          have h2 := abs_le.1 hPT
          rw [abs_le]; constructor <;> linarith [h1.1, h1.2, h2.1, h2.2]
        have huE : ulp * E ≤ ulp * T + tiny + D := by
          have e1 : (k : ℝ) * ulp ≤ 1 / 10 ^ 6 := by
            calc (k : ℝ) * ulp ≤ 10 * (1 / 10 ^ 9) := mul_le_mul hkr hu2 hu.le (by norm_num)
              _ ≤ _ := by norm_num
          have e2 : ulp * E = 4 * (k * ulp) * (ulp * T) + 4 * (k * ulp) * tiny + (k * ulp) * D := by rw [hE]; ring
          rw [e2]
          have e3 : 4 * (k * ulp) * (ulp * T) ≤ 1 * (ulp * T) :=
            mul_le_mul_of_nonneg_right (by linarith) (by positivity)
          have e4 : 4 * (k * ulp) * tiny ≤ 1 * tiny := mul_le_mul_of_nonneg_right (by linarith) htp.le
          have e5 : (k * ulp) * D ≤ 1 * D := mul_le_mul_of_nonneg_right (by linarith) hD0
          linarith
        have hus : ulp * |b'| ≤ ulp * (T + E) := mul_le_mul_of_nonneg_left hb' hu.le
        have tri : |re (b r) - (P + q)| ≤ |b' - P| + |b' - (re (b r) - q)| := by
          have := abs_sub (b' - P) (b' - (re (b r) - q))
          have e : b' - P - (b' - (re (b r) - q)) = re (b r) - (P + q) := by ring
          rwa [e] at this
        have hq0 := abs_nonneg q
        push_cast
        calc _ ≤ E + (ulp * |b'| + ulp * |q| + 2 * tiny) := tri.trans (add_le_add ih he)
          _ ≤ E + (2 * ulp * T + ulp * |q| + 3 * tiny + D) := by linarith
          _ ≤ 4 * (k + 1) * ulp * (T + |q|) + 4 * (k + 1) * tiny + (k + 1) * D := by
              have : 0 ≤ ulp * T := by positivity
              have : 0 ≤ k * ulp * |q| := by positivity
              have : 0 ≤ ulp * |q| := by positivity
              rw [hE]; nlinarith
      · have hri : r = i := Fin.ext heq
        rw [hri] at hP hT ⊢
        have hzero : ∀ c, part (fun r c => re (m r c)) k i c = 0 := by
          intro c
          unfold part
          rw [if_neg]
          rintro ⟨h1, h2⟩
          have := Fin.le_def.1 h1
          simp only [hi] at this
          omega
        have hP0 : P = 0 := by rw [hP]; simp [hzero]
        have hT1 : T = 0 := by rw [hT]; simp [hzero]
        rw [hP0, hT1, zero_add, zero_add]
        have hok := hx i
        rw [hxi] at hok
        obtain ⟨hne, hq⟩ := div_inv_finite hok (hm i i)
        have e := (rne_error (re (b i) / re (m i i))).2
        rw [← hq, ← hxi] at e
        have e1 : re (b i) - re (m i i) * re (x i) = -((re (x i) - re (b i) / re (m i i)) * re (m i i)) := by
          field_simp; ring
        rw [e1, abs_neg, abs_mul]
        have e2 := mul_le_mul_of_nonneg_right e (abs_nonneg (re (m i i)))
        refine e2.trans ?_
        push_cast
        set d := |re (m i i)|
        set z := |re (x i)|
        have hd : 0 ≤ d := abs_nonneg _
        have hz : 0 ≤ z := abs_nonneg _
        have p1 : 0 ≤ ulp * (d * z) := by positivity
        have p2 : 0 ≤ tiny * d := by positivity
        have p3 : 0 ≤ k * (ulp * (d * z)) := by positivity
        have p4 : 0 ≤ k * (tiny * d) := by positivity
        have p5 : 0 ≤ k * tiny := by positivity
        nlinarith

/-! ## Together -/

/-- The residual of a finite solution. -/
theorem solve_error (hn : n ≤ 10) {a : Fin n → Fin n → F64 L} {b x : Fin n → F64 L} {M : Fin n → ℝ}
    (hM : ∀ c, M c ≤ 2 ^ 1000) (ha : ∀ r c, ok (a r c) ∧ |re (a r c)| ≤ M c)
    (h : solve a b = some x) (hx : ∀ r, ok (x r)) (r : Fin n) :
    |(∑ c, re (a r c) * re (x c)) - re (b r)|
      ≤ 2 ^ (-33 : ℤ) * (∑ c, M c * |re (x c)|)
        + 2 ^ (-1050 : ℤ) * (1 + (∑ c, M c) + ∑ c, |re (x c)|) := by
  have hM0 : ∀ c, 0 ≤ M c ∧ M c ≤ 2 ^ 1000 := fun c => ⟨(abs_nonneg _).trans (ha c c).2, hM c⟩
  set f := factorTo a n with hf
  set y := forwardTo f.packed (permuteRows f.p b) n with hy
  have hsol : backward f.packed n y = some x := h
  have hyok : ∀ r, ok (y r) := backward_fin f.packed n le_rfl y x hsol hx
  have hlow : LowFin n f := fun r c _ hc => forward_low hyok r c hc
  obtain ⟨hfin, hmult, hrest, a', hfac, hnear⟩ := eliminated_to hn hM0 ha hlow n le_rfl
  rw [← hf] at hfin hmult hrest hfac
  obtain ⟨-, hback⟩ := backward_error f.packed hfin n le_rfl hn y x hsol hx
  have hforw := forward_error hn hyok
  obtain ⟨σ, hσ⟩ := permute_perm f.p
  set m : Fin n → Fin n → ℝ := fun r c => re (f.packed r c) with hm
  set W : Fin n → ℝ := fun c => grown 10 (M c) with hW
  set X : Fin n → ℝ := fun c => |re (x c)| with hX
  have hX0 : ∀ c, 0 ≤ X c := fun c => abs_nonneg _
  have hW0 : ∀ c, 0 ≤ W c := fun c =>
    (by rw [grown_zero]; exact (hM0 c).1 : 0 ≤ grown 0 (M c)).trans (grown_mono (Nat.zero_le _) (hM0 c).1)
  have hu := ulp_pos
  have hu2 : ulp ≤ 1 / 10 ^ 9 := by unfold ulp; norm_num
  have htp := tiny_pos
  have hnr : (n : ℝ) ≤ 10 := by exact_mod_cast hn
  have hn0 : (0 : ℝ) ≤ n := Nat.cast_nonneg _
  set Z := ∑ c, W c * X c with hZ
  set V := ∑ c, W c with hV
  have hZ0 : 0 ≤ Z := Finset.sum_nonneg fun c _ => mul_nonneg (hW0 c) (hX0 c)
  have hV0 : 0 ≤ V := Finset.sum_nonneg fun c _ => hW0 c
  have hup : ∀ k c, |upp n m k c| ≤ W c := by
    intro k c
    unfold upp
    by_cases hck : c.val < n ∧ c < k
    · rw [if_pos hck, abs_zero]; exact hW0 c
    · rw [if_neg hck]; exact (hrest k c hck).trans (grown_mono hn (hM0 c).1)
  have hpart : ∀ k c, part m n k c = upp n m k c := by
    intro k c
    unfold part upp
    by_cases hck : c < k
    · rw [if_neg (by rintro ⟨h1, -⟩; exact absurd hck (not_lt.2 h1)), if_pos ⟨c.2, hck⟩]
    · rw [if_pos ⟨not_lt.1 hck, c.2⟩, if_neg (by rintro ⟨-, h1⟩; exact hck h1)]
  have hlo : ∀ q k, |low n m q k| ≤ 1 + 8 * ulp := by
    intro q k
    unfold low
    by_cases hkq : k = q
    · rw [if_pos hkq, abs_one]; linarith
    rw [if_neg hkq]
    by_cases hk : k.val < n ∧ k < q
    · rw [if_pos hk]; exact hmult q k hk.1 hk.2
    · rw [if_neg hk, abs_zero]; linarith
  have hl1 : 1 + 8 * ulp ≤ 1001 / 1000 := by linarith
  have hUx : ∀ k, |∑ c, upp n m k c * re (x c)| ≤ Z ∧ ∑ c, |upp n m k c| * |re (x c)| ≤ Z := by
    intro k
    have h2 : ∑ c, |upp n m k c| * |re (x c)| ≤ Z :=
      Finset.sum_le_sum fun c _ => mul_le_mul_of_nonneg_right (hup k c) (hX0 c)
    exact ⟨((Finset.abs_sum_le_sum_abs _ _).trans_eq (by simp only [abs_mul])).trans h2, h2⟩
  set F := 40 * ulp * Z + 40 * tiny + 10 * (tiny * V) with hF
  have hF0 : 0 ≤ F := by positivity
  have hyF : ∀ k, |re (y k) - ∑ c, upp n m k c * re (x c)| ≤ F := by
    intro k
    have h1 := hback k k.2
    simp only [hpart] at h1
    have h2 : |re (f.packed k k)| ≤ V := by
      have e1 := (hrest k k (by rintro ⟨-, h⟩; exact lt_irrefl _ h)).trans (grown_mono hn (hM0 k).1)
      exact e1.trans (Finset.single_le_sum (f := W) (fun c _ => hW0 c) (Finset.mem_univ k))
    refine h1.trans ?_
    have e1 : 4 * (n : ℝ) * ulp * (∑ c, |upp n m k c| * |re (x c)|) ≤ 40 * ulp * Z :=
      mul_le_mul (by nlinarith) (hUx k).2 (Finset.sum_nonneg fun _ _ => mul_nonneg (abs_nonneg _) (abs_nonneg _))
        (by positivity)
    have e2 : 4 * (n : ℝ) * tiny ≤ 40 * tiny := by nlinarith
    have e3 : (n : ℝ) * (tiny * |re (f.packed k k)|) ≤ 10 * (tiny * V) :=
      mul_le_mul hnr (mul_le_mul_of_nonneg_left h2 htp.le) (by positivity) (by norm_num)
    linarith
  have hyb : ∀ k, |re (y k)| ≤ Z + F := by
    intro k
    have h1 := abs_le.1 (hyF k)
    have h2 := abs_le.1 (hUx k).1
    rw [abs_le]; constructor <;> linarith [h1.1, h1.2, h2.1, h2.2]
  have hsum : ∀ (g : Fin n → ℝ) (B : ℝ), 0 ≤ B → (∀ k, g k ≤ B) → ∑ k, g k ≤ 10 * B := by
    intro g B hB hg
    calc ∑ k, g k ≤ ∑ _k : Fin n, B := Finset.sum_le_sum fun k _ => hg k
      _ = n * B := by simp
      _ ≤ _ := mul_le_mul_of_nonneg_right hnr hB
  set q := σ.symm r with hq
  have hσq : σ q = r := Equiv.apply_symm_apply _ _
  have hg1 : |(∑ k, low n m q k * re (y k)) - re (b r)|
      ≤ 40 * ulp * (10 * (1001 / 1000 * (Z + F))) + 40 * tiny := by
    have h1 := hforw q
    have h2 : permuteRows f.p b q = b r := by rw [hσ]; exact congrArg b hσq
    rw [h2] at h1
    refine h1.trans ?_
    have h3 : ∑ k, |low n m q k| * |re (y k)| ≤ 10 * (1001 / 1000 * (Z + F)) :=
      hsum _ _ (by positivity) fun k =>
        mul_le_mul ((hlo q k).trans hl1) (hyb k) (abs_nonneg _) (by norm_num)
    have := mul_le_mul_of_nonneg_left h3 (by positivity : 0 ≤ 40 * ulp)
    linarith
  have ha' : ∀ c, a' r c = ∑ k, low n m q k * upp n m k c := by
    intro c
    rw [← show permuteRows (reLu f).p a' q c = a' r c by
      show permuteRows f.p a' q c = _
      rw [hσ]; exact congrArg (fun r => a' r c) hσq]
    exact hfac q c
  have hmid : |(∑ c, a' r c * re (x c)) - ∑ k, low n m q k * re (y k)| ≤ 10 * (1001 / 1000 * F) := by
    have e : (∑ c, a' r c * re (x c)) - ∑ k, low n m q k * re (y k)
        = ∑ k, low n m q k * ((∑ c, upp n m k c * re (x c)) - re (y k)) := by
      simp only [ha', Finset.sum_mul, mul_sub, Finset.sum_sub_distrib, Finset.mul_sum]
      rw [Finset.sum_comm]
      simp only [mul_assoc]
    rw [e]
    refine (Finset.abs_sum_le_sum_abs _ _).trans (hsum _ _ (by positivity) fun k => ?_)
    rw [abs_mul, abs_sub_comm]
    exact mul_le_mul ((hlo q k).trans hl1) (hyF k) (abs_nonneg _) (by norm_num)
  set S := ∑ c, X c with hS
  have hS0 : 0 ≤ S := Finset.sum_nonneg fun c _ => hX0 c
  have hfirst : |(∑ c, re (a r c) * re (x c)) - ∑ c, a' r c * re (x c)| ≤ 80 * ulp * Z + 30 * tiny * S := by
    rw [← Finset.sum_sub_distrib]
    refine (Finset.abs_sum_le_sum_abs _ _).trans ?_
    have : 80 * ulp * Z + 30 * tiny * S = ∑ c, (80 * ulp * W c + 30 * tiny) * X c := by
      simp only [add_mul, Finset.sum_add_distrib, hZ, hS, Finset.mul_sum, mul_assoc]
    rw [this]
    refine Finset.sum_le_sum fun c _ => ?_
    rw [← sub_mul, abs_mul, abs_sub_comm]
    refine mul_le_mul_of_nonneg_right ((hnear r c).trans ?_) (hX0 c)
    have hWc := hW0 c
    have hpos : 0 ≤ 8 * ulp * W c + 3 * tiny := by positivity
    have := mul_le_mul_of_nonneg_right hnr hpos
    show (n : ℝ) * (8 * ulp * W c + 3 * tiny) ≤ _
    linarith
  have tri : |(∑ c, re (a r c) * re (x c)) - re (b r)| ≤
      (80 * ulp * Z + 30 * tiny * S) + 10 * (1001 / 1000 * F)
        + (40 * ulp * (10 * (1001 / 1000 * (Z + F))) + 40 * tiny) := by
    have h1 := abs_le.1 hfirst
    have h2 := abs_le.1 hmid
    have h3 := abs_le.1 hg1
    rw [abs_le]; constructor <;> linarith [h1.1, h1.2, h2.1, h2.2, h3.1, h3.2]
  set Zm := ∑ c, M c * X c with hZm
  set Sm := ∑ c, M c with hSm
  have hZm0 : 0 ≤ Zm := Finset.sum_nonneg fun c _ => mul_nonneg (hM0 c).1 (hX0 c)
  have hSm0 : 0 ≤ Sm := Finset.sum_nonneg fun c _ => (hM0 c).1
  have hZ1 : Z ≤ 1025 * Zm + 3072 * tiny * S := by
    have : 1025 * Zm + 3072 * tiny * S = ∑ c, (1025 * M c + 3072 * tiny) * X c := by
      simp only [add_mul, Finset.sum_add_distrib, hZm, hS, Finset.mul_sum, mul_assoc]
    rw [this]
    exact Finset.sum_le_sum fun c _ => mul_le_mul_of_nonneg_right (grown_ten (hM0 c).1) (hX0 c)
  have hV1 : V ≤ 1025 * Sm + 30720 * tiny := by
    calc V ≤ ∑ c, (1025 * M c + 3072 * tiny) := Finset.sum_le_sum fun c _ => grown_ten (hM0 c).1
      _ = 1025 * Sm + n * (3072 * tiny) := by
          rw [Finset.sum_add_distrib, ← Finset.mul_sum, ← hSm]; simp
      _ ≤ _ := by nlinarith
  have e33 : (2 : ℝ) ^ (-33 : ℤ) = 1048576 * ulp := by unfold ulp; norm_num [zpow_neg]
  have e1050 : (2 : ℝ) ^ (-1050 : ℤ) = 33554432 * tiny := by
    unfold tiny
    rw [show (33554432 : ℝ) = 2 ^ (25 : ℤ) by norm_num, ← zpow_add₀ (by norm_num)]
    norm_num
  rw [e33, e1050]
  have ht2 : tiny ≤ 1 / 10 ^ 9 := tiny_le_ulp.trans hu2
  have b1 : ulp * F ≤ 1 / 1000 * (ulp * Z + tiny + tiny * V) := by
    have c1 : ulp * (ulp * Z) ≤ 1 / 10 ^ 9 * (ulp * Z) := mul_le_mul_of_nonneg_right hu2 (by positivity)
    have c2 : ulp * tiny ≤ 1 / 10 ^ 9 * tiny := mul_le_mul_of_nonneg_right hu2 htp.le
    have c3 : ulp * (tiny * V) ≤ 1 / 10 ^ 9 * (tiny * V) := mul_le_mul_of_nonneg_right hu2 (by positivity)
    have c4 : 0 ≤ ulp * Z := by positivity
    have c5 : 0 ≤ tiny * V := by positivity
    have e : ulp * F = 40 * (ulp * (ulp * Z)) + 40 * (ulp * tiny) + 10 * (ulp * (tiny * V)) := by rw [hF]; ring
    rw [e]; linarith
  have b2 : ulp * Z ≤ 1025 * (ulp * Zm) + tiny * S := by
    have c1 := mul_le_mul_of_nonneg_left hZ1 hu.le
    have c2 : ulp * (tiny * S) ≤ 1 / 10 ^ 9 * (tiny * S) := mul_le_mul_of_nonneg_right hu2 (by positivity)
    have c3 : 0 ≤ tiny * S := by positivity
    have e : ulp * (1025 * Zm + 3072 * tiny * S) = 1025 * (ulp * Zm) + 3072 * (ulp * (tiny * S)) := by ring
    rw [e] at c1; linarith
  have b3 : tiny * V ≤ 1025 * (tiny * Sm) + tiny := by
    have c1 := mul_le_mul_of_nonneg_left hV1 htp.le
    have c2 : tiny * tiny ≤ 1 / 10 ^ 9 * tiny := mul_le_mul_of_nonneg_right ht2 htp.le
    have e : tiny * (1025 * Sm + 30720 * tiny) = 1025 * (tiny * Sm) + 30720 * (tiny * tiny) := by ring
    rw [e] at c1; linarith
  have p1 : 0 ≤ ulp * Zm := by positivity
  have p2 : 0 ≤ tiny * S := by positivity
  have p3 : 0 ≤ tiny * Sm := by positivity
  refine tri.trans ?_
  have e1 : (80 * ulp * Z + 30 * tiny * S) + 10 * (1001 / 1000 * F)
        + (40 * ulp * (10 * (1001 / 1000 * (Z + F))) + 40 * tiny)
      = 880.8 * (ulp * Z) + 30 * (tiny * S) + 440.4 * tiny + 100.1 * (tiny * V) + 400.4 * (ulp * F) := by
    rw [hF]; ring
  have e2 : 1048576 * ulp * Zm + 33554432 * tiny * (1 + Sm + S)
      = 1048576 * (ulp * Zm) + 33554432 * tiny + 33554432 * (tiny * Sm) + 33554432 * (tiny * S) := by ring
  rw [e1, e2]
  linarith

end Sett.lu
