import Verif.Model.Lu
import Verif.Proofs.Lits
import Mathlib.Algebra.BigOperators.Fin
import Mathlib.LinearAlgebra.Matrix.Block
import Mathlib.Tactic.FieldSimp
import Mathlib.Tactic.LinearCombination

/-! # Elimination with partial pivoting in exact arithmetic: `P A = L U` -/

namespace Sett.lu

variable {n : Nat}

theorem isZero_iff (x : ℝ) : isZero x = true ↔ x = 0 := by
  simp only [isZero, Bool.and_eq_true, Scalar.le, decide_eq_true_eq]
  norm_num
  exact ⟨fun h => le_antisymm h.1 h.2, fun h => by simp [h]⟩

/-- The scan for the pivot over any list of rows. -/
theorem pivot_fold (m : Fin n → Fin n → ℝ) (i : Fin n) (l : List (Fin n)) (b : Fin n) (hb : i ≤ b) :
    let z := l.foldl (fun best r => if i < r ∧ Scalar.lt (Scalar.abs (m best i)) (Scalar.abs (m r i)) = true
      then r else best) b
    i ≤ z ∧ |m b i| ≤ |m z i| ∧ ∀ r ∈ l, i < r → |m r i| ≤ |m z i| := by
  induction l generalizing b with
  | nil => exact ⟨hb, le_rfl, by simp⟩
  | cons a l ih =>
    simp only [List.foldl_cons]
    by_cases h : i < a ∧ Scalar.lt (Scalar.abs (m b i)) (Scalar.abs (m a i)) = true
    · simp only [h, and_self, if_true]
      obtain ⟨h1, h2, h3⟩ := ih a h.1.le
      have hlt : |m b i| < |m a i| := by simpa [Scalar.lt] using h.2
      refine ⟨h1, hlt.le.trans h2, fun r hr hi => ?_⟩
      rcases List.mem_cons.1 hr with rfl | hr
      · exact h2
      · exact h3 r hr hi
    · simp only [h, if_false]
      obtain ⟨h1, h2, h3⟩ := ih b hb
      refine ⟨h1, h2, fun r hr hi => ?_⟩
      rcases List.mem_cons.1 hr with rfl | hr
      · have : ¬ |m b i| < |m r i| := fun hlt => h ⟨hi, by simpa [Scalar.lt] using hlt⟩
        exact (not_lt.1 this).trans h2
      · exact h3 r hr hi

theorem pivot_spec (m : Fin n → Fin n → ℝ) (i : Fin n) :
    i ≤ pivotRow m i ∧ ∀ r, i ≤ r → |m r i| ≤ |m (pivotRow m i) i| := by
  obtain ⟨h1, h2, h3⟩ := pivot_fold m i (List.finRange n) i le_rfl
  refine ⟨h1, fun r hr => ?_⟩
  rcases hr.eq_or_lt with rfl | h
  · exact h2
  · exact h3 r (List.mem_finRange r) h

theorem swapRows_eq {β : Type} (m : Fin n → β) (i j r : Fin n) : swapRows m i j r = m (Equiv.swap i j r) := by
  unfold swapRows
  rw [Equiv.swap_apply_def]
  split_ifs <;> rfl

/-- The lower factor packed in the first `s` columns. -/
noncomputable def low (s : Nat) (m : Fin n → Fin n → ℝ) (r k : Fin n) : ℝ :=
  if k = r then 1 else if k.val < s ∧ k < r then m r k else 0

/-- What is left above and to the right of it. -/
noncomputable def upp (s : Nat) (m : Fin n → Fin n → ℝ) (k c : Fin n) : ℝ :=
  if c.val < s ∧ c < k then 0 else m k c

theorem permute_append {β : Type} (p : List (Fin n × Fin n)) (i j : Fin n) (b : Fin n → β) :
    permuteRows (p ++ [(i, j)]) b = swapRows (permuteRows p b) i j := by
  simp [permuteRows, List.foldl_append]

/-- Factorisation of the (row-permuted) matrix after `s` passes. -/
def Factored (a : Fin n → Fin n → ℝ) (s : Nat) (f : Lu n ℝ) : Prop :=
  ∀ r c, permuteRows f.p a r c = ∑ k, low s f.packed r k * upp s f.packed k c

theorem factored_zero (a : Fin n → Fin n → ℝ) : Factored a 0 ⟨a, []⟩ := by
  intro r c
  simp [permuteRows, low, upp]

theorem factored_swap {a : Fin n → Fin n → ℝ} {s : Nat} {f : Lu n ℝ} (h : Factored a s f) (i j : Fin n)
    (hi : s ≤ i) (hj : s ≤ j) : Factored a s ⟨swapRows f.packed i j, f.p ++ [(i, j)]⟩ := by
  intro r c
  have hσ : ∀ k : Fin n, (k : ℕ) < s → Equiv.swap i j k = k := fun k hk =>
    Equiv.swap_apply_of_ne_of_ne (by rintro rfl; omega) (by rintro rfl; omega)
  have hσ' : ∀ k : Fin n, s ≤ (k : ℕ) → s ≤ (Equiv.swap i j k : ℕ) := by
    intro k hk
    rw [Equiv.swap_apply_def]
    split_ifs <;> assumption
  simp only [permute_append, swapRows_eq]
  rw [h, ← Equiv.sum_comp (Equiv.swap i j)]
  refine Finset.sum_congr rfl fun k _ => ?_
  congr 1
  · unfold low
    simp only [EmbeddingLike.apply_eq_iff_eq, swapRows_eq]
    by_cases hk : (k : ℕ) < s
    · rw [hσ k hk]
      simp only [hk, true_and]
      by_cases hr : (r : ℕ) < s
      · rw [hσ r hr]
      · have : s ≤ (Equiv.swap i j r : ℕ) := hσ' r (not_lt.1 hr)
        have h1 : k < Equiv.swap i j r := Fin.lt_def.2 (by omega)
        have h2 : k < r := Fin.lt_def.2 (by omega)
        simp only [h1, h2, if_true]
    · have : ¬ (Equiv.swap i j k : ℕ) < s := not_lt.2 (hσ' k (not_lt.1 hk))
      simp only [hk, this, false_and, if_false]
  · unfold upp
    simp only [swapRows_eq]
    by_cases hc : (c : ℕ) < s
    · simp only [hc, true_and]
      by_cases hk : (k : ℕ) < s
      · rw [hσ k hk]
      · have : s ≤ (Equiv.swap i j k : ℕ) := hσ' k (not_lt.1 hk)
        have h1 : c < Equiv.swap i j k := Fin.lt_def.2 (by omega)
        have h2 : c < k := Fin.lt_def.2 (by omega)
        simp only [h1, h2, if_true]
    · simp only [hc, false_and]

/-- Nothing to eliminate: the column is already zero below. -/
theorem factored_skip {a : Fin n → Fin n → ℝ} {i : Fin n} {f : Lu n ℝ} (h : Factored a i f)
    (hz : ∀ r, i ≤ r → f.packed r i = 0) : Factored a (i + 1) f := by
  intro r c
  rw [h]
  refine Finset.sum_congr rfl fun k _ => ?_
  congr 1
  · unfold low
    by_cases hk : k = i
    · subst hk
      by_cases hr : k < r
      · simp [hz r hr.le]
      · simp [hr]
    · have : (k : ℕ) ≠ i := fun e => hk (Fin.ext e)
      have : ((k : ℕ) < i + 1) ↔ (k : ℕ) < i := by omega
      simp only [this]
  · unfold upp
    by_cases hc : c = i
    · subst hc
      by_cases hr : c < k
      · simp [hz k hr.le]
      · simp [hr]
    · have : (c : ℕ) ≠ i := fun e => hc (Fin.ext e)
      have : ((c : ℕ) < i + 1) ↔ (c : ℕ) < i := by omega
      simp only [this]

theorem factored_gauss {a : Fin n → Fin n → ℝ} {i : Fin n} {f : Lu n ℝ} (h : Factored a i f)
    (hd : f.packed i i ≠ 0) : Factored a (i + 1) ⟨gaussStep f.packed (f.packed i i) i, f.p⟩ := by
  intro r c
  rw [h]
  set m := f.packed
  set g := gaussStep m (m i i) i with hg
  have low_top : ∀ r k : Fin n, r ≤ i → low (i + 1) g r k = low i m r k := by
    intro r k hr
    have : ¬ i < r := not_lt.2 hr
    unfold low
    by_cases hk : k < r
    · have h1 : (k : ℕ) < i := by
        have := Fin.lt_def.1 hk; have := Fin.le_def.1 hr; omega
      have h2 : (k : ℕ) < i + 1 := by omega
      simp only [h1, h2, hk, hg, gaussStep, this, if_false]
    · simp only [hk, and_false, if_false]
  have low_left : ∀ r k : Fin n, k < i → low (i + 1) g r k = low i m r k := by
    intro r k hk
    have h1 : (k : ℕ) < i := Fin.lt_def.1 hk
    have h2 : (k : ℕ) < i + 1 := by omega
    have h3 : k ≠ i := hk.ne
    have h4 : ¬ i < k := hk.not_gt
    unfold low
    simp only [h1, h2, true_and, hg, gaussStep, h3, h4, if_false, ite_self]
  have low_right : ∀ r k : Fin n, i < k → low (i + 1) g r k = low i m r k := by
    intro r k hk
    have h1 : ¬ (k : ℕ) < i := by have := Fin.lt_def.1 hk; omega
    have h2 : ¬ (k : ℕ) < i + 1 := by have := Fin.lt_def.1 hk; omega
    unfold low
    simp only [h1, h2, false_and, if_false]
  have upp_top : ∀ k c : Fin n, k ≤ i → upp (i + 1) g k c = upp i m k c := by
    intro k c hk
    have : ¬ i < k := not_lt.2 hk
    unfold upp
    by_cases hc : c < k
    · have h1 : (c : ℕ) < i := by
        have := Fin.lt_def.1 hc; have := Fin.le_def.1 hk; omega
      have h2 : (c : ℕ) < i + 1 := by omega
      simp only [h1, h2, hc, and_self, if_true]
    · simp only [hc, and_false, hg, gaussStep, this, if_false]
  by_cases hr : r ≤ i
  · refine Finset.sum_congr rfl fun k _ => ?_
    rw [low_top r k hr]
    by_cases hk : k ≤ i
    · rw [upp_top k c hk]
    · have h1 : low i m r k = 0 := by
        have h2 : k ≠ r := by rintro rfl; exact hk hr
        have h3 : ¬ k < r := fun h => hk (h.le.trans hr)
        simp only [low, h2, h3, and_false, if_false]
      rw [h1, zero_mul, zero_mul]
  · have hir : i < r := not_le.1 hr
    rw [← sub_eq_zero, ← Finset.sum_sub_distrib]
    rw [Finset.sum_eq_add i r hir.ne]
    · rw [upp_top i c le_rfl]
      have h1 : low i m r i = 0 := by
        simp only [low, hir.ne, lt_irrefl, false_and, if_false]
      have h2 : low (i + 1) g r i = m r i * (1 / m i i) := by
        simp only [low, hir.ne, Nat.lt_succ_self, hir, and_self, if_true, if_false, hg, gaussStep]
        norm_num
      have h3 : low i m r r = 1 := by simp [low]
      have h4 : low (i + 1) g r r = 1 := by simp [low]
      rw [h1, h2, h3, h4]
      rcases lt_trichotomy c i with hc | hc | hc
      · have e1 : (c : ℕ) < i := Fin.lt_def.1 hc
        have e2 : (c : ℕ) < i + 1 := by omega
        simp [upp, e1, e2, hc, hc.trans hir]
      · subst hc
        simp [upp, hir, hd]
      · have e1 : ¬ (c : ℕ) < i := by have := Fin.lt_def.1 hc; omega
        have e2 : ¬ (c : ℕ) < i + 1 := by have := Fin.lt_def.1 hc; omega
        have e3 : c ≠ i := hc.ne'
        simp only [upp, e1, e2, false_and, if_false, hg, gaussStep, hir, hc, e3, if_true]
        norm_num
        ring
    · intro k _ hk
      rcases lt_trichotomy k i with hki | hki | hki
      · rw [low_left r k hki, upp_top k c hki.le, sub_self]
      · exact absurd hki hk.1
      · rw [low_right r k hki]
        have h1 : ¬ (k : ℕ) < i := by have := Fin.lt_def.1 hki; omega
        simp only [low, hk.2, h1, false_and, if_false, zero_mul, sub_self]
    · intro hh; exact absurd (Finset.mem_univ _) hh
    · intro hh; exact absurd (Finset.mem_univ _) hh

theorem factored_step {a : Fin n → Fin n → ℝ} {i : Fin n} {f : Lu n ℝ} (h : Factored a i f) :
    Factored a (i + 1) (step f i) := by
  obtain ⟨hle, hmax⟩ := pivot_spec f.packed i
  unfold step
  simp only
  by_cases hz : isZero (f.packed (pivotRow f.packed i) i) = true
  · simp only [hz, if_true]
    rw [isZero_iff] at hz
    refine factored_skip h fun r hr => ?_
    have := hmax r hr
    rw [hz, abs_zero] at this
    exact abs_nonpos_iff.1 this
  · simp only [hz, Bool.false_eq_true, if_false]
    rw [isZero_iff] at hz
    by_cases hp : pivotRow f.packed i = i
    · simp only [hp, if_true]
      rw [hp] at hz
      exact factored_gauss h hz
    · simp only [hp, if_false]
      have h1 := factored_swap h i (pivotRow f.packed i) le_rfl hle
      have e : swapRows f.packed i (pivotRow f.packed i) i i = f.packed (pivotRow f.packed i) i := by
        simp [swapRows]
      have h2 := factored_gauss h1 (e.trans_ne hz)
      rw [← e]
      exact h2

theorem factored_to (a : Fin n → Fin n → ℝ) : ∀ k ≤ n, Factored a k (factorTo a k)
  | 0, _ => factored_zero a
  | k + 1, hk => by
    have hk' : k < n := hk
    have := factored_step (i := ⟨k, hk'⟩) (factored_to a k hk'.le)
    simp only [factorTo, hk', dite_true]
    exact this

/-- Forward substitution. -/
theorem forward_inv (m : Fin n → Fin n → ℝ) (b : Fin n → ℝ) : ∀ k ≤ n, ∀ r,
    ∑ t, low k m r t * forwardTo m b k t = b r
  | 0, _, r => by simp [low, forwardTo]
  | k + 1, hk, r => by
    have hk' : k < n := hk
    set i : Fin n := ⟨k, hk'⟩ with hi
    have hik : (i : ℕ) = k := rfl
    rw [← forward_inv m b k hk'.le r]
    have hf : forwardTo m b (k + 1) = fun r => if i < r then -forwardTo m b k i * m r i + forwardTo m b k r
        else forwardTo m b k r := by
      simp only [forwardTo, hk', dite_true]; rfl
    rw [hf]
    have hoff : ∀ t : Fin n, t ≠ i → low (k + 1) m r t = low k m r t := by
      intro t ht
      have : (t : ℕ) ≠ k := fun e => ht (Fin.ext e)
      have : ((t : ℕ) < k + 1) ↔ (t : ℕ) < k := by omega
      simp only [low, this]
    by_cases hir : i < r
    · rw [← sub_eq_zero, ← Finset.sum_sub_distrib, Finset.sum_eq_add i r hir.ne]
      · have h1 : low k m r i = 0 := by simp [low, hir.ne, hik]
        have h2 : low (k + 1) m r i = m r i := by simp [low, hir.ne, hir, hik]
        have h3 : ∀ s, low s m r r = 1 := fun s => by simp [low]
        simp only [h1, h2, h3, hir, lt_irrefl, if_true, if_false]
        ring
      · intro t _ ht
        rw [hoff t ht.1]
        by_cases hit : i < t
        · have : ¬ (t : ℕ) < k := by have := Fin.lt_def.1 hit; omega
          simp only [low, ht.2, this, false_and, if_false, zero_mul, sub_self]
        · simp only [hit, if_false, sub_self]
      · intro hh; exact absurd (Finset.mem_univ _) hh
      · intro hh; exact absurd (Finset.mem_univ _) hh
    · refine Finset.sum_congr rfl fun t _ => ?_
      by_cases ht : t = i
      · rw [ht]
        simp only [lt_irrefl, if_false]
        congr 1
        by_cases e : i = r
        · simp [low, e]
        · simp [low, e, hir]
      · rw [hoff t ht]
        by_cases hit : i < t
        · have h1 : t ≠ r := by rintro rfl; exact hir hit
          have h2 : ¬ t < r := fun h => hir (hit.trans h)
          simp only [low, h1, h2, and_false, if_false, zero_mul]
        · simp only [hit, if_false]

/-- Coefficients of the system the state of a backward substitution with `k` passes left stands for. -/
noncomputable def back (k : Nat) (m : Fin n → Fin n → ℝ) (r c : Fin n) : ℝ :=
  if c.val < k then (if c = r then 1 else 0) else (if c < r then 0 else m r c)

theorem backward_spec (m : Fin n → Fin n → ℝ) : ∀ k ≤ n, ∀ b : Fin n → ℝ,
    ((∃ r : Fin n, r.val < k ∧ m r r = 0) ∧ backward m k b = none) ∨
    ((∀ r : Fin n, r.val < k → m r r ≠ 0) ∧ ∃ x, backward m k b = some x ∧
      ∀ r, ∑ c, back 0 m r c * x c = ∑ c, back k m r c * b c)
  | 0, _, b => .inr ⟨by simp, b, rfl, fun _ => rfl⟩
  | k + 1, hk, b => by
    have hk' : k < n := hk
    set i : Fin n := ⟨k, hk'⟩ with hi
    have hik : (i : ℕ) = k := rfl
    have hb : backward m (k + 1) b = if isZero (m i i) = true then none else
        backward m k fun r => if r = i then b i / m i i else if r < i then -(b i / m i i) * m r i + b r
          else b r := by
      simp only [backward, hk', dite_true]; rfl
    rw [hb]
    by_cases hz : m i i = 0
    · exact .inl ⟨⟨i, by omega, hz⟩, by simp [(isZero_iff _).2 hz]⟩
    · have hz' : ¬ isZero (m i i) = true := fun h => hz ((isZero_iff _).1 h)
      simp only [hz']
      rcases backward_spec m k hk'.le (fun r => if r = i then b i / m i i else if r < i then
          -(b i / m i i) * m r i + b r else b r) with ⟨⟨r, hr, h0⟩, h⟩ | ⟨hd, x, h, hx⟩
      · exact .inl ⟨⟨r, by omega, h0⟩, h⟩
      · refine .inr ⟨fun r hr => ?_, x, h, fun r => ?_⟩
        · rcases Nat.lt_succ_iff_lt_or_eq.1 hr with h | h
          · exact hd r h
          · have : r = i := Fin.ext h
            rw [this]; exact hz
        · rw [hx r]
          have hoff : ∀ c : Fin n, c ≠ i → back (k + 1) m r c = back k m r c := by
            intro c hc
            have : (c : ℕ) ≠ k := fun e => hc (Fin.ext e)
            have : ((c : ℕ) < k + 1) ↔ (c : ℕ) < k := by omega
            simp only [back, this]
          have hii : back k m r i = if i < r then 0 else m r i := by simp [back, hik]
          have hii' : back (k + 1) m r i = if i = r then 1 else 0 := by simp [back, hik]
          by_cases hri : r < i
          · rw [← sub_eq_zero, ← Finset.sum_sub_distrib, Finset.sum_eq_add i r hri.ne']
            · have e1 : back k m r r = 1 := by
                have : (r : ℕ) < k := Fin.lt_def.1 hri
                simp [back, this]
              rw [hoff r hri.ne, hii, hii', e1]
              simp only [hri, hri.not_gt, hri.ne, hri.ne', if_true, if_false]
              ring
            · intro c _ hc
              rw [hoff c hc.1]
              simp only [hc.1, if_false]
              by_cases hci : c < i
              · have : (c : ℕ) < k := Fin.lt_def.1 hci
                simp only [back, this, hc.2, if_true, if_false, zero_mul, sub_self]
              · simp only [hci, if_false, sub_self]
            · intro hh; exact absurd (Finset.mem_univ _) hh
            · intro hh; exact absurd (Finset.mem_univ _) hh
          · refine Finset.sum_congr rfl fun c _ => ?_
            by_cases hc : c = i
            · rw [hc, hii, hii']
              simp only [if_true]
              by_cases e : i = r
              · subst e
                simp only [lt_irrefl, if_false, if_true]
                field_simp
              · have : i < r := lt_of_le_of_ne (not_lt.1 hri) e
                simp [this, e]
            · rw [hoff c hc]
              simp only [hc, if_false]
              by_cases hci : c < i
              · have h1 : (c : ℕ) < k := Fin.lt_def.1 hci
                have h2 : c ≠ r := by rintro rfl; exact hri hci
                simp only [back, h1, h2, if_true, if_false, zero_mul]
              · simp only [hci, if_false]

theorem back_zero (m : Fin n → Fin n → ℝ) (r c : Fin n) : back 0 m r c = upp n m r c := by
  simp [back, upp]

theorem back_full (m : Fin n → Fin n → ℝ) (b : Fin n → ℝ) (r : Fin n) :
    ∑ c, back n m r c * b c = b r := by
  simp [back]

theorem permute_mulVec (p : List (Fin n × Fin n)) (a : Fin n → Fin n → ℝ) (x : Fin n → ℝ) :
    permuteRows p (fun r => ∑ c, a r c * x c) = fun r => ∑ c, permuteRows p a r c * x c := by
  induction p using List.reverseRecOn with
  | nil => rfl
  | append_singleton p ij ih =>
    obtain ⟨i, j⟩ := ij
    rw [permute_append, permute_append, ih]
    funext r
    simp only [swapRows_eq]

theorem permute_injective {β : Type} (p : List (Fin n × Fin n)) {b b' : Fin n → β}
    (h : permuteRows p b = permuteRows p b') : b = b' := by
  induction p using List.reverseRecOn with
  | nil => exact h
  | append_singleton p ij ih =>
    obtain ⟨i, j⟩ := ij
    rw [permute_append, permute_append] at h
    apply ih
    funext r
    have := congrFun h (Equiv.swap i j r)
    simpa [swapRows_eq] using this

theorem upp_det (m : Fin n → Fin n → ℝ) : (Matrix.of (upp n m)).det = ∏ r, m r r := by
  rw [Matrix.det_of_isUpperTriangular]
  · simp [upp]
  · intro r c h
    have h' : c < r := h
    simp [upp, h']

theorem low_det (m : Fin n → Fin n → ℝ) : (Matrix.of (low n m)).det = 1 := by
  rw [Matrix.det_of_isLowerTriangular]
  · simp [low]
  · intro r c h
    have h' : r < c := h
    have h1 : c ≠ r := h'.ne'
    have h2 : ¬ c < r := h'.not_gt
    simp [low, h1, h2]

theorem permute_det (p : List (Fin n × Fin n)) (a : Fin n → Fin n → ℝ) :
    (Matrix.of (permuteRows p a)).det ≠ 0 ↔ (Matrix.of a).det ≠ 0 := by
  induction p using List.reverseRecOn with
  | nil => rfl
  | append_singleton p ij ih =>
    obtain ⟨i, j⟩ := ij
    rw [← ih, permute_append]
    have : Matrix.of (swapRows (permuteRows p a) i j)
        = (Matrix.of (permuteRows p a)).submatrix (Equiv.swap i j) id := by
      ext r c
      simp [swapRows_eq]
    rw [this, Matrix.det_permute]
    simp

/-- The product of the pivots vanishes exactly with the determinant. -/
theorem pivots_iff (a : Fin n → Fin n → ℝ) :
    (∀ r, (factorTo a n).packed r r ≠ 0) ↔ (Matrix.of a).det ≠ 0 := by
  rw [← permute_det (factorTo a n).p a]
  have h : Matrix.of (permuteRows (factorTo a n).p a)
      = Matrix.of (low n (factorTo a n).packed) * Matrix.of (upp n (factorTo a n).packed) := by
    ext r c
    rw [Matrix.mul_apply]
    exact factored_to a n le_rfl r c
  rw [h, Matrix.det_mul, low_det, upp_det, one_mul, Finset.prod_ne_zero_iff]
  simp

/-- What `solve` does in exact arithmetic. -/
theorem solve_spec (a : Fin n → Fin n → ℝ) (b : Fin n → ℝ) :
    ((Matrix.of a).det = 0 ∧ solve a b = none) ∨
    ((Matrix.of a).det ≠ 0 ∧ ∃ x, solve a b = some x ∧ ∀ r, ∑ c, a r c * x c = b r) := by
  set f := factorTo a n with hf
  rcases backward_spec f.packed n le_rfl (forwardTo f.packed (permuteRows f.p b) n) with
    ⟨⟨r, -, hr⟩, h⟩ | ⟨hd, x, h, hx⟩
  · refine .inl ⟨?_, h⟩
    by_contra hne
    exact (pivots_iff a).2 hne r hr
  · refine .inr ⟨(pivots_iff a).1 fun r => hd r r.2, x, h, ?_⟩
    have : permuteRows f.p (fun r => ∑ c, a r c * x c) = permuteRows f.p b := by
      rw [permute_mulVec]
      funext r
      rw [← forward_inv f.packed (permuteRows f.p b) n le_rfl r]
      have hx' : ∀ k, ∑ c, upp n f.packed k c * x c = forwardTo f.packed (permuteRows f.p b) n k := by
        intro k
        rw [← back_full f.packed (forwardTo f.packed (permuteRows f.p b) n) k, ← hx k]
        simp only [back_zero]
      have hp : ∀ c, permuteRows f.p a r c = ∑ k, low n f.packed r k * upp n f.packed k c :=
        factored_to a n le_rfl r
      simp only [← hx', Finset.mul_sum, hp, Finset.sum_mul]
      rw [Finset.sum_comm]
      simp only [mul_assoc]
    exact fun r => congrFun (permute_injective _ this) r

end Sett.lu
