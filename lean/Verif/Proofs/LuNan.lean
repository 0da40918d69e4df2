import Verif.Proofs.LuError
import Verif.Proofs.MachineOrder
import Verif.Proofs.Dopri5Ieee

/-! # NaN and infinities in elimination and substitution -/

namespace Sett.lu

open Float64 Raw

variable {L : Libm} {n : Nat}

/-! ## Substitution -/

/-- A property of machine numbers that no operation of the substitutions removes. -/
structure Stains (Bad : F64 L → Prop) : Prop where
  neg {a} : Bad a → Bad (-a)
  mul {a} (b) : Bad a → Bad (a * b)
  mul' (a) {b : F64 L} : b.raw = nan → Bad (a * b)
  add {a} (b) : Bad a → Bad (a + b)
  add' (a) {b} : Bad b → Bad (a + b)
  div {a} (b) : Bad a → Bad (a / b)
  div' (a) {b : F64 L} : b.raw = nan → Bad (a / b)

theorem stains_nan : Stains (fun x : F64 L => x.raw = nan) where
  neg {a} h := show Raw.neg a.raw = nan by rw [h]; rfl
  mul {a} b h := show Raw.mul a.raw b = nan by rw [h]; exact Raw.nan_mul b
  mul' a b h := show Raw.mul a b.raw = nan by rw [h]; exact Raw.mul_nan a
  add {a} b h := show Raw.add a.raw b = nan by rw [h]; exact Raw.nan_add b
  add' a b h := show Raw.add a b.raw = nan by rw [h]; exact Raw.add_nan a
  div {a} b h := show Raw.div a.raw b = nan by rw [h]; exact Raw.nan_div b
  div' a b h := show Raw.div a b.raw = nan by rw [h]; exact Raw.div_nan a

theorem not_ok_nan {x : F64 L} (h : x.raw = nan) : ¬ok x := by unfold ok; rw [h]; exact id

theorem stains_infinite : Stains (fun x : F64 L => ¬ok x) where
  neg h := fun g => h (ok_neg.1 g)
  mul _ h := fun g => h (Float64.mul_inv g).1
  mul' _ _ h := fun g => not_ok_nan h (Float64.mul_inv g).2.1
  add _ h := fun g => h (Float64.add_inv g).1
  add' _ _ h := fun g => h (Float64.add_inv g).2.1
  div _ h := fun g => h (Float64.div_inv g)
  div' _ _ h := fun g => (Raw.div_inv g).2 h

variable {Bad : F64 L → Prop}

theorem forward_stained (hB : Stains Bad) (m : Fin n → Fin n → F64 L) (b : Fin n → F64 L)
    (h : (∃ r, Bad (b r)) ∨ ∃ r c, c < r ∧ (m r c).raw = nan) : ∀ k ≤ n,
    (∃ r : Fin n, (k ≤ r ∨ r.val + 1 = n) ∧ Bad (forwardTo m b k r)) ∨
      ∃ r c : Fin n, k ≤ c ∧ c < r ∧ (m r c).raw = nan := by
  intro k
  induction k with
  | zero =>
    intro _
    rcases h with ⟨r, hr⟩ | ⟨r, c, h1, h2⟩
    · exact .inl ⟨r, .inl (Nat.zero_le _), hr⟩
    · exact .inr ⟨r, c, Nat.zero_le _, h1, h2⟩
  | succ k ih =>
    intro hk
    have hk' : k < n := hk
    rcases ih hk'.le with ⟨r, h1, h2⟩ | ⟨r, c, h1, h2, h3⟩
    · refine .inl ?_
      by_cases hkr : k < r
      · refine ⟨r, .inl hkr, ?_⟩
        simp only [forwardTo, dif_pos hk', if_pos (show (⟨k, hk'⟩ : Fin n) < r from hkr)]
        exact hB.add' _ h2
      · rcases Nat.lt_or_ge (k + 1) n with hn | hn
        · have hkr' : r = ⟨k, hk'⟩ := by
            apply Fin.ext
            show r.val = k
            rcases h1 with h1 | h1 <;> omega
          subst hkr'
          refine ⟨⟨k + 1, hn⟩, .inl le_rfl, ?_⟩
          simp only [forwardTo, dif_pos hk', if_pos (show (⟨k, hk'⟩ : Fin n) < ⟨k + 1, hn⟩ from Nat.lt_succ_self k)]
          exact hB.add _ (hB.mul _ (hB.neg h2))
        · have hr : r.val + 1 = n := by
            have := r.2
            rcases h1 with h1 | h1 <;> omega
          refine ⟨r, .inr hr, ?_⟩
          simp only [forwardTo, dif_pos hk', if_neg (show ¬(⟨k, hk'⟩ : Fin n) < r from hkr)]
          exact h2
    · rcases Nat.eq_or_lt_of_le h1 with h1 | h1
      · have hc : c = ⟨k, hk'⟩ := Fin.ext h1.symm
        subst hc
        refine .inl ⟨r, .inl h2, ?_⟩
        simp only [forwardTo, dif_pos hk', if_pos h2]
        exact hB.add _ (hB.mul' _ h3)
      · exact .inr ⟨r, c, h1, h2, h3⟩

/-- After forward substitution the last entry is stained. -/
theorem forward_last (hB : Stains Bad) (m : Fin n → Fin n → F64 L) (b : Fin n → F64 L)
    (h : (∃ r, Bad (b r)) ∨ ∃ r c, c < r ∧ (m r c).raw = nan) :
    ∃ r : Fin n, r.val + 1 = n ∧ Bad (forwardTo m b n r) := by
  rcases forward_stained hB m b h n le_rfl with ⟨r, h1, h2⟩ | ⟨r, c, h1, h2, -⟩
  · have := r.2
    exact ⟨r, by rcases h1 with h1 | h1 <;> omega, h2⟩
  · have := c.2
    omega

theorem backward_nonzero (m : Fin n → Fin n → F64 L) : ∀ k ≤ n, ∀ b x, backward m k b = some x →
    ∀ j : Fin n, j < k → isZero (m j j) = false := by
  intro k
  induction k with
  | zero => intro _ b x _ j hj; omega
  | succ k ih =>
    intro hk b x h j hj
    have hk' : k < n := hk
    simp only [backward, dif_pos hk'] at h
    split at h
    · cases h
    · rename_i hz
      rcases Nat.eq_or_lt_of_le (Nat.le_of_lt_succ hj) with hj | hj
      · have : j = ⟨k, hk'⟩ := Fin.ext hj
        rw [this]
        simpa using hz
      · exact ih hk'.le _ _ h j hj

/-- If every entry from `k` on is stained and one of these exists, back substitution stains all. -/
theorem backward_all (hB : Stains Bad) (m : Fin n → Fin n → F64 L) : ∀ k ≤ n, ∀ b x,
    backward m k b = some x → (∀ r : Fin n, k ≤ r + 1 → Bad (b r)) → ∀ r, Bad (x r) := by
  intro k
  induction k with
  | zero =>
    intro _ b x h hb r
    simp only [backward, Option.some.injEq] at h
    rw [← h]
    exact hb r (Nat.zero_le _)
  | succ k ih =>
    intro hk b x h hb
    have hk' : k < n := hk
    simp only [backward, dif_pos hk'] at h
    split at h
    · cases h
    · refine ih hk'.le _ _ h fun r hr => ?_
      have hc : Bad (b ⟨k, hk'⟩ / m ⟨k, hk'⟩ ⟨k, hk'⟩) := hB.div _ (hb _ le_rfl)
      by_cases h1 : r = ⟨k, hk'⟩
      · simp only [if_pos h1]; exact hc
      · by_cases h2 : r < ⟨k, hk'⟩
        · simp only [if_neg h1, if_pos h2]
          exact hB.add _ (hB.mul _ (hB.neg hc))
        · simp only [if_neg h1, if_neg h2]
          apply hb
          have h3 : k ≤ r.val := not_lt.1 h2
          have h4 : r.val ≠ k := fun g => h1 (Fin.ext g)
          omega

/-- A stain in the last entry, or NaN as last pivot, spreads to all unknowns. -/
theorem backward_last (hB : Stains Bad) (m : Fin n → Fin n → F64 L) (b x : Fin n → F64 L)
    (h : backward m n b = some x) (l : Fin n) (hl : l.val + 1 = n) (hb : Bad (b l) ∨ (m l l).raw = nan) :
    ∀ r, Bad (x r) := by
  obtain ⟨k, rfl⟩ : ∃ k, n = k + 1 := ⟨l.val, hl.symm⟩
  have e : l = ⟨k, Nat.lt_succ_self k⟩ := Fin.ext (Nat.succ.inj hl)
  subst e
  have h0 := h
  simp only [backward, dif_pos (Nat.lt_succ_self k)] at h
  split at h
  · cases h
  · refine backward_all hB m k (Nat.le_succ k) _ _ h fun r hr => ?_
    have hc : Bad (b ⟨k, Nat.lt_succ_self k⟩ / m ⟨k, Nat.lt_succ_self k⟩ ⟨k, Nat.lt_succ_self k⟩) := by
      rcases hb with hb | hb
      · exact hB.div _ hb
      · exact hB.div' _ hb
    by_cases h1 : r = ⟨k, Nat.lt_succ_self k⟩
    · simp only [if_pos h1]; exact hc
    · have h2 : r < ⟨k, Nat.lt_succ_self k⟩ :=
        lt_of_le_of_ne (Nat.le_of_lt_succ r.2) h1
      simp only [if_neg h1, if_pos h2]
      exact hB.add _ (hB.mul _ (hB.neg hc))

/-! ## Elimination -/

theorem isZero_nan {x : F64 L} (h : x.raw = nan) : isZero x = false := by
  have : Scalar.le x 0.0 = false := show Raw.le x.raw _ = false by rw [h]; exact Raw.nan_le _
  show (Scalar.le x 0.0 && _) = false
  rw [this]; rfl

/-- When the pivot found is zero, the entry on the diagonal is. -/
theorem pivot_zero (m : Fin n → Fin n → F64 L) (i : Fin n) (h : isZero (m (pivotRow m i) i) = true) :
    isZero (m i i) = true := by
  have key : ∀ (l : List (Fin n)) (b : Fin n),
      (b = i ∨ ∃ a, Scalar.lt (Scalar.abs (m a i)) (Scalar.abs (m b i)) = true) →
      let p := l.foldl (fun best r => if i < r ∧
        Scalar.lt (Scalar.abs (m best i)) (Scalar.abs (m r i)) = true then r else best) b
      (p = i ∨ ∃ a, Scalar.lt (Scalar.abs (m a i)) (Scalar.abs (m p i)) = true) := by
    intro l
    induction l with
    | nil => exact fun _ h => h
    | cons a l ih =>
      intro b hb
      rw [List.foldl_cons]
      apply ih
      split
      · next h => exact .inr ⟨b, h.2⟩
      · exact hb
  rcases key (List.finRange n) i (.inl rfl) with g | ⟨a, g⟩
  · have g : pivotRow m i = i := g
    rw [g] at h
    exact h
  · exfalso
    have g : Scalar.lt (Scalar.abs (m a i)) (Scalar.abs (m (pivotRow m i) i)) = true := g
    generalize m (pivotRow m i) i = v at g h
    generalize m a i = u at g
    unfold isZero at h
    rw [Bool.and_eq_true, ieee_zero] at h
    obtain ⟨h1, h2⟩ := h
    have g : Raw.lt (Raw.abs u) (Raw.abs v) = true := g
    have h1 : Raw.le v (zero false) = true := h1
    have h2 : Raw.le (zero false) v = true := h2
    obtain ⟨hv, -⟩ := ne_nan_of_le h1
    have h1 := (le_V hv (by rintro ⟨⟩)).1 h1
    have h2 := (le_V (by rintro ⟨⟩) hv).1 h2
    rw [V_zero] at h1 h2
    have hv0 : V v = 0 := le_antisymm h1 h2
    cases v with
    | nan => exact hv rfl
    | inf s => cases s <;> simp at hv0
    | zero s =>
      have hu : u ≠ nan := by
        rintro rfl
        rw [show Raw.abs nan = nan from rfl, Raw.nan_lt] at g
        cases g
      have hau : Raw.abs u ≠ nan := by
        cases u with
        | nan => exact absurd rfl hu
        | _ => rintro ⟨⟩
      have := (lt_V hau (by rintro ⟨⟩)).1 g
      rw [show Raw.abs (zero s) = zero false from rfl, V_zero] at this
      exact absurd this (not_lt.2 (V_nonneg (sign_of_abs u)))
    | fin x hx =>
      rw [V_fin] at hv0
      exact hx.2 (by exact_mod_cast hv0)

/-- Where NaN has got to after the first `k` passes of the elimination, or that it met a zero pivot. -/
def Spoilt (k : Nat) (m : Fin n → Fin n → F64 L) : Prop :=
  (∃ r c : Fin n, k ≤ r ∧ k ≤ c ∧ (m r c).raw = nan) ∨
  (∃ r c : Fin n, c < r ∧ c < k ∧ (m r c).raw = nan) ∨
  (∃ j : Fin n, j < k ∧ isZero (m j j) = true) ∨
  ∃ j : Fin n, j < k ∧ j.val + 1 = n ∧ (m j j).raw = nan

theorem Equiv_swap_twice (i j r : Fin n) : Equiv.swap i j (Equiv.swap i j r) = r := by
  rw [← Equiv.trans_apply, Equiv.swap_swap]; rfl

theorem spoilt_swap {m : Fin n → Fin n → F64 L} {i j : Fin n} (hij : i ≤ j) (h : Spoilt i m) :
    Spoilt i (swapRows m i j) := by
  rcases h with ⟨r, c, h1, h2, h3⟩ | ⟨r, c, h1, h2, h3⟩ | ⟨k, h1, h2⟩ | ⟨k, h1, h2, h3⟩
  · refine .inl ⟨Equiv.swap i j r, c, swap_ge hij h1, h2, ?_⟩
    rw [swapRows_eq, Equiv_swap_twice]
    exact h3
  · refine .inr (.inl ⟨Equiv.swap i j r, c, ?_, h2, ?_⟩)
    · rcases lt_or_ge r i with hr | hr
      · rw [swap_lt hij hr]; exact h1
      · exact lt_of_lt_of_le h2 (swap_ge hij hr)
    · rw [swapRows_eq, Equiv_swap_twice]
      exact h3
  · refine .inr (.inr (.inl ⟨k, h1, ?_⟩))
    rw [swapRows_eq, swap_lt hij h1]
    exact h2
  · refine .inr (.inr (.inr ⟨k, h1, h2, ?_⟩))
    rw [swapRows_eq, swap_lt hij h1]
    exact h3

theorem spoilt_gauss {m : Fin n → Fin n → F64 L} {i : Fin n} {d : F64 L} (hd : d = m i i) (h : Spoilt i m) :
    Spoilt (i + 1) (gaussStep m d i) := by
  have N := stains_nan (L := L)
  rcases h with ⟨r, c, h1, h2, h3⟩ | ⟨r, c, h1, h2, h3⟩ | ⟨k, h1, h2⟩ | ⟨k, h1, h2, h3⟩
  · rcases Nat.eq_or_lt_of_le h1 with h1 | h1
    · have hr : r = i := Fin.ext h1.symm
      subst hr
      rcases Nat.lt_or_ge (r + 1) n with hn | hn
      · have hlt : r < (⟨r + 1, hn⟩ : Fin n) := Nat.lt_succ_self _
        rcases Nat.eq_or_lt_of_le h2 with h2 | h2
        · have hc : c = r := Fin.ext h2.symm
          subst hc
          refine .inr (.inl ⟨⟨c + 1, hn⟩, c, hlt, Nat.lt_succ_self _, ?_⟩)
          simp only [gaussStep, if_pos hlt, if_true]
          exact N.mul' _ (N.div' _ (hd.trans h3))
        · refine .inl ⟨⟨r + 1, hn⟩, c, le_rfl, h2, ?_⟩
          have hcr : c ≠ r := fun g => by rw [g] at h2; exact lt_irrefl _ h2
          simp only [gaussStep, if_pos hlt, if_neg hcr, if_pos (show r < c from h2)]
          exact N.add _ (N.mul _ (N.neg h3))
      · have hc : c = r := Fin.ext (by have := c.2; omega)
        subst hc
        refine .inr (.inr (.inr ⟨c, Nat.lt_succ_self _, by have := c.2; omega, ?_⟩))
        simp only [gaussStep, if_neg (lt_irrefl c)]
        exact h3
    · have hlt : i < r := h1
      rcases Nat.eq_or_lt_of_le h2 with h2 | h2
      · have hc : c = i := Fin.ext h2.symm
        subst hc
        refine .inr (.inl ⟨r, c, h1, Nat.lt_succ_self _, ?_⟩)
        simp only [gaussStep, if_pos hlt, if_true]
        exact N.mul _ h3
      · refine .inl ⟨r, c, h1, h2, ?_⟩
        have hcr : c ≠ i := fun g => by rw [g] at h2; exact lt_irrefl _ h2
        simp only [gaussStep, if_pos hlt, if_neg hcr, if_pos (show i < c from h2)]
        exact N.add' _ h3
  · refine .inr (.inl ⟨r, c, h1, Nat.lt_succ_of_lt h2, ?_⟩)
    have hci : c < i := h2
    simp only [gaussStep, if_neg hci.ne, if_neg (not_lt.2 hci.le), ite_self]
    exact h3
  · refine .inr (.inr (.inl ⟨k, Nat.lt_succ_of_lt h1, ?_⟩))
    have hki : k < i := h1
    simp only [gaussStep, if_neg (not_lt.2 hki.le)]
    exact h2
  · refine .inr (.inr (.inr ⟨k, Nat.lt_succ_of_lt h1, h2, ?_⟩))
    have hki : k < i := h1
    simp only [gaussStep, if_neg (not_lt.2 hki.le)]
    exact h3

theorem spoilt_step {f : Lu n (F64 L)} {i : Fin n} (h : Spoilt i f.packed) :
    Spoilt (i + 1) (step f i).packed := by
  unfold step
  simp only
  split
  · rename_i hz
    exact .inr (.inr (.inl ⟨i, Nat.lt_succ_self _, pivot_zero _ _ hz⟩))
  · split
    · rename_i hp
      exact spoilt_gauss (by rw [hp]) h
    · refine spoilt_gauss ?_ (spoilt_swap (pivot_ge _ _) h)
      rw [swapRows_eq, Equiv.swap_apply_left]

theorem spoilt_to {a : Fin n → Fin n → F64 L} (h : ∃ r c, (a r c).raw = nan) :
    ∀ k ≤ n, Spoilt k (factorTo a k).packed := by
  intro k
  induction k with
  | zero =>
    intro _
    obtain ⟨r, c, h⟩ := h
    exact .inl ⟨r, c, Nat.zero_le _, Nat.zero_le _, h⟩
  | succ k ih =>
    intro hk
    have hk' : k < n := hk
    rw [factorTo, dif_pos hk']
    exact spoilt_step (i := ⟨k, hk'⟩) (ih hk'.le)

theorem permute_bad {p : List (Fin n × Fin n)} {b : Fin n → F64 L} (h : ∃ r, Bad (b r)) :
    ∃ r, Bad (permuteRows p b r) := by
  induction p generalizing b with
  | nil => exact h
  | cons ij p ih =>
    obtain ⟨r, h⟩ := h
    refine ih (b := swapRows b ij.1 ij.2) ⟨Equiv.swap ij.1 ij.2 r, ?_⟩
    rw [swapRows_eq, Equiv_swap_twice]
    exact h

/-- NaN among the coefficients or on the right stains every unknown with NaN. -/
theorem solve_nan {a : Fin n → Fin n → F64 L} {b x : Fin n → F64 L} (h : solve a b = some x)
    (hn : (∃ r c, (a r c).raw = nan) ∨ ∃ r, (b r).raw = nan) : ∀ r, (x r).raw = nan := by
  have N := stains_nan (L := L)
  unfold solve at h
  simp only at h
  have hnz := backward_nonzero _ n le_rfl _ _ h
  rcases hn with hn | hn
  · rcases spoilt_to hn n le_rfl with ⟨r, c, h1, -, -⟩ | ⟨r, c, h1, -, h3⟩ | ⟨j, h1, h2⟩ | ⟨j, h1, h2, h3⟩
    · exact absurd r.2 (not_lt.2 h1)
    · obtain ⟨l, hl, hb⟩ := forward_last N (factorTo a n).packed (permuteRows (factorTo a n).p b)
        (.inr ⟨r, c, h1, h3⟩)
      exact backward_last N _ _ _ h l hl (.inl hb)
    · rw [hnz j h1] at h2
      cases h2
    · exact backward_last N _ _ _ h j h2 (.inr h3)
  · obtain ⟨l, hl, hb⟩ := forward_last N (factorTo a n).packed (permuteRows (factorTo a n).p b)
      (.inl (permute_bad (Bad := fun x : F64 L => x.raw = nan) hn))
    exact backward_last N _ _ _ h l hl (.inl hb)

/-- NaN or an infinity on the right leaves no unknown finite. -/
theorem solve_infinite {a : Fin n → Fin n → F64 L} {b x : Fin n → F64 L} (h : solve a b = some x)
    (hn : ∃ r, ¬ok (b r)) : ∀ r, ¬ok (x r) := by
  have N := stains_infinite (L := L)
  unfold solve at h
  simp only at h
  obtain ⟨l, hl, hb⟩ := forward_last N (factorTo a n).packed (permuteRows (factorTo a n).p b)
    (.inl (permute_bad (Bad := fun x : F64 L => ¬ok x) hn))
  exact backward_last N _ _ _ h l hl (.inl hb)

end Sett.lu
