import Mathlib.Data.Real.Basic
import Mathlib.Tactic.Linarith
import Mathlib.Tactic.Ring

/-! # The direction search as iteration on a line with two kinks

`pc` and `pe` are the pressure rates at which the flow out of the compression space and into the
expansion space reverse; `α, ε` the conductances of the two spaces for assumed directions, `K` the
compliance of the exchangers. -/

namespace Sett.Search

/-- `p` is the pressure rate for the assumed conductances. -/
def Root (K pc pe α ε p : ℝ) : Prop := α * (pc - p) - ε * (p - pe) = K * p

variable {K pc pe : ℝ}

/-- One hypothesis cannot put the rate at or below both kinks and another above both. -/
theorem exclusive (hK : 0 ≤ K) {α ε p α' ε' q : ℝ} (hα : 0 < α) (hε : 0 < ε) (hα' : 0 < α')
    (hε' : 0 < ε') (hp : Root K pc pe α ε p) (hq : Root K pc pe α' ε' q) (h : p < q)
    (h1 : p ≤ pc) (h2 : p ≤ pe) (h3 : pc ≤ q) (h4 : pe ≤ q) : False := by
  unfold Root at hp hq
  have a1 := mul_nonneg hα.le (sub_nonneg.2 h1)
  have a2 := mul_nonneg hε.le (sub_nonneg.2 h2)
  have a3 := mul_nonneg hα'.le (sub_nonneg.2 h3)
  have a4 := mul_nonneg hε'.le (sub_nonneg.2 h4)
  have a5 := mul_nonneg hK (sub_nonneg.2 h.le)
  have b1 : α * (pc - p) = 0 := by nlinarith
  have b3 : α' * (q - pc) = 0 := by nlinarith
  have c1 : pc - p = 0 := (mul_eq_zero.1 b1).resolve_left hα.ne'
  have c3 : q - pc = 0 := (mul_eq_zero.1 b3).resolve_left hα'.ne'
  linarith

/-- Two hypotheses with rates `p < q` differ in the conductance of a space whose flow has the same sign
for both. -/
theorem differ (hK : 0 ≤ K) {α ε p α' ε' q : ℝ} (hα : 0 < α) (hε : 0 < ε) (hα' : 0 < α')
    (hε' : 0 < ε') (hp : Root K pc pe α ε p) (hq : Root K pc pe α' ε' q) (h : p < q)
    (h1 : α = α' ∨ (p ≤ pc ∧ pc < q)) (h2 : ε = ε' ∨ (p < pe ∧ pe ≤ q)) : False := by
  unfold Root at hp hq
  have a5 := mul_nonneg hK (sub_nonneg.2 h.le)
  have a6 := mul_pos hα (sub_pos.2 h)
  have a7 := mul_pos hε (sub_pos.2 h)
  have x1 : 0 < α * (pc - p) - α' * (pc - q) := by
    rcases h1 with rfl | ⟨h1, h2⟩
    · nlinarith
    · have := mul_nonneg hα.le (sub_nonneg.2 h1)
      have := mul_pos hα' (sub_pos.2 h2)
      nlinarith
  have x2 : 0 < ε' * (q - pe) - ε * (p - pe) := by
    rcases h2 with rfl | ⟨h1, h2⟩
    · nlinarith
    · have := mul_pos hε (sub_pos.2 h1)
      have := mul_nonneg hε'.le (sub_nonneg.2 h2)
      nlinarith
  nlinarith

/-- Two steps suffice: whatever conductances `α₀, ε₀` are assumed first, the rate `p₁` for the directions
found at `p₀` has the directions of the consistent rate `q`. -/
theorem two_steps (hK : 0 ≤ K) {αp αn εp εn α₀ ε₀ p₀ p₁ q : ℝ} (hαp : 0 < αp) (hαn : 0 < αn)
    (hεp : 0 < εp) (hεn : 0 < εn) (hα₀ : 0 < α₀) (hε₀ : 0 < ε₀) (h0 : Root K pc pe α₀ ε₀ p₀)
    (h1 : Root K pc pe (if p₀ ≤ pc then αp else αn) (if pe ≤ p₀ then εp else εn) p₁)
    (hq : Root K pc pe (if q ≤ pc then αp else αn) (if pe ≤ q then εp else εn) q) :
    (p₁ ≤ pc ↔ q ≤ pc) ∧ (pe ≤ p₁ ↔ pe ≤ q) := by
  have hα : ∀ x, 0 < (if x ≤ pc then αp else αn) := fun x => by split <;> assumption
  have hε : ∀ x, 0 < (if pe ≤ x then εp else εn) := fun x => by split <;> assumption
  rcases lt_trichotomy p₁ q with h | h | h
  · by_contra hne
    have hd := fun a b => differ hK (hα _) (hε _) (hα _) (hε _) h1 hq h a b
    rw [not_and_or] at hne
    rcases hne with hne | hne
    · have hc : p₁ ≤ pc ∧ pc < q := by
        by_contra hh
        rw [not_and_or, not_le, not_lt] at hh
        refine hne ⟨fun g => ?_, fun g => ?_⟩
        · exact hh.elim (fun x => absurd g (not_le.2 x)) id
        · linarith
      have hs : (pe ≤ p₀) ≠ (pe ≤ q) := fun hs => hd (.inr hc) (.inl (by simp only [hs]))
      have hn : ¬ (p₁ < pe ∧ pe ≤ q) := fun x => hd (.inr hc) (.inr x)
      by_cases hpe : pe ≤ q
      · have h2 : pe ≤ p₁ := not_lt.1 fun x => hn ⟨x, hpe⟩
        have h3 : p₀ < pe := not_le.1 fun x => hs (propext ⟨fun _ => hpe, fun _ => x⟩)
        exact exclusive hK hα₀ hε₀ (hα q) (hε q) h0 hq (by linarith) (by linarith) (by linarith)
          (by linarith) hpe
      · have h3 : pe ≤ p₀ := by
          by_contra x; exact hs (propext ⟨fun y => absurd y x, fun y => absurd y hpe⟩)
        push Not at hpe
        exact exclusive hK (hα _) (hε _) hα₀ hε₀ h1 h0 (by linarith) hc.1 (by linarith) (by linarith) h3
    · have he : p₁ < pe ∧ pe ≤ q := by
        by_contra hh
        rw [not_and_or, not_le, not_lt] at hh
        refine hne ⟨fun g => by linarith, fun g => ?_⟩
        exact hh.elim id fun x => absurd g (not_le.2 x)
      have hs : (p₀ ≤ pc) ≠ (q ≤ pc) := fun hs => hd (.inl (by simp only [hs])) (.inr he)
      have hn : ¬ (p₁ ≤ pc ∧ pc < q) := fun x => hd (.inr x) (.inr he)
      by_cases hpc : q ≤ pc
      · have h3 : pc < p₀ := not_le.1 fun x => hs (propext ⟨fun _ => hpc, fun _ => x⟩)
        exact exclusive hK (hα _) (hε _) hα₀ hε₀ h1 h0 (by linarith) (by linarith) he.1.le h3.le
          (by linarith)
      · have h3 : p₀ ≤ pc := by
          by_contra x; exact hs (propext ⟨fun y => absurd y x, fun y => absurd y hpc⟩)
        push Not at hpc
        have h2 : pc < p₁ := not_le.1 fun x => hn ⟨x, hpc⟩
        exact exclusive hK hα₀ hε₀ (hα q) (hε q) h0 hq (by linarith) h3 (by linarith) hpc.le he.2
  · subst h; exact ⟨Iff.rfl, Iff.rfl⟩
  · by_contra hne
    have hd := fun a b => differ hK (hα _) (hε _) (hα _) (hε _) hq h1 h a b
    rw [not_and_or] at hne
    rcases hne with hne | hne
    · have hc : q ≤ pc ∧ pc < p₁ := by
        by_contra hh
        rw [not_and_or, not_le, not_lt] at hh
        refine hne ⟨fun g => by linarith, fun g => ?_⟩
        exact hh.elim (fun x => absurd g (not_le.2 x)) id
      have hs : (pe ≤ q) ≠ (pe ≤ p₀) := fun hs => hd (.inr hc) (.inl (by simp only [hs]))
      have hn : ¬ (q < pe ∧ pe ≤ p₁) := fun x => hd (.inr hc) (.inr x)
      by_cases hpe : pe ≤ q
      · have h3 : p₀ < pe := not_le.1 fun x => hs (propext ⟨fun _ => x, fun _ => hpe⟩)
        exact exclusive hK hα₀ hε₀ (hα _) (hε _) h0 h1 (by linarith) (by linarith) h3.le hc.2.le
          (by linarith)
      · have h3 : pe ≤ p₀ := by
          by_contra x; exact hs (propext ⟨fun y => absurd y hpe, fun y => absurd y x⟩)
        push Not at hpe
        have h2 : p₁ < pe := not_le.1 fun x => hn ⟨hpe, x⟩
        exact exclusive hK (hα q) (hε q) hα₀ hε₀ hq h0 (by linarith) hc.1 hpe.le (by linarith) h3
    · have he : q < pe ∧ pe ≤ p₁ := by
        by_contra hh
        rw [not_and_or, not_le, not_lt] at hh
        refine hne ⟨fun g => ?_, fun g => by linarith⟩
        exact hh.elim id fun x => absurd g (not_le.2 x)
      have hs : (q ≤ pc) ≠ (p₀ ≤ pc) := fun hs => hd (.inl (by simp only [hs])) (.inr he)
      have hn : ¬ (q ≤ pc ∧ pc < p₁) := fun x => hd (.inr x) (.inr he)
      by_cases hpc : q ≤ pc
      · have h3 : pc < p₀ := not_le.1 fun x => hs (propext ⟨fun _ => x, fun _ => hpc⟩)
        have h2 : p₁ ≤ pc := not_lt.1 fun x => hn ⟨hpc, x⟩
        exact exclusive hK (hα q) (hε q) hα₀ hε₀ hq h0 (by linarith) hpc he.1.le h3.le (by linarith)
      · have h3 : p₀ ≤ pc := by
          by_contra x; exact hs (propext ⟨fun y => absurd y hpc, fun y => absurd y x⟩)
        push Not at hpc
        exact exclusive hK hα₀ hε₀ (hα _) (hε _) h0 h1 (by linarith) h3 (by linarith) (by linarith) he.2

end Sett.Search
