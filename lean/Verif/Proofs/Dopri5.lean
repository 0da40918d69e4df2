import Verif.Model.Dopri5
import Verif.Spec.Cycle

/-! # Invariants of the Dormand-Prince stepper, any arithmetic -/

namespace Sett.dopri5

open Spec

/-- Every question was answered as the relation `A` allows. -/
def Answered {α : Type} (A : α → V3 α → V3 α → Prop) (qs : List (α × V3 α × V3 α)) : Prop :=
  ∀ q ∈ qs, A q.1 q.2.1 q.2.2

theorem reaches_eval {α : Type} {A : α → V3 α → V3 α → Prop} {t : α} {y : V3 α}
    {k : V3 α → Stepper α} {qs : List (α × V3 α × V3 α)} {out : Option (List α × List (V3 α))}
    (h : Reaches (.eval t y k) qs (.done out)) (hA : Answered A qs) :
    ∃ dy qs', Reaches (k dy) qs' (.done out) ∧ Answered A qs' ∧ A t y dy := by
  cases h with
  | step h =>
    exact ⟨_, _, h, fun q hq => hA q (List.mem_cons_of_mem _ hq), hA _ List.mem_cons_self⟩

theorem reaches_done {α : Type} {out out' : Option (List α × List (V3 α))}
    {qs : List (α × V3 α × V3 α)} (h : Reaches (.done out) qs (.done out')) : out = out' := by
  cases h; rfl

variable {α : Type} [Scalar α]

/-- Whether a pass tries to reach the end. -/
def isLast (p : Problem α) (s : State α) : Bool :=
  Scalar.lt 0.0 ((s.x + 1.01 * s.h - p.xEnd) * p.posneg)

/-- Size of the step a pass tries. -/
def tried (p : Problem α) (s : State α) : α := if isLast p s then p.xEnd - s.x else s.h

/-- The step size left is not negligible. -/
def Proceeds (s : State α) : Prop :=
  ¬Scalar.le (0.1 * Scalar.abs s.h) (2.220446049250313e-16 * Scalar.abs s.x) = true

/-- The derivatives answered during a step. -/
structure Ks (α : Type) where
  k0 : V3 α
  k1 : V3 α
  k2 : V3 α
  k3 : V3 α
  k4 : V3 α
  k5 : V3 α
  k6 : V3 α

/-- End of the step. -/
def Ks.next (k : Ks α) (y : V3 α) (h : α) : V3 α :=
  stage y h [k.k0, k.k1, k.k2, k.k3, k.k4, k.k5] a7

/-- Error estimate of the step. -/
def Ks.err (k : Ks α) (p : Problem α) (y : V3 α) (h : α) : α :=
  errorNorm p y (k.next y h) (scale3 (weighted [k.k0, k.k2, k.k3, k.k4, k.k5, k.k6] e) h)

/-- The derivatives were answered at the stage points. -/
structure Ks.Answer (A : α → V3 α → V3 α → Prop) (k : Ks α) (x : α) (y : V3 α) (h : α) : Prop where
  s1 : A (x + h * c2) (stage y h [k.k0] a2) k.k1
  s2 : A (x + h * c3) (stage y h [k.k0, k.k1] a3) k.k2
  s3 : A (x + h * c4) (stage y h [k.k0, k.k1, k.k2] a4) k.k3
  s4 : A (x + h * c5) (stage y h [k.k0, k.k1, k.k2, k.k3] a5) k.k4
  s5 : A (x + h * c6) (stage y h [k.k0, k.k1, k.k2, k.k3, k.k4] a6) k.k5
  s6 : A (x + h * c7) (k.next y h) k.k6

/-- The state after an accepted step, before output. -/
def Ks.advance (k : Ks α) (p : Problem α) (s : State α) (h : α) (st : Nat × Nat) : State α :=
  dopri5.advance s h (k.err p s.y h) k.k0 k.k2 k.k3 k.k4 k.k5 k.k6 (k.next s.y h) st

theorem reaches_loop [HasPowf α] (p : Problem α) (outs : Nat) (A : α → V3 α → V3 α → Prop)
    (I : State α → V3 α → Prop) (Q : State α → Prop)
    (ha : ∀ (s : State α) (k : Ks α) st s' hNew, I s k.k0 → Proceeds s →
      k.Answer A s.x s.y (tried p s) →
      accept p s.facOld s.reject (k.err p s.y (tried p s)) (tried p s) = (true, hNew) →
      output p outs (k.advance p s (tried p s) st) = some s' →
      if isLast p s then Q s' else I { s' with h := hNew } k.k6)
    (hr : ∀ (s : State α) (k : Ks α) hNew, I s k.k0 → Proceeds s →
      k.Answer A s.x s.y (tried p s) →
      accept p s.facOld s.reject (k.err p s.y (tried p s)) (tried p s) = (false, hNew) →
      I { s with h := hNew, reject := true } k.k0)
    (passes : Nat) : ∀ (s : State α) (k0 : V3 α) (qs : List (α × V3 α × V3 α)) (xs : List α)
      (ys : List (V3 α)), I s k0 → Answered A qs →
      Reaches (loop p outs passes s k0) qs (.done (some (xs, ys))) →
      ∃ s', Q s' ∧ xs = s'.xOut ∧ ys = s'.yOut := by
  induction passes with
  | zero =>
    intro s k0 qs xs ys _ _ h
    cases reaches_done h
  | succ n ih =>
    intro s k0 qs xs ys hI hA h
    unfold loop at h
    split at h
    · cases reaches_done h
    · rename_i hp
      simp only [stages] at h
      obtain ⟨k1, _, h, hA, q1⟩ := reaches_eval h hA
      obtain ⟨k2, _, h, hA, q2⟩ := reaches_eval h hA
      obtain ⟨k3, _, h, hA, q3⟩ := reaches_eval h hA
      obtain ⟨k4, _, h, hA, q4⟩ := reaches_eval h hA
      obtain ⟨k5, _, h, hA, q5⟩ := reaches_eval h hA
      obtain ⟨k6, _, h, hA, q6⟩ := reaches_eval h hA
      have hk : Ks.Answer A ⟨k0, k1, k2, k3, k4, k5, k6⟩ s.x s.y (tried p s) :=
        ⟨q1, q2, q3, q4, q5, q6⟩
      unfold conclude at h
      change Reaches (match accept p s.facOld s.reject
        (Ks.err ⟨k0, k1, k2, k3, k4, k5, k6⟩ p s.y (tried p s)) (tried p s) with
        | (true, hNew) => _
        | (false, hNew) => _) _ _ at h
      split at h
      · rename_i hNew hacc
        split at h
        · cases reaches_done h
        · rename_i st hst
          split at h
          · cases reaches_done h
          · rename_i s' hs'
            have := ha s _ _ _ _ hI hp hk hacc hs'
            split at h
            · rename_i hl
              rw [if_pos (show isLast p s = true from hl)] at this
              have e := reaches_done h
              injection e with e
              injection e with e1 e2
              exact ⟨s', this, e1.symm, e2.symm⟩
            · rename_i hl
              rw [if_neg (show ¬isLast p s = true from hl)] at this
              exact ih _ _ _ _ _ this hA h
      · rename_i hNew hacc
        exact ih _ _ _ _ _ (hr s _ _ hI hp hk hacc) hA h

/-- The second half of a pass with an accepted step. -/
theorem conclude_accepted [HasPowf α] {p : Problem α} {outs : Nat} {next : State α → V3 α → Stepper α}
    {s : State α} {last : Bool} {h : α} {k : Ks α} {yStiff : V3 α} {hNew : α} {st : Nat × Nat} {s' : State α}
    (h1 : accept p s.facOld s.reject (k.err p s.y h) h = (true, hNew))
    (h2 : stiffness { s with accepted := s.accepted + 1 } h k.k6 k.k5 (k.next s.y h) yStiff = some st)
    (h3 : output p outs (k.advance p s h st) = some s') :
    conclude p outs next s last h k.k0 k.k2 k.k3 k.k4 k.k5 k.k6 yStiff (k.next s.y h)
      = if last then .done (some (s'.xOut, s'.yOut)) else next { s' with h := hNew } k.k6 := by
  unfold Ks.err at h1
  unfold Ks.advance Ks.err at h3
  simp only [conclude, h1, h2, h3]

/-- An invariant of the output loop. -/
theorem output_invariant (p : Problem α) (J : State α → Prop)
    (hJ : ∀ s, J s → Scalar.le (Scalar.abs s.xd) (Scalar.abs s.x) = true →
      Scalar.le (Scalar.abs s.xOld) (Scalar.abs s.xd) = true →
      J { s with
        xd := s.xd + p.dx
        xOut := s.xOut ++ [s.xd]
        yOut := s.yOut ++ [interpolate s ((s.xd - s.xOld) / s.hOld)] }) (outs : Nat) :
    ∀ s s', J s → output p outs s = some s' →
      J s' ∧ ¬Scalar.le (Scalar.abs s'.xd) (Scalar.abs s'.x) = true := by
  induction outs with
  | zero => intro s s' _ h; cases h
  | succ n ih =>
    intro s s' hs h
    unfold output at h
    split at h
    · rename_i h1
      split at h
      · rename_i h2
        rw [Bool.and_eq_true] at h2
        exact ih _ _ (hJ s hs h1 h2.1) h
      · cases h
    · rename_i h1
      cases h
      exact ⟨hs, h1⟩

end Sett.dopri5
