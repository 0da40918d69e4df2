import Verif.Model.Engine

/-! # Specification: how often a computation asks the linear solver -/

namespace Sett.Spec

variable {α : Type}

/-- `F` can be computed with at most `n` questions to the linear solver, each of which may depend on the answers to the
ones before. -/
inductive AsksAtMost {β : Type} : Nat → (MatrixDecomposition α → β) → Prop where
  | answer (n : Nat) (b : β) : AsksAtMost n fun _ => b
  | ask (n : Nat) (A : Mat10 α) (b : Vec10 α) (G : Option (Vec10 α) → MatrixDecomposition α → β) :
    (∀ x, AsksAtMost n (G x)) → AsksAtMost (n + 1) fun T => G (T A b) T

/-- The integrator asks for at most `E` derivatives, whatever the answers, and gives at most `P` points. -/
inductive Bounded (P : Nat) : Nat → Stepper α → Prop where
  | failed (E : Nat) : Bounded P E (.done none)
  | done (E : Nat) (xs : List α) (ys : List (V3 α)) : xs.length ≤ P → Bounded P E (.done (some (xs, ys)))
  | eval (E : Nat) (t : α) (y : V3 α) (k : V3 α → Stepper α) : (∀ dy, Bounded P E (k dy)) →
    Bounded P (E + 1) (.eval t y k)

end Sett.Spec
