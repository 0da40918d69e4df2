import Mathlib.Analysis.SpecialFunctions.Trigonometric.Basic
import Mathlib.Analysis.SpecialFunctions.Log.Basic
import Mathlib.Analysis.SpecialFunctions.Exp
import Mathlib.Tactic.NormNum.OfScientific

/-!
# The arithmetic the model is written over

The Rust code computes with `f64`.  The model is written once, over an arbitrary type `α` carrying
the operations the code uses (`Scalar α`).  It is then used at

* an arbitrary `α` (control-flow theorems: they hold for *any* arithmetic, hence for `f64`),
* `ℝ` (exact arithmetic: calculus, conservation and inequality theorems),
* `Sett.F64` (an IEEE-754 binary64 model with rounding, signed zeros, infinities, NaN),
* Lean's `Float` (only to *execute* the model in the conformance tests; nothing is proved there).
-/

namespace Sett

/-- The `f64` operations used by the crate.  Numerals in the model are scientific literals
(`0.5`, `2.0`), so that `OfScientific` is the only numeral class needed.

* `abs`, `sin`, `cos`, `exp`, `ln`, `sqrt`: `f64::abs`, … as used in `src/types.rs:168`,
  `src/ws/*.rs`, `src/chx/fixed_conductance.rs:64`, `src/engine/state.rs:519-520`.
* `lt`, `le`: the IEEE comparisons `<`, `<=` (`a >= b` is `le b a`).
* `totalLe a b`: `a.total_cmp(b) != Greater` (`src/engine/state.rs:280,285`).
* `isInfinite`: `f64::is_infinite` (`src/engine/state.rs:382,399`).
* `ofNat`: `f64::from(u32)` (`src/state_equations/integrator.rs:29`).
* `powi2 x`: `x.powi(2)`. -/
class Scalar (α : Type) extends Add α, Sub α, Mul α, Div α, Neg α, OfScientific α where
  abs : α → α
  sin : α → α
  cos : α → α
  exp : α → α
  ln : α → α
  sqrt : α → α
  powi2 : α → α
  pi : α
  lt : α → α → Bool
  le : α → α → Bool
  totalLe : α → α → Bool
  isInfinite : α → Bool
  ofNat : Nat → α

/-- Types with a value for `f64::INFINITY` (`src/ws.rs:57-58` and the `Default` impls). `ℝ` has none. -/
class HasInfinity (α : Type) where
  infinity : α

export Scalar (powi2)

-- On `ℝ` and `Float` the types' own instances are preferred; the two agree by definition.
attribute [instance 50] Scalar.toAdd Scalar.toSub Scalar.toMul Scalar.toDiv Scalar.toNeg
  Scalar.toOfScientific

/-- Exact real arithmetic.  No real is infinite, `total_cmp` is `≤`; division by zero is *not*
modelled here (Lean's `x / 0 = 0`), so theorems over `ℝ` carry explicit non-zero guards and the
exceptional cases are treated over `F64`. -/
noncomputable instance instScalarReal : Scalar ℝ where
  toAdd := inferInstance
  toSub := inferInstance
  toMul := inferInstance
  toDiv := inferInstance
  toNeg := inferInstance
  toOfScientific := inferInstance
  abs x := |x|
  sin := Real.sin
  cos := Real.cos
  exp := Real.exp
  ln := Real.log
  sqrt := Real.sqrt
  powi2 x := x ^ 2
  pi := Real.pi
  lt a b := @decide (a < b) (Classical.propDecidable _)
  le a b := @decide (a ≤ b) (Classical.propDecidable _)
  totalLe a b := @decide (a ≤ b) (Classical.propDecidable _)
  isInfinite _ := false
  ofNat n := (n : ℝ)

section RealSimp
@[simp] theorem real_abs (x : ℝ) : Scalar.abs x = |x| := rfl
@[simp] theorem real_sin (x : ℝ) : Scalar.sin x = Real.sin x := rfl
@[simp] theorem real_cos (x : ℝ) : Scalar.cos x = Real.cos x := rfl
@[simp] theorem real_exp (x : ℝ) : Scalar.exp x = Real.exp x := rfl
@[simp] theorem real_ln (x : ℝ) : Scalar.ln x = Real.log x := rfl
@[simp] theorem real_sqrt (x : ℝ) : Scalar.sqrt x = Real.sqrt x := rfl
@[simp] theorem real_powi2 (x : ℝ) : Scalar.powi2 x = x ^ 2 := rfl
@[simp] theorem real_pi : (Scalar.pi : ℝ) = Real.pi := rfl
@[simp] theorem real_lt (a b : ℝ) : (Scalar.lt a b = true) ↔ a < b := by simp [Scalar.lt]
@[simp] theorem real_le (a b : ℝ) : (Scalar.le a b = true) ↔ a ≤ b := by simp [Scalar.le]
@[simp] theorem real_totalLe (a b : ℝ) : (Scalar.totalLe a b = true) ↔ a ≤ b := by
  simp [Scalar.totalLe]
@[simp] theorem real_isInfinite (a : ℝ) : Scalar.isInfinite a = false := rfl
@[simp] theorem real_ofNat (n : ℕ) : (Scalar.ofNat n : ℝ) = (n : ℝ) := rfl
end RealSimp

/-- Machine doubles, used only to execute the model (`Verif/Conformance.lean`). -/
instance instScalarFloat : Scalar Float where
  toAdd := inferInstance
  toSub := inferInstance
  toMul := inferInstance
  toDiv := inferInstance
  toNeg := inferInstance
  toOfScientific := inferInstance
  abs := Float.abs
  sin := Float.sin
  cos := Float.cos
  exp := Float.exp
  ln := Float.log
  sqrt := Float.sqrt
  powi2 x := x * x
  pi := 3.14159265358979323846264338327950288
  lt a b := a < b
  le a b := a ≤ b
  totalLe a b := a ≤ b
  isInfinite := Float.isInf
  ofNat := Float.ofNat

instance : HasInfinity Float := ⟨1.0 / 0.0⟩

/-- How a Rust computation can stop without a value: a panic (`expect`, `todo!`, index out of
bounds, checked overflow) or a `Result::Err`. -/
inductive Fault (ε : Type) where
  | panic (site : String)
  | err (e : ε)
  deriving Repr, DecidableEq

/-- A Rust computation returning `Result<β, ε>` that may also panic. -/
abbrev Exec (ε β : Type) := Except (Fault ε) β

/-- A Rust computation that returns a plain `β` but may panic. -/
abbrev Panics (β : Type) := Except (Fault Empty) β

/-- Use a plain-but-panicking computation inside one that also has `Err` results. -/
def Panics.lift {ε β : Type} : Panics β → Exec ε β
  | .ok b => .ok b
  | .error (.panic s) => .error (.panic s)

end Sett
