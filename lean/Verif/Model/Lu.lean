import Verif.Model.Solver

/-! # `LU`, the solver behind `run_engine`: `src/state_equations/solver.rs:212-219`

`a.lu().solve(b)` is nalgebra 0.31 (`Cargo.toml:10`), a dependency whose source is not in the repository.
This is a transcription of its published algorithm: Gaussian elimination with partial pivoting, the
multipliers kept below the diagonal, then forward and backward substitution.  Everything else in the model
treats a decomposition as an arbitrary function; only the claims about `LU` use this file.  Multiplications by
the constant one (`axpy` with `beta = 1`) are left out. -/

namespace Sett.lu

variable {α : Type} [Scalar α] {n : Nat}

/-- `is_zero`: `x == 0.0`. -/
def isZero (x : α) : Bool := Scalar.le x 0.0 && Scalar.le 0.0 x

/-- `slice_range(i.., i).icamax() + i`: the first row from `i` on whose entry in column `i` is largest in
absolute value. -/
def pivotRow (m : Fin n → Fin n → α) (i : Fin n) : Fin n :=
  (List.finRange n).foldl
    (fun best r => if i < r ∧ Scalar.lt (Scalar.abs (m best i)) (Scalar.abs (m r i)) = true
      then r else best) i

/-- Exchange two rows (of a matrix or of a vector). -/
def swapRows {β : Type} (m : Fin n → β) (i j : Fin n) : Fin n → β :=
  fun r => if r = i then m j else if r = j then m i else m r

/-- `gauss_step`: scale the column below the pivot, subtract multiples of the pivot row below it. -/
def gaussStep (m : Fin n → Fin n → α) (diag : α) (i : Fin n) : Fin n → Fin n → α :=
  let inv_diag := 1.0 / diag
  fun r c =>
    if i < r then
      if c = i then m r i * inv_diag
      else if i < c then -m i c * (m r i * inv_diag) + m r c
      else m r c
    else m r c

/-- The `LU` struct: packed factors and the sequence of row exchanges. -/
structure Lu (n : Nat) (α : Type) where
  packed : Fin n → Fin n → α
  p : List (Fin n × Fin n)

/-- One pass of the loop of `LU::new`. -/
def step (s : Lu n α) (i : Fin n) : Lu n α :=
  let piv := pivotRow s.packed i
  let diag := s.packed piv i
  if isZero diag then s
  else if piv = i then { s with packed := gaussStep s.packed diag i }
  else { packed := gaussStep (swapRows s.packed i piv) diag i, p := s.p ++ [(i, piv)] }

/-- `LU::new` after its first `k` passes. -/
def factorTo (a : Fin n → Fin n → α) : Nat → Lu n α
  | 0 => { packed := a, p := [] }
  | k + 1 => if h : k < n then step (factorTo a k) ⟨k, h⟩ else factorTo a k

/-- `PermutationSequence::permute_rows` -/
def permuteRows {β : Type} (p : List (Fin n × Fin n)) (b : Fin n → β) : Fin n → β :=
  p.foldl (fun b ij => swapRows b ij.1 ij.2) b

/-- `solve_lower_triangular_with_diag_mut(b, 1)` after its first `k` passes. -/
def forwardTo (m : Fin n → Fin n → α) (b : Fin n → α) : Nat → Fin n → α
  | 0 => b
  | k + 1 =>
    if h : k < n then
      let b' := forwardTo m b k
      fun r => if ⟨k, h⟩ < r then -b' ⟨k, h⟩ * m r ⟨k, h⟩ + b' r else b' r
    else forwardTo m b k

/-- `solve_upper_triangular_mut` with `k` passes (rows `k-1` down to `0`) left. -/
def backward (m : Fin n → Fin n → α) : Nat → (Fin n → α) → Option (Fin n → α)
  | 0, b => some b
  | k + 1, b =>
    if h : k < n then
      let diag := m ⟨k, h⟩ ⟨k, h⟩
      if isZero diag then none
      else
        let coeff := b ⟨k, h⟩ / diag
        backward m k fun r =>
          if r = ⟨k, h⟩ then coeff else if r < ⟨k, h⟩ then -coeff * m r ⟨k, h⟩ + b r else b r
    else backward m k b

/-- `a.lu().solve(b)` -/
def solve (a : Fin n → Fin n → α) (b : Fin n → α) : Option (Fin n → α) :=
  let f := factorTo a n
  backward f.packed n (forwardTo f.packed (permuteRows f.p b) n)

/-- `impl MatrixDecomposition for LU`, `src/state_equations/solver.rs:212-219` -/
def LU : MatrixDecomposition α := fun a b => solve a b

end Sett.lu
