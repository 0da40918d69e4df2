import Verif.Model.Lu

/-! # `QR` and `SvdDefault`: `src/state_equations/solver.rs:203-210,231-241`

The other two solvers a user of `Engine::run` can choose (`src/lib.rs:17`).  As for `LU`, nalgebra 0.31 is a
dependency whose source is not in the repository.  `QR` is a transcription of its published algorithm (Householder
reflections); sums are taken in index order, and `signum` does not distinguish the two zeros.  The iteration that
computes a singular value decomposition is not modelled: `SvdDefault` is given its result, and only what `solve`
does with it is modelled. -/

namespace Sett

variable {α : Type} [Scalar α] {n : Nat}

namespace qr

/-- The scalar product of two columns from row `i` down. -/
def dotFrom (i : Fin n) (a b : Fin n → α) : α :=
  ((List.finRange n).filter fun r => i ≤ r).foldl (fun s r => s + a r * b r) 0.0

/-- `f64::signum`, away from negative zero and NaN. -/
def signum (x : α) : α := if Scalar.lt x 0.0 then -1.0 else 1.0

/-- `Reflection::reflect_with_sign` on the rows of a column from `i` down; the bias is zero. -/
def reflect (i : Fin n) (axis : Fin n → α) (sign : α) (v : Fin n → α) : Fin n → α :=
  let factor := dotFrom i axis v * (-2.0 * sign)
  fun r => if i ≤ r then factor * axis r + sign * v r else v r

/-- The `QR` struct: reflection axes on and below the diagonal, the triangular factor above it, its signed diagonal
apart. -/
structure Qr (n : Nat) (α : Type) where
  packed : Fin n → Fin n → α
  diag : Fin n → α

/-- `householder::reflection_axis_mut` on the rows of a column from `i` down: the axis, the number returned, and
whether the column was not zero. -/
def reflectionAxis (i : Fin n) (column : Fin n → α) : (Fin n → α) × α × Bool :=
  let sq := dotFrom i column column
  let norm := Scalar.sqrt sq
  let modulus := Scalar.abs (column i)
  let sign : α := if Scalar.le 0.0 (column i) then 1.0 else -1.0
  let signed_norm := sign * norm
  let factor := (sq + modulus * norm) * 2.0
  let shifted : Fin n → α := fun r => if r = i then column r + signed_norm else column r
  if lu.isZero factor then (shifted, signed_norm, false)
  else (fun r => if i ≤ r then shifted r / Scalar.sqrt factor else shifted r, -signed_norm, true)

/-- `householder::clear_column_unchecked(matrix, i, 0, None)`: one pass of the loop of `QR::new`. -/
def step (s : Qr n α) (i : Fin n) : Qr n α :=
  let a := reflectionAxis i fun r => s.packed r i
  { packed := fun r c =>
      if c = i then a.1 r
      else if i < c ∧ a.2.2 = true then reflect i a.1 (signum a.2.1) (fun r => s.packed r c) r
      else s.packed r c
    diag := fun c => if c = i then a.2.1 else s.diag c }

/-- `QR::new` after its first `k` passes. -/
def factorTo (a : Fin n → Fin n → α) : Nat → Qr n α
  | 0 => { packed := a, diag := fun _ => 0.0 }
  | k + 1 => if h : k < n then step (factorTo a k) ⟨k, h⟩ else factorTo a k

/-- `QR::q_tr_mul` after its first `k` passes. -/
def qTrMulTo (f : Qr n α) (b : Fin n → α) : Nat → Fin n → α
  | 0 => b
  | k + 1 =>
    if h : k < n then reflect ⟨k, h⟩ (fun r => f.packed r ⟨k, h⟩) (signum (f.diag ⟨k, h⟩)) (qTrMulTo f b k)
    else qTrMulTo f b k

/-- `a.qr().solve(b)`; `solve_upper_triangular_mut` is the loop of `LU`'s with the moduli of `diag` on the diagonal. -/
def solve (a : Fin n → Fin n → α) (b : Fin n → α) : Option (Fin n → α) :=
  let f := factorTo a n
  lu.backward (fun r c => if r = c then Scalar.abs (f.diag c) else f.packed r c) n (qTrMulTo f b n)

/-- `impl MatrixDecomposition for QR`, `src/state_equations/solver.rs:203-210` -/
def QR : MatrixDecomposition α := fun a b => solve a b

end qr

namespace svd

/-- A singular value decomposition `u * diag sigma * vt`. -/
structure Svd (n : Nat) (α : Type) where
  u : Fin n → Fin n → α
  sigma : Fin n → α
  vt : Fin n → Fin n → α

/-- `mᵀ * v` -/
def trMul (m : Fin n → Fin n → α) (v : Fin n → α) : Fin n → α :=
  fun r => (List.finRange n).foldl (fun s k => s + m k r * v k) 0.0

/-- `SVD::solve(b, eps)` with both factors present and `eps` not negative: it cannot fail. -/
def solve (d : Svd n α) (b : Fin n → α) (eps : α) : Fin n → α :=
  let utb := trMul d.u b
  trMul d.vt fun i => if Scalar.lt eps (d.sigma i) then utb i / d.sigma i else 0.0

/-- `impl MatrixDecomposition for SvdDefault`, `src/state_equations/solver.rs:231-241`, for a routine `f` that computes
decompositions (`svd_unordered(true, true)`). -/
def SvdDefault (f : Mat10 α → Svd 10 α) : MatrixDecomposition α := fun a b => some (solve (f a) b 1e-12)

end svd

end Sett
