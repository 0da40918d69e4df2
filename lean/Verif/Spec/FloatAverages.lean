import Verif.Spec.FloatBalances
import Verif.Proofs.Integrate

/-! # Specification: cycle integrals of machine numbers

The trapezoidal rule is that of real numbers; each machine number stands for the real number it
represents.  An error is measured against the same integral with every term taken in absolute value, so
that cancellation is accounted for. -/

namespace Sett.Spec

open Float64

variable {L : Libm}

/-- The numbers a series of machine numbers represents. -/
noncomputable def reals (l : List (F64 L)) : List ℝ := l.map (·.raw.real)

/-- The magnitudes of a series. -/
def sizes (l : List ℝ) : List ℝ := l.map fun a => |a|

/-- Every number of the series is finite and at most 2^100 in magnitude. -/
def AllUsual (l : List (F64 L)) : Prop := ∀ a ∈ l, Usual a

/-- Sample times: usual numbers in non-decreasing order, at most 2^30 of them. -/
structure MachineTimes (time : List (F64 L)) : Prop where
  usual : AllUsual time
  increasing : Increasing (reals time)
  count : time.length ≤ 2 ^ 30

/-- `a` is finite and represents `v` up to a relative error of `(2n + c)·2^-53` of the size `s`, and an
absolute error of `2^-400`. -/
def Rounded (n c : ℕ) (a : F64 L) (v s : ℝ) : Prop :=
  a.raw.Finite ∧ |a.raw.real - v| ≤ (2 * n + c) / 2 ^ 53 * s + 1 / 2 ^ 400

/-- Heat flowing through a wall, from `T` to `U` over the resistance `R`; none through a perfect
insulator. -/
noncomputable def wallFlow (R T U : F64 L) : ℝ :=
  if R.raw.isInfinite = true then 0 else (T.raw.real - U.raw.real) / R.raw.real

/-- A resistance is infinite, or finite and at least 2^-100 in magnitude. -/
def Resists (R : F64 L) : Prop := R.raw.isInfinite = true ∨ (R.raw.Finite ∧ 1 / 2 ^ 100 ≤ |R.raw.real|)

/-- Power given off by the gas at each sample: pressure times volume rate, both spaces. -/
def work (pc dvc pe dve : List ℝ) : List ℝ :=
  List.zipWith (· + ·) (List.zipWith (· * ·) pc dvc) (List.zipWith (· * ·) pe dve)

/-- The same with one pressure throughout. -/
def idealWork (p dvc dve : List ℝ) : List ℝ := List.zipWith (· * ·) p (List.zipWith (· + ·) dvc dve)

end Sett.Spec
