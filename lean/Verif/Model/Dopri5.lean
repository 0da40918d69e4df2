import Verif.Model.Integrator
import Verif.Model.Float64
import Mathlib.Analysis.SpecialFunctions.Pow.Real

/-! # `Dopri5`, the integrator behind `Integration::try_from`: `src/state_equations/integrator.rs:4,35-44`

`Dopri5` is ode_solvers 0.3 (`Cargo.toml:11`), a dependency whose source is not in the repository.  This is a
transcription of its published algorithm (Dormand and Prince's embedded pair of orders 5 and 4 with Hairer's
step size control, stiffness detection and dense output).  Everything else in the model treats the integrator
as an arbitrary interaction tree; only the claims about `Dopri5` use this file.

Simplifications: statistics, and fields that are written but never read, are left out; `System::solout` is its
default (never stop); the loop that emits the dense output is cut off after a given number of points per step
(the program would run on until memory is exhausted), which is reported as failure. -/

namespace Sett

/-- `f64::powf`, used by the step size controller. -/
class HasPowf (α : Type) where
  powf : α → α → α

noncomputable instance : HasPowf ℝ := ⟨fun x y => x ^ y⟩

instance : HasPowf Float := ⟨Float.pow⟩

namespace dopri5

variable {α : Type}

/-- Componentwise combination of two `Vector3`s. -/
def zip3 (f : α → α → α) (a b : V3 α) : V3 α := ⟨f a.y0 b.y0, f a.y1 b.y1, f a.y2 b.y2⟩

variable [Scalar α]

/-- `a + b` on `Vector3` -/
def add3 (a b : V3 α) : V3 α := zip3 (· + ·) a b
/-- `a - b` on `Vector3` -/
def sub3 (a b : V3 α) : V3 α := zip3 (· - ·) a b
/-- `a * c` on `Vector3` with a scalar -/
def scale3 (a : V3 α) (c : α) : V3 α := ⟨a.y0 * c, a.y1 * c, a.y2 * c⟩
/-- `a.dot(b)` on `Vector3` -/
def dot3 (a b : V3 α) : α := a.y0 * b.y0 + a.y1 * b.y1 + a.y2 * b.y2

/-- `f64::max`: the other operand if one is NaN. -/
def fmax (a b : α) : α := if Scalar.lt a b then b else if Scalar.le a a then a else b
/-- `f64::min`: the other operand if one is NaN. -/
def fmin (a b : α) : α := if Scalar.lt b a then b else if Scalar.le a a then a else b
/-- `controller::sign(a, b)`: the magnitude of `a` with the sign of `b`. -/
def sign (a b : α) : α := if Scalar.lt 0.0 b then Scalar.abs a else -Scalar.abs a

/-! ## The coefficients (`butcher_tableau.rs` of the crate) -/

/-- Rows 2 to 7 of `a`. -/
def a2 : List α := [0.2]
def a3 : List α := [3.0 / 40.0, 9.0 / 40.0]
def a4 : List α := [44.0 / 45.0, -56.0 / 15.0, 32.0 / 9.0]
def a5 : List α := [19372.0 / 6561.0, -25360.0 / 2187.0, 64448.0 / 6561.0, -212.0 / 729.0]
def a6 : List α :=
  [9017.0 / 3168.0, -355.0 / 33.0, 46732.0 / 5247.0, 49.0 / 176.0, -5103.0 / 18656.0]
def a7 : List α := [35.0 / 384.0, 0.0, 500.0 / 1113.0, 125.0 / 192.0, -2187.0 / 6784.0, 11.0 / 84.0]

/-- The nodes `c` 2 to 7. -/
def c2 : α := 0.2
def c3 : α := 0.3
def c4 : α := 0.8
def c5 : α := 8.0 / 9.0
def c6 : α := 1.0
def c7 : α := 1.0

/-- Weights of the error estimate for `k1, k3, k4, k5, k6, k7`. -/
def e : List α :=
  [71.0 / 57600.0, -71.0 / 16695.0, 71.0 / 1920.0, -17253.0 / 339200.0, 22.0 / 525.0, -1.0 / 40.0]

/-- Weights of the dense output for `k1, k3, k4, k5, k6, k7`. -/
def d : List α :=
  [-12715105075.0 / 11282082432.0, 87487479700.0 / 32700410799.0, -10690763975.0 / 1880347072.0,
    701980252875.0 / 199316789632.0, -1453857185.0 / 822651844.0, 69997945.0 / 29380423.0]

/-! ## The stepper -/

/-- The fields of `Dopri5` and of its `Controller` that change, plus the counters local to `integrate`. -/
structure State (α : Type) where
  x : α
  xOld : α
  xd : α
  h : α
  hOld : α
  y : V3 α
  rcont0 : V3 α
  rcont1 : V3 α
  rcont2 : V3 α
  rcont3 : V3 α
  rcont4 : V3 α
  facOld : α
  reject : Bool
  accepted : Nat
  iasti : Nat
  nonStiff : Nat
  xOut : List α
  yOut : List (V3 α)

/-- The fields of `Dopri5` and of its `Controller` that do not change. -/
structure Problem (α : Type) where
  xEnd : α
  dx : α
  rtol : α
  atol : α
  hMax : α
  posneg : α

/-- One stage argument: `y + k₁ * h * a₁ + k₂ * h * a₂ + …`, summed from the left. -/
def stage (y : V3 α) (h : α) (ks : List (V3 α)) (row : List α) : V3 α :=
  (ks.zip row).foldl (fun acc p => add3 acc (scale3 (scale3 p.1 h) p.2)) y

/-- `k₁ * w₁ + k₂ * w₂ + …`, summed from the left. -/
def weighted : List (V3 α) → List α → V3 α
  | k :: ks, w :: ws => (ks.zip ws).foldl (fun acc p => add3 acc (scale3 p.1 p.2)) (scale3 k w)
  | _, _ => ⟨0.0, 0.0, 0.0⟩

/-- `sc_i = atol + max(|y_i|, |y_next_i|) * rtol`, then `(v_i / sc_i)²`. -/
def scaled (p : Problem α) (a b v : α) : α :=
  Scalar.powi2 (v / (p.atol + fmax (Scalar.abs a) (Scalar.abs b) * p.rtol))

/-- The error estimate of a step. -/
def errorNorm (p : Problem α) (y yNext err : V3 α) : α :=
  Scalar.sqrt ((0.0 + scaled p y.y0 yNext.y0 err.y0 + scaled p y.y1 yNext.y1 err.y1
    + scaled p y.y2 yNext.y2 err.y2) / 3.0)

/-- `hinit`: the scaled square norm of a vector. -/
def initNorm (p : Problem α) (y v : V3 α) : α :=
  let sc (y : α) : α := p.atol + Scalar.abs y * p.rtol
  0.0 + Scalar.powi2 (v.y0 / sc y.y0) + Scalar.powi2 (v.y1 / sc y.y1) + Scalar.powi2 (v.y2 / sc y.y2)

/-- `hinit`: the first guess, from one evaluation. -/
def firstGuess (p : Problem α) (y f0 : V3 α) : α :=
  let d0 := initNorm p y y
  let d1 := initNorm p y f0
  let h0 := if Scalar.lt d0 1e-10 || Scalar.lt d1 1e-10 then 1e-6 else 0.01 * Scalar.sqrt (d0 / d1)
  sign (fmin h0 p.hMax) p.posneg

/-- `hinit`: the step size returned, from the first guess and both evaluations. -/
def secondGuess [HasPowf α] (p : Problem α) (y f0 f1 : V3 α) (h0 : α) : α :=
  let d1 := initNorm p y f0
  let d2 := Scalar.sqrt (initNorm p y (sub3 f1 f0)) / h0
  let h1 := if Scalar.le (fmax (Scalar.sqrt d1) (Scalar.abs d2)) 1e-15
    then fmax 1e-6 (Scalar.abs h0 * 1e-3)
    else HasPowf.powf (0.01 / fmax (Scalar.sqrt d1) d2) (1.0 / 5.0)
  sign (fmin (100.0 * Scalar.abs h0) (fmin h1 p.hMax)) p.posneg

/-- `Dopri5::hinit`: an initial step size, from two evaluations. -/
def hinit [HasPowf α] (p : Problem α) (s : State α) (k : α → Stepper α) : Stepper α :=
  .eval s.x s.y fun f0 =>
    .eval (s.x + firstGuess p s.y f0) (add3 s.y (scale3 f0 (firstGuess p s.y f0))) fun f1 =>
      k (secondGuess p s.y f0 f1 (firstGuess p s.y f0))

/-- `Controller::accept(err, h, &mut h_new)` with `alpha = 0.2 - 0.04 * 0.75`, `beta = 0.04`,
`fac_max = 10`, `fac_min = 0.2`, `safety_factor = 0.9`: accepted or not, and the next step size. -/
def accept [HasPowf α] (p : Problem α) (facOld : α) (reject : Bool) (err h : α) : Bool × α :=
  let fac11 := HasPowf.powf err (0.2 - 0.04 * 0.75)
  let fac := fac11 * HasPowf.powf facOld (-0.04)
  let fac := fmax (1.0 / 10.0) (fmin (1.0 / 0.2) (fac / 0.9))
  let hNew := h / fac
  if Scalar.le err 1.0 then
    let hNew := if Scalar.lt p.hMax (Scalar.abs hNew) then p.posneg * p.hMax else hNew
    let hNew := if reject then p.posneg * fmin (Scalar.abs hNew) (Scalar.abs h) else hNew
    (true, hNew)
  else (false, h / fmin (1.0 / 0.2) (fac11 / 0.9))

/-- The stiffness test after an accepted step: the counters `iasti` and `non_stiff`, or `none` when
stiffness is reported. -/
def stiffness (s : State α) (h : α) (k1 k5 yNext yStiff : V3 α) : Option (Nat × Nat) :=
  if s.accepted % 1000 = 0 ∨ 0 < s.iasti then
    let num := dot3 (sub3 k1 k5) (sub3 k1 k5)
    let den := dot3 (sub3 yNext yStiff) (sub3 yNext yStiff)
    let hLamb := if Scalar.lt 0.0 den then h * Scalar.sqrt (num / den) else 0.0
    if Scalar.lt 3.25 hLamb then if s.iasti + 1 = 15 then none else some (s.iasti + 1, 0)
    else some (if s.nonStiff + 1 = 6 then 0 else s.iasti, s.nonStiff + 1)
  else some (s.iasti, s.nonStiff)

/-- The dense output polynomial at `theta`. -/
def interpolate (s : State α) (theta : α) : V3 α :=
  let theta1 := 1.0 - theta
  add3 s.rcont0 (scale3 (add3 s.rcont1 (scale3 (add3 s.rcont2 (scale3
    (add3 s.rcont3 (scale3 s.rcont4 theta1)) theta)) theta1)) theta)

/-- `Dopri5::solution_output` with dense output: `while |xd| <= |x|`, emit if `|x_old| <= |xd|` (and
otherwise repeat for ever).  `none`: cut off. -/
def output (p : Problem α) : Nat → State α → Option (State α)
  | 0, _ => none
  | fuel + 1, s =>
    if Scalar.le (Scalar.abs s.xd) (Scalar.abs s.x) then
      if Scalar.le (Scalar.abs s.xOld) (Scalar.abs s.xd)
          && Scalar.le (Scalar.abs s.xd) (Scalar.abs s.x) then
        output p fuel { s with
          xd := s.xd + p.dx
          xOut := s.xOut ++ [s.xd]
          yOut := s.yOut ++ [interpolate s ((s.xd - s.xOld) / s.hOld)] }
      else none
    else some s

/-- The six stages of a step from `(s.x, s.y)` with first derivative `k0`, continued with the new
derivatives but the first, the stage argument of the sixth and of the seventh evaluation. -/
def stages (s : State α) (h : α) (k0 : V3 α)
    (cont : (k2 k3 k4 k5 k6 yStiff yNext : V3 α) → Stepper α) : Stepper α :=
  .eval (s.x + h * c2) (stage s.y h [k0] a2) fun k1 =>
  .eval (s.x + h * c3) (stage s.y h [k0, k1] a3) fun k2 =>
  .eval (s.x + h * c4) (stage s.y h [k0, k1, k2] a4) fun k3 =>
  .eval (s.x + h * c5) (stage s.y h [k0, k1, k2, k3] a5) fun k4 =>
  .eval (s.x + h * c6) (stage s.y h [k0, k1, k2, k3, k4] a6) fun k5 =>
  .eval (s.x + h * c7) (stage s.y h [k0, k1, k2, k3, k4, k5] a7) fun k6 =>
    cont k2 k3 k4 k5 k6 (stage s.y h [k0, k1, k2, k3, k4] a6)
      (stage s.y h [k0, k1, k2, k3, k4, k5] a7)

/-- The fields after an accepted step of size `h` that ends in `yNext`, before output. -/
def advance (s : State α) (h err : α) (k0 k2 k3 k4 k5 k6 yNext : V3 α) (st : Nat × Nat) : State α :=
  let ydiff := sub3 yNext s.y
  let bspl := sub3 (scale3 k0 h) ydiff
  { s with
    facOld := fmax err 1.0e-4
    reject := false
    accepted := s.accepted + 1
    iasti := st.1
    nonStiff := st.2
    rcont0 := s.y
    rcont1 := ydiff
    rcont2 := bspl
    rcont3 := sub3 (add3 (scale3 ⟨-k6.y0, -k6.y1, -k6.y2⟩ h) ydiff) bspl
    rcont4 := scale3 (weighted [k0, k2, k3, k4, k5, k6] d) h
    y := yNext
    xOld := s.x
    x := s.x + h
    hOld := h }

/-- The second half of a pass of the main loop, from the error estimate on; `next` is the next pass. -/
def conclude [HasPowf α] (p : Problem α) (outs : Nat) (next : State α → V3 α → Stepper α)
    (s : State α) (last : Bool) (h : α) (k0 k2 k3 k4 k5 k6 yStiff yNext : V3 α) : Stepper α :=
  let err := errorNorm p s.y yNext (scale3 (weighted [k0, k2, k3, k4, k5, k6] e) h)
  match accept p s.facOld s.reject err h with
  | (true, hNew) =>
    match stiffness { s with accepted := s.accepted + 1 } h k6 k5 yNext yStiff with
    | none => .done none
    | some st =>
      match output p outs (advance s h err k0 k2 k3 k4 k5 k6 yNext st) with
      | none => .done none
      | some s' => if last then .done (some (s'.xOut, s'.yOut)) else next { s' with h := hNew } k6
  | (false, hNew) => next { s with h := hNew, reject := true } k0

/-- The main loop of `Dopri5::integrate` with `passes` passes left; `outs` bounds the points emitted per
step. -/
def loop [HasPowf α] (p : Problem α) (outs : Nat) : Nat → State α → V3 α → Stepper α
  | 0, _, _ => .done none
  | passes + 1, s, k0 =>
    if Scalar.le (0.1 * Scalar.abs s.h) (2.220446049250313e-16 * Scalar.abs s.x) then .done none
    else
      let last := Scalar.lt 0.0 ((s.x + 1.01 * s.h - p.xEnd) * p.posneg)
      let h := if last then p.xEnd - s.x else s.h
      stages s h k0 fun k2 k3 k4 k5 k6 yStiff yNext =>
        conclude p outs (loop p outs passes) s last h k0 k2 k3 k4 k5 k6 yStiff yNext

/-- `Dopri5::new(…)` and `integrate()`; `outs` bounds the points emitted per step. -/
def solve [HasPowf α] (outs : Nat) : Ode α := fun x xEnd dx y rtol atol =>
  let p : Problem α :=
    { xEnd, dx, rtol, atol, hMax := Scalar.abs (xEnd - x), posneg := sign 1.0 (xEnd - x) }
  let zero : V3 α := ⟨0.0, 0.0, 0.0⟩
  let s : State α :=
    { x, xOld := x, xd := x, h := 0.0, hOld := 0.0, y
      rcont0 := zero, rcont1 := zero, rcont2 := zero, rcont3 := zero, rcont4 := zero
      facOld := 1.0e-4, reject := false, accepted := 0, iasti := 0, nonStiff := 0
      xOut := [], yOut := [] }
  hinit p s fun h =>
    .eval s.x s.y fun k0 => loop p outs 100001 { s with h, hOld := h } k0

end dopri5

end Sett
