import Verif.Spec.Lipschitz
import Mathlib.Analysis.Real.Sqrt

/-! # Specification: the Dormand-Prince method

The textbook method (Hairer, Norsett, Wanner, *Solving Ordinary Differential Equations I*, II.5 and II.6): a
pair of Runge-Kutta methods of orders 5 and 4 on the same seven slopes, of which the first gives the result
and the difference an error estimate, and a quartic through both ends in between. -/

namespace Sett.Spec

/-- One step of size `h` from the state `y` at time `t`, with its seven slopes. -/
structure Step where
  t : ℝ
  h : ℝ
  y : V3 ℝ
  k1 : V3 ℝ
  k2 : V3 ℝ
  k3 : V3 ℝ
  k4 : V3 ℝ
  k5 : V3 ℝ
  k6 : V3 ℝ
  k7 : V3 ℝ

namespace Step

variable (s : Step)

/-- The combination of the slopes with given weights. -/
noncomputable def slope (w1 w2 w3 w4 w5 w6 w7 : ℝ) : V3 ℝ :=
  let f (g : V3 ℝ → ℝ) : ℝ := w1 * g s.k1 + w2 * g s.k2 + w3 * g s.k3 + w4 * g s.k4 + w5 * g s.k5
    + w6 * g s.k6 + w7 * g s.k7
  ⟨f V3.y0, f V3.y1, f V3.y2⟩

/-- Where that combination leads from the start of the step. -/
noncomputable def go (w1 w2 w3 w4 w5 w6 w7 : ℝ) : V3 ℝ :=
  let v := s.slope w1 w2 w3 w4 w5 w6 w7
  ⟨s.y.y0 + s.h * v.y0, s.y.y1 + s.h * v.y1, s.y.y2 + s.h * v.y2⟩

/-- The result, of order 5. -/
noncomputable def finish : V3 ℝ :=
  s.go (35 / 384) 0 (500 / 1113) (125 / 192) (-2187 / 6784) (11 / 84) 0

/-- The comparison result, of order 4. -/
noncomputable def embedded : V3 ℝ :=
  s.go (5179 / 57600) 0 (7571 / 16695) (393 / 640) (-92097 / 339200) (187 / 2100) (1 / 40)

/-- The slopes are, in the sense of `A` (time, state, slope), those of the seven points the method
prescribes. -/
structure Slopes (A : ℝ → V3 ℝ → V3 ℝ → Prop) : Prop where
  k1 : A s.t s.y s.k1
  k2 : A (s.t + s.h / 5) (s.go (1 / 5) 0 0 0 0 0 0) s.k2
  k3 : A (s.t + 3 * s.h / 10) (s.go (3 / 40) (9 / 40) 0 0 0 0 0) s.k3
  k4 : A (s.t + 4 * s.h / 5) (s.go (44 / 45) (-56 / 15) (32 / 9) 0 0 0 0) s.k4
  k5 : A (s.t + 8 * s.h / 9)
    (s.go (19372 / 6561) (-25360 / 2187) (64448 / 6561) (-212 / 729) 0 0 0) s.k5
  k6 : A (s.t + s.h) (s.go (9017 / 3168) (-355 / 33) (46732 / 5247) (49 / 176) (-5103 / 18656) 0 0) s.k6
  k7 : A (s.t + s.h) s.finish s.k7

/-- The two results agree within the tolerances: the root mean square of their differences, each relative to
`atol + rtol max(|before|, |after|)`, is at most one. -/
def Passes (rtol atol : ℝ) : Prop :=
  let q (g : V3 ℝ → ℝ) : ℝ :=
    ((g s.finish - g s.embedded) / (atol + max |g s.y| |g s.finish| * rtol)) ^ 2
  √((q V3.y0 + q V3.y1 + q V3.y2) / 3) ≤ 1

/-- The state in between, after the fraction `θ` of the step: the cubic with the values and slopes of both
ends, corrected by a quartic that vanishes to second order at both. -/
noncomputable def dense (θ : ℝ) : V3 ℝ :=
  let q := s.slope (-12715105075 / 11282082432) 0 (87487479700 / 32700410799) (-10690763975 / 1880347072)
    (701980252875 / 199316789632) (-1453857185 / 822651844) (69997945 / 29380423)
  let f (g : V3 ℝ → ℝ) : ℝ := (1 + 2 * θ) * (1 - θ) ^ 2 * g s.y + θ ^ 2 * (3 - 2 * θ) * g s.finish
    + s.h * (θ * (1 - θ) ^ 2 * g s.k1 - θ ^ 2 * (1 - θ) * g s.k7 + θ ^ 2 * (1 - θ) ^ 2 * g q)
  ⟨f V3.y0, f V3.y1, f V3.y2⟩

end Step

/-- The steps lead from `(t, y)` to `(t', y')`, each starting where the one before ended. -/
def Leads (t : ℝ) (y : V3 ℝ) : List Step → ℝ → V3 ℝ → Prop
  | [], t', y' => t = t' ∧ y = y'
  | s :: l, t', y' => s.t = t ∧ s.y = y ∧ Leads (t + s.h) s.finish l t' y'

/-- The state `v` is what the steps give for time `x`. -/
def OnSteps (l : List Step) (x : ℝ) (v : V3 ℝ) : Prop :=
  ∃ s ∈ l, s.t ≤ x ∧ x ≤ s.t + s.h ∧ v = s.dense ((x - s.t) / s.h)

/-- An integration from `(0, y)` to `xEnd` by the method: forward steps with the right slopes, each passing
the error test. -/
structure Integrates (A : ℝ → V3 ℝ → V3 ℝ → Prop) (rtol atol : ℝ) (y : V3 ℝ) (xEnd : ℝ) (l : List Step) :
    Prop where
  joined : ∃ y', Leads 0 y l xEnd y'
  forward : ∀ s ∈ l, 0 < s.h
  slopes : ∀ s ∈ l, s.Slopes A
  passes : ∀ s ∈ l, s.Passes rtol atol

/-- The volumes and their rates change at no more than the rate `K` in time. -/
def SteadyDrive (r : Run ℝ) (K : ℝ) : Prop := ∀ t t', driveGap r t t' ≤ K * |t - t'|

/-- The slope `k` was answered for the state `y` at time `t` during a conversation. -/
def AnsweredIn (log : List (Evaluation ℝ)) (t : ℝ) (y k : V3 ℝ) : Prop :=
  ∃ e ∈ log, e.time = t ∧ stateVector e.conditions = y ∧ e.dy = k

/-- The evaluations an integration of one cycle goes through: the integrator's questions in order, each answered by
the state equations. -/
structure Conversation (env : Env ℝ) (cycle : Cycle ℝ) (ic : Conditions ℝ) (num : UInt32) (tol : OdeTolerance ℝ)
    (log : List (Evaluation ℝ)) : Prop where
  asked : ∃ dx out, timeStep env.build cycle.period num = .ok dx ∧
    Reaches (env.ode 0.0 (cycle.period + 1e-14) dx (stateVector ic) tol.rel tol.abs) (log.map question) (.done out)
  answered : GoodLog cycle ⟨.Unknown, .Unknown, .Unknown, .Unknown⟩ log

end Sett.Spec
