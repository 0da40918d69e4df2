import Verif.Model.Integrator

/-! # Specification of integration and of the search for the cyclic steady state

Stated over the arithmetic-independent model; none of the loops of the model is used. -/

namespace Sett.Spec

open state_equations

variable {α : Type}

/-- The integrator `st`, given the listed (time, state, derivative) answers in order, arrives at
`st'`. -/
inductive Reaches : Stepper α → List (α × V3 α × V3 α) → Stepper α → Prop
  | refl (st) : Reaches st [] st
  | step {t y k dy qs st'} : Reaches (k dy) qs st' → Reaches (.eval t y k) ((t, y, dy) :: qs) st'

/-- The state vector of given conditions: pressure, compression and expansion space temperature. -/
def stateVector (c : Conditions α) : V3 α := ⟨c.P, c.T_c, c.T_e⟩

/-- What was asked and what was answered in one evaluation. -/
def question (e : Evaluation α) : α × V3 α × V3 α := (e.time, stateVector e.conditions, e.dy)

variable [Scalar α]

/-- A solution is self-consistent for given inputs: assuming the directions of its own flows, the
decomposition of the resulting system returns it. -/
def SelfConsistent (T : MatrixDecomposition α) (i : Inputs α) (s : Solution α) : Prop :=
  ∃ x, T ((System.new i).stencil.create_matrix (FlowDirection.from_solution s)) (System.new i).b
      = some x ∧ s = Solution.ofVec x

/-- One evaluation is right: the solution solves the equations at that time and state, and the
derivative handed out is that of pressure, compression and expansion space temperature. -/
structure GoodEvaluation (cycle : Cycle α) (e : Evaluation α) : Prop where
  solved : solve cycle.Solver (cycle.calculate_inputs e.time e.conditions) e.hint = .ok e.solution
  consistent : SelfConsistent cycle.Solver (cycle.calculate_inputs e.time e.conditions) e.solution
  deriv : e.dy = ⟨e.solution.dP_dt, e.solution.dTc_dt, e.solution.dTe_dt⟩

/-- Every evaluation is right and is hinted with the directions of the one before; the first with
`first`. -/
def GoodLog (cycle : Cycle α) (first : FlowDirection) (log : List (Evaluation α)) : Prop :=
  ∀ n e, log[n]? = some e → GoodEvaluation cycle e ∧
    ((n = 0 ∧ e.hint = first) ∨
      ∃ m p, n = m + 1 ∧ log[m]? = some p ∧ e.hint = FlowDirection.from_solution p.solution)

/-- Directions known after a log. -/
def dirAfter (first : FlowDirection) (log : List (Evaluation α)) : FlowDirection :=
  match log.getLast? with
  | none => first
  | some e => FlowDirection.from_solution e.solution

/-- The stopping test on one quantity, spelled out with the machine operations. -/
def Within (tol : ConvergenceTolerance α) (old new : α) : Prop :=
  Scalar.lt (Scalar.abs (new - old)) tol.abs = true ∧
    Scalar.lt (Scalar.abs ((new - old) / old)) tol.rel = true

/-- One cycle integrated from `ic` with two output points runs from `first` to `last`. -/
def OneCycle (env : Env α) (cycle : Cycle α) (i : SteadyStateInputs α) (ic : Conditions α)
    (first last : Conditions α) : Prop :=
  ∃ pts : List (Point α), integrationTryFrom env cycle ic 2 i.ode_tol = .ok pts ∧
    pts.head?.map Point.conditions = some first ∧ pts.getLast?.map Point.conditions = some last

/-- Both temperatures return to where they started. -/
def Closed (i : SteadyStateInputs α) (first last : Conditions α) : Prop :=
  Within i.conv_tol first.T_c last.T_c ∧ Within i.conv_tol first.T_e last.T_e

/-- The successive-substitution sequence: `Substituted n ic` says that `ic` is the start of cycle number
`n`, all earlier cycles having failed to close. -/
inductive Substituted (env : Env α) (cycle : Cycle α) (i : SteadyStateInputs α) :
    Nat → Conditions α → Prop
  | hints : Substituted env cycle i 0 ⟨i.pres_zero, i.temp_comp_hint, i.temp_exp_hint⟩
  | next {n ic first last} : Substituted env cycle i n ic → OneCycle env cycle i ic first last →
      ¬Closed i first last → Substituted env cycle i (n + 1) ⟨i.pres_zero, last.T_c, last.T_e⟩

end Sett.Spec
