import Verif.Model.Solver

/-! # `src/state_equations/integrator.rs` and `src/state_equations/cycle.rs` -/

namespace Sett

open state_equations

/-- `StateVariables = Vector3<f64>`, order `[P, T_c, T_e]`, `src/state_equations/integrator.rs:118` -/
structure V3 (α : Type) where
  y0 : α
  y1 : α
  y2 : α

/-- The external ODE integrator (`ode_solvers::Dopri5`) as an interaction tree: it either finishes,
with its `x_out`/`y_out` lists or with a failure (`None`), or asks for the derivative at a point of its
own choosing.  Nothing else about it is assumed by the model. -/
inductive Stepper (α : Type) where
  | done (out : Option (List α × List (V3 α)))
  | eval (t : α) (y : V3 α) (k : V3 α → Stepper α)

/-- `Dopri5::new(state, x, x_end, dx, y, rtol, atol)` followed by `integrate()`, as used in
`src/state_equations/integrator.rs:35-44`; arguments in source order. -/
abbrev Ode (α : Type) := (x xend dx : α) → (y : V3 α) → (rtol atol : α) → Stepper α

/-- How `u32` subtraction behaves on underflow: panic (debug/overflow-checks) or wrap (release).
Needed for `num_points - 1`, `src/state_equations/integrator.rs:29`. -/
inductive Build where
  | checked
  | wrapping
  deriving Repr, DecidableEq

/-- Everything the code gets from outside the crate: the ODE integrator, the build mode. -/
structure Env (α : Type) where
  ode : Ode α
  build : Build

/-- The `Cycle` trait, `src/state_equations/cycle.rs:7-17`; `Solver` is the associated type. -/
structure Cycle (α : Type) where
  Solver : MatrixDecomposition α
  calculate_inputs : α → Conditions α → Inputs α
  period : α
  pres_zero : α

/-- `SteadyStateInputs`, `src/state_equations/cycle.rs:67-75` -/
structure SteadyStateInputs (α : Type) where
  pres_zero : α
  temp_comp_hint : α
  temp_exp_hint : α
  num_points : UInt32
  ode_tol : OdeTolerance α
  conv_tol : ConvergenceTolerance α
  max_iters : Nat

/-- `Point`, `src/state_equations/integrator.rs:110-113` -/
structure Point (α : Type) where
  time : α
  conditions : Conditions α

/-- Ghost record of one call of `IntegrationState::system`. -/
structure Evaluation (α : Type) where
  time : α
  conditions : Conditions α
  hint : FlowDirection
  solution : Solution α
  dy : V3 α

/-- Errors a `Result` carries out of integration and `find_steady_state` (`anyhow` text dropped). -/
inductive CycleError where
  | integration
  | not_converged
  deriving Repr, DecidableEq

variable {α : Type} [Scalar α]

/-- `IntegrationState::system`, `src/state_equations/integrator.rs:126-143`, with the `RefCell`
contents `last_flow_dir` threaded explicitly: takes the current contents, returns the ghost record
(whose `dy` is what is written to `dy`); the new contents are `from_solution` of the solution. -/
def system (cycle : Cycle α) (last_flow_dir : FlowDirection) (time : α) (y : V3 α) :
    Panics (Evaluation α) :=
  let conditions : Conditions α := { P := y.y0, T_c := y.y1, T_e := y.y2 }
  let inputs := cycle.calculate_inputs time conditions
  match solve cycle.Solver inputs last_flow_dir with
  | .error _ => .error (.panic "integrator.rs:135")
  | .ok solution =>
    .ok { time, conditions, hint := last_flow_dir, solution
          dy := { y0 := solution.dP_dt, y1 := solution.dTc_dt, y2 := solution.dTe_dt } }

/-- Run the integrator against `system`, collecting the ghost log of evaluations in order. -/
def Stepper.run (cycle : Cycle α) :
    Stepper α → FlowDirection → Panics (Option (List α × List (V3 α)) × List (Evaluation α))
  | .done out, _ => .ok (out, [])
  | .eval t y k, dir =>
    match system cycle dir t y with
    | .error e => .error e
    | .ok ev =>
      match (k ev.dy).run cycle (FlowDirection.from_solution ev.solution) with
      | .error e => .error e
      | .ok (out, log) => .ok (out, ev :: log)

/-- `num_points - 1` on `u32`, `src/state_equations/integrator.rs:29` -/
def pointsMinusOne (build : Build) (num_points : UInt32) : Panics UInt32 :=
  match build with
  | .checked => if num_points = 0 then .error (.panic "integrator.rs:29") else .ok (num_points - 1)
  | .wrapping => .ok (num_points - 1)

/-- `dx = period / f64::from(num_points - 1)`, `src/state_equations/integrator.rs:29` -/
def timeStep (build : Build) (period : α) (num_points : UInt32) : Panics α :=
  match pointsMinusOne build num_points with
  | .error e => .error e
  | .ok n => .ok (period / Scalar.ofNat n.toNat)

/-- The interaction tree started by `Integration::try_from`,
`src/state_equations/integrator.rs:28-43`. -/
def startStepper (env : Env α) (cycle : Cycle α) (ic : Conditions α) (dx : α)
    (tol : OdeTolerance α) : Stepper α :=
  env.ode 0.0 (cycle.period + 1e-14) dx { y0 := ic.P, y1 := ic.T_c, y2 := ic.T_e } tol.rel tol.abs

/-- The points of `src/state_equations/integrator.rs:46-54` (`zip` of `x_out` and `y_out`). -/
def toPoints {α : Type} (xs : List α) (ys : List (V3 α)) : List (Point α) :=
  (xs.zip ys).map fun p =>
    { time := p.1, conditions := { P := p.2.y0, T_c := p.2.y1, T_e := p.2.y2 } }

/-- `Integration::try_from`, `src/state_equations/integrator.rs:18-57`.  The `Integration` struct's
`cycle` reference is passed separately. -/
def integrationTryFrom (env : Env α) (cycle : Cycle α) (ic : Conditions α) (num_points : UInt32)
    (tol : OdeTolerance α) : Exec CycleError (List (Point α)) :=
  match timeStep env.build cycle.period num_points with
  | .error (.panic s) => .error (.panic s)
  | .ok dx =>
    match (startStepper env cycle ic dx tol).run cycle FlowDirection.default with
    | .error (.panic s) => .error (.panic s)
    | .ok (none, _) => .error (.err .integration)
    | .ok (some (xs, ys), _) => .ok (toPoints xs ys)

/-- `Integration::is_converged`, `src/state_equations/integrator.rs:66-71`; the `unwrap`s panic on an
empty integration. -/
def integrationIsConverged (points : List (Point α)) (tol : ConvergenceTolerance α) : Panics Bool :=
  match points.head?, points.getLast? with
  | some first_point, some last_point =>
    .ok (tol.is_converged first_point.conditions.T_c last_point.conditions.T_c
      && tol.is_converged first_point.conditions.T_e last_point.conditions.T_e)
  | _, _ => .error (.panic "integrator.rs:67")

/-- `Integration::final_conditions`, `src/state_equations/integrator.rs:81-84` -/
def finalConditions {α : Type} (points : List (Point α)) : Panics (Conditions α) :=
  match points.getLast? with
  | some p => .ok p.conditions
  | none => .error (.panic "integrator.rs:82")

/-- The `map` of `Integration::into_state_values`, `src/state_equations/integrator.rs:91-105`, with
the captured `flow_dir` threaded. -/
def stateValuesFrom (cycle : Cycle α) : FlowDirection → List (Point α) →
    Panics (List (state_equations.Values α))
  | _, [] => .ok []
  | flow_dir, p :: ps =>
    match solve cycle.Solver (cycle.calculate_inputs p.time p.conditions) flow_dir with
    | .error _ => .error (.panic "integrator.rs:97")
    | .ok solution =>
      match stateValuesFrom cycle (FlowDirection.from_solution solution) ps with
      | .error e => .error e
      | .ok vs => .ok ({ time := p.time, conditions := p.conditions, solution } :: vs)

/-- `Integration::into_state_values`, `src/state_equations/integrator.rs:89-106` -/
def intoStateValues (cycle : Cycle α) (points : List (Point α)) :
    Panics (List (state_equations.Values α)) :=
  stateValuesFrom cycle FlowDirection.default points

/-- Ghost record of one integration attempted by `find_steady_state`. -/
structure Attempt (α : Type) where
  ic : Conditions α
  num_points : UInt32

/-- The `for` loop of `find_steady_state`, `src/state_equations/cycle.rs:51-63`, with `fuel`
iterations left; second component: ghost log of the integrations started, in order. -/
def steadyLoop (env : Env α) (cycle : Cycle α) (i : SteadyStateInputs α) :
    Nat → Conditions α → Exec CycleError (List (state_equations.Values α)) × List (Attempt α)
  | 0, _ => (.error (.err .not_converged), [])
  | fuel + 1, ic =>
    match integrationTryFrom env cycle ic 2 i.ode_tol with
    | .error e => (.error e, [⟨ic, 2⟩])
    | .ok points =>
      match integrationIsConverged points i.conv_tol with
      | .error (.panic s) => (.error (.panic s), [⟨ic, 2⟩])
      | .ok true =>
        match integrationTryFrom env cycle ic i.num_points i.ode_tol with
        | .error e => (.error e, [⟨ic, 2⟩, ⟨ic, i.num_points⟩])
        | .ok points => ((intoStateValues cycle points).lift, [⟨ic, 2⟩, ⟨ic, i.num_points⟩])
      | .ok false =>
        match finalConditions points with
        | .error (.panic s) => (.error (.panic s), [⟨ic, 2⟩])
        | .ok fc =>
          let rest := steadyLoop env cycle i fuel { fc with P := i.pres_zero }
          (rest.1, ⟨ic, 2⟩ :: rest.2)

/-- `find_steady_state` with its ghost log. -/
def findSteadyStateLogged (env : Env α) (cycle : Cycle α) (i : SteadyStateInputs α) :
    Exec CycleError (List (state_equations.Values α)) × List (Attempt α) :=
  steadyLoop env cycle i i.max_iters
    { P := i.pres_zero, T_c := i.temp_comp_hint, T_e := i.temp_exp_hint }

/-- `Cycle::find_steady_state`, `src/state_equations/cycle.rs:33-64` -/
def findSteadyState (env : Env α) (cycle : Cycle α) (i : SteadyStateInputs α) :
    Exec CycleError (List (state_equations.Values α)) :=
  (findSteadyStateLogged env cycle i).1

end Sett
