import Verif.Model.State
import Verif.Model.Integrator

/-! # `src/engine/run.rs` and `Engine::run` of `src/engine.rs` -/

namespace Sett

open state_equations

/-- `Run`, `src/engine/run.rs:18-30`; `solver` is the type parameter `U`. -/
structure Run (α : Type) where
  enth_norm : α
  fluid : Fluid α
  period : α
  pres : Pressure α
  solver : MatrixDecomposition α
  temp : Temperatures α
  vol_chx : α
  vol_hhx : α
  vol_regen : α
  ws_parasitics : ws.Parasitics α
  ws_vol_fn : α → ws.CompVolume α × ws.ExpVolume α

variable {α : Type} [Scalar α]

namespace Run

/-- `Run::new`, `src/engine/run.rs:35-65` -/
def new (solver : MatrixDecomposition α) (components : Components α) (state : State α) : Run α :=
  let h_sink := state.fluid.enth state.temp.sink state.pres.avg
  let h_source := state.fluid.enth state.temp.source state.pres.avg
  { enth_norm := 0.5 * (h_sink + h_source)
    fluid := state.fluid
    period := 1.0 / components.ws.frequency state.ws
    pres := state.pres
    solver
    temp := state.temp
    vol_chx := components.chx.volume
    vol_hhx := components.hhx.volume
    vol_regen := components.regen.volume
    ws_parasitics := components.ws.parasitics state.ws
    ws_vol_fn := components.ws.volumes state.ws }

/-- `Run::comp_inputs`, `src/engine/run.rs:67-80` -/
def comp_inputs {α : Type} (r : Run α) (vol : ws.CompVolume α) (temp pres : α) : WorkingSpace α :=
  { vol := vol.value
    dens := r.fluid.dens temp pres
    inte := r.fluid.inte temp pres
    enth := r.fluid.enth temp pres
    dd_dP_T := r.fluid.dd_dP_T temp pres
    dd_dT_P := r.fluid.dd_dT_P temp pres
    du_dP_T := r.fluid.du_dP_T temp pres
    du_dT_P := r.fluid.du_dT_P temp pres
    dV_dt := vol.deriv
    Q_dot := r.ws_parasitics.comp.thermal }

/-- `Run::chx_inputs`, `src/engine/run.rs:82-92` -/
def chx_inputs {α : Type} (r : Run α) (pres : α) : state_equations.HeatExchanger α :=
  let temp := r.temp.chx
  { vol := r.vol_chx
    dens := r.fluid.dens temp pres
    inte := r.fluid.inte temp pres
    enth := r.fluid.enth temp pres
    dd_dP_T := r.fluid.dd_dP_T temp pres
    du_dP_T := r.fluid.du_dP_T temp pres }

/-- `Run::regen_inputs`, `src/engine/run.rs:94-105` -/
def regen_inputs {α : Type} (r : Run α) (pres : α) : Regenerator α :=
  let temp := r.temp.regen.avg
  { vol := r.vol_regen
    dens := r.fluid.dens temp pres
    inte := r.fluid.inte temp pres
    dd_dP_T := r.fluid.dd_dP_T temp pres
    du_dP_T := r.fluid.du_dP_T temp pres
    enth_cold := r.fluid.enth r.temp.regen.cold pres
    enth_hot := r.fluid.enth r.temp.regen.hot pres }

/-- `Run::hhx_inputs`, `src/engine/run.rs:107-117` -/
def hhx_inputs {α : Type} (r : Run α) (pres : α) : state_equations.HeatExchanger α :=
  let temp := r.temp.hhx
  { vol := r.vol_hhx
    dens := r.fluid.dens temp pres
    inte := r.fluid.inte temp pres
    enth := r.fluid.enth temp pres
    dd_dP_T := r.fluid.dd_dP_T temp pres
    du_dP_T := r.fluid.du_dP_T temp pres }

/-- `Run::exp_inputs`, `src/engine/run.rs:119-132` -/
def exp_inputs {α : Type} (r : Run α) (vol : ws.ExpVolume α) (temp pres : α) : WorkingSpace α :=
  { vol := vol.value
    dens := r.fluid.dens temp pres
    inte := r.fluid.inte temp pres
    enth := r.fluid.enth temp pres
    dd_dP_T := r.fluid.dd_dP_T temp pres
    dd_dT_P := r.fluid.dd_dT_P temp pres
    du_dP_T := r.fluid.du_dP_T temp pres
    du_dT_P := r.fluid.du_dT_P temp pres
    dV_dt := vol.deriv
    Q_dot := r.ws_parasitics.exp.thermal }

/-- `calculate_inputs`, `src/engine/run.rs:138-150` -/
def calculate_inputs {α : Type} (r : Run α) (time : α) (c : Conditions α) : Inputs α :=
  let vols := r.ws_vol_fn time
  { pres := c.P
    enth_norm := r.enth_norm
    comp := r.comp_inputs vols.1 c.T_c c.P
    chx := r.chx_inputs c.P
    regen := r.regen_inputs c.P
    hhx := r.hhx_inputs c.P
    exp := r.exp_inputs vols.2 c.T_e c.P }

/-- `impl Cycle for Run`, `src/engine/run.rs:135-159` -/
def toCycle {α : Type} (r : Run α) : Cycle α where
  Solver := r.solver
  calculate_inputs := r.calculate_inputs
  period := r.period
  pres_zero := r.pres.t_zero

end Run

/-- `Engine`, `src/engine.rs:18-22` -/
structure Engine (α : Type) where
  components : Components α
  state : State α
  values : Values α

namespace Engine

/-- The `SteadyStateInputs` built in `src/engine.rs:50-58` -/
def steadyInputs {α : Type} (settings : RunSettings α) (state : State α) : SteadyStateInputs α :=
  { pres_zero := state.pres.t_zero
    temp_comp_hint := state.temp.chx
    temp_exp_hint := state.temp.hhx
    num_points := settings.resolution
    ode_tol := settings.ode_tol
    conv_tol := settings.loop_tol.inner
    max_iters := settings.max_iters.inner }

/-- The inner solve of one outer iteration, `src/engine.rs:48-59`, before `map_err`. -/
def inner (env : Env α) (U : MatrixDecomposition α) (components : Components α)
    (settings : RunSettings α) (state : State α) :
    Exec CycleError (List (state_equations.Values α)) :=
  findSteadyState env (Run.new U components state).toCycle (steadyInputs settings state)

/-- The `for` loop of `Engine::run`, `src/engine.rs:47-75`, with `fuel` iterations left; second
component: ghost log of the states handed to the inner solve, in order. -/
def runLoop (env : Env α) (U : MatrixDecomposition α) (components : Components α)
    (settings : RunSettings α) : Nat → State α → Exec RunError (Engine α) × List (State α)
  | 0, _ => (.error (.err .OuterLoop), [])
  | fuel + 1, state =>
    match inner env U components settings state with
    | .error (.panic s) => (.error (.panic s), [state])
    | .error (.err _) => (.error (.err .InnerLoop), [state])
    | .ok vs =>
      let values := Values.ofStateValues vs
      match state.update components values settings.loop_tol.outer with
      | .error (.panic s) => (.error (.panic s), [state])
      | .ok (.changed new_state) =>
        let rest := runLoop env U components settings fuel new_state
        (rest.1, state :: rest.2)
      | .ok (.converged state') => (.ok { components, state := state', values }, [state])

/-- `Engine::run` with its ghost log. -/
def runLogged (env : Env α) (U : MatrixDecomposition α) (components : Components α)
    (fluid : Fluid α) (inputs : RunInputs α) (settings : RunSettings α) :
    Exec RunError (Engine α) × List (State α) :=
  runLoop env U components settings settings.max_iters.outer
    (State.new_hint components fluid inputs)

/-- `Engine::run`, `src/engine.rs:40-76` -/
def run (env : Env α) (U : MatrixDecomposition α) (components : Components α)
    (fluid : Fluid α) (inputs : RunInputs α) (settings : RunSettings α) :
    Exec RunError (Engine α) :=
  (runLogged env U components fluid inputs settings).1

end Engine
end Sett
