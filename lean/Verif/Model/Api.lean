import Verif.Model.Performance
import Verif.Model.Config

/-! # `src/api.rs` -/

namespace Sett
namespace api

/-- `Efficiency`, `src/api.rs:80-86` -/
structure Efficiency (α : Type) where
  mechanical : α
  overall : α

/-- `HeatFlow`, `src/api.rs:90-105` -/
structure HeatFlow (α : Type) where
  input : α
  rejection : α
  chx : α
  regen : α
  hhx : α

/-- `MassFlow`, `src/api.rs:109-113` -/
structure MassFlow (α : Type) where
  chx : α
  regen : α
  hhx : α

/-- `Power`, `src/api.rs:117-135` -/
structure Power (α : Type) where
  ideal_indicated : α
  indicated : α
  shaft : α
  net : α

/-- `Temperature`, `src/api.rs:148-156` -/
structure Temperature (α : Type) where
  sink : α
  chx : α
  regen_cold : α
  regen_avg : α
  regen_hot : α
  hhx : α
  source : α

/-- `Values`, `src/api.rs:170-215` -/
structure Values (α : Type) where
  time : List α
  P : List α
  P_c : List α
  P_e : List α
  T_c : List α
  T_e : List α
  m_dot_ck : List α
  m_dot_kr : List α
  m_dot_rl : List α
  m_dot_le : List α
  Q_dot_k : List α
  Q_dot_r : List α
  Q_dot_l : List α

/-- `RunResults`, `src/api.rs:49-76`; `api::Pressure` (lines 139-144) has the fields of
`engine::Pressure`. -/
structure RunResults (α : Type) where
  efficiency : Efficiency α
  heat_flow : HeatFlow α
  mass_flow : MassFlow α
  power : Power α
  pressure : Pressure α
  regen_imbalance : α
  shaft_torque : α
  temperature : Temperature α
  values : Values α

end api

open api performance

variable {α : Type} [Scalar α]

/-- `impl From<Engine<T>> for RunResults`, `src/api.rs:217-279` -/
def RunResults.ofEngine (engine : Engine α) : Panics (RunResults α) := do
  let performance ← Performance.ofEngine engine
  return {
    efficiency := { mechanical := performance.efficiency, overall := 0.0 }
    heat_flow :=
      { input := performance.heat.input
        rejection := performance.heat.rejected
        chx := engine.state.heat_flow.chx
        regen := engine.state.heat_flow.regen
        hhx := engine.state.heat_flow.hhx }
    mass_flow :=
      { chx := engine.state.mass_flow.chx
        regen := engine.state.mass_flow.regen
        hhx := engine.state.mass_flow.hhx }
    power :=
      { ideal_indicated := performance.power.indicated_zero_dP
        indicated := performance.power.indicated
        shaft := performance.power.shaft
        net := performance.power.net }
    pressure :=
      { avg := engine.state.pres.avg
        max := engine.state.pres.max
        min := engine.state.pres.min
        t_zero := engine.state.pres.t_zero }
    regen_imbalance := engine.state.regen_imbalance.val
    shaft_torque := performance.shaft_torque
    temperature :=
      { sink := engine.state.temp.sink
        chx := engine.state.temp.chx
        regen_cold := engine.state.temp.regen.cold
        regen_avg := engine.state.temp.regen.avg
        regen_hot := engine.state.temp.regen.hot
        hhx := engine.state.temp.hhx
        source := engine.state.temp.source }
    values :=
      { time := engine.values.time
        P := engine.values.P
        P_c := performance.pressures_with_drops.P_c
        P_e := performance.pressures_with_drops.P_e
        T_c := engine.values.T_c
        T_e := engine.values.T_e
        m_dot_ck := engine.values.m_dot_ck
        m_dot_kr := engine.values.m_dot_kr
        m_dot_rl := engine.values.m_dot_rl
        m_dot_le := engine.values.m_dot_le
        Q_dot_k := engine.values.Q_dot_k
        Q_dot_r := engine.values.Q_dot_r
        Q_dot_l := engine.values.Q_dot_l } }

/-- The fluid `match` of `run_engine`, `src/api.rs:22-35` -/
def selectFluid : fluid.Config → Panics (IdealGas α)
  | .Hydrogen .IdealGas => .ok IdealGas.hydrogen
  | .Hydrogen .RefProp => .error (.panic "api.rs:25")
  | .Hydrogen .Fit => .error (.panic "api.rs:26")
  | .Hydrogen .Custom => .error (.panic "api.rs:27")
  | .Helium .IdealGas => .ok IdealGas.helium
  | .Helium .RefProp => .error (.panic "api.rs:31")
  | .Helium .Fit => .error (.panic "api.rs:32")
  | .Helium .Custom => .error (.panic "api.rs:33")

/-- `run_engine`, `src/api.rs:21-45`.  `lu` stands for nalgebra's LU (`LuSolver`), `env` for the ODE
integrator and the build mode. -/
def run_engine (env : Env α) (lu : MatrixDecomposition α) (config : Config α) :
    Exec RunError (RunResults α) := do
  let fluid ← (selectFluid config.engine.fluid).lift
  let components ← config.engine.components.build.lift
  let engine ← Engine.run env lu components fluid.toFluid config.conditions.toRunInputs
    config.solver.toRunSettings
  (RunResults.ofEngine engine).lift

end Sett
