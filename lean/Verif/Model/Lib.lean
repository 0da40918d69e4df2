import Verif.Model.Api

/-! # `src/lib.rs:run_from_config` and the programs of `examples/` -/

namespace Sett
open api

namespace lib

/-- What a `println!` of `run_from_config` writes, `src/lib.rs:54-62`; the text of a number or of the
results is not modelled, only which value is printed. -/
inductive Line (α : Type) where
  | rule
  | T_hot (value : α)
  | time (series : List α)
  | P (series : List α)
  | T_c (series : List α)
  | T_e (series : List α)
  | results (r : RunResults α)

/-- A program run: the lines written so far, and how it ended. -/
abbrev Ran (α : Type) := List (Line α) × Panics Unit

variable {α : Type} [Scalar α]

/-- The fluid `match` of `run_from_config`, `src/lib.rs:31-44` -/
def selectFluid : fluid.Config → Panics (IdealGas α)
  | .Hydrogen model => match model with
    | .IdealGas => .ok IdealGas.hydrogen
    | .RefProp => .error (.panic "lib.rs:34")
    | .Fit => .error (.panic "lib.rs:35")
    | .Custom => .error (.panic "lib.rs:36")
  | .Helium model => match model with
    | .IdealGas => .ok IdealGas.helium
    | .RefProp => .error (.panic "lib.rs:40")
    | .Fit => .error (.panic "lib.rs:41")
    | .Custom => .error (.panic "lib.rs:42")

/-- `run_from_config`, `src/lib.rs:29-63`, after `config.into()`. -/
def run_from_config (env : Env α) (lu : MatrixDecomposition α) (config : Config α) : Ran α :=
  match selectFluid config.engine.fluid with
  | .error e => ([], .error e)
  | .ok fluid =>
    match config.engine.components.build with
    | .error e => ([], .error e)
    | .ok components =>
      match Engine.run env lu components fluid.toFluid config.conditions.toRunInputs
          config.solver.toRunSettings with
      | .error (.panic s) => ([], .error (.panic s))
      | .error (.err _) => ([], .error (.panic "lib.rs:52"))
      | .ok engine =>
        let head : List (Line α) :=
          [.rule, .time engine.values.time, .P engine.values.P, .T_c engine.values.T_c,
            .T_e engine.values.T_e]
        match RunResults.ofEngine engine with
        | .error e => (head, .error e)
        | .ok r => (head ++ [.results r], .ok ())

/-- `run_from_config` on a `Legacy` value: `impl Into<Config>` is `Config::from`, `src/lib.rs:29-30`. -/
def run_from_legacy (env : Env α) (lu : MatrixDecomposition α) (l : Legacy α) : Ran α :=
  run_from_config env lu l.toConfig

end lib

namespace examples

variable {α : Type} [Scalar α] [HasInfinity α]

/-- The configuration written in `examples/run_from_config.rs:4-53` (the text itself is not parsed). -/
def config : Config α :=
  { engine :=
      { fluid := .Hydrogen .IdealGas
        components :=
          { chx := .FixedApproach { vol := 4e-5, DT := 40.0, R_hyd := 0.0, W_parasitic := 0.0 }
            hhx := .FixedApproach
              { vol := 1e-4, DT := 100.0, R_hyd := 0.0, W_parasitic := 0.0, Q_parasitic := 0.0 }
            regen := .FixedApproach { vol := 1e-4, DT := 10.0, R_hyd := 0.0, Q_parasitic := 0.0 }
            ws := .Sinusoidal
              { frequency := 70.0, phase_angle := 90.0, V_swept_c := 5e-4, V_clearance_c := 2e-5
                R_c := HasInfinity.infinity, W_parasitic_c := 0.0, V_swept_e := 5e-4
                V_clearance_e := 2e-5, R_e := HasInfinity.infinity, W_parasitic_e := 0.0
                Q_parasitic_e := 0.0 } } }
    solver :=
      { inner_loop := { tolerance := { abs := 1e-2, rel := 1e-4 }, max_iterations := 20 }
        outer_loop := { tolerance := { abs := 1e-2, rel := 1e-4 }, max_iterations := 20 }
        ode := { tolerance := { abs := 1e-6, rel := 1e-6 }, num_timesteps := 30 } }
    conditions := { temp_sink := 300.0, temp_source := 500.0, pres_zero := 10e6 } }

/-- The configuration written in `examples/run_from_legacy_config.rs:4-75`; its outer tolerance is
`1e-4`, not `1e-2`. -/
def legacy : Legacy α :=
  { fluid := .IdealGas .Hydrogen
    ws := .Sinusoidal
      { frequency := 70.0, phase_angle := 90.0, V_swept_c := 5e-4, V_clearance_c := 2e-5
        R_c := HasInfinity.infinity, W_parasitic_c := 0.0, V_swept_e := 5e-4, V_clearance_e := 2e-5
        R_e := HasInfinity.infinity, W_parasitic_e := 0.0, Q_parasitic_e := 0.0 }
    chx := .FixedApproach { vol := 4e-5, DT := 40.0, R_hyd := 0.0, W_parasitic := 0.0 }
    regen := .FixedApproach { vol := 1e-4, DT := 10.0, R_hyd := 0.0, Q_parasitic := 0.0 }
    hhx := .FixedApproach
      { vol := 1e-4, DT := 100.0, R_hyd := 0.0, W_parasitic := 0.0, Q_parasitic := 0.0 }
    solver :=
      { inner_loop_tolerance := { abs := 1e-2, rel := 1e-4 }
        outer_loop_tolerance := { abs := 1e-4, rel := 1e-4 }
        ode_tolerance := { abs := 1e-6, rel := 1e-6 }
        ode_solver := .Ode45
        time_resolution := 30 }
    conditions := { T_cold := 300.0, T_hot := 500.0, P_0 := 10e6 } }

/-- The components of `examples/run_simple_engine.rs:14-31` -/
def simpleComponents : Components α :=
  { ws := ws.SinusoidalDrive.toWorkingSpaces
      { frequency := 70.0
        phase_angle := 90.0
        comp_geometry := { clearance_volume := 2e-5, swept_volume := 5e-4 }
        exp_geometry := { clearance_volume := 2e-5, swept_volume := 5e-4 }
        thermal_resistance := ws.ThermalResistance.default
        parasitics := { comp := ParasiticPower.default, exp := ParasiticPower.default } }
    chx := chx.FixedApproach.default.toColdHeatExchanger
    regen := regen.FixedApproach.default.toRegenerator
    hhx := hhx.FixedApproach.default.toHotHeatExchanger }

/-- The settings of `examples/run_simple_engine.rs:38-59` -/
def simpleSettings : RunSettings α :=
  { resolution := 30
    loop_tol := { inner := { abs := 1e-2, rel := 1e-4 }, outer := { abs := 1e-2, rel := 1e-4 } }
    ode_tol := { abs := 1e-6, rel := 1e-6 }
    max_iters := { inner := 20, outer := 20 } }

/-- The source temperature of step `step`, `examples/run_simple_engine.rs:9-12` -/
def simpleSource (step : Nat) : α := 500.0 + 5.0 * Scalar.ofNat step

/-- One pass of the loop of `examples/run_simple_engine.rs:11-71`. -/
def simpleStep (env : Env α) (lu : MatrixDecomposition α) (step : Nat) : lib.Ran α :=
  match Engine.run env lu simpleComponents IdealGas.hydrogen.toFluid
      { pres_zero := 10e6, temp_sink := 300.0, temp_source := simpleSource step } simpleSettings with
  | .error (.panic s) => ([], .error (.panic s))
  | .error (.err _) => ([], .error (.panic "run_simple_engine.rs:62"))
  | .ok engine =>
    ([.rule, .T_hot (simpleSource step), .time engine.values.time, .P engine.values.P,
      .T_c engine.values.T_c, .T_e engine.values.T_e], .ok ())

/-- The rest of that loop from step `step`, with `n` passes left; a panic ends the program. -/
def simpleFrom (env : Env α) (lu : MatrixDecomposition α) : (n step : Nat) → lib.Ran α
  | 0, _ => ([], .ok ())
  | n + 1, step =>
    match simpleStep env lu step with
    | (out, .error e) => (out, .error e)
    | (out, .ok ()) =>
      let rest := simpleFrom env lu n (step + 1)
      (out ++ rest.1, rest.2)

/-- `main` of `examples/run_simple_engine.rs:8-72`: steps `0..101`. -/
def simpleMain (env : Env α) (lu : MatrixDecomposition α) : lib.Ran α := simpleFrom env lu 101 0

/-- `main` of `examples/run_from_config.rs` once the text is read. -/
def configMain (env : Env α) (lu : MatrixDecomposition α) : lib.Ran α :=
  lib.run_from_config env lu config

/-- `main` of `examples/run_from_legacy_config.rs` once the text is read. -/
def legacyMain (env : Env α) (lu : MatrixDecomposition α) : lib.Ran α :=
  lib.run_from_legacy env lu legacy

end examples
end Sett
