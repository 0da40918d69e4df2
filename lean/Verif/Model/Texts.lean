import Verif.Model.Lib
import Verif.Model.Document

/-! # The documents written in `examples/`

As they are after parsing: a number without point or exponent is an integer, `inf` is a number in TOML, and
`"inf"` is text in JSON. -/

namespace Sett.examples

variable {α : Type} [Scalar α] [HasInfinity α]

/-- The TOML text of `examples/run_from_config.rs:5-56`. -/
def configDoc : Doc α :=
  .table [
    ("engine", .table [
      ("fluid", .table [("hydrogen", .table [("model", .text "ideal_gas")])]),
      ("components", .table [
        ("chx", .table [("fixed_approach", .table [
          ("vol", .real 4e-5), ("DT", .int 40), ("R_hyd", .int 0), ("W_parasitic", .int 0)])]),
        ("hhx", .table [("fixed_approach", .table [
          ("vol", .real 1e-4), ("DT", .int 100), ("R_hyd", .int 0), ("W_parasitic", .int 0),
          ("Q_parasitic", .int 0)])]),
        ("regen", .table [("fixed_approach", .table [
          ("vol", .real 1e-4), ("DT", .int 10), ("R_hyd", .int 0), ("Q_parasitic", .int 0)])]),
        ("ws", .table [("sinusoidal", .table [
          ("frequency", .int 70), ("phase_angle", .int 90), ("V_swept_c", .real 5e-4), ("V_clearance_c", .real 2e-5),
          ("R_c", .real HasInfinity.infinity), ("W_parasitic_c", .int 0), ("V_swept_e", .real 5e-4),
          ("V_clearance_e", .real 2e-5), ("R_e", .real HasInfinity.infinity), ("W_parasitic_e", .int 0),
          ("Q_parasitic_e", .int 0)])])])]),
    ("solver", .table [
      ("inner_loop", .table [
        ("tolerance", .table [("abs", .real 1e-2), ("rel", .real 1e-4)]), ("max_iterations", .int 20)]),
      ("outer_loop", .table [
        ("tolerance", .table [("abs", .real 1e-2), ("rel", .real 1e-4)]), ("max_iterations", .int 20)]),
      ("ode", .table [
        ("tolerance", .table [("abs", .real 1e-6), ("rel", .real 1e-6)]), ("num_timesteps", .int 30)])]),
    ("conditions", .table [("temp_sink", .int 300), ("temp_source", .int 500), ("pres_zero", .real 10e6)])]

/-- The `ws` parameters of `examples/run_from_legacy_config.rs:13-25`. -/
def legacyWs : Doc α :=
  .table [
    ("frequency", .int 70), ("phase_angle", .int 90), ("V_swept_c", .real 5e-4), ("V_clearance_c", .real 2e-5),
    ("R_c", .text "inf"), ("W_parasitic_c", .int 0), ("V_swept_e", .real 5e-4), ("V_clearance_e", .real 2e-5),
    ("R_e", .text "inf"), ("W_parasitic_e", .int 0), ("Q_parasitic_e", .int 0)]

/-- The JSON text of `examples/run_from_legacy_config.rs:5-78`, with the `ws` table given. -/
def legacyWith (ws : Doc α) : Doc α :=
  .table [
    ("fluid", .table [("model", .text "IdealGas"), ("params", .table [("name", .text "Hydrogen")])]),
    ("ws", ws),
    ("chx", .table [("model", .text "FixedApproach"), ("params", .table [
      ("vol", .real 4e-5), ("DT", .int 40), ("R_hyd", .int 0), ("W_parasitic", .int 0)])]),
    ("regen", .table [("model", .text "FixedApproach"), ("params", .table [
      ("vol", .real 1e-4), ("DT", .int 10), ("R_hyd", .int 0), ("Q_parasitic", .int 0)])]),
    ("hhx", .table [("model", .text "FixedApproach"), ("params", .table [
      ("vol", .real 1e-4), ("DT", .int 100), ("R_hyd", .int 0), ("W_parasitic", .int 0), ("Q_parasitic", .int 0)])]),
    ("solver", .table [
      ("innerLoopTolerance", .table [("abs", .real 1e-2), ("rel", .real 1e-4)]),
      ("odeSolver", .text "ode45"),
      ("odeTolerance", .table [("abs", .real 1e-6), ("rel", .real 1e-6)]),
      ("outerLoopTolerance", .table [("abs", .real 1e-4), ("rel", .real 1e-4)]),
      ("timeResolution", .int 30)]),
    ("conditions", .table [("T_cold", .int 300), ("T_hot", .int 500), ("P_0", .real 10e6)])]

/-- As it is written: the model, then its parameters (`examples/run_from_legacy_config.rs:11-26`). -/
def legacyDoc : Doc α := legacyWith (.table [("model", .text "Sinusoidal"), ("params", legacyWs)])

/-- With the two keys of `ws` in the other order. -/
def legacySwapped : Doc α := legacyWith (.table [("params", legacyWs), ("model", .text "Sinusoidal")])

end Sett.examples
