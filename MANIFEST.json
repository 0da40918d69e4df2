{
 "claims": [
  {
   "property": "C01",
   "status": "proved",
   "theorems": [
    "Sett.C01_is_converged_iff",
    "Sett.C01_accepted_exact_ieee"
   ],
   "note": "Exact arithmetic (ℝ); rounding not modelled. Acceptance iff |new-old| within the tolerances, with old ≠ 0 explicit; IEEE version for accepted pairs."
  },
  {
   "property": "C02",
   "status": "proved",
   "theorems": [
    "Sett.C02_accepts_only_sane",
    "Sett.C02_rejects",
    "Sett.C02_run_ok_finite"
   ],
   "note": "IEEE binary64 (F64). Also lifted to Engine::run: an Ok result has finite temperatures."
  },
  {
   "property": "C03",
   "status": "proved",
   "theorems": [
    "Sett.C03_tolerance_monotone",
    "Sett.C03_negation_invariant",
    "Sett.C03_scaling",
    "Sett.C03_tolerance_monotone_ieee"
   ],
   "note": "Exact arithmetic (ℝ); rounding not modelled. Tolerance monotonicity also in IEEE."
  },
  {
   "property": "C04",
   "status": "proved",
   "theorems": [
    "Sett.C04_system_iff_balances"
   ],
   "note": "Exact arithmetic (ℝ); rounding not modelled. Needs enth_norm ≠ 0; the balances are stated independently of the matrix."
  },
  {
   "property": "C05",
   "status": "proved",
   "theorems": [
    "Sett.C05_total_mass_conserved"
   ],
   "note": "Exact arithmetic (ℝ); rounding not modelled. Hypothesis Sound: a vector returned by the matrix decomposition solves the system. No condition on enth_norm."
  },
  {
   "property": "C06",
   "status": "proved",
   "theorems": [
    "Sett.C06_total_energy_balance"
   ],
   "note": "Exact arithmetic (ℝ); rounding not modelled. Hypothesis Sound: a vector returned by the matrix decomposition solves the system. Needs enth_norm ≠ 0."
  },
  {
   "property": "C07",
   "status": "proved",
   "theorems": [
    "Sett.C07_returned_solution_uses_own_directions",
    "Sett.C07_no_unknown_direction",
    "Sett.C07_upwind_balances"
   ],
   "note": "Any arithmetic. Upwind reading over ℝ with Sound."
  },
  {
   "property": "C08",
   "status": "proved",
   "theorems": [
    "Sett.C08_at_most_four_solves",
    "Sett.C08_ok_iff",
    "Sett.C08_errors_classified",
    "Sett.C08_idempotent",
    "Sett.C08_unknown_costs_two"
   ],
   "note": "Any arithmetic. Every decomposition, sound or not."
  },
  {
   "property": "C09",
   "status": "proved",
   "theorems": [
    "Sett.C09_norm_irrelevant",
    "Sett.C09_solve_eq"
   ],
   "note": "Exact arithmetic (ℝ); rounding not modelled. Hypothesis Sound: a vector returned by the matrix decomposition solves the system. "
  },
  {
   "property": "C10",
   "status": "proved",
   "theorems": [
    "Sett.C10_unique_iff",
    "Sett.C10_decomposition_independent"
   ],
   "note": "Exact arithmetic (ℝ); rounding not modelled. Exactly one solution iff an explicit 3×3 determinant is non-zero."
  },
  {
   "property": "C11",
   "status": "proved",
   "theorems": [
    "Sett.ws.C11_sinusoidal_deriv"
   ],
   "note": "Exact arithmetic (ℝ); rounding not modelled. "
  },
  {
   "property": "C12",
   "status": "proved",
   "theorems": [
    "Sett.ws.C12_sinusoidal_bounds",
    "Sett.ws.C12_sinusoidal_attained",
    "Sett.ws.C12_sinusoidal_periodic",
    "Sett.ws.C12_sinusoidal_reported_period",
    "Sett.ws.C12_sinusoidal_phase",
    "Sett.ws.C12_sinusoidal_positive",
    "Sett.C12_run_period"
   ],
   "note": "Exact arithmetic (ℝ); rounding not modelled. "
  },
  {
   "property": "C13",
   "status": "proved",
   "theorems": [
    "Sett.ws.C13_rhombic_deriv"
   ],
   "note": "Exact arithmetic (ℝ); rounding not modelled. Geometry must be feasible (rods reach) and D_p ≠ 0."
  },
  {
   "property": "C14",
   "status": "proved",
   "theorems": [
    "Sett.ws.C14_rhombic_expansion_ge",
    "Sett.ws.C14_rhombic_compression_ge",
    "Sett.ws.C14_compression_needs_eccentricity",
    "Sett.ws.C14_rhombic_attained",
    "Sett.ws.C14_rhombic_linkage",
    "Sett.ws.C14_rhombic_periodic",
    "Sett.ws.C14_rhombic_reported_period",
    "Sett.C14_run_period"
   ],
   "note": "Exact arithmetic (ℝ); rounding not modelled. The compression bound needs eccentricity ≥ crank radius; a counterexample without it is proved."
  },
  {
   "property": "C15",
   "status": "partial",
   "theorems": [
    "Sett.ws.C15_displacer_diameter_ignored",
    "Sett.ws.C15_wrong_expansion_volume",
    "Sett.ws.C15_other_dimensions_partial"
   ],
   "note": "False of the code: the configured displacer diameter is ignored (rhombic_drive.rs:202). Negation proved with a witness; the part that holds is the _partial theorem. Missing: the displacer diameter."
  },
  {
   "property": "C16",
   "status": "proved",
   "theorems": [
    "Sett.IdealGas.C16_density_derivatives",
    "Sett.IdealGas.C16_density_positive"
   ],
   "note": "Exact arithmetic (ℝ); rounding not modelled. "
  },
  {
   "property": "C17",
   "status": "partial",
   "theorems": [
    "Sett.IdealGas.C17_helium_partial",
    "Sett.IdealGas.C17_hydrogen_false",
    "Sett.IdealGas.C17_hydrogen_discrepancy",
    "Sett.C17_hydrogen_integral"
   ],
   "note": "Exact arithmetic (ℝ); rounding not modelled. False of the code for hydrogen (negation and exact discrepancy proved); helium is the _partial theorem. C17_hydrogen_integral: over any range of temperatures hydrogen's enthalpy difference falls short of the integral of its heat capacity, by at most 14 percent. Missing: hydrogen, for which the claim is false."
  },
  {
   "property": "C18",
   "status": "partial",
   "theorems": [
    "Sett.IdealGas.C18_discrepancy",
    "Sett.IdealGas.C18_false",
    "Sett.IdealGas.C18_differences_partial"
   ],
   "note": "Exact arithmetic (ℝ); rounding not modelled. False of the code: h - u is short of P/ρ by R*Tref at every state (proved). The _partial theorem says differences between states satisfy it."
  },
  {
   "property": "C19",
   "status": "proved",
   "theorems": [
    "Sett.IdealGas.C19_reference_and_pressure"
   ],
   "note": "Exact arithmetic (ℝ); rounding not modelled. "
  },
  {
   "property": "C20",
   "status": "proved",
   "theorems": [
    "Sett.C20_side_temperatures"
   ],
   "note": "Exact arithmetic (ℝ); rounding not modelled. "
  },
  {
   "property": "C21",
   "status": "proved",
   "theorems": [
    "Sett.C21_average_is_log_mean",
    "Sett.C21_average_between",
    "Sett.C21_average_symmetric"
   ],
   "note": "Exact arithmetic (ℝ); rounding not modelled. "
  },
  {
   "property": "C22",
   "status": "proved",
   "theorems": [
    "Sett.C22_average_not_finite",
    "Sett.C22_ok_not_degenerate",
    "Sett.C22_never_ok"
   ],
   "note": "IEEE binary64 (F64). The average may also be infinite, not only NaN; stated as not finite. Engine::run never returns Ok from such a state."
  },
  {
   "property": "C23",
   "status": "proved",
   "theorems": [
    "Sett.C23_chx_closed_form",
    "Sett.C23_hhx_closed_form",
    "Sett.C23_chx_approach_is_residual",
    "Sett.C23_hhx_approach_is_residual"
   ],
   "note": "Exact arithmetic (ℝ); rounding not modelled. "
  },
  {
   "property": "C24",
   "status": "proved",
   "theorems": [
    "Sett.C24_chx_bounds",
    "Sett.C24_hhx_bounds",
    "Sett.C24_tends_to_zero"
   ],
   "note": "Exact arithmetic (ℝ); rounding not modelled. "
  },
  {
   "property": "C25",
   "status": "proved",
   "theorems": [
    "Sett.C25_chx",
    "Sett.C25_hhx",
    "Sett.C25_regen",
    "Sett.C25_never_converges"
   ],
   "note": "IEEE binary64 (F64). chx/hhx approach NaN for zero flow (or ±∞ when the heat-capacity rate is -0); regen always NaN; the run cannot converge to it."
  },
  {
   "property": "C26",
   "status": "proved",
   "theorems": [
    "Sett.C26_closed_form",
    "Sett.C26_bounds",
    "Sett.C26_cold_below_hot_iff"
   ],
   "note": "Exact arithmetic (ℝ); rounding not modelled. "
  },
  {
   "property": "C27",
   "status": "proved",
   "theorems": [
    "Sett.C27_integrate_is_trapezoid",
    "Sett.C27_linear",
    "Sett.C27_additive",
    "Sett.C27_affine_exact",
    "Sett.C27_monotone",
    "Sett.C27_short"
   ],
   "note": "Exact arithmetic (ℝ); rounding not modelled. "
  },
  {
   "property": "C28",
   "status": "proved",
   "theorems": [
    "Sett.C28_extrema",
    "Sett.C28_total",
    "Sett.C28_average_between"
   ],
   "note": "Exact arithmetic (ℝ); rounding not modelled. "
  },
  {
   "property": "C29",
   "status": "proved",
   "theorems": [
    "Sett.C29_nonneg",
    "Sett.C29_reversal",
    "Sett.C29_cancel",
    "Sett.C29_le_mean_magnitude"
   ],
   "note": "Exact arithmetic (ℝ); rounding not modelled. "
  },
  {
   "property": "C30",
   "status": "proved",
   "theorems": [
    "Sett.C30_adiabatic",
    "Sett.C30_limit"
   ],
   "note": "Adiabatic case over any arithmetic; the limit of growing resistance over ℝ."
  },
  {
   "property": "C31",
   "status": "proved",
   "theorems": [
    "Sett.C31_series_aligned"
   ],
   "note": "Any arithmetic. "
  },
  {
   "property": "C32",
   "status": "proved",
   "theorems": [
    "Sett.C32_integration_ok_iff",
    "Sett.C32_failed_solve_panics",
    "Sett.C32_values_self_consistent",
    "Sett.C32_derivatives_balance"
   ],
   "note": "Any arithmetic. The ODE integrator is an arbitrary interaction tree. Balances of the derivatives over ℝ with Sound."
  },
  {
   "property": "C33",
   "status": "proved",
   "theorems": [
    "Sett.C33_ok_iff",
    "Sett.C33_unique",
    "Sett.C33_first",
    "Sett.C33_not_converged_iff"
   ],
   "note": "Any arithmetic. "
  },
  {
   "property": "C34",
   "status": "proved",
   "theorems": [
    "Sett.C34_pressure_pinned",
    "Sett.C34_attempts_are_the_sequence"
   ],
   "note": "Any arithmetic. "
  },
  {
   "property": "C35",
   "status": "proved",
   "theorems": [
    "Sett.C35_work_bound",
    "Sett.C35_monotone"
   ],
   "note": "Any arithmetic. "
  },
  {
   "property": "C36",
   "status": "proved",
   "theorems": [
    "Sett.C36_ok_iff",
    "Sett.C36_values_are_steady"
   ],
   "note": "Any arithmetic. "
  },
  {
   "property": "C37",
   "status": "proved",
   "theorems": [
    "Sett.C37_visited_invariant",
    "Sett.C37_log_is_the_sequence",
    "Sett.C37_returned_engine"
   ],
   "note": "Any arithmetic. "
  },
  {
   "property": "C38",
   "status": "proved",
   "theorems": [
    "Sett.C38_outer_loop_iff",
    "Sett.C38_inner_loop_iff",
    "Sett.C38_work_bound",
    "Sett.C38_monotone"
   ],
   "note": "Any arithmetic. "
  },
  {
   "property": "C39",
   "status": "proved",
   "theorems": [
    "Sett.C39_one_iteration",
    "Sett.C39_temperatures",
    "Sett.C39_real",
    "Sett.C39_ieee"
   ],
   "note": "One outer iteration over any arithmetic with reflexive convergence test; instances for ℝ and IEEE."
  },
  {
   "property": "C40",
   "status": "partial",
   "theorems": [
    "Sett.C40_previous_iteration_partial",
    "Sett.EngineExample.C40_false"
   ],
   "note": "False of the code: the state returned at convergence is the previous one (state.rs:165-170), negation proved with a concrete engine. What holds (reported averages are those of the previous iteration) is the _partial theorem."
  },
  {
   "property": "C41",
   "status": "proved",
   "theorems": [
    "Sett.C41_pressures",
    "Sett.C41_ordering"
   ],
   "note": "Exact arithmetic (ℝ); rounding not modelled. "
  },
  {
   "property": "C42",
   "status": "proved",
   "theorems": [
    "Sett.C42_pressure_drop_loss",
    "Sett.C42_no_resistance"
   ],
   "note": "Exact arithmetic (ℝ); rounding not modelled. "
  },
  {
   "property": "C43",
   "status": "proved",
   "theorems": [
    "Sett.C43_ladder",
    "Sett.C43_ordering"
   ],
   "note": "Exact arithmetic (ℝ); rounding not modelled. "
  },
  {
   "property": "C44",
   "status": "proved",
   "theorems": [
    "Sett.C44_torque_efficiency"
   ],
   "note": "Exact arithmetic (ℝ); rounding not modelled. "
  },
  {
   "property": "C45",
   "status": "proved",
   "theorems": [
    "Sett.C45_first_law",
    "Sett.C45_closed_cycle"
   ],
   "note": "Exact arithmetic (ℝ); rounding not modelled. Hypothesis Sound: a vector returned by the matrix decomposition solves the system. Exact identity including the expansion parasitic that the code counts twice and wall heat that only the report counts."
  },
  {
   "property": "C46",
   "status": "proved",
   "theorems": [
    "Sett.C46_heats_agree"
   ],
   "note": "Exact arithmetic (ℝ); rounding not modelled. "
  },
  {
   "property": "C47",
   "status": "proved",
   "theorems": [
    "Sett.C47_series_aligned",
    "Sett.C47_run",
    "Sett.C47_misaligned"
   ],
   "note": "Any arithmetic. "
  },
  {
   "property": "C48",
   "status": "proved",
   "theorems": [
    "Sett.C48_same_meaning",
    "Sett.C48_lossless",
    "Sett.C48_image"
   ],
   "note": "Any arithmetic. "
  },
  {
   "property": "C49",
   "status": "proved",
   "theorems": [
    "Sett.C49_unsupported_panics",
    "Sett.C49_supported_runs"
   ],
   "note": "Any arithmetic. "
  },
  {
   "property": "C50",
   "status": "proved",
   "theorems": [
    "Sett.C50_ok_iff",
    "Sett.C50_ok_only_if_run_ok"
   ],
   "note": "Any arithmetic. "
  },
  {
   "property": "C51",
   "status": "proved",
   "theorems": [
    "Sett.C51_resolution_used_after_closing",
    "Sett.C51_zero_checked",
    "Sett.C51_step",
    "Sett.C51_one",
    "Sett.C51_zero_wrapping"
   ],
   "note": "ℝ and UInt32 for the step, F64 for the divisions by zero, both build modes."
  },
  {
   "property": "C52",
   "status": "partial",
   "theorems": [
    "Sett.C52_exchangers",
    "Sett.C52_sinusoidal",
    "Sett.C52_rhombic_partial",
    "Sett.C52_rhombic_false"
   ],
   "note": "Any arithmetic. False of the code for the rhombic drive (same cause as C15): negation proved; the exchangers hold in full. Missing: rhombic."
  },
  {
   "property": "C53",
   "status": "proved",
   "theorems": [
    "Sett.C53_undo",
    "Sett.C53_injective",
    "Sett.C53_tags"
   ],
   "note": "Strings; serde's snake_case rule transcribed."
  },
  {
   "property": "C54",
   "status": "proved",
   "theorems": [
    "Sett.C54_from_value",
    "Sett.C54_nan_returned",
    "Sett.C54_positive_is_number"
   ],
   "note": "IEEE binary64 (F64). "
  },
  {
   "property": "C55",
   "status": "proved",
   "theorems": [
    "Sett.C55_total_mass_constant",
    "Sett.C55_engine_mass_constant"
   ],
   "note": "Exact arithmetic (ℝ); rounding not modelled. Hypothesis Sound: a vector returned by the matrix decomposition solves the system. Exact trajectories of the equations, not the numerical integrator's output. Right derivatives suffice."
  },
  {
   "property": "C56",
   "status": "proved",
   "theorems": [
    "Sett.C56_energy_rate",
    "Sett.C56_engine_energy_rate",
    "Sett.C56_helium_exact",
    "Sett.C56_hydrogen_error",
    "Sett.C56_helium_cycle"
   ],
   "note": "Exact arithmetic (ℝ); rounding not modelled. Hypothesis Sound: a vector returned by the matrix decomposition solves the system. Exact trajectories. For hydrogen the spurious source is explicit (consequence of C17 being false)."
  },
  {
   "property": "C57",
   "status": "proved",
   "theorems": [
    "Sett.C57_stable_det_pos",
    "Sett.C57_det_pos",
    "Sett.C57_unique",
    "Sett.C57_no_decomposition_error",
    "Sett.C57_helium_singular"
   ],
   "note": "Exact arithmetic (ℝ); rounding not modelled. Complete: the decomposition does not fail on uniquely solvable systems. General version for any stable fluid, instance for both gases at 100 K or more, and a proof that the limit is real for helium."
  },
  {
   "property": "C58",
   "status": "proved",
   "theorems": [
    "Sett.C58_unique_consistent",
    "Sett.C58_hint_independent",
    "Sett.C58_some_hint_succeeds",
    "Sett.C58_ideal_gas_stable"
   ],
   "note": "Exact arithmetic (ℝ); rounding not modelled. Hypothesis Sound: a vector returned by the matrix decomposition solves the system. Any fluid that is stable in the sense of Spec.Stable; instance for both ideal gases."
  },
  {
   "property": "C59",
   "status": "proved",
   "theorems": [
    "Sett.C59_solve_succeeds",
    "Sett.C59_run_solve",
    "Sett.C59_four_needed"
   ],
   "note": "Exact arithmetic (ℝ); rounding not modelled. Hypothesis Sound: a vector returned by the matrix decomposition solves the system. Complete decomposition. Any stable fluid; instance for both ideal gases; tight (C59_four_needed)."
  },
  {
   "property": "C60",
   "status": "proved",
   "theorems": [
    "Sett.C60_memory_unobservable",
    "Sett.C60_integration",
    "Sett.C60_values"
   ],
   "note": "Exact arithmetic (ℝ); rounding not modelled. Hypothesis Sound: a vector returned by the matrix decomposition solves the system. Complete decomposition; every interaction tree whose requests are at physical states."
  },
  {
   "property": "C61",
   "status": "proved",
   "theorems": [
    "Sett.C61_pressure_law",
    "Sett.C61_pressure_positive",
    "Sett.C61_pressure_closes"
   ],
   "note": "Exact arithmetic (ℝ); rounding not modelled. Hypothesis Sound: a vector returned by the matrix decomposition solves the system. Exact trajectories of the equations. The closing statement is for any interval after which the volumes repeat; C12_run_period and C14_run_period show the period of the run is one."
  },
  {
   "property": "C62",
   "status": "proved",
   "theorems": [
    "Sett.C62_inner",
    "Sett.C62_engine",
    "Sett.C62_fixed_approach",
    "Sett.C62_run_engine"
   ],
   "note": "Exact arithmetic (ℝ); rounding not modelled. Hypothesis Sound: a vector returned by the matrix decomposition solves the system. Complete decomposition. The integrator is any interaction tree that asks and reports only states under pressure at 100 K or more (KeepsWarm); the working example is a clamped Euler step. Fixed approaches at configuration level; any components given sane visited states."
  },
  {
   "property": "C63",
   "status": "proved",
   "theorems": [
    "Sett.C63_start",
    "Sett.C63_ladder",
    "Sett.C63_order"
   ],
   "note": "Exact arithmetic (ℝ); rounding not modelled. Exact arithmetic; every integrator and decomposition."
  },
  {
   "property": "C64",
   "status": "proved",
   "theorems": [
    "Sett.C64_inner",
    "Sett.C64_engine",
    "Sett.C64_results",
    "Sett.C64_components",
    "Sett.C64_run_engine"
   ],
   "note": "Exact arithmetic (ℝ); rounding not modelled. Hypothesis Sound: a vector returned by the matrix decomposition solves the system. Complete decomposition; both runs see the same integrator, any interaction tree that keeps the gas warm (as in C62). Exact arithmetic: with rounding the law holds only up to error unless k is a power of two."
  },
  {
   "property": "C65",
   "status": "proved",
   "theorems": [
    "Sett.C65_recomputes",
    "Sett.C65_ladder",
    "Sett.C65_pressure"
   ],
   "note": "Exact arithmetic (ℝ); rounding not modelled. Exact arithmetic; no assumption on integrator or decomposition except that the start is reported first, where said."
  },
  {
   "property": "C66",
   "status": "proved",
   "theorems": [
    "Sett.C66_gas_constant",
    "Sett.C66_density",
    "Sett.C66_helium_monatomic",
    "Sett.C66_hydrogen_diatomic"
   ],
   "note": "Exact arithmetic (ℝ); rounding not modelled. Decimal literals taken exactly. Spec constants (universal gas constant, molar masses) are not in the code."
  },
  {
   "property": "C67",
   "status": "proved",
   "theorems": [
    "Sett.C67_run_from_config"
   ],
   "note": "Any arithmetic. Text parsing of the configuration file and the formatting of the printed numbers are not modelled: a run starts from the parsed configuration and prints a list of labelled values."
  },
  {
   "property": "C68",
   "status": "proved",
   "theorems": [
    "Sett.C68_outer_irrelevant",
    "Sett.C68_run_engine",
    "Sett.C68_examples_agree",
    "Sett.C68_sweep_first",
    "Sett.C68_sweep"
   ],
   "note": "Any arithmetic for C68_outer_irrelevant, ℝ for the rest. Text of the example files not parsed; the programs are modelled from the configuration values they contain."
  },
  {
   "property": "C69",
   "status": "proved",
   "theorems": [
    "Sett.C69_sound",
    "Sett.C69_fails_iff",
    "Sett.C69_complete",
    "Sett.C69_multipliers",
    "Sett.C69_run_solve",
    "Sett.C69_run_engine"
   ],
   "note": "Exact arithmetic (ℝ); rounding not modelled. nalgebra is a dependency without source here: its elimination is transcribed from the published algorithm, and in double precision it reproduces all twenty recorded LU test values bit for bit (Conformance)."
  },
  {
   "property": "C70",
   "status": "proved",
   "theorems": [
    "Sett.C70_kin",
    "Sett.C70_lipschitz",
    "Sett.C70_bounded",
    "Sett.C70_depends"
   ],
   "note": "Exact arithmetic (ℝ); rounding not modelled. Decomposition assumed sound (proved of the LU in C69); built-in ideal gases; constants exist but are not computed."
  },
  {
   "property": "C71",
   "status": "proved",
   "theorems": [
    "Sett.C71_exists",
    "Sett.C71_steady_state",
    "Sett.C71_unique",
    "Sett.C71_repeats",
    "Sett.C71_nearly_repeats",
    "Sett.C71_sinusoidal_continuous",
    "Sett.C71_rhombic_continuous"
   ],
   "note": "Exact arithmetic (ℝ); rounding not modelled. Exact trajectories in the sense of Spec/Trajectory (right derivatives); existence is local in time. The integrator's own error is not part of this: C70_depends bounds its effect given the error in rates."
  },
  {
   "property": "C72",
   "status": "proved",
   "theorems": [
    "Sett.C72_dopri5_grid",
    "Sett.C72_integration",
    "Sett.C72_never_empty",
    "Sett.C72_run"
   ],
   "note": "Exact arithmetic (ℝ); rounding not modelled. Dopri5 is transcribed from its published algorithm (Model/Dopri5.lean; the dependency is not in the sandbox). Binary64 rounding of the accumulated output times is not covered."
  },
  {
   "property": "C73",
   "status": "proved",
   "theorems": [
    "Sett.C73_same_cycle",
    "Sett.C73_reported_cycle_closes"
   ],
   "note": "Exact arithmetic (ℝ); rounding not modelled. Dopri5 is transcribed from its published algorithm (Model/Dopri5.lean; the dependency is not in the sandbox). "
  },
  {
   "property": "C74",
   "status": "proved",
   "theorems": [
    "Sett.C74_exact",
    "Sett.C74_succeeds",
    "Sett.C74_integration"
   ],
   "note": "Exact arithmetic (ℝ); rounding not modelled. Dopri5 is transcribed from its published algorithm (Model/Dopri5.lean; the dependency is not in the sandbox). "
  },
  {
   "property": "C75",
   "status": "proved",
   "theorems": [
    "Sett.C75_run_balances"
   ],
   "note": "Exact arithmetic (ℝ); rounding not modelled. Any integrator; decomposition assumed sound (proved of the LU in C69)."
  },
  {
   "property": "C76",
   "status": "proved",
   "theorems": [
    "Sett.C76_dopri5_ticks",
    "Sett.C76_integration",
    "Sett.C76_last_sample_lost",
    "Sett.C76_run",
    "Sett.C76_run_lost"
   ],
   "note": "IEEE binary64 (F64). Dopri5 modelled from the published crate, powf abstract (only: non-negative of non-negative). Both the guarantee and a proved counterexample beyond it; example runs succeed in both regimes."
  },
  {
   "property": "C77",
   "status": "proved",
   "theorems": [
    "Sett.C77_sinusoidal_volumes",
    "Sett.C77_rhombic_compression",
    "Sett.C77_chx_approach",
    "Sett.C77_hhx_approach",
    "Sett.C77_regen_approach",
    "Sett.C77_ladder",
    "Sett.C77_pressure_extrema",
    "Sett.C77_mass_flows",
    "Sett.C77_space_pressures",
    "Sett.C77_run_space_pressures",
    "Sett.C77_no_drop"
   ],
   "note": "IEEE binary64 (F64). Swept volumes of the sinusoidal drive at least 1e-30 (so that halving is exact). Library functions abstract, assumed tame; the correctly rounded library is proved tame."
  },
  {
   "property": "C78",
   "status": "proved",
   "theorems": [
    "Sett.C78_document",
    "Sett.C78_legacy_document",
    "Sett.C78_round_trip",
    "Sett.C78_legacy_round_trip",
    "Sett.C78_unknown_ignored",
    "Sett.C78_sections",
    "Sett.C78_example",
    "Sett.C78_legacy_example"
   ],
   "note": "Model/Document.lean follows the code serde_derive 1.0 generates; parsing text into a document is not modelled, scalar conversion is a parameter. Specification with literal names in Spec/Document.lean."
  },
  {
   "property": "C79",
   "status": "proved",
   "theorems": [
    "Sett.C79_order",
    "Sett.C79_legacy_order",
    "Sett.C79_legacy_meaning",
    "Sett.C79_legacy_example"
   ],
   "note": "As C78. The counterexample assumes only that the format reads \"inf\" as infinity when asked directly, and serde's own buffer, which does not."
  },
  {
   "property": "C80",
   "status": "proved",
   "theorems": [
    "Sett.C80_fails_iff",
    "Sett.C80_sound",
    "Sett.C80_complete",
    "Sett.C80_same",
    "Sett.C80_engine",
    "Sett.C80_lengths"
   ],
   "note": "Exact arithmetic (ℝ); rounding not modelled.  Householder reflections as nalgebra publishes them; sums in index order, so equal to nalgebra's only up to rounding."
  },
  {
   "property": "C81",
   "status": "proved",
   "theorems": [
    "Sett.C81_agrees",
    "Sett.C81_truncates",
    "Sett.C81_never_fails",
    "Sett.C81_bounded",
    "Sett.C81_small",
    "Sett.C81_small_engines"
   ],
   "note": "Exact arithmetic (ℝ); rounding not modelled.  The iteration that computes the decomposition is not modelled: any correct decomposition, and every real matrix is proved to have one."
  },
  {
   "property": "C82",
   "status": "proved",
   "theorems": [
    "Sett.C82_chain",
    "Sett.C82_near",
    "Sett.C82_returns",
    "Sett.C82_sinusoidal_steady",
    "Sett.C82_rhombic_steady",
    "Sett.C82_steps"
   ],
   "note": "Exact arithmetic (ℝ); rounding not modelled.  Dopri5 modelled from the published crate. The bound is of first order in the longest step: rates are only Lipschitz, because they have kinks where a flow reverses. Decomposition assumed sound (proved of the LU in C69)."
  },
  {
   "property": "C83",
   "status": "proved",
   "theorems": [
    "Sett.C83_chain",
    "Sett.C83_exists",
    "Sett.C83_returns"
   ],
   "note": "Exact arithmetic (ℝ); rounding not modelled.  Unlike C82 the motion is not assumed to exist. The log is the conversation of that very integration. The margin by which the questions clear the limits is checkable from the log once the constant is known; the constant is given as existing, not as a number in the statement."
  },
  {
   "property": "C84",
   "status": "proved",
   "theorems": [
    "Sett.C84_sampled",
    "Sett.C84_figures",
    "Sett.C84_efficiency"
   ],
   "note": "Exact arithmetic (ℝ); rounding not modelled.  C84_sampled is the sampling half (any samples near a motion), C84_figures the whole chain from a completed Engine::run with the Dormand-Prince integrator, C84_efficiency the quotient. As in C83 the constant is given as existing, not as a number, and the margin by which the last integration's questions clear the limits is a hypothesis."
  },
  {
   "property": "C85",
   "status": "partial",
   "theorems": [
    "Sett.C85_perpetual",
    "Sett.C85_expelled",
    "Sett.C85_expelled_helium",
    "Sett.C85_clausius",
    "Sett.C85_first_law",
    "Sett.C85_work_bound",
    "Sett.C85_carnot",
    "Sett.C85_helium_partial",
    "Sett.C85_carnot_false",
    "Sett.C85_gas_clausius",
    "Sett.C85_gas_first_law",
    "Sett.C85_gas_work_bound",
    "Sett.C85_gas_carnot",
    "Sett.C85_crate_partial"
   ],
   "note": "Exact arithmetic (ℝ); rounding not modelled. Hypothesis Sound: a vector returned by the matrix decomposition solves the system. False of the crate's helium: C85_carnot_false gives an engine with a periodic drive and a closed motion in closed form (exchangers of no volume, zero approaches), and C85_perpetual one that does work although sink, source, exchangers and regenerator are all at 300 K. C85_helium_partial is the bound with its extra term; C85_clausius, C85_work_bound and C85_carnot hold of any perfect gas; C85_gas_clausius, C85_gas_first_law, C85_gas_work_bound and C85_gas_carnot of any ideal gas with a heat capacity that depends on the temperature; C85_crate_partial is the bound with its extra terms for both gases of the crate. Missing: Carnot's bound itself, which is false; a cycle of hydrogen that beats it is not given."
  },
  {
   "property": "C86",
   "status": "proved",
   "theorems": [
    "Sett.C86_stays",
    "Sett.C86_speeds",
    "Sett.C86_slow",
    "Sett.C86_integrator",
    "Sett.C86_succeeds",
    "Sett.C86_short_stroke"
   ],
   "note": "Exact arithmetic (ℝ); rounding not modelled. Hypothesis Sound: a vector returned by the matrix decomposition solves the system. C86_integrator is about the transcription of the Dormand-Prince integrator with any answers within the bounds; C86_succeeds, C86_stays and C86_slow are about the crate's integration of one cycle. Constants for all drives at once come from C70 applied to a drive that passes through every position and speed."
  },
  {
   "property": "C87",
   "status": "proved",
   "theorems": [
    "Sett.C87_ends"
   ],
   "note": "Exact arithmetic (ℝ); rounding not modelled. About the transcription of the Dormand-Prince integrator with any answers; the history of stiff steps is specified by lists, not by the counters of the code. Example: y' = 1/t from zero gives up after 100001 tries."
  },
  {
   "property": "C88",
   "status": "proved",
   "theorems": [
    "Sett.C88_search",
    "Sett.C88_engine",
    "Sett.C88_run_engine"
   ],
   "note": "Exact arithmetic (ℝ); rounding not modelled. C88_run_engine uses the modelled LU (C69) and Dormand-Prince integrator: no assumption on either is left. C88_search and C88_engine are for any sound and complete decomposition and any drive. The swept volume is given as existing, not as a number. Parasitic heat is excluded because with it a resting engine does not rest."
  },
  {
   "property": "C89",
   "status": "proved",
   "theorems": [
    "Sett.C89_inner",
    "Sett.C89_engine",
    "Sett.C89_results",
    "Sett.C89_exchangers",
    "Sett.C89_dopri5"
   ],
   "note": "Exact arithmetic (ℝ); rounding not modelled. Hypotheses as in C64 (KeepsWarm along the run of the original engine), plus an integrator that commutes with exchanging the two temperatures, which C89_dopri5 proves of the modelled Dopri5. Stated for components, not for configuration files: the phase of a sinusoidal drive is put on one side only."
  },
  {
   "property": "C90",
   "status": "proved",
   "theorems": [
    "Sett.C90_follows",
    "Sett.C90_trajectory",
    "Sett.C90_mass",
    "Sett.C90_figures",
    "Sett.C90_start",
    "Sett.C90_update",
    "Sett.C90_results",
    "Sett.C90_components",
    "Sett.C90_beale"
   ],
   "note": "Exact arithmetic (ℝ); rounding not modelled. Exact for motions, for State::update and for the results from corresponding samples. Not claimed for the samples the integrator produces: Dopri5 with its absolute tolerance, shared by pressure and temperatures, chooses other steps under another pressure (C82 to C84 bound what that changes)."
  },
  {
   "property": "C91",
   "status": "proved",
   "theorems": [
    "Sett.C91_balances_up_to_rounding",
    "Sett.C91_mass_conserved_up_to_rounding",
    "Sett.C91_energy_conserved_up_to_rounding",
    "Sett.C91_lu_residual"
   ],
   "note": "IEEE binary64 (F64). LU is the published nalgebra algorithm transcribed (nalgebra is not in the repository), every operation rounded once, no fused multiply-add. The bound is on the balances (backward error); how far the solution is from the exact one depends on the condition of the matrix and is not claimed. A solution with a NaN or infinity is excluded by hypothesis."
  },
  {
   "property": "C92",
   "status": "proved",
   "theorems": [
    "Sett.C92_integral",
    "Sett.C92_pressure",
    "Sett.C92_mass_flows",
    "Sett.C92_heat_flows",
    "Sett.C92_performance"
   ],
   "note": "IEEE binary64 (F64). The series themselves (pressures with drops, volume rates) are taken as the machine numbers the code has at that point; their own error is not bounded here. Every operation is rounded once, no fused multiply-add, sums from left to right."
  },
  {
   "property": "C93",
   "status": "proved",
   "theorems": [
    "Sett.C93_dopri5_grid",
    "Sett.C93_integration",
    "Sett.C93_cycle_end_is_start",
    "Sett.C93_guess_kept",
    "Sett.C93_run"
   ],
   "note": "Exact arithmetic (ℝ); rounding not modelled. Describes a defect: the claim says what the code does. In binary64 the allowance also vanishes in the period of slow engines (compare C76)."
  },
  {
   "property": "C94",
   "status": "proved",
   "theorems": [
    "Sett.C94_no_end",
    "Sett.C94_no_interval",
    "Sett.C94_integration",
    "Sett.C94_run"
   ],
   "note": "IEEE binary64 (F64). The claim is that no result is returned; the model does not distinguish an error return from a loop that never ends."
  },
  {
   "property": "C95",
   "status": "proved",
   "theorems": [
    "Sett.C95_engine",
    "Sett.C95_run_engine",
    "Sett.C95_prices"
   ],
   "note": "Any arithmetic. C95_prices: exact arithmetic. The prices may have either sign."
  },
  {
   "property": "C96",
   "status": "proved",
   "theorems": [
    "Sett.C96_electrical_ignored",
    "Sett.C96_overall_zero"
   ],
   "note": "Any arithmetic. Describes a gap between documentation and code: the claim says what the code does."
  },
  {
   "property": "C97",
   "status": "proved",
   "theorems": [
    "Sett.C97_engine",
    "Sett.C97_run_engine",
    "Sett.C97_heat"
   ],
   "note": "Any arithmetic. C97_heat: exact arithmetic. Describes a defect: heat through the walls is reported but never taken from the gas."
  },
  {
   "property": "C98",
   "status": "proved",
   "theorems": [
    "Sett.C98_engine",
    "Sett.C98_run_engine"
   ],
   "note": "Any arithmetic. Describes a defect (same cause as C40): the claim says what the code does."
  },
  {
   "property": "C99",
   "status": "proved",
   "theorems": [
    "Sett.C99_inner",
    "Sett.C99_memoryless",
    "Sett.C99_outer",
    "Sett.C99_run_engine"
   ],
   "note": "Any arithmetic. The configured gases are ideal; for another gas the enthalpy scale of the next iteration may depend on the average pressure too."
  },
  {
   "property": "C100",
   "status": "proved",
   "theorems": [
    "Sett.C100_search",
    "Sett.C100_engine",
    "Sett.C100_run_engine"
   ],
   "note": "Exact arithmetic (ℝ); rounding not modelled. "
  },
  {
   "property": "C101",
   "status": "proved",
   "theorems": [
    "Sett.C101_engine",
    "Sett.C101_run_engine"
   ],
   "note": "Exact arithmetic (ℝ); rounding not modelled. Exact arithmetic. In floating point a flow of exactly zero makes the approach of a conductance NaN (C25), which is why that case is excepted."
  },
  {
   "property": "C102",
   "status": "proved",
   "theorems": [
    "Sett.C102_lu",
    "Sett.C102_equations",
    "Sett.C102_accepted",
    "Sett.C102_integration",
    "Sett.C102_inner",
    "Sett.C102_run",
    "Sett.C102_run_engine"
   ],
   "note": "IEEE binary64 (F64). For any mathematics library with the IEEE special values and any powf. Infinite clearances, exchanger volumes and conductances are not excluded by the statement; works, walls and flow resistances are not either: they do not reach the gas (C95, C97), so a run can succeed and report NaN for them."
  },
  {
   "property": "C103",
   "status": "proved",
   "theorems": [
    "Sett.C103_pressure",
    "Sett.C103_flows",
    "Sett.C103_never_still",
    "Sett.C103_sinusoidal",
    "Sett.C103_rhombic"
   ],
   "note": "Exact arithmetic (ℝ); rounding not modelled. The bounds on swept volumes and crank radius exist but are not computed. For the rhombic drive the diameter of the displacer may be the one configured or that of the piston (the code uses the latter)."
  },
  {
   "property": "C104",
   "status": "proved",
   "theorems": [
    "Sett.C104_step",
    "Sett.C104_order"
   ],
   "note": "Exact arithmetic (ℝ); rounding not modelled. Linear rates only; the engine's rates are not linear, for them C83 gives first order and C74 exactness along polynomials of degree four in time. H is whatever the steps turned out to be."
  },
  {
   "property": "C105",
   "status": "partial",
   "theorems": [
    "Sett.C105_similar",
    "Sett.C105_inflow",
    "Sett.C105_perfect",
    "Sett.C105_motion",
    "Sett.C105_helium_partial",
    "Sett.C105_helium_false",
    "Sett.C105_pushed",
    "Sett.C105_helium_pushed"
   ],
   "note": "Exact arithmetic (ℝ); rounding not modelled. False of the code, because inte subtracts R (T - Tref) where P/rho is R T (C18): C105_helium_false shows that the similar solution obeys the balances only while no gas passes into or out of the spaces, C105_helium_pushed that the space which gas of uniform temperature leaves at constant pressure warms up, and more gas leaves it than the piston displaces. C105_similar says what is needed, C105_perfect and C105_motion that any gas with h - u = P/rho has it, C105_helium_partial that helium has it if its reference temperature is multiplied too. Missing: the claim for the helium of the crate."
  },
  {
   "property": "C106",
   "status": "proved",
   "theorems": [
    "Sett.C106_rates",
    "Sett.C106_motions",
    "Sett.C106_exists",
    "Sett.C106_work",
    "Sett.C106_sinusoidal",
    "Sett.C106_rhombic"
   ],
   "note": "Exact arithmetic (ℝ); rounding not modelled. One constant for all engines within the limits (C106_rates), an exponential bound for the motions (C106_motions), existence (C106_exists), work (C106_work). C106_sinusoidal and C106_rhombic bound the distance of the drives by that of their dimensions and speeds; for other drives the distance is that of volumes and their rates. The temperatures of the regenerator are those of the state with which the run is made."
  },
  {
   "property": "C107",
   "status": "proved",
   "theorems": [
    "Sett.C107_solve",
    "Sett.C107_run",
    "Sett.C107_four",
    "Sett.C107_dopri5",
    "Sett.C107_engine",
    "Sett.C107_run_engine"
   ],
   "note": "Any arithmetic. The solver is a question the program asks: AsksAtMost n says the result is fixed by the answers to at most n questions, each of which may depend on the answers before; a system solved twice counts once. C107_four: with three questions the result of solve is not fixed. The count for the integrator follows its hard-coded limit of 100000 steps and six evaluations per step; C107_run_engine needs a bound on the points per step."
  },
  {
   "property": "C108",
   "status": "proved",
   "theorems": [
    "Sett.C108_eternal",
    "Sett.C108_hydrogen_eternal",
    "Sett.C108_helium",
    "Sett.C108_until_cold",
    "Sett.C108_forever",
    "Sett.C108_hydrogen_until_cold",
    "Sett.C108_not_colder",
    "Sett.C108_not_hotter",
    "Sett.C108_bounded",
    "Sett.C108_bounded_above",
    "Sett.C108_gas_not_colder",
    "Sett.C108_gas_bounded",
    "Sett.C108_hydrogen"
   ],
   "note": "Exact arithmetic (ℝ); rounding not modelled. C108_not_colder, C108_bounded: perfect gases with u0 >= h0 (the mismatch of the crate has that sign). C108_not_hotter, C108_bounded_above: gases whose zeros agree; C85_expelled_helium shows that the upper bound fails for the crate's helium, so there only a bound growing with time is used. C108_until_cold: continuation of the motion, by the local existence and uniqueness of C82. C108_eternal: the motions of all lengths are parts of one, the only one. C108_gas_*, C108_hydrogen: the bounds for gases whose heat capacity varies (as a gas of the least heat capacity would expand); C108_until_cold and C108_hydrogen_until_cold: the continuation for the two gases of the crate; C108_eternal and C108_hydrogen_eternal: the motion for all time of each."
  },
  {
   "property": "C109",
   "status": "proved",
   "theorems": [
    "Sett.C109_flows",
    "Sett.C109_no_gain",
    "Sett.C109_gain",
    "Sett.C109_run_engine_equal",
    "Sett.C109_any_efficiency",
    "Sett.C109_run_engine_gain",
    "Sett.C109_run_engine_no_gain"
   ],
   "note": "Exact arithmetic (ℝ); rounding not modelled. C109_flows: the sign of the four flows at warm physical states, both gases. C109_no_gain, C109_gain: runs of Engine.run; C109_gain for helium. C109_run_engine_no_gain, C109_run_engine_gain: from configuration files, for short enough strokes (as in C88). C109_any_efficiency: by C95_prices, the price of the cooler's resistance being negative. C109_run_engine_equal: every configuration with a sinusoidal drive in phase and equal swept volumes, any solver and integrator."
  }
 ]
}