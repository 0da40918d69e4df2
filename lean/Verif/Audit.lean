import Lean.Util.CollectAxioms
import Lean.Elab.Command
import Verif.Props.Autonomous
import Verif.Props.Averages
import Verif.Props.Beale
import Verif.Props.BealeExample
import Verif.Props.Breathing
import Verif.Props.BreathingExample
import Verif.Props.Config
import Verif.Props.ConfigExample
import Verif.Props.Convergence
import Verif.Props.Cycle
import Verif.Props.Decompositions
import Verif.Props.Directions
import Verif.Props.Document
import Verif.Props.Drives
import Verif.Props.Engine
import Verif.Props.Eternal
import Verif.Props.EternalGas
import Verif.Props.Exact
import Verif.Props.Exists
import Verif.Props.Figures
import Verif.Props.FiguresExample
import Verif.Props.FixedApproach
import Verif.Props.FloatAverages
import Verif.Props.FloatAveragesExample
import Verif.Props.FloatBalances
import Verif.Props.FloatBalancesExample
import Verif.Props.FlowLoss
import Verif.Props.FlowLossEqual
import Verif.Props.FlowLossPays
import Verif.Props.FlowLossRuns
import Verif.Props.Fluid
import Verif.Props.FluidIntegral
import Verif.Props.Forever
import Verif.Props.ForeverExample
import Verif.Props.ForeverGas
import Verif.Props.GasData
import Verif.Props.GivesUp
import Verif.Props.GivesUpExample
import Verif.Props.Grid
import Verif.Props.GridExample
import Verif.Props.GridIeee
import Verif.Props.GridIeeeExample
import Verif.Props.GridLost
import Verif.Props.HeatExchangers
import Verif.Props.Ieee
import Verif.Props.IeeeExample
import Verif.Props.Instances
import Verif.Props.Isentropic
import Verif.Props.IsentropicGas
import Verif.Props.IsentropicGasExample
import Verif.Props.Kin
import Verif.Props.KinRuns
import Verif.Props.Lib
import Verif.Props.LibExample
import Verif.Props.Linear
import Verif.Props.LinearExample
import Verif.Props.Lipschitz
import Verif.Props.Losses
import Verif.Props.LossesExample
import Verif.Props.Lu
import Verif.Props.Mirror
import Verif.Props.MirrorExample
import Verif.Props.Near
import Verif.Props.NearDrives
import Verif.Props.NearExample
import Verif.Props.Nearby
import Verif.Props.NearbyExample
import Verif.Props.NearbyRhombic
import Verif.Props.NoPanic
import Verif.Props.NoPanicExample
import Verif.Props.NoStroke
import Verif.Props.NoStrokeExample
import Verif.Props.NotANumber
import Verif.Props.Performance
import Verif.Props.PerformanceExample
import Verif.Props.Perpetual
import Verif.Props.PerpetualCycle
import Verif.Props.Pressure
import Verif.Props.Repeats
import Verif.Props.RepeatsExample
import Verif.Props.Reported
import Verif.Props.Resolution
import Verif.Props.Results
import Verif.Props.ResultsExample
import Verif.Props.Reversed
import Verif.Props.ReversedExample
import Verif.Props.Rounding
import Verif.Props.RoundingExample
import Verif.Props.SameCycle
import Verif.Props.Samples
import Verif.Props.Scaling
import Verif.Props.ScalingExample
import Verif.Props.SearchSucceeds
import Verif.Props.SearchTight
import Verif.Props.SecondLaw
import Verif.Props.SecondLawExample
import Verif.Props.SecondLawGas
import Verif.Props.SecondLawGasExample
import Verif.Props.SecondLawInstances
import Verif.Props.Settle
import Verif.Props.SettleConfig
import Verif.Props.SettleDrives
import Verif.Props.SettleExample
import Verif.Props.Shadow
import Verif.Props.SmallStroke
import Verif.Props.Solver
import Verif.Props.Standing
import Verif.Props.Start
import Verif.Props.Steps
import Verif.Props.Succeeds
import Verif.Props.SucceedsExample
import Verif.Props.Trajectory
import Verif.Props.TrajectoryExample
import Verif.Props.Unique
import Verif.Props.UniqueExample
import Verif.Props.Unmeasured
import Verif.Props.Walls
import Verif.Props.Warmer
import Verif.Props.WarmerExample
import Verif.Props.WellPosed
import Verif.Props.WholeRun
import Verif.Props.WholeRunExample
import Verif.Props.Work
import Verif.Props.WorkExample

/-! Every theorem named in MANIFEST.json depends on no axiom besides `propext`, `Classical.choice` and
`Quot.sound`; the build fails otherwise.  The list is generated from the manifest. -/

open Lean Elab Command in
elab "#only_standard_axioms " id:ident : command => do
  let c ← liftCoreM <| realizeGlobalConstNoOverloadWithInfo id
  let ax ← collectAxioms c
  for a in ax do
    unless a == ``propext || a == ``Classical.choice || a == ``Quot.sound do
      throwError "{c} depends on {a}"

#only_standard_axioms Sett.C01_is_converged_iff
#only_standard_axioms Sett.C01_accepted_exact_ieee
#only_standard_axioms Sett.C02_accepts_only_sane
#only_standard_axioms Sett.C02_rejects
#only_standard_axioms Sett.C02_run_ok_finite
#only_standard_axioms Sett.C03_tolerance_monotone
#only_standard_axioms Sett.C03_negation_invariant
#only_standard_axioms Sett.C03_scaling
#only_standard_axioms Sett.C03_tolerance_monotone_ieee
#only_standard_axioms Sett.C04_system_iff_balances
#only_standard_axioms Sett.C05_total_mass_conserved
#only_standard_axioms Sett.C06_total_energy_balance
#only_standard_axioms Sett.C07_returned_solution_uses_own_directions
#only_standard_axioms Sett.C07_no_unknown_direction
#only_standard_axioms Sett.C07_upwind_balances
#only_standard_axioms Sett.C08_at_most_four_solves
#only_standard_axioms Sett.C08_ok_iff
#only_standard_axioms Sett.C08_errors_classified
#only_standard_axioms Sett.C08_idempotent
#only_standard_axioms Sett.C08_unknown_costs_two
#only_standard_axioms Sett.C09_norm_irrelevant
#only_standard_axioms Sett.C09_solve_eq
#only_standard_axioms Sett.C10_unique_iff
#only_standard_axioms Sett.C10_decomposition_independent
#only_standard_axioms Sett.ws.C11_sinusoidal_deriv
#only_standard_axioms Sett.ws.C12_sinusoidal_bounds
#only_standard_axioms Sett.ws.C12_sinusoidal_attained
#only_standard_axioms Sett.ws.C12_sinusoidal_periodic
#only_standard_axioms Sett.ws.C12_sinusoidal_reported_period
#only_standard_axioms Sett.ws.C12_sinusoidal_phase
#only_standard_axioms Sett.ws.C12_sinusoidal_positive
#only_standard_axioms Sett.C12_run_period
#only_standard_axioms Sett.ws.C13_rhombic_deriv
#only_standard_axioms Sett.ws.C14_rhombic_expansion_ge
#only_standard_axioms Sett.ws.C14_rhombic_compression_ge
#only_standard_axioms Sett.ws.C14_compression_needs_eccentricity
#only_standard_axioms Sett.ws.C14_rhombic_attained
#only_standard_axioms Sett.ws.C14_rhombic_linkage
#only_standard_axioms Sett.ws.C14_rhombic_periodic
#only_standard_axioms Sett.ws.C14_rhombic_reported_period
#only_standard_axioms Sett.C14_run_period
#only_standard_axioms Sett.ws.C15_displacer_diameter_ignored
#only_standard_axioms Sett.ws.C15_wrong_expansion_volume
#only_standard_axioms Sett.ws.C15_other_dimensions_partial
#only_standard_axioms Sett.IdealGas.C16_density_derivatives
#only_standard_axioms Sett.IdealGas.C16_density_positive
#only_standard_axioms Sett.IdealGas.C17_helium_partial
#only_standard_axioms Sett.IdealGas.C17_hydrogen_false
#only_standard_axioms Sett.IdealGas.C17_hydrogen_discrepancy
#only_standard_axioms Sett.C17_hydrogen_integral
#only_standard_axioms Sett.IdealGas.C18_discrepancy
#only_standard_axioms Sett.IdealGas.C18_false
#only_standard_axioms Sett.IdealGas.C18_differences_partial
#only_standard_axioms Sett.IdealGas.C19_reference_and_pressure
#only_standard_axioms Sett.C20_side_temperatures
#only_standard_axioms Sett.C21_average_is_log_mean
#only_standard_axioms Sett.C21_average_between
#only_standard_axioms Sett.C21_average_symmetric
#only_standard_axioms Sett.C22_average_not_finite
#only_standard_axioms Sett.C22_ok_not_degenerate
#only_standard_axioms Sett.C22_never_ok
#only_standard_axioms Sett.C23_chx_closed_form
#only_standard_axioms Sett.C23_hhx_closed_form
#only_standard_axioms Sett.C23_chx_approach_is_residual
#only_standard_axioms Sett.C23_hhx_approach_is_residual
#only_standard_axioms Sett.C24_chx_bounds
#only_standard_axioms Sett.C24_hhx_bounds
#only_standard_axioms Sett.C24_tends_to_zero
#only_standard_axioms Sett.C25_chx
#only_standard_axioms Sett.C25_hhx
#only_standard_axioms Sett.C25_regen
#only_standard_axioms Sett.C25_never_converges
#only_standard_axioms Sett.C26_closed_form
#only_standard_axioms Sett.C26_bounds
#only_standard_axioms Sett.C26_cold_below_hot_iff
#only_standard_axioms Sett.C27_integrate_is_trapezoid
#only_standard_axioms Sett.C27_linear
#only_standard_axioms Sett.C27_additive
#only_standard_axioms Sett.C27_affine_exact
#only_standard_axioms Sett.C27_monotone
#only_standard_axioms Sett.C27_short
#only_standard_axioms Sett.C28_extrema
#only_standard_axioms Sett.C28_total
#only_standard_axioms Sett.C28_average_between
#only_standard_axioms Sett.C29_nonneg
#only_standard_axioms Sett.C29_reversal
#only_standard_axioms Sett.C29_cancel
#only_standard_axioms Sett.C29_le_mean_magnitude
#only_standard_axioms Sett.C30_adiabatic
#only_standard_axioms Sett.C30_limit
#only_standard_axioms Sett.C31_series_aligned
#only_standard_axioms Sett.C32_integration_ok_iff
#only_standard_axioms Sett.C32_failed_solve_panics
#only_standard_axioms Sett.C32_values_self_consistent
#only_standard_axioms Sett.C32_derivatives_balance
#only_standard_axioms Sett.C33_ok_iff
#only_standard_axioms Sett.C33_unique
#only_standard_axioms Sett.C33_first
#only_standard_axioms Sett.C33_not_converged_iff
#only_standard_axioms Sett.C34_pressure_pinned
#only_standard_axioms Sett.C34_attempts_are_the_sequence
#only_standard_axioms Sett.C35_work_bound
#only_standard_axioms Sett.C35_monotone
#only_standard_axioms Sett.C36_ok_iff
#only_standard_axioms Sett.C36_values_are_steady
#only_standard_axioms Sett.C37_visited_invariant
#only_standard_axioms Sett.C37_log_is_the_sequence
#only_standard_axioms Sett.C37_returned_engine
#only_standard_axioms Sett.C38_outer_loop_iff
#only_standard_axioms Sett.C38_inner_loop_iff
#only_standard_axioms Sett.C38_work_bound
#only_standard_axioms Sett.C38_monotone
#only_standard_axioms Sett.C39_one_iteration
#only_standard_axioms Sett.C39_temperatures
#only_standard_axioms Sett.C39_real
#only_standard_axioms Sett.C39_ieee
#only_standard_axioms Sett.C40_previous_iteration_partial
#only_standard_axioms Sett.EngineExample.C40_false
#only_standard_axioms Sett.C41_pressures
#only_standard_axioms Sett.C41_ordering
#only_standard_axioms Sett.C42_pressure_drop_loss
#only_standard_axioms Sett.C42_no_resistance
#only_standard_axioms Sett.C43_ladder
#only_standard_axioms Sett.C43_ordering
#only_standard_axioms Sett.C44_torque_efficiency
#only_standard_axioms Sett.C45_first_law
#only_standard_axioms Sett.C45_closed_cycle
#only_standard_axioms Sett.C46_heats_agree
#only_standard_axioms Sett.C47_series_aligned
#only_standard_axioms Sett.C47_run
#only_standard_axioms Sett.C47_misaligned
#only_standard_axioms Sett.C48_same_meaning
#only_standard_axioms Sett.C48_lossless
#only_standard_axioms Sett.C48_image
#only_standard_axioms Sett.C49_unsupported_panics
#only_standard_axioms Sett.C49_supported_runs
#only_standard_axioms Sett.C50_ok_iff
#only_standard_axioms Sett.C50_ok_only_if_run_ok
#only_standard_axioms Sett.C51_resolution_used_after_closing
#only_standard_axioms Sett.C51_zero_checked
#only_standard_axioms Sett.C51_step
#only_standard_axioms Sett.C51_one
#only_standard_axioms Sett.C51_zero_wrapping
#only_standard_axioms Sett.C52_exchangers
#only_standard_axioms Sett.C52_sinusoidal
#only_standard_axioms Sett.C52_rhombic_partial
#only_standard_axioms Sett.C52_rhombic_false
#only_standard_axioms Sett.C53_undo
#only_standard_axioms Sett.C53_injective
#only_standard_axioms Sett.C53_tags
#only_standard_axioms Sett.C54_from_value
#only_standard_axioms Sett.C54_nan_returned
#only_standard_axioms Sett.C54_positive_is_number
#only_standard_axioms Sett.C55_total_mass_constant
#only_standard_axioms Sett.C55_engine_mass_constant
#only_standard_axioms Sett.C56_energy_rate
#only_standard_axioms Sett.C56_engine_energy_rate
#only_standard_axioms Sett.C56_helium_exact
#only_standard_axioms Sett.C56_hydrogen_error
#only_standard_axioms Sett.C56_helium_cycle
#only_standard_axioms Sett.C57_stable_det_pos
#only_standard_axioms Sett.C57_det_pos
#only_standard_axioms Sett.C57_unique
#only_standard_axioms Sett.C57_no_decomposition_error
#only_standard_axioms Sett.C57_helium_singular
#only_standard_axioms Sett.C58_unique_consistent
#only_standard_axioms Sett.C58_hint_independent
#only_standard_axioms Sett.C58_some_hint_succeeds
#only_standard_axioms Sett.C58_ideal_gas_stable
#only_standard_axioms Sett.C59_solve_succeeds
#only_standard_axioms Sett.C59_run_solve
#only_standard_axioms Sett.C59_four_needed
#only_standard_axioms Sett.C60_memory_unobservable
#only_standard_axioms Sett.C60_integration
#only_standard_axioms Sett.C60_values
#only_standard_axioms Sett.C61_pressure_law
#only_standard_axioms Sett.C61_pressure_positive
#only_standard_axioms Sett.C61_pressure_closes
#only_standard_axioms Sett.C62_inner
#only_standard_axioms Sett.C62_engine
#only_standard_axioms Sett.C62_fixed_approach
#only_standard_axioms Sett.C62_run_engine
#only_standard_axioms Sett.C63_start
#only_standard_axioms Sett.C63_ladder
#only_standard_axioms Sett.C63_order
#only_standard_axioms Sett.C64_inner
#only_standard_axioms Sett.C64_engine
#only_standard_axioms Sett.C64_results
#only_standard_axioms Sett.C64_components
#only_standard_axioms Sett.C64_run_engine
#only_standard_axioms Sett.C65_recomputes
#only_standard_axioms Sett.C65_ladder
#only_standard_axioms Sett.C65_pressure
#only_standard_axioms Sett.C66_gas_constant
#only_standard_axioms Sett.C66_density
#only_standard_axioms Sett.C66_helium_monatomic
#only_standard_axioms Sett.C66_hydrogen_diatomic
#only_standard_axioms Sett.C67_run_from_config
#only_standard_axioms Sett.C68_outer_irrelevant
#only_standard_axioms Sett.C68_run_engine
#only_standard_axioms Sett.C68_examples_agree
#only_standard_axioms Sett.C68_sweep_first
#only_standard_axioms Sett.C68_sweep
#only_standard_axioms Sett.C69_sound
#only_standard_axioms Sett.C69_fails_iff
#only_standard_axioms Sett.C69_complete
#only_standard_axioms Sett.C69_multipliers
#only_standard_axioms Sett.C69_run_solve
#only_standard_axioms Sett.C69_run_engine
#only_standard_axioms Sett.C70_kin
#only_standard_axioms Sett.C70_lipschitz
#only_standard_axioms Sett.C70_bounded
#only_standard_axioms Sett.C70_depends
#only_standard_axioms Sett.C71_exists
#only_standard_axioms Sett.C71_steady_state
#only_standard_axioms Sett.C71_unique
#only_standard_axioms Sett.C71_repeats
#only_standard_axioms Sett.C71_nearly_repeats
#only_standard_axioms Sett.C71_sinusoidal_continuous
#only_standard_axioms Sett.C71_rhombic_continuous
#only_standard_axioms Sett.C72_dopri5_grid
#only_standard_axioms Sett.C72_integration
#only_standard_axioms Sett.C72_never_empty
#only_standard_axioms Sett.C72_run
#only_standard_axioms Sett.C73_same_cycle
#only_standard_axioms Sett.C73_reported_cycle_closes
#only_standard_axioms Sett.C74_exact
#only_standard_axioms Sett.C74_succeeds
#only_standard_axioms Sett.C74_integration
#only_standard_axioms Sett.C75_run_balances
#only_standard_axioms Sett.C76_dopri5_ticks
#only_standard_axioms Sett.C76_integration
#only_standard_axioms Sett.C76_last_sample_lost
#only_standard_axioms Sett.C76_run
#only_standard_axioms Sett.C76_run_lost
#only_standard_axioms Sett.C77_sinusoidal_volumes
#only_standard_axioms Sett.C77_rhombic_compression
#only_standard_axioms Sett.C77_chx_approach
#only_standard_axioms Sett.C77_hhx_approach
#only_standard_axioms Sett.C77_regen_approach
#only_standard_axioms Sett.C77_ladder
#only_standard_axioms Sett.C77_pressure_extrema
#only_standard_axioms Sett.C77_mass_flows
#only_standard_axioms Sett.C77_space_pressures
#only_standard_axioms Sett.C77_run_space_pressures
#only_standard_axioms Sett.C77_no_drop
#only_standard_axioms Sett.C78_document
#only_standard_axioms Sett.C78_legacy_document
#only_standard_axioms Sett.C78_round_trip
#only_standard_axioms Sett.C78_legacy_round_trip
#only_standard_axioms Sett.C78_unknown_ignored
#only_standard_axioms Sett.C78_sections
#only_standard_axioms Sett.C78_example
#only_standard_axioms Sett.C78_legacy_example
#only_standard_axioms Sett.C79_order
#only_standard_axioms Sett.C79_legacy_order
#only_standard_axioms Sett.C79_legacy_meaning
#only_standard_axioms Sett.C79_legacy_example
#only_standard_axioms Sett.C80_fails_iff
#only_standard_axioms Sett.C80_sound
#only_standard_axioms Sett.C80_complete
#only_standard_axioms Sett.C80_same
#only_standard_axioms Sett.C80_engine
#only_standard_axioms Sett.C80_lengths
#only_standard_axioms Sett.C81_agrees
#only_standard_axioms Sett.C81_truncates
#only_standard_axioms Sett.C81_never_fails
#only_standard_axioms Sett.C81_bounded
#only_standard_axioms Sett.C81_small
#only_standard_axioms Sett.C81_small_engines
#only_standard_axioms Sett.C82_chain
#only_standard_axioms Sett.C82_near
#only_standard_axioms Sett.C82_returns
#only_standard_axioms Sett.C82_sinusoidal_steady
#only_standard_axioms Sett.C82_rhombic_steady
#only_standard_axioms Sett.C82_steps
#only_standard_axioms Sett.C83_chain
#only_standard_axioms Sett.C83_exists
#only_standard_axioms Sett.C83_returns
#only_standard_axioms Sett.C84_sampled
#only_standard_axioms Sett.C84_figures
#only_standard_axioms Sett.C84_efficiency
#only_standard_axioms Sett.C85_perpetual
#only_standard_axioms Sett.C85_expelled
#only_standard_axioms Sett.C85_expelled_helium
#only_standard_axioms Sett.C85_clausius
#only_standard_axioms Sett.C85_first_law
#only_standard_axioms Sett.C85_work_bound
#only_standard_axioms Sett.C85_carnot
#only_standard_axioms Sett.C85_helium_partial
#only_standard_axioms Sett.C85_carnot_false
#only_standard_axioms Sett.C85_gas_clausius
#only_standard_axioms Sett.C85_gas_first_law
#only_standard_axioms Sett.C85_gas_work_bound
#only_standard_axioms Sett.C85_gas_carnot
#only_standard_axioms Sett.C85_crate_partial
#only_standard_axioms Sett.C86_stays
#only_standard_axioms Sett.C86_speeds
#only_standard_axioms Sett.C86_slow
#only_standard_axioms Sett.C86_integrator
#only_standard_axioms Sett.C86_succeeds
#only_standard_axioms Sett.C86_short_stroke
#only_standard_axioms Sett.C87_ends
#only_standard_axioms Sett.C88_search
#only_standard_axioms Sett.C88_engine
#only_standard_axioms Sett.C88_run_engine
#only_standard_axioms Sett.C89_inner
#only_standard_axioms Sett.C89_engine
#only_standard_axioms Sett.C89_results
#only_standard_axioms Sett.C89_exchangers
#only_standard_axioms Sett.C89_dopri5
#only_standard_axioms Sett.C90_follows
#only_standard_axioms Sett.C90_trajectory
#only_standard_axioms Sett.C90_mass
#only_standard_axioms Sett.C90_figures
#only_standard_axioms Sett.C90_start
#only_standard_axioms Sett.C90_update
#only_standard_axioms Sett.C90_results
#only_standard_axioms Sett.C90_components
#only_standard_axioms Sett.C90_beale
#only_standard_axioms Sett.C91_balances_up_to_rounding
#only_standard_axioms Sett.C91_mass_conserved_up_to_rounding
#only_standard_axioms Sett.C91_energy_conserved_up_to_rounding
#only_standard_axioms Sett.C91_lu_residual
#only_standard_axioms Sett.C92_integral
#only_standard_axioms Sett.C92_pressure
#only_standard_axioms Sett.C92_mass_flows
#only_standard_axioms Sett.C92_heat_flows
#only_standard_axioms Sett.C92_performance
#only_standard_axioms Sett.C93_dopri5_grid
#only_standard_axioms Sett.C93_integration
#only_standard_axioms Sett.C93_cycle_end_is_start
#only_standard_axioms Sett.C93_guess_kept
#only_standard_axioms Sett.C93_run
#only_standard_axioms Sett.C94_no_end
#only_standard_axioms Sett.C94_no_interval
#only_standard_axioms Sett.C94_integration
#only_standard_axioms Sett.C94_run
#only_standard_axioms Sett.C95_engine
#only_standard_axioms Sett.C95_run_engine
#only_standard_axioms Sett.C95_prices
#only_standard_axioms Sett.C96_electrical_ignored
#only_standard_axioms Sett.C96_overall_zero
#only_standard_axioms Sett.C97_engine
#only_standard_axioms Sett.C97_run_engine
#only_standard_axioms Sett.C97_heat
#only_standard_axioms Sett.C98_engine
#only_standard_axioms Sett.C98_run_engine
#only_standard_axioms Sett.C99_inner
#only_standard_axioms Sett.C99_memoryless
#only_standard_axioms Sett.C99_outer
#only_standard_axioms Sett.C99_run_engine
#only_standard_axioms Sett.C100_search
#only_standard_axioms Sett.C100_engine
#only_standard_axioms Sett.C100_run_engine
#only_standard_axioms Sett.C101_engine
#only_standard_axioms Sett.C101_run_engine
#only_standard_axioms Sett.C102_lu
#only_standard_axioms Sett.C102_equations
#only_standard_axioms Sett.C102_accepted
#only_standard_axioms Sett.C102_integration
#only_standard_axioms Sett.C102_inner
#only_standard_axioms Sett.C102_run
#only_standard_axioms Sett.C102_run_engine
#only_standard_axioms Sett.C103_pressure
#only_standard_axioms Sett.C103_flows
#only_standard_axioms Sett.C103_never_still
#only_standard_axioms Sett.C103_sinusoidal
#only_standard_axioms Sett.C103_rhombic
#only_standard_axioms Sett.C104_step
#only_standard_axioms Sett.C104_order
#only_standard_axioms Sett.C105_similar
#only_standard_axioms Sett.C105_inflow
#only_standard_axioms Sett.C105_perfect
#only_standard_axioms Sett.C105_motion
#only_standard_axioms Sett.C105_helium_partial
#only_standard_axioms Sett.C105_helium_false
#only_standard_axioms Sett.C105_pushed
#only_standard_axioms Sett.C105_helium_pushed
#only_standard_axioms Sett.C106_rates
#only_standard_axioms Sett.C106_motions
#only_standard_axioms Sett.C106_exists
#only_standard_axioms Sett.C106_work
#only_standard_axioms Sett.C106_sinusoidal
#only_standard_axioms Sett.C106_rhombic
#only_standard_axioms Sett.C107_solve
#only_standard_axioms Sett.C107_run
#only_standard_axioms Sett.C107_four
#only_standard_axioms Sett.C107_dopri5
#only_standard_axioms Sett.C107_engine
#only_standard_axioms Sett.C107_run_engine
#only_standard_axioms Sett.C108_eternal
#only_standard_axioms Sett.C108_hydrogen_eternal
#only_standard_axioms Sett.C108_helium
#only_standard_axioms Sett.C108_until_cold
#only_standard_axioms Sett.C108_forever
#only_standard_axioms Sett.C108_hydrogen_until_cold
#only_standard_axioms Sett.C108_not_colder
#only_standard_axioms Sett.C108_not_hotter
#only_standard_axioms Sett.C108_bounded
#only_standard_axioms Sett.C108_bounded_above
#only_standard_axioms Sett.C108_gas_not_colder
#only_standard_axioms Sett.C108_gas_bounded
#only_standard_axioms Sett.C108_hydrogen
#only_standard_axioms Sett.C109_flows
#only_standard_axioms Sett.C109_no_gain
#only_standard_axioms Sett.C109_gain
#only_standard_axioms Sett.C109_run_engine_equal
#only_standard_axioms Sett.C109_any_efficiency
#only_standard_axioms Sett.C109_run_engine_gain
#only_standard_axioms Sett.C109_run_engine_no_gain
