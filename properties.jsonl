{"id": "C01", "title": "Convergence test means what it says", "statement": "ConvergenceTolerance::is_converged(old,new) returns true exactly when old is non-zero, |new-old| < abs and |new-old| < rel*|old|.", "quantifier": "every pair of tolerances and every pair of finite values old, new", "why_tests_cant": "Tests sample a few values; the claim is an equivalence over all reals including the old = 0 boundary.", "anchors": ["src/types.rs: ConvergenceTolerance::is_converged"]}
{"id": "C02", "title": "Convergence test never accepts NaN, infinities or a zero reference", "statement": "In IEEE arithmetic is_converged returns false whenever old or new is NaN or infinite, whenever old is +0 or -0, and whenever a tolerance is NaN, zero or negative; so a run can never be reported converged on garbage temperatures.", "quantifier": "every combination of IEEE double values, including signed zeros, infinities and NaN", "why_tests_cant": "The special-value cross product (and all finite values beside it) cannot be enumerated by unit tests.", "anchors": ["src/types.rs: ConvergenceTolerance::is_converged"]}
{"id": "C03", "title": "Loosening a tolerance never loses convergence", "statement": "If is_converged accepts (old,new) under some tolerances it also accepts under any larger tolerances; the verdict is unchanged when both values are negated, and with equal tolerances scaled values (k*old,k*new with |k|<=1) stay accepted.", "quantifier": "all tolerance pairs ordered componentwise, all values", "why_tests_cant": "Monotonicity is a relation between infinitely many pairs of calls.", "anchors": ["src/types.rs: ConvergenceTolerance::is_converged"]}
{"id": "C04", "title": "State equations are the ten control-volume balances", "statement": "A vector solves the Ax=b system assembled by the solver if and only if it satisfies the mass balance and the energy balance of each of the five control volumes (compression space, cold hx, regenerator, hot hx, expansion space) written from first principles, for the interface enthalpies chosen by the flow directions.", "quantifier": "every state-equation input with non-zero enthalpy normalisation, every flow-direction combination, every candidate solution", "why_tests_cant": "The existing tests compare one numeric solution; a wrong coefficient that vanishes on those inputs (dV_dt=0, Q_dot=0, du_dP_T=0) passes.", "anchors": ["src/state_equations/solver.rs: System::new, MatrixStencil::create_matrix", "src/state_equations/inputs.rs"]}
{"id": "C05", "title": "Total mass is conserved by every accepted solution", "statement": "For every Solution returned by solve, the rate of change of the total gas mass over the five control volumes is zero.", "quantifier": "all inputs, all flow-direction hints, any decomposition that returns exact solutions", "why_tests_cant": "Conservation must hold at every point of every cycle, not on two stored inputs.", "anchors": ["src/state_equations/solver.rs: solve, System::new"]}
{"id": "C06", "title": "Total energy balance of every accepted solution", "statement": "For every Solution returned by solve, d(U_total)/dt = -P*d(V_c+V_e)/dt - Qdot_c - Qdot_e - Qdot_k - Qdot_r + Qdot_l: enthalpy exchanged between neighbouring volumes cancels exactly.", "quantifier": "all inputs with non-zero enthalpy normalisation, all hints, any exact decomposition", "why_tests_cant": "The cancellation must hold for all flow directions and inputs.", "anchors": ["src/state_equations/solver.rs: solve, System::new, create_matrix"]}
{"id": "C07", "title": "Returned solutions are upwinded by their own flow directions", "statement": "Whenever solve returns Ok(solution), that solution solves the system in which every interface enthalpy is that of the volume the gas is actually leaving according to the signs in that same solution; the averaged (unknown-direction) enthalpy is never used in a returned solution.", "quantifier": "all inputs, hints and decompositions, over any arithmetic", "why_tests_cant": "Requires reasoning about every trajectory of the direction-update loop.", "anchors": ["src/state_equations/solver.rs: solve", "src/state_equations/flow_direction.rs"]}
{"id": "C08", "title": "The flow-direction loop is bounded, classified and idempotent", "statement": "solve performs at most four matrix solves; it fails only if the decomposition fails on one of the visited directions or if four consecutive solves disagree with their assumed directions; re-solving with the direction of a returned solution as hint returns the same solution after one matrix solve; an unknown hint costs at least two matrix solves.", "quantifier": "all inputs, hints, decompositions, any arithmetic (NaN included)", "why_tests_cant": "Loop behaviour over arbitrary decomposition results is a universally quantified trace property.", "anchors": ["src/state_equations/solver.rs: solve, ALLOWED_FLOW_UPDATES"]}
{"id": "C09", "title": "Enthalpy normalisation does not change the answer", "statement": "Two inputs that differ only in their non-zero enth_norm have exactly the same solutions; a user never gets a different physical answer from the normalisation constant.", "quantifier": "all inputs and all pairs of normalisation constants reachable through the public API", "why_tests_cant": "Requires equality of solution sets for all inputs; also has an exceptional value (0) tests never use.", "anchors": ["src/state_equations/solver.rs: System::new", "src/engine/run.rs: Run::new (enth_norm)"]}
{"id": "C10", "title": "The state equations have exactly one solution when physically posed", "statement": "For known flow directions the system has exactly one solution if and only if an explicit scalar (the reduced 3x3 pressure/temperature determinant) is non-zero; the decomposition result is therefore determined by the inputs, independent of the decomposition used.", "quantifier": "all inputs with non-zero enthalpy normalisation and all flow directions", "why_tests_cant": "Uniqueness is a statement about all vectors in R^10.", "anchors": ["src/state_equations/solver.rs: System::new, System::solve"]}
{"id": "C11", "title": "Sinusoidal drive: reported dV/dt is the derivative of the reported volume", "statement": "For SinusoidalDrive the deriv fields returned by volumes(t) are the exact time derivatives of the value fields at every time.", "quantifier": "every drive geometry, frequency, phase angle and time", "why_tests_cant": "Finite-difference tests sample times; the derivative must match at all of them.", "anchors": ["src/ws/sinusoidal_drive.rs: volumes"]}
{"id": "C12", "title": "Sinusoidal drive: volumes stay within clearance and clearance+swept, and are periodic", "statement": "With non-negative swept volume, clearance <= V(t) <= clearance+swept for both spaces, both bounds are attained, and volumes(t+1/frequency) = volumes(t); positive clearance gives positive volume.", "quantifier": "every geometry, phase angle, non-zero frequency and time", "why_tests_cant": "Bounds and periodicity are statements over all times.", "anchors": ["src/ws/sinusoidal_drive.rs: volumes"]}
{"id": "C13", "title": "Rhombic drive: reported dV/dt is the derivative of the reported volume", "statement": "For RhombicDrive with feasible linkage (connecting rod longer than eccentricity plus crank radius) the deriv fields returned by volumes(t) are the exact time derivatives of the value fields.", "quantifier": "every feasible geometry, frequency and time", "why_tests_cant": "No rhombic test exists; derivative identity must hold at all crank angles.", "anchors": ["src/ws/rhombic_drive.rs: volumes"]}
{"id": "C14", "title": "Rhombic drive: volumes never drop below clearance, and are periodic", "statement": "For a feasible rhombic linkage the compression volume is at least V_clearance_c and the expansion volume at least V_clearance_e at every time, both minima are attained, and the motion is periodic with period 1/frequency.", "quantifier": "every feasible geometry and time", "why_tests_cant": "The minimum over a continuum of crank angles cannot be settled by sampling.", "anchors": ["src/ws/rhombic_drive.rs: volumes"]}
{"id": "C15", "title": "Rhombic configuration honours the displacer diameter", "statement": "The RhombicDrive built from a configuration uses every configured dimension: in particular the expansion-space volume swept depends on the configured displacer diameter D_d.", "quantifier": "all rhombic configurations", "why_tests_cant": "A dropped field shows only when D_d differs from D_p; no test builds such a drive.", "anchors": ["src/ws/rhombic_drive.rs: impl From<Config> for RhombicDrive"]}
{"id": "C16", "title": "Ideal-gas density derivatives are the derivatives of the density", "statement": "dd_dP_T and dd_dT_P are the exact partial derivatives of dens with respect to pressure and temperature, and dens is positive for positive temperature and pressure.", "quantifier": "both fluids, every non-zero temperature and every pressure", "why_tests_cant": "Snapshots check one state point per fluid.", "anchors": ["src/fluid/ideal_gas.rs: dens, dd_dP_T, dd_dT_P"]}
{"id": "C17", "title": "Ideal-gas cp is the temperature derivative of enthalpy", "statement": "cp(T,P) is the exact derivative of enth(T,P) in T, and du_dT_P the exact derivative of inte in T.", "quantifier": "both fluids (helium and hydrogen), every temperature", "why_tests_cant": "Snapshots pin numbers at one state point and would pin a wrong formula just as well.", "anchors": ["src/fluid/ideal_gas.rs: enth, inte, cp, du_dT_P"]}
{"id": "C18", "title": "Ideal-gas enthalpy and internal energy differ by P/rho", "statement": "enth(T,P) = inte(T,P) + P/dens(T,P), the definition of enthalpy that the energy balances of the state equations rely on.", "quantifier": "both fluids, every temperature and pressure", "why_tests_cant": "An identity over all states; the existing tests only check both vanish at the reference temperature.", "anchors": ["src/fluid/ideal_gas.rs: enth, inte, dens"]}
{"id": "C19", "title": "Ideal-gas reference state and pressure independence", "statement": "enth and inte are zero at the reference temperature and enth, inte, cp, du_dT_P do not depend on pressure while du_dP_T is zero.", "quantifier": "both fluids, every temperature and pair of pressures", "why_tests_cant": "Pressure independence is a relation over all pressures.", "anchors": ["src/fluid/ideal_gas.rs"]}
{"id": "C20", "title": "Regenerator side temperatures honour approach and imbalance", "statement": "For any imbalance the smaller of the two side temperature differences (T_r_cold - T_k, T_l - T_r_hot) equals the given approach and their difference equals the imbalance, as documented.", "quantifier": "all heat-exchanger temperatures, approaches and imbalances (positive, negative, zero)", "why_tests_cant": "Sign-dependent branches over a continuum.", "anchors": ["src/engine/state.rs: RegenImbalance::regen_temp"]}
{"id": "C21", "title": "Regenerator average temperature is a log-mean lying between its end temperatures", "statement": "Whenever the effective end temperatures (half-approach corrected) are positive and different, the reported T_r lies strictly between them; it is symmetric under exchanging the ends.", "quantifier": "all positive distinct end temperatures", "why_tests_cant": "An inequality about the logarithm over a continuum.", "anchors": ["src/engine/state.rs: RegenImbalance::regen_temp"]}
{"id": "C22", "title": "Degenerate regenerator temperatures make convergence impossible", "statement": "If the effective end temperatures coincide, the average regenerator temperature is not a finite number in IEEE arithmetic (NaN if the numerator is zero, infinite if rounding left it non-zero) and an engine run can then never return Ok: it ends in RunError (or a panic), whatever the iteration limits.", "quantifier": "all such inputs, tolerances, iteration limits and integrator behaviours", "why_tests_cant": "Involves all iteration limits and integrator behaviours.", "anchors": ["src/engine/state.rs: RegenImbalance::regen_temp, Temperatures::is_converged", "src/engine.rs: Engine::run"]}
{"id": "C23", "title": "Fixed-conductance heat exchangers satisfy the effectiveness-NTU relation", "statement": "The approach returned by the fixed-conductance cold and hot heat exchangers equals (Q/C)/(exp(UA/C)-1): the residual temperature difference of a stream exchanging Q with a constant-temperature reservoir through conductance UA.", "quantifier": "all UA > 0, capacitance rates C > 0 and heat flows Q", "why_tests_cant": "An identity over a continuum.", "anchors": ["src/chx/fixed_conductance.rs: approach", "src/hhx/fixed_conductance.rs: approach"]}
{"id": "C24", "title": "Fixed-conductance approach is non-negative, shrinks with UA and is bounded by Q/UA", "statement": "For Q >= 0, C > 0, UA > 0 the approach is non-negative, strictly decreasing in UA when Q > 0, at most Q/UA, and tends to zero as UA grows.", "quantifier": "all positive UA, C and non-negative Q", "why_tests_cant": "Monotonicity and limits quantify over pairs and sequences of inputs.", "anchors": ["src/chx/fixed_conductance.rs: approach", "src/hhx/fixed_conductance.rs: approach"]}
{"id": "C25", "title": "Zero mass flow through a fixed-conductance exchanger never looks converged", "statement": "With zero mass flow the approach of every fixed-conductance component (cold hx, hot hx, regenerator) is not a finite number in IEEE arithmetic (NaN for the regenerator and, when the heat-capacity rate is +0, for the exchangers), which the convergence test rejects: no run returns Ok with such a flow.", "quantifier": "all UA > 0 and heat flows, any libm with exp(-inf)=0", "why_tests_cant": "Exceptional-value propagation over all operands.", "anchors": ["src/chx/fixed_conductance.rs", "src/hhx/fixed_conductance.rs", "src/regen/fixed_conductance.rs"]}
{"id": "C26", "title": "Fixed-conductance regenerator approach", "statement": "The approach equals (T_l - T_k)/(1 + NTU/2) with NTU = UA/C: it lies strictly between 0 and T_l - T_k for T_l > T_k, decreases with UA, and leaves the cold side colder than the hot side exactly when NTU > 2.", "quantifier": "all UA > 0, C > 0 and temperatures", "why_tests_cant": "Inequalities over a continuum; the crossing threshold is never tested.", "anchors": ["src/regen/fixed_conductance.rs: approach", "src/engine/state.rs: regen_temp"]}
{"id": "C27", "title": "Trapezoidal integration laws", "statement": "The cycle integral used for all averages is linear in the samples, additive when a sampled interval is split, exact for affine signals, monotone in the samples for increasing times, and zero for fewer than two samples.", "quantifier": "all sample lists of any length and any time grid", "why_tests_cant": "Universally quantified over lists of arbitrary length.", "anchors": ["src/engine/state.rs: integrate", "src/performance.rs: integrate"]}
{"id": "C28", "title": "Pressure summary is consistent with the samples", "statement": "Pressure::from_values reports the true maximum and minimum of the samples, the first sample as t_zero, and (for a strictly increasing time grid starting at zero) min <= avg <= max.", "quantifier": "all non-empty sample lists of any length", "why_tests_cant": "List length and values unbounded.", "anchors": ["src/engine/state.rs: Pressure::from_values"]}
{"id": "C29", "title": "Average mass flows are non-negative magnitudes", "statement": "MassFlows::from_values is non-negative on an increasing grid from zero, unchanged when every flow is reversed, zero when in- and outflow cancel at every sample, and never exceeds the mean of the two interface magnitudes.", "quantifier": "all sample lists", "why_tests_cant": "Quantifies over all lists.", "anchors": ["src/engine/state.rs: MassFlows::from_values, m_dot_avg"]}
{"id": "C30", "title": "Heat flows: adiabatic spaces are the limit of large thermal resistance", "statement": "With infinite thermal resistance the working spaces contribute nothing to the reported exchanger heat flows, and for finite resistances growing without bound the reported heat flows converge to that adiabatic value.", "quantifier": "all sample lists, temperatures and resistances", "why_tests_cant": "A limit statement.", "anchors": ["src/engine/state.rs: HeatFlows::from_values", "src/ws.rs: ThermalResistance"]}
{"id": "C31", "title": "Time series share one index", "statement": "Converting state-equation values to engine values keeps the number of points, makes all eleven series the same length, and entry i of each series is the corresponding field of point i; no point is lost, duplicated or reordered.", "quantifier": "all value lists of any length", "why_tests_cant": "Lists of arbitrary length.", "anchors": ["src/engine/state.rs: impl From<Vec<state_equations::Values>> for Values"]}
{"id": "C32", "title": "Every derivative fed to the integrator comes from a self-consistent solve", "statement": "Whatever points and order the ODE integrator chooses to evaluate, each derivative it receives is the (dP_dt, dTc_dt, dTe_dt) of a self-consistent solution at exactly that time and state, the direction hint used is the direction of the previous evaluation (unknown for the first), and an evaluation whose solve fails panics rather than being silently skipped.", "quantifier": "every integrator strategy (any adaptive sequence of evaluations, any length)", "why_tests_cant": "Quantifies over all adaptive strategies.", "anchors": ["src/state_equations/integrator.rs: IntegrationState::system, Integration::try_from"]}
{"id": "C33", "title": "Cyclic steady state is reported only when reached", "statement": "find_steady_state returns Ok only for the first initial condition, in the successive-substitution sequence from the hints, whose one-cycle integration returns T_c and T_e within the convergence tolerance of where they started; the returned series is the integration from exactly that initial condition.", "quantifier": "every cycle, integrator behaviour, tolerance and iteration limit", "why_tests_cant": "Quantifies over all iteration histories.", "anchors": ["src/state_equations/cycle.rs: find_steady_state", "src/state_equations/integrator.rs: is_converged, final_conditions"]}
{"id": "C34", "title": "Starting pressure is pinned in every inner iteration", "statement": "Every integration attempted by find_steady_state starts from pressure pres_zero; only the two temperatures are carried over.", "quantifier": "every iteration of every run", "why_tests_cant": "All histories.", "anchors": ["src/state_equations/cycle.rs: find_steady_state"]}
{"id": "C35", "title": "Inner loop work bound and monotonicity in max_iters", "statement": "find_steady_state starts at most max_iters+1 integrations, returns an error without integrating when max_iters is 0, and raising max_iters never changes a successful result.", "quantifier": "every cycle and every pair of iteration limits", "why_tests_cant": "All iteration limits.", "anchors": ["src/state_equations/cycle.rs: find_steady_state"]}
{"id": "C36", "title": "Engine::run returns Ok only at outer convergence, with values computed from the returned state", "statement": "If Engine::run returns an engine then its values are the steady-state values of its own returned state (same temperatures, pressure and fluid), and recomputing the approach temperatures from those values moves chx, hhx and all three regenerator temperatures by less than the outer tolerance.", "quantifier": "every component set, fluid, inputs, settings, decomposition and integrator behaviour", "why_tests_cant": "All histories of the outer loop.", "anchors": ["src/engine.rs: Engine::run", "src/engine/state.rs: State::update"]}
{"id": "C37", "title": "Run inputs are invariants of the run", "statement": "In every state visited by Engine::run, and in the returned engine, sink and source temperature equal the inputs, the regenerator imbalance is 0, the fluid and components are the ones supplied, and the pressure at time zero equals pres_zero whenever the integrator reports its initial condition as first point.", "quantifier": "every outer iteration of every run", "why_tests_cant": "An invariant over all reachable states.", "anchors": ["src/engine.rs: Engine::run", "src/engine/state.rs: State::new_hint, State::update"]}
{"id": "C38", "title": "Outer loop errors are classified and bounded", "statement": "Engine::run returns OuterLoop exactly when max_iters.outer outer iterations complete without convergence (in particular at once when it is 0), InnerLoop exactly when an inner solve returned an error first; it calls the inner solver at most max_iters.outer times and raising the limit never changes a successful result.", "quantifier": "every run and iteration limit", "why_tests_cant": "All iteration limits and histories.", "anchors": ["src/engine.rs: Engine::run", "src/types.rs: RunError"]}
{"id": "C39", "title": "Fixed-approach engines converge in one outer iteration", "statement": "If all three heat exchangers are fixed-approach, outer tolerances are positive and the five constant temperatures are finite and non-zero, then Engine::run with max_iters.outer >= 1 succeeds whenever the first inner solve does, performs no second outer iteration, and the temperatures are exactly sink+DT_chx, source-DT_hhx and the regenerator temperatures implied by DT_regen.", "quantifier": "every fixed-approach engine, any working spaces, fluid and integrator", "why_tests_cant": "All engines and histories.", "anchors": ["src/engine.rs: Engine::run", "src/chx/fixed_approach.rs", "src/hhx/fixed_approach.rs", "src/regen/fixed_approach.rs"]}
{"id": "C40", "title": "Reported averages describe the reported cycle", "statement": "In the results of a successful run, pressure.{avg,max,min,t_zero}, mass_flow and heat_flow.{chx,regen,hhx} are the averages/extrema of the returned time series values.", "quantifier": "every successful run", "why_tests_cant": "A relation between two parts of the output over all runs.", "anchors": ["src/engine/state.rs: State::update", "src/api.rs: impl From<Engine<T>> for RunResults"]}
{"id": "C41", "title": "Space pressures straddle the cycle pressure", "statement": "At every sample P_c + P_e = 2P, P_c - P_e is the sum of the three exchanger drops, each drop is resistance times mean volumetric flow through that exchanger, and with non-negative resistances and positive densities flow from cold to hot everywhere implies P_c >= P >= P_e.", "quantifier": "every engine result and sample index", "why_tests_cant": "All samples of all runs.", "anchors": ["src/performance.rs: PressuresWithDrops::new, calculate_hx_pressure_drop"]}
{"id": "C42", "title": "No hydraulic resistance means no pressure-drop loss", "statement": "If all hydraulic resistances are zero then P_c = P_e = P at every sample and indicated power equals ideal indicated power; in general their difference is the cycle integral of half the total drop times (dVc/dt - dVe/dt).", "quantifier": "every engine result", "why_tests_cant": "All samples, all runs.", "anchors": ["src/performance.rs"]}
{"id": "C43", "title": "Power ladder", "statement": "shaft = indicated - mechanical parasitics of both working spaces and net = shaft - mechanical parasitics of the cold and hot exchangers; hence with non-negative parasitics net <= shaft <= indicated.", "quantifier": "every engine result", "why_tests_cant": "All runs.", "anchors": ["src/performance.rs: Powers::new", "src/api.rs: Power"]}
{"id": "C44", "title": "Torque and efficiency", "statement": "shaft_torque * 2*pi*frequency = shaft power for non-zero frequency and efficiency.mechanical * heat input = net power for non-zero heat input; with non-negative net power not exceeding a positive heat input the mechanical efficiency is in [0,1].", "quantifier": "every engine result", "why_tests_cant": "All runs.", "anchors": ["src/performance.rs: impl From<&Engine<T>> for Performance", "src/api.rs: Efficiency"]}
{"id": "C45", "title": "First law on the reported results", "statement": "Heat input minus heat rejection equals shaft power when the cycle is closed (no net change of internal energy, no net regenerator heat), up to named terms: thermal parasitics of the working spaces and wall heat through the thermal resistances.", "quantifier": "every engine whose samples solve the state equations, any number of samples", "why_tests_cant": "Combines all samples of a cycle with the solver equations.", "anchors": ["src/performance.rs: Heats::new, Powers::new", "src/state_equations/solver.rs"]}
{"id": "C46", "title": "Reported heat input and exchanger heat flow agree", "statement": "Heats computed for performance and the heat-flow summary computed from the same values agree: rejected/input differ from the summary's chx/hhx flow only by the parasitic and pressure-drop terms, when the grid ends at one period.", "quantifier": "every sample list and thermal resistance", "why_tests_cant": "Two separately coded computations must agree on all inputs.", "anchors": ["src/performance.rs: Heats::new", "src/engine/state.rs: HeatFlows::from_values"]}
{"id": "C47", "title": "Result series are index-aligned including P_c and P_e", "statement": "All thirteen series in RunResults.values have the same length as the integrator output, and no length mismatch panic can occur when computing them.", "quantifier": "every successful run", "why_tests_cant": "All lengths.", "anchors": ["src/api.rs: Values", "src/performance.rs"]}
{"id": "C48", "title": "Legacy configuration converts losslessly", "statement": "Converting a Legacy configuration keeps every component parameter, tolerance, resolution and condition under its new name, uses 20 iterations for both loops, and two legacy configurations convert to the same Config exactly when they differ at most in the ODE-solver name.", "quantifier": "all legacy configurations", "why_tests_cant": "Field-by-field claim over all values of all variants.", "anchors": ["src/config.rs: impl From<Legacy> for Config", "src/types.rs", "src/fluid.rs: LegacyConfig::into", "src/ws.rs", "src/chx.rs", "src/regen.rs", "src/hhx.rs"]}
{"id": "C49", "title": "Unsupported models are rejected, never substituted", "statement": "run_engine panics for every fluid model other than ideal gas and for every GPU3, Mod2 or nuclear-isomer component, and runs exactly the configured ideal gas and component otherwise.", "quantifier": "all configurations", "why_tests_cant": "All variant combinations with arbitrary parameters.", "anchors": ["src/api.rs: run_engine", "src/engine.rs: impl From<ComponentsConfig> for Components"]}
{"id": "C50", "title": "run_engine is the composition of its parts", "statement": "For supported configurations run_engine(config) returns exactly the results of Engine::run with the converted components, fluid, conditions and settings, passing RunError through unchanged; it never returns Ok unless Engine::run did.", "quantifier": "all configurations", "why_tests_cant": "All configurations and outcomes.", "anchors": ["src/api.rs: run_engine", "src/types.rs: impl From<SolverConfig> for RunSettings"]}
{"id": "C51", "title": "Resolution edge cases", "statement": "Any resolution n >= 2 gives a finite time step period/(n-1); resolution 0 overflows u32 (panic in checked builds, step period/4294967295 in wrapping builds) and resolution 1 gives a division by zero, and only after the inner loop has converged.", "quantifier": "every resolution and cycle", "why_tests_cant": "Both build modes and all resolutions.", "anchors": ["src/state_equations/integrator.rs: Integration::try_from", "src/state_equations/cycle.rs"]}
{"id": "C52", "title": "Default configurations build the default components", "statement": "Each component built from its default configuration equals the component's own default.", "quantifier": "every component type having both defaults", "why_tests_cant": "Structural equality of behaviours for all states, not of one output.", "anchors": ["src/chx/fixed_approach.rs", "src/chx/fixed_conductance.rs", "src/hhx/fixed_approach.rs", "src/hhx/fixed_conductance.rs", "src/regen/fixed_approach.rs", "src/regen/fixed_conductance.rs", "src/ws/rhombic_drive.rs"]}
{"id": "C53", "title": "Configuration names are unambiguous", "statement": "The configuration-file tag of every component variant under the declared renaming rule determines the variant: no two variants share a tag, and decoding the tag of a variant gives that variant back.", "quantifier": "all variants of all configuration enums; the renaming rule on all identifiers", "why_tests_cant": "Injectivity of the renaming rule quantifies over all identifiers.", "anchors": ["src/chx.rs: Config", "src/hhx.rs: Config", "src/regen.rs: Config", "src/ws.rs: Config", "src/fluid.rs: Config, ModelConfig"]}
{"id": "C54", "title": "NaN never hides as a valid flow direction", "statement": "A NaN mass flow is never classified as positive; zero is classified as positive; a solution containing NaN flows can nevertheless be returned as Ok, so callers must check it.", "quantifier": "all IEEE values", "why_tests_cant": "Special values.", "anchors": ["src/state_equations/flow_direction.rs: Direction::from_value", "src/state_equations/solver.rs: solve"]}
{"id": "C55", "title": "Gas is conserved along the cycle", "statement": "Along any exact solution of the state equations an engine run sets up, the total mass of gas in the five volumes (density times volume, as the fluid and the drive report them) is constant.", "quantifier": "every run with either ideal gas, every drive whose rates are derivatives of its volumes, every interval of time, every trajectory", "why_tests_cant": "A statement about all instants of a continuous trajectory; it needs fluid, drive and solver to agree with each other.", "anchors": ["src/engine/run.rs: Run", "src/state_equations/solver.rs", "src/fluid/ideal_gas.rs", "src/ws/sinusoidal_drive.rs", "src/ws/rhombic_drive.rs"]}
{"id": "C56", "title": "First law along the cycle", "statement": "Along any exact solution the internal energy of the gas changes at the rate of the work done on it plus the heat it receives, plus a source proportional to the error of the fluid's du_dT_P (zero for helium, the enthalpy-integration error for hydrogen); over a closed helium cycle the integral of P dV equals the net heat.", "quantifier": "every run with either ideal gas, every trajectory; closed cycles of any length for the integral form", "why_tests_cant": "A statement about integrals over continuous trajectories.", "anchors": ["src/engine/run.rs: Run", "src/state_equations/solver.rs", "src/fluid/ideal_gas.rs"]}
{"id": "C57", "title": "The state equations are uniquely solvable at physical states", "statement": "With either ideal gas, positive pressure, non-empty working spaces and gas at 100 K or more, the linear system has exactly one solution for every assumption about flow directions, so a decomposition that solves uniquely solvable systems cannot fail; with helium at R*Tref/cp (just under 100 K) the system is singular.", "quantifier": "all physical states, all direction assumptions, both gases", "why_tests_cant": "Positivity of a determinant over a continuum of states.", "anchors": ["src/state_equations/solver.rs: System", "src/fluid/ideal_gas.rs", "src/engine/run.rs: calculate_inputs"]}
{"id": "C58", "title": "The solution does not depend on the direction hint", "statement": "For a thermodynamically stable gas there is exactly one solution of the balances whose interface enthalpies are upwind of its own flows; every Ok result of solve, from any hint and any sound decomposition, is that one.", "quantifier": "all stable inputs of any fluid, all hints, all decompositions", "why_tests_cant": "Existence and uniqueness for a piecewise-linear system over all inputs.", "anchors": ["src/state_equations/solver.rs: solve", "src/state_equations/flow_direction.rs"]}
{"id": "C59", "title": "The direction search always succeeds", "statement": "For a stable gas and a sound, complete decomposition solve returns Ok for every hint: four matrix solves are always enough, and there is a helium engine at a physical state that needs all four.", "quantifier": "all stable inputs of any fluid, all hints including unknown directions", "why_tests_cant": "Termination of a search within a fixed budget for every input.", "anchors": ["src/state_equations/solver.rs: solve, ALLOWED_FLOW_UPDATES"]}
{"id": "C60", "title": "The remembered flow directions are not observable", "statement": "While the integrator asks only for derivatives at physical states, integration does not panic and its outcome is that of integrating a function of time and state alone, whatever directions are remembered; the values computed afterwards hold the consistent solution of their own point.", "quantifier": "every integrator behaviour, every initial memory, every sequence of physical states", "why_tests_cant": "Equivalence of a stateful computation with a stateless one over all interaction histories.", "anchors": ["src/state_equations/integrator.rs: IntegrationState::system, into_state_values"]}
{"id": "C61", "title": "The pressure along a cycle follows from temperatures and volumes", "statement": "Along any exact solution P times the sum of V/T over the five volumes is constant, so a positive pressure stays positive, and if after a period both space temperatures are back within a factor 1+eps then so is the pressure (exactly, for eps = 0): testing the two temperatures for convergence is enough.", "quantifier": "every run with either ideal gas, every drive whose rates are derivatives of its volumes, every trajectory, every eps >= 0", "why_tests_cant": "A statement about all trajectories; the convergence test of the code never looks at the pressure.", "anchors": ["src/state_equations/integrator.rs: Integration::is_converged", "src/state_equations/cycle.rs: find_steady_state", "src/engine/run.rs: Run"]}
{"id": "C62", "title": "A run on sane inputs does not panic", "statement": "Given a correct matrix decomposition and an integrator that keeps the gas under pressure and at 100 K or more, run_engine on a configuration with sane numbers (ideal gas, spaces that never empty, fixed-approach exchangers, positive outer tolerance, at least one outer iteration) returns results or the InnerLoop error: none of the expect/unwrap calls on the way can fail. For other components the same holds while every visited state is sane.", "quantifier": "all sane configurations, every integrator strategy that stays warm, every iteration limit and tolerance", "why_tests_cant": "Absence of panics over all inputs and all integrator behaviours; tests only see the paths they take.", "anchors": ["src/state_equations/integrator.rs: expect and unwrap calls", "src/engine.rs: Engine::run", "src/api.rs: run_engine"]}
{"id": "C63", "title": "The starting state and the temperature ladder", "statement": "A run starts at the configured sink and source temperatures shifted by the first approaches of its exchangers (the fixed ones; 10 K where computed; 0 K for a cold exchanger of negative conductance), at the configured pressure and without flow. In every later state the approaches are those the components report, equal on both sides of the regenerator; non-negative approaches give ordered temperatures with the average strictly inside.", "quantifier": "all supported configurations, every state of the outer sequence", "why_tests_cant": "An invariant of every outer iteration for every component behaviour.", "anchors": ["src/engine/state.rs: State::new_hint, Temperatures::from_approach, RegenImbalance::regen_temp", "src/chx/fixed_conductance.rs: initial_approach"]}
{"id": "C64", "title": "An engine k times the size gives k times the power", "statement": "Multiply every volume, conductance and parasitic loss of a configuration by k > 0 and divide every thermal and hydraulic resistance by k (a rhombic drive gets pistons wider by the square root of k). run_engine then returns the same efficiency, pressures, temperatures and time grid, with powers, heats, mass flows and torque multiplied by exactly k; or fails with the same error.", "quantifier": "every k > 0, all supported configurations whose visited states are sane, every integrator that keeps the gas warm", "why_tests_cant": "A relation between two runs for every factor, configuration and integrator; tests compare single runs with stored numbers.", "anchors": ["src/api.rs: run_engine, RunResults", "src/state_equations/solver.rs", "src/engine/state.rs: State::update", "src/performance.rs", "src/{ws,chx,regen,hhx}: all closed-form components"]}
{"id": "C65", "title": "The report follows from the reported series", "statement": "For every successful run_engine the reported powers, torque, efficiency, heat input and rejection are what one computes from the reported series, the reported temperatures and the configured numbers: pressure-volume work of P_c and P_e, exchanger heat plus wall heat plus configured losses; P_c and P_e straddle P by the drops through the three exchangers. The temperatures form a ladder from the configured sink to the configured source with the configured approaches where these are fixed; the series starts at time zero and the configured pressure; min <= t_zero <= max.", "quantifier": "all configurations, every integrator and decomposition, every number of samples", "why_tests_cant": "A relation between all fields of a report for every run; unit tests compare individual numbers.", "anchors": ["src/api.rs: RunResults::from", "src/performance.rs", "src/engine/state.rs"]}
{"id": "C66", "title": "The gas data are those of helium and hydrogen", "statement": "The coded gas constants are the universal gas constant over the molar masses to 0.01 %, and density obeys P M = rho Ru T to 0.02 %. Helium is monatomic: cp = 5/2 R and cp/cv = 5/3 to 0.01 % everywhere. Hydrogen is diatomic: from 100 to 1500 K cp grows monotonically from 3.27 R to 3.89 R and cp/cv stays between 1.34 and 1.45.", "quantifier": "all temperatures and pressures (hydrogen: all temperatures from 100 to 1500 K)", "why_tests_cant": "A bound on a fifth-degree polynomial over an interval and on all states; tests sample points.", "anchors": ["src/fluid/ideal_gas.rs: IdealGas::new, cp, dens, du_dT_P"]}
{"id": "C67", "title": "The example entry point is run_engine with a printout", "statement": "run_from_config completes exactly when run_engine on the same configuration succeeds, and then prints the series and the results of that very run, in a fixed order; in every other case it prints nothing and panics (at its expect when the run did not converge).", "quantifier": "all configurations, every integrator and decomposition, any arithmetic", "why_tests_cant": "Equivalence of two entry points (with two copies of the fluid selection) for every input.", "anchors": ["src/lib.rs: run_from_config", "src/api.rs: run_engine"]}
{"id": "C68", "title": "Outer-loop settings do not matter to a fixed-approach engine; the examples agree", "statement": "For an engine with fixed-approach exchangers any positive outer tolerance and any positive outer limit give the same outcome of run_engine. Hence examples/run_from_config.rs and examples/run_from_legacy_config.rs print the same output although their outer tolerances differ, the first step of examples/run_simple_engine.rs prints the same series, and that sweep visits 500, 505, ... 1000 K in order until a step fails.", "quantifier": "all fixed-approach configurations, all positive outer tolerances and limits, every integrator and decomposition", "why_tests_cant": "A relation between runs for all settings and integrators.", "anchors": ["examples/*.rs", "src/engine.rs: Engine::run", "src/engine/state.rs: State::update"]}
{"id": "C69", "title": "The LU solver solves every uniquely solvable system", "statement": "In exact arithmetic the LU decomposition run_engine uses returns a vector exactly when the linear system has exactly one solution, and the vector is that solution; no multiplier of the elimination exceeds one. Hence, with no assumption about the linear algebra: at every physical state at 100 K or more the balances are solved, independently of the flow-direction hint, and run_engine on a sane fixed-approach configuration gives results or InnerLoop.", "quantifier": "all matrices and right-hand sides of every size; all physical states; all sane configurations", "why_tests_cant": "Tests solve two recorded systems; this is every system, including those needing row exchanges and the singular ones.", "anchors": ["src/state_equations/solver.rs: LU::solve", "src/state_equations.rs: LuSolver"]}
{"id": "C70", "title": "The solution of the state equations never jumps", "statement": "For the built-in gases, while pressure, temperatures (100 K and more), volumes and their rates stay within given limits, all ten unknowns solve returns (flows, exchanger heats, rates of temperature and pressure) are bounded and are Lipschitz in the state, in the pistons' positions and speeds, and in the temperatures of exchangers and regenerator (one constant for all runs of one engine) - also across flow reversals, where the enthalpies carried jump, and whatever hints were used. Consequently two curves that follow the equations up to given errors in their rates separate by no more than their initial distance plus the accumulated errors, times an exponential in time.", "quantifier": "all runs with sane constant parts, all limits, all pairs of instants, all hints, all pairs of curves", "why_tests_cant": "Continuity across the flow reversals and a uniform rate of separation are statements about a continuum of states; sampled states cannot show either.", "anchors": ["src/state_equations.rs: solve", "src/engine/run.rs: calculate_inputs"]}
{"id": "C71", "title": "The gas has exactly one motion from each state, and a motion that returns to its state repeats", "statement": "From every state under pressure with both spaces above 100 K the state equations have a trajectory, and only one; it exists for both drives of the crate. If after a period of the drive the two working-space temperatures are back (which is all the inner loop looks at; the pressure is then back too), the trajectory repeats itself from then on; if the state is the same within a distance d, it stays within 3 d exp(C t) of the turn before.", "quantifier": "all runs with sane constant parts and continuous drive, all states, all times, all trajectories", "why_tests_cant": "Uniqueness and periodicity quantify over all trajectories; a test integrates one approximately.", "anchors": ["src/engine/run.rs: calculate_inputs", "src/state_equations/cycle.rs: find_steady_state", "src/ws/sinusoidal_drive.rs: volumes", "src/ws/rhombic_drive.rs: volumes"]}
{"id": "C72", "title": "The series have exactly the requested number of samples over one period", "statement": "With the Dormand-Prince integrator the crate uses (exact arithmetic), a successful integration asked for n >= 2 points returns exactly n, at k T / (n - 1) for k = 0..n-1: the first at time zero with the initial conditions, the last at the period. So the integration is never empty (the three unwraps in integrator.rs cannot panic), and every successful run reports `resolution` samples from 0 to 1/frequency, the first at the requested pressure.", "quantifier": "whatever the state equations answer, all step-size histories including rejected steps, all tolerances, all n and periods with a sampling interval above 1e-14 s", "why_tests_cant": "The number of points results from an adaptive stepper with dense output and an end time padded by 1e-14; a test sees one step-size history.", "anchors": ["src/state_equations/integrator.rs: Integration::try_from, is_converged, final_conditions", "src/engine/run.rs: period"]}
{"id": "C73", "title": "The reported cycle is the one that was tested for convergence", "statement": "The inner loop tests a two-point integration and then reports a fresh integration with `resolution` points. Two integrations of the same cycle with different numbers of points take the same steps, so their states agree at all common times and at the end; hence in every successful run the reported series of both working-space temperatures end within the inner tolerances of where they start.", "quantifier": "all cycles, initial conditions and tolerances, all pairs of point counts; all runs", "why_tests_cant": "Equality of two adaptive integrations for all inputs: output density must not influence the steps, rejections, stiffness detection or remembered flow directions.", "anchors": ["src/state_equations/cycle.rs: find_steady_state", "src/state_equations/integrator.rs: Integration::try_from", "src/engine.rs: Engine::run"]}
{"id": "C74", "title": "Rates that are cubic in time are integrated exactly", "statement": "A cycle whose rates of pressure and temperatures are polynomials in time of degree at most three is integrated successfully (no step is rejected, no failure), and each of the n points has exactly the pressure and temperatures of the exact solution, for every output density and tolerance.", "quantifier": "all such polynomials of a size below 1e100 absolute tolerances per second, all n, all periods up to 1e99 s", "why_tests_cant": "Exactness over a family of functions validates all 45 coefficients of the method at once; tests compare final times only.", "anchors": ["src/state_equations/integrator.rs: Integration::try_from"]}
{"id": "C75", "title": "Every reported sample balances the gas in the five volumes", "statement": "At every sample of a successful run, the rate at which each of the five gas volumes gains mass and internal energy, computed from the gas property functions at the volume's own temperature (space temperatures from the series, exchanger temperatures from the returned state, the regenerator at its average) and at the reported pressure, equals what the reported flows, heats, wall losses and volume changes bring; gas crossing an interface carries the enthalpy of the side it comes from, the two ends of the regenerator being at its cold and hot temperatures.", "quantifier": "all engines, fluids, integrators and settings, all samples; correct matrix decomposition, normalising enthalpy not zero", "why_tests_cant": "Ten equations at every sample of every run, between quantities from different parts of the program.", "anchors": ["src/engine/run.rs: comp_inputs, chx_inputs, regen_inputs, hhx_inputs, exp_inputs", "src/state_equations/solver.rs", "src/state_equations/integrator.rs: into_state_values"]}
{"id": "C76", "title": "In floating point the requested number of samples is delivered only for engines that turn fast enough", "statement": "In binary64, if (n+6) times the period is at most 89 s and the sampling interval at least 1e-12 s, every successful integration and run reports exactly the n requested samples, the k-th within 1e-14 s of k periods/(n-1). Without the bound this fails: an engine that turns once a minute and is asked for 29 samples always reports 28, all before 58 s.", "quantifier": "all finite periods, resolutions, derivatives and tolerances, any powf that keeps signs; binary64 round-to-nearest", "why_tests_cant": "Accumulated rounding in the output times against a fixed padding of 1e-14 s: the failing combinations are sparse and depend on period and resolution.", "anchors": ["src/state_equations/integrator.rs: Integration::try_from (period + 1e-14)", "src/engine.rs: Engine::run"]}
{"id": "C77", "title": "In floating point, signs and orderings survive rounding", "statement": "In binary64: volumes of the sinusoidal drive stay between clearance and clearance plus swept volume, and the rhombic compression volume is never below its clearance; conductance approaches are never negative and the regenerator approach never exceeds the temperature difference; with non-negative approaches the gas temperatures are on the right side of sink, source and each other; the reported pressure extrema are samples that no sample exceeds, and a NaN sample shows; average mass flows are never negative; the cycle pressure never lies outside the two space pressures, and equals them without hydraulic resistance.", "quantifier": "all binary64 inputs including infinities and NaN (where a comparison is false), any library with cosines in [-1,1] and exponentials of non-positive numbers at most 1", "why_tests_cant": "Holds for reals trivially; that no rounding at the edge of a range ever breaks an ordering needs an argument about every machine number.", "anchors": ["src/ws/sinusoidal_drive.rs: volumes", "src/ws/rhombic_drive.rs: volumes", "src/chx/fixed_conductance.rs", "src/hhx/fixed_conductance.rs", "src/regen/fixed_conductance.rs", "src/engine/state.rs", "src/performance.rs"]}
{"id": "C78", "title": "A configuration document says what is run", "statement": "A parsed document is accepted as configuration c exactly if it has the written shape of c: every section and parameter present exactly once under its name (camelCase for legacy solver settings, snake_case variant names such as g_p_u3_n_i), numbers where numbers belong. Every configuration can be written and is read back unchanged; unknown keys at the top are ignored, missing or repeated sections rejected; the documents of both example programs are read as the configurations they describe.", "quantifier": "all parsed documents, all configurations of both formats, any treatment of scalars by the format", "why_tests_cant": "Some thirty structures and a dozen enums with derived readers: a swapped or misnamed field shows only in a test that happens to set it to a distinguishable value.", "anchors": ["src/config.rs: Config, Legacy", "src/types.rs", "src/fluid.rs", "src/ws.rs", "src/chx.rs", "src/regen.rs", "src/hhx.rs", "src/engine.rs: EngineConfig, ComponentsConfig", "examples/run_from_config.rs", "examples/run_from_legacy_config.rs"]}
{"id": "C79", "title": "The order of keys in a configuration document", "statement": "Reordering the keys of a document, at any depth, never changes what a configuration is read as. For legacy documents the order never changes the meaning either, but may decide whether the document is accepted: with a format that reads numbers from text, the legacy example (\"R_c\": \"inf\") is accepted with model before params and rejected the other way round.", "quantifier": "all parsed documents and reorderings; legacy: any buffer that reads no more than the format", "why_tests_cant": "Order independence is a statement about all permutations at all depths; the failing order depends on the parser's hash map.", "anchors": ["src/ws.rs: LegacyConfig", "src/chx.rs: LegacyConfig", "src/regen.rs: LegacyConfig", "src/hhx.rs: LegacyConfig", "src/fluid.rs: LegacyConfig", "examples/run_from_legacy_config.rs"]}
{"id": "C80", "title": "QR instead of LU changes nothing", "statement": "In exact arithmetic the QR solver returns the unique solution of a linear system exactly when there is one, and fails otherwise: it is the same function as LU, so a whole run with QrSolver gives the results of a run with LuSolver. Its triangular factor has columns as long as those of the matrix (no growth).", "quantifier": "all square matrices and right-hand sides of every dimension; all components, gases, settings, integrators and builds", "why_tests_cant": "The tests compare both solvers on two recorded inputs; the choice must not matter for any.", "anchors": ["src/state_equations/solver.rs: QR", "src/lib.rs: QrSolver", "src/engine.rs: run"]}
{"id": "C81", "title": "SvdDefault drops what it takes for rank deficiency", "statement": "Given any correct singular value decomposition, SvdDefault agrees with LU if every singular value exceeds 1e-12, and otherwise returns the solution without its parts along the dropped directions; it never fails, not even on systems without solution. Since the pressure column of the state equations is proportional to the gas volumes, for every engine and every state with changing pressure there is a size below which an engine of the same proportions is solved wrongly by SvdDefault and rightly by LU (example: five volumes of 0.1 cubic centimetres, 10 bar).", "quantifier": "all decompositions, matrices, right-hand sides and hints; all engines, physical states and sizes below the bound", "why_tests_cant": "The tests solve two engines of a few hundred cubic centimetres; the cutoff is absolute and bites only at other scales.", "anchors": ["src/state_equations/solver.rs: SvdDefault, System::new", "src/lib.rs: SvdDefaultSolver"]}
{"id": "C82", "title": "The computed cycle stays near the motion of the gas", "statement": "A successful integration is a chain of Dormand-Prince steps of order 5, each starting where the one before ended, each passing the error test at the requested tolerances, with slopes answered by the state equations; every reported point lies on their dense output. As long as the states asked about and the gas's own motion stay within given limits, every reported point lies within a constant times the longest step (plus the same constant times the distance at the start) of that motion, the constant depending only on the engine and the limits. For a search that reports a steady cycle, the gas's own motion from the reported start returns to its temperatures within the convergence tolerance plus the same error.", "quantifier": "all answers of the state equations (first part); all sane ideal-gas runs with a drive of bounded rates of change (both drives shipped), all tolerances, resolutions and starts", "why_tests_cant": "Tests see numbers, not the motion they are meant to approximate; nearness to an exact solution needs the differential equation.", "anchors": ["src/state_equations/integrator.rs: Integration::try_from", "src/state_equations/cycle.rs: find_steady_state", "src/engine.rs: Engine::run"]}
{"id": "C83", "title": "Beside every computed cycle there is a motion of the gas", "statement": "When an integration of one cycle succeeds and the states it asked about stay clear of given limits by a constant times its longest step, the differential equations of the gas have a solution from that start over the whole cycle: the motion exists, stays within the limits, and every reported point lies within that constant times the longest step of it. For a search that reports a steady cycle, that motion returns to its temperatures within the convergence tolerance plus the same error. The constant depends only on the engine, the limits and the drive, not on tolerances, resolution, start or the answers.", "quantifier": "all sane ideal-gas runs with a drive of bounded rates of change, all tolerances, resolutions and starts", "why_tests_cant": "That the equations have a solution at all near the printed numbers is a statement about a differential equation, out of reach of any finite computation.", "anchors": ["src/state_equations/integrator.rs: Integration::try_from", "src/state_equations/cycle.rs: find_steady_state", "src/engine.rs: Engine::run"]}
{"id": "C84", "title": "Reported powers and heat flows are those of a motion of the gas", "statement": "The figures reported for a completed run (ideal, indicated, shaft and net power, torque, heat input and heat rejection, and the efficiency where heat is taken up) are, up to an error, those of a continuous motion of the gas that starts at the reported start and returns to its temperatures within the convergence tolerance plus the error. The figures of the motion are averages over one cycle defined by integrals over time, without samples or steps. The error is a constant, fixed by the engine, its final state, limits and drive, times the longest integration step plus the interval between reported points; the questions of the last integration are required to stay clear of the limits by the same constant times the longest step.", "quantifier": "all completed runs of sane ideal-gas engines with a drive of bounded rates of change, all tolerances, resolutions, inputs and settings", "why_tests_cant": "Tests compare numbers with numbers from other programs or earlier versions; that they approximate an integral over a solution of the differential equations, with an error that vanishes with step and spacing, is a statement about all resolutions and about a solution no program holds.", "anchors": ["src/performance.rs: Powers::new", "src/performance.rs: Heats::new", "src/performance.rs: integrate", "src/engine.rs: Engine::run", "src/state_equations/integrator.rs: Integration::try_from"]}
{"id": "C85", "title": "No engine beats Carnot", "statement": "Over a closed motion of the gas (one that ends in the state it started from) the work on the pistons is the heat received less the heat given up, and for a perfect gas whose enthalpy and internal energy differ by P/rho Clausius' inequality holds; so with a regenerator that gives back what it takes up and no losses of heat, the work is at most (1 - Tk/Tl) of the heat received. For the crate's helium this is false: its internal energy is measured from another zero (C18), gas pushed out of a space at constant pressure heats what stays behind by almost 100 K times the rate at which the space empties, and an engine between 300 K and 600 K is given with a closed motion that turns more than half of the heat received into work; another, whose source, sink, exchangers and regenerator are all at 300 K, has a closed motion that does work. All this holds as well of ideal gases whose heat capacity depends on the temperature. What holds of the crate's helium and hydrogen is the bound with explicit extra terms: one for the zero of the internal energy and, for hydrogen, those for an enthalpy that is not the integral of its heat capacity (C17).", "quantifier": "all engines, drives with exact rates, exchanger volumes and approaches, closed motions and directions of flow; any ideal gas with a positive heat capacity, constant or not", "why_tests_cant": "An inequality over all cycles of all engines; the tests only check two recorded cycles against recorded numbers, which carry the error.", "anchors": ["src/fluid/ideal_gas.rs: inte", "src/state_equations/solver.rs: System::new", "src/engine/run.rs: calculate_inputs"]}
{"id": "C86", "title": "The integration of a cycle succeeds unless there is a reason for it not to", "statement": "The adaptive integrator does not give up on rates that are bounded by M and Lipschitz (C in the state, C K in time) if C (25 M + K) T^2 is at most ten thousand times the error allowed per step: no step size underflow, no exhausted number of passes, no false alarm of stiffness. For a run this means: within given limits on pressure, temperatures, volumes and speeds there is a tolerance, depending on the engine only, at which the integration of one cycle succeeds whenever it does not ask about states beyond the limits; it only ever asks about states within 25 M T of the initial one; and for an engine with no parasitic heat, any tolerance, any limits and any distance of the initial state from them there is a piston speed and acceleration up to which every drive (for sinusoidal drives: a swept volume up to which every stroke) is integrated successfully.", "quantifier": "all engines with an ideal gas and a solver that finds solutions where they exist, drives, limits, initial states, tolerances, numbers of points; all answers to the integrator within the bounds", "why_tests_cant": "The step size controller feeds each step's error into the next step's size: that it never runs out of steps, whatever the rates, is a statement about all executions.", "anchors": ["src/state_equations/integrator.rs: integration (Dopri5::new ... integrate)", "ode_solvers 0.3.7 src/dopri5.rs: integrate, hinit, controller"]}
{"id": "C87", "title": "When the integrator gives up, it has one of three reasons", "statement": "However its questions are answered, an integration from time zero ends in one of two ways: with a result, having reached the end time by accepted steps that pass the error test, or without one. It gives up only if the accepted steps end in an alarm of stiffness (the fifteenth step at the edge of stability within a period of watching that began at a step number divisible by 1000 and was never interrupted by six harmless steps), or if it tried a step of at most 1.2e-14 times the time it would lead to, or after exactly 100001 tries (600009 questions). Conversely an alarm always ends the integration at that step, without a result.", "quantifier": "all end times, output spacings, tolerances, initial states, and all answers to the integrator", "why_tests_cant": "The reasons are conditions on whole histories of accepted and rejected steps; a test sees one problem at a time, and a user who sees an integration error has to know what it can mean.", "anchors": ["src/state_equations/integrator.rs: integration (IntegrationError)", "ode_solvers 0.3.7 src/dopri5.rs: integrate, stiffness detection"]}
{"id": "C88", "title": "A configuration with sane numbers and a short enough stroke always runs", "statement": "Take a configuration for an ideal gas with fixed approaches and a sinusoidal drive, with sane numbers: positive clearances, non-negative volumes, exchangers above 100 K, positive pressure and tolerances, no parasitic heat, at least two time steps and one iteration of each loop, a frequency between one cycle in eleven days and 10 GHz. There is a swept volume up to which run_engine, with the crate's own LU decomposition and integrator, succeeds on the same configuration with any shorter strokes. At the level of Engine::run the same holds of any drive, up to a speed and acceleration of its pistons: the search ends with its first cycle, the outer loop with its first pass, the engine is returned in the state of the hints with as many samples as asked for, and the pressure stays within the chosen distance of that at time zero.", "quantifier": "all engines with fixed approaches and no parasitic heat, drives, limits, tolerances, settings and sufficient integrator outputs", "why_tests_cant": "Success of the whole chain (integrator, linear solver, both loops, results) for all small strokes at once; tests run two engines.", "anchors": ["src/api.rs: run_engine", "src/engine.rs: Engine::run", "src/state_equations/cycle.rs: find_steady_state", "src/state_equations/integrator.rs: integration"]}
{"id": "C89", "title": "Nothing prefers one side: an engine in the mirror runs in the mirror", "statement": "Exchange the two working spaces, the two heat exchangers, and sink and source, counting approaches from the other side. With an ideal gas, Engine::run on the exchanged engine returns the exchanged engine, or fails in the same way: same times and pressures, the two temperature series exchanged, flows and exchanger heats exchanged with opposite sign, regenerator heat the same, same ladder of temperatures read from the other end. Its results report the same powers and torque, the pressures of the two spaces exchanged, and as heat given off at one side what the original takes in at the other, apart from parasitic and friction heat. The coded exchangers mirror into coded exchangers: fixed approaches change sign, fixed conductances keep their numbers (only their first guess differs). The Dopri5 integrator treats the two temperatures alike.", "quantifier": "all components, inputs, settings, ideal gases, integrators without preference and sound complete decompositions, runs along which pressure and temperatures stay positive", "why_tests_cant": "An index slip between the two sides (a density of the hot exchanger used for the cold one, a flow with the wrong sign) is plausible in every single output; the symmetry relates two whole runs and holds for no engine a test runs.", "anchors": ["src/engine.rs: Engine::run", "src/engine/run.rs: Run::calculate_inputs", "src/state_equations/solver.rs: solve", "src/engine/state.rs: State::update, HeatFlows::from_values", "src/performance.rs: PressuresWithDrops::new, Powers::new, Heats::new"]}
{"id": "C90", "title": "Beale's law: power goes with mean pressure times speed", "statement": "Multiply the starting pressure of an engine by k and its speed by w, and with them conductances and losses by k w and hydraulic resistances by k/w. With the coded ideal gases every motion of the gas that follows the state equations of the original follows those of the new engine, under k times the pressure and w times as fast, with the same temperatures, k times the gas and k w times the flows and heats; closed cycles stay closed. Powers and heats of the motion are multiplied by k w and its torque by k, so power over mean pressure times speed (the Beale number) and efficiency do not change. The outer loop agrees: it starts from the corresponding state, goes from corresponding samples to the corresponding state, accepts one exactly when it accepts the other, and reports corresponding results.", "quantifier": "all configurations that build, pressure and speed factors > 0, sane states, motions with warm gas, ideal gases and sound complete decompositions", "why_tests_cant": "The law every Stirling designer sizes engines by relates two engines; a test of one engine cannot see that a density was evaluated at the wrong pressure, that a frequency is missing in one average, or that a loss does not scale.", "anchors": ["src/engine/run.rs: Run::new, Run::calculate_inputs", "src/state_equations/solver.rs: solve", "src/engine/state.rs: State::update, Pressure::from_values, MassFlows::from_values, HeatFlows::from_values", "src/performance.rs: Powers::new, Heats::new", "src/ws/sinusoidal_drive.rs, src/ws/rhombic_drive.rs: volumes"]}
{"id": "C91", "title": "What the solver accepts in f64 satisfies the balances up to rounding", "statement": "In IEEE binary64, not in exact numbers: for inputs of reasonable size (finite, at most 2^100, normalising enthalpy not below 2^-100) every finite solution the direction search accepts with the LU decomposition satisfies the ten exact mass and energy balances of those inputs, with the upwind enthalpies of its own flows. The error of each is at most 2^-32 (2.4e-10) of the sum of the absolute values of all the terms, whatever the condition of the matrix. In particular the total gas mass is constant and the first law holds up to that error. Elimination with partial pivoting itself leaves a residual of at most 2^-33 of the largest coefficient of each unknown times that unknown, for up to ten equations.", "quantifier": "all machine inputs of that size, all direction hints, all math libraries; all machine matrices up to 10 by 10 without overflow", "why_tests_cant": "The exact theorems (C04 to C10) say nothing about f64; tests compare a few solutions with a tolerance. Whether a nearly singular matrix or cancellation can make an accepted solution lose mass is a statement about all roundings.", "anchors": ["src/state_equations/solver.rs: solve, System::new, System::solve, MatrixStencil::create_matrix, LU", "src/state_equations/flow_direction.rs: FlowDirection::from_solution"]}
{"id": "C92", "title": "Cycle averages, powers and heats in f64 are the trapezoidal rule up to rounding", "statement": "In IEEE binary64: for up to 2^30 samples of reasonable size (finite, at most 2^100) at non-decreasing times, the cycle integral is finite and equals the trapezoidal rule of the same machine numbers up to (2n+11) 2^-53 of the rule applied to the magnitudes (plus 2^-400). The same holds with constants at most 26 for the average pressure, which for positive samples lies between the reported minimum and maximum up to that relative error, for the average mass and heat flows (an infinite wall resistance contributes exactly nothing, with or without a special case in the code), for indicated, zero-pressure-drop, shaft and net power, and for heat input and heat rejected, each against its defining expression in exact numbers.", "quantifier": "all machine series of any length up to 2^30, all math libraries, all engines with numbers of that size", "why_tests_cant": "Rounding errors accumulate over a run of thousands of samples and cancel in a cycle integral of oscillating flows; a test at one resolution says nothing about another, and compares with a tolerance chosen by hand.", "anchors": ["src/engine/state.rs: integrate, Pressure::from_values, MassFlows::from_values, HeatFlows::from_values", "src/performance.rs: Powers::new, Heats::new, integrate"]}
{"id": "C93", "title": "A drive turned backwards is accepted, and its cycle is never tested for closing", "statement": "A negative frequency is not rejected. The 1e-14 seconds added to the period to reach the last sample then shorten the integration: a successful integration returns one point fewer than requested and never the one at the end of the cycle. With the two points used by the steady-state search only the start is left, so that the convergence test compares the start with itself: with positive tolerances the first guess is always taken for the steady cycle. A successful run has resolution-1 samples and starts from the exchanger temperatures, whatever the gas does over the cycle.", "quantifier": "all cycles of negative period, all answers to the integrator, all engines with a negative frequency, all tolerances; exact arithmetic", "why_tests_cant": "Tests use positive frequencies; the sign of a rounding allowance matters only for the inputs nobody tried, and the run reports success.", "anchors": ["src/state_equations/integrator.rs: Integration::try_from, is_converged", "src/state_equations/cycle.rs: find_steady_state", "src/engine.rs: Engine::run"]}
{"id": "C94", "title": "A drive that stands still or turns infinitely fast never gives results", "statement": "In IEEE binary64: with a frequency that is zero, NaN or infinite no run returns a result, whatever the other inputs. With a period that is not finite no step of the integrator is ever the last; with a period of zero the next output stays due for ever, so no bound on the number of emitted points makes the integration succeed.", "quantifier": "all math libraries, all engines and inputs, all answers to the integrator, all bounds on the output loop", "why_tests_cant": "Whether special values of one input can leak into plausible looking results is a statement about every path through the integrator, including the ones that do not terminate.", "anchors": ["src/state_equations/integrator.rs: Integration::try_from", "src/engine/run.rs: period", "src/ws/sinusoidal_drive.rs: frequency"]}
{"id": "C95", "title": "Losses around the gas are book-keeping, charged at prices set by the gas", "statement": "Entering other flow resistances, mechanical losses in the working spaces, powers drawn by the exchangers or heat leaks past the hot exchanger and the regenerator never changes the motion of the gas: the run ends in the same error or panic, or succeeds with identical time series, pressures, temperatures, mass flows, exchanger heats and ideal power. The powers below the ideal one, and the total heats, change linearly: each flow resistance costs indicated power at a price that depends on the gas motion only, mechanical losses lower shaft power one to one, exchanger powers lower net power one to one, heat leaks raise heat input and rejection one to one.", "quantifier": "all configurations, all loss entries (of any size and sign), all integrators and solvers; the identity of the motion in any arithmetic, the prices in exact arithmetic", "why_tests_cant": "Tests compare single runs; this compares each configuration with every other that differs in its losses.", "anchors": ["src/engine.rs: Engine::run", "src/engine/run.rs: Run::new", "src/performance.rs: PressuresWithDrops, Powers, Heats", "src/api.rs: run_engine"]}
{"id": "C96", "title": "Electrical losses are never asked for, and the overall efficiency is always zero", "statement": "A component may report electrical losses, but they change nothing: the run and the complete report are the same whatever they are (likewise thermal losses of the cold exchanger and mechanical losses of the regenerator). The overall efficiency, documented as including electrical losses, is zero in every report.", "quantifier": "all components (including user-written ones), all inputs, any arithmetic", "why_tests_cant": "The absence of an influence is a statement about all values of the input.", "anchors": ["src/api.rs: Efficiency", "src/types.rs: ParasiticPower", "src/performance.rs: Powers::new, Heats::new"]}
{"id": "C97", "title": "The gas does not feel the cylinder walls", "statement": "An engine whose exchangers are configured by their approaches turns the same way whatever the thermal resistances of its cylinder walls: the same error or panic, or the same series, pressures, temperatures, mass flows, torque and powers. The heat the walls are said to conduct is only added to the reported heat input and rejection.", "quantifier": "all configurations with fixed approaches, all wall resistances, all integrators and solvers; any arithmetic, the heats in exact arithmetic", "why_tests_cant": "Tests do not compare runs that differ in one parameter; the absence of an influence is a statement about all its values.", "anchors": ["src/engine/run.rs: comp_inputs, exp_inputs", "src/engine/state.rs: HeatFlows::from_values", "src/performance.rs: Heats::new"]}
{"id": "C98", "title": "A fixed-approach engine reports its starting guess as its averages", "statement": "Whenever an engine whose three exchangers are configured by their approaches runs successfully, its report says that no mass and no heat flows through any exchanger and that the mean, greatest and least pressure all equal the configured starting pressure, whatever the reported series are.", "quantifier": "all configurations with fixed approaches, all settings, all integrators and solvers; any arithmetic", "why_tests_cant": "An example run shows zeros for one engine; that no engine and no setting gives anything else needs the outer loop.", "anchors": ["src/engine/state.rs: State::update, State::new_hint", "src/engine.rs: Engine::run", "src/api.rs: RunResults"]}
{"id": "C99", "title": "A search that comes back to where it has been never ends", "statement": "When a cycle of the search for the steady state starts from the very conditions an earlier cycle started from, the search is reported as not converged under every iteration limit. Likewise in the outer loop: for an ideal gas the next iteration depends on nothing but the temperatures and the pressure at time zero, so when these repeat, every limit of outer iterations gives the error of the outer loop; raising the limit cannot help.", "quantifier": "all engines with ideal gases and configured drives, any exchangers, all settings, all integrators and solvers, any arithmetic, all limits", "why_tests_cant": "It quantifies over all iteration limits; a test can only try some.", "anchors": ["src/state_equations/cycle.rs: find_steady_state", "src/engine.rs: Engine::run", "src/engine/state.rs: State::update"]}
{"id": "C100", "title": "An engine whose pistons do not move runs, and does nothing", "statement": "A configuration with sane numbers (as in C88) whose drive has no stroke (no swept volumes, or no crank radius) runs successfully with the crate's own LU decomposition and integrator, whatever the tolerances. At every requested sample the pressure in both spaces is the configured one, the spaces are as warm as their exchangers, and no gas and no heat flows; indicated power is zero, and shaft and net power, heat input and heat rejection are exactly the configured losses.", "quantifier": "all such configurations: gases, volumes, temperatures, pressures, losses, flow resistances, tolerances, numbers of samples", "why_tests_cant": "An exact statement over all configurations about the outcome of a complete run; tests pick one and compare with tolerances.", "anchors": ["src/api.rs: run_engine", "src/engine.rs: Engine::run", "src/state_equations/solver.rs: solve", "src/performance.rs"]}
{"id": "C101", "title": "Short strokes always work, whatever the exchangers", "statement": "Take a configuration with an ideal gas, exchangers of fixed approach or of positive conductance in any combination, a sinusoidal drive with clearances and no parasitic heat, exchangers above 100 K both with the approaches assumed first (10 K for a conductance) and with those at rest (0 K for a conductance), effective regenerator ends that differ, positive pressure and tolerances, at least two time steps, one inner and two outer iterations, and a frequency between one cycle in eleven days and 10 GHz. There is a swept volume up to which run_engine, with the crate's own LU decomposition and integrator, succeeds on the same configuration with any two smaller swept volumes; the only exception is a cycle in which no gas passes one of the exchangers on average.", "quantifier": "all such configurations, all pairs of swept volumes up to the bound, all sizes of the integrator's output buffer", "why_tests_cant": "It is about the convergence of the nested loops for infinitely many configurations, tolerances and strokes.", "anchors": ["src/api.rs: run_engine", "src/engine.rs: Engine::run", "src/engine/state.rs: State::update", "src/chx/fixed_conductance.rs: approach", "src/regen/fixed_conductance.rs: approach", "src/hhx/fixed_conductance.rs: approach"]}
{"id": "C102", "title": "NaN and infinities never give results", "statement": "In double precision, with the crate's own LU decomposition and integrator: a NaN among the coefficients or on the right side of the ten equations makes the decomposition fail or return ten NaNs, and an infinity on the right side leaves no finite unknown; a step with a NaN or an infinity in it never passes the integrator's error test. An integration of an ideal gas therefore succeeds only over steps in which size, pressures, temperatures and all seven slopes are finite, and run_engine returns results only for configurations made of numbers: with NaN for any dimension of the drive, volume, approach, conductance, temperature, pressure or tolerance, or an infinity for a stroke, frequency, phase angle, parasitic heat, fixed approach, temperature or pressure, it does not return Ok.", "quantifier": "all configurations, all matrices and right sides, all engines, all executions of the integrator", "why_tests_cant": "A test tries a NaN here and there; that none of them survives pivoting, upwinding, the error norm with its maxima (which drop NaN) and two convergence tests is a statement about every one and every combination.", "anchors": ["src/state_equations/solver.rs: solve", "src/engine/run.rs: Run::calculate_inputs", "src/state_equations/integrator.rs: Integration::try_from", "src/engine.rs: Engine::run", "src/api.rs: run_engine"]}
{"id": "C103", "title": "The pressure answers the pistons, gas passes every exchanger, and short strokes always work", "statement": "Whenever the equations of an engine with an ideal gas, at physical temperatures, have been solved: while both spaces grow or stand and none receives parasitic heat the pressure falls, and stands only if neither volume changes and no heat is lost; and the reverse while they shrink. While one piston stands, without parasitic heat in its space, gas crosses all four interfaces in the same direction, away from the standing piston if the pressure falls and towards it if it rises. With both supplied drives the compression piston stands at time zero; so if the expansion piston moves then, the average mass flows of a cycle found by the run are positive in every exchanger. Therefore run_engine succeeds, without the exception of C101, for every configuration as in C101 once the strokes are short enough: with a sinusoidal drive whose pistons are neither in phase nor in opposition, and with a rhombic drive, in which there is a crank radius up to which every engine but that of radius zero works.", "quantifier": "all engines with an ideal gas, all states and drives; all configurations; all swept volumes and crank radii below a bound that the theorem provides", "why_tests_cant": "The signs come from ten coupled equations with flow directions still to be found, and the existence of a bound concerns a whole neighbourhood of configurations with four nested loops each.", "anchors": ["src/state_equations/solver.rs: solve", "src/engine/run.rs: Run::calculate_inputs", "src/types.rs: MassFlows", "src/ws/rhombic_drive.rs: RhombicDrive::volumes", "src/ws/sinusoidal_drive.rs: SinusoidalDrive::volumes", "src/engine.rs: Engine::run", "src/api.rs: run_engine"]}
{"id": "C104", "title": "The integrator is of the order it claims", "statement": "When the rates the integrator is answered are linear in the distance from a state of rest, every step multiplies that distance by the exponential series of the exact motion up to the fifth power of the step, with 1/600 in place of 1/720 at the sixth; the error estimate is -97/120000 of the fifth power to leading order; and every value reported, at whatever time between the steps, deviates from the exact motion by at most (1/10)(1 + L T)^2 exp(3 L T) (L H)^5 times the initial distance, where L is the norm of the rates' matrix, T the time integrated and H the longest step: halving the steps divides the error by 32.", "quantifier": "all linear rates of three variables, all states of rest, initial states, durations, tolerances and output intervals; every integration that ends with a result", "why_tests_cant": "A wrong digit in one of the thirty-odd coefficients leaves the integrator convergent and plausible, only of lower order; tests of the engine compare figures at tolerances that do not tell.", "anchors": ["src/state_equations/integrator.rs: Integrator::run", "Cargo.toml: ode_solvers (Dopri5)"]}
{"id": "C105", "title": "Only the ratios of the temperatures matter", "statement": "Multiply all temperatures of an engine filled with helium, a gas of constant heat capacity, by k: the gas passes through the same pressures and receives and rejects the same heats with 1/k of the mass and of the flows, so the engine does the same work. Neither does the zero from which enthalpy and internal energy are counted matter. In particular gas of one temperature throughout, pushed from one space into the other at constant total volume, keeps its pressure and its temperatures.", "quantifier": "all engines, drives, instants, motions and factors k > 0", "why_tests_cant": "The relation is between two engines, each of which gives plausible figures; the reference temperature is a constant in the code, so no test can vary it.", "anchors": ["src/fluid/ideal_gas.rs: inte, enth", "src/engine/run.rs: Run::calculate_inputs", "src/state_equations/solver.rs: solve"]}
{"id": "C106", "title": "Engines that are nearly the same move nearly the same", "statement": "A small error in a dimension of the engine (volume of an exchanger, swept or clearance volume, a part of the rhombic mechanism), in its speed or phase angle, in the temperature of an exchanger or in a parasitic heat changes the rates, the motion of the gas and the work over a given time by little: at most in proportion to the error. And if one engine moves for a given time clear of the limits then so does every engine near it, from every start near that of the first.", "quantifier": "all pairs of engines within given limits filled with the same ideal gas, all drives, linear solvers, starts and lengths of time", "why_tests_cant": "A test compares two given engines; that no small change anywhere causes a jump is a statement about all pairs.", "anchors": ["src/engine/run.rs: Run::new, Run::calculate_inputs", "src/state_equations/solver.rs: solve", "src/ws/sinusoidal_drive.rs: volumes"]}
{"id": "C107", "title": "A run solves at most a number of linear systems known in advance", "statement": "Whatever the solver of linear systems answers, one evaluation of the state equations solves at most four linear systems, and a whole run at most outer * ((inner + 1) * 2400036 + 4 * resolution), where outer and inner are the configured iteration limits. A run that is given a solver that returns therefore returns, and its cost is bounded before it starts. The four cannot be improved.", "quantifier": "all engines, fluids, inputs and settings; all linear solvers, also ones that give wrong answers or none; all arithmetic (the number of points of the grid is resolution in exact arithmetic)", "why_tests_cant": "A test counts the solves of one run; that no engine and no misbehaviour of the solver makes the run longer is a statement about all of them.", "anchors": ["src/engine.rs: Engine::run", "src/state_equations/cycle.rs: find_steady_state", "src/state_equations/solver.rs: solve", "src/state_equations/integrator.rs: Integration::try_from"]}
{"id": "C108", "title": "The pressure cannot run away and the gas moves until a space gets as cold as 100 K", "statement": "In an engine with a cooler of some volume and no parasitic heat the pressure stays, for all time, between two positive bounds known from the engine and the starting conditions. No space ever gets colder than its own first gas, or the gas of its exchanger (taken w / cp colder, where w is the mismatch of the zeros of enthalpy and internal energy: finding 1), would by expanding without heat to the pressure of the moment; with a gas whose zeros agree no space gets hotter than by compression either. With the crate's helium and hydrogen the motion goes on until a space cools to 100 K, nothing else can stop it; and with a large enough cooler it goes on for ever.", "quantifier": "all engines, drives, starting conditions, times; every perfect gas and both gases of the crate for the bounds, the crate's gases for the continuation; every linear solver that answers correctly", "why_tests_cant": "A test follows one motion for some turns; that no motion diverges later, and that nothing but cold can end one, is about all motions and all times.", "anchors": ["src/engine/run.rs: Run::calculate_inputs", "src/state_equations/solver.rs: solve", "src/state_equations/solver.rs: System::new", "src/fluid/ideal_gas.rs: IdealGas"]}
{"id": "C109", "title": "Flow resistance costs power while the pistons work against each other, and pays when they move in step", "statement": "If the two spaces never grow together nor shrink together, the reported indicated power is at most the ideal indicated power, whatever the (non-negative) flow resistances. If they move in step the opposite can happen: with helium, an expansion space that moves by a fixed factor more and is larger by at least that factor, a cooler that has flow resistance but no volume, and no resistance elsewhere, every run whose compression piston moves at some sample reports more indicated power than ideal indicated power, so entering a flow resistance raises the reported power, and entering losses alone (none negative) raises the reported efficiency above any number one names. In between, with sinusoidal pistons in phase that sweep equal volumes, flow resistance changes the indicated power not at all, whatever the gas and the exchangers. The first two happen for whole runs from configuration files.", "quantifier": "all runs of the engine without parasitic heat (any linear solver that answers correctly) whose reported gas is at 100 K or more; all configurations with sane numbers and short strokes for the whole runs", "why_tests_cant": "A test compares two numbers for one engine; which sign the loss has depends on the motion of both pistons over the whole cycle.", "anchors": ["src/engine/run.rs: Run::calculate_inputs", "src/state_equations/solver.rs: solve", "src/performance.rs: PressuresWithDrops::new, calculate_hx_pressure_drop", "src/performance.rs: Powers::new"]}
