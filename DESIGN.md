# Formal model of sett-rs in Lean 4: design

## 1. What is trusted

* Lean 4.33.0's kernel and the Mathlib definitions used in theorem statements.
* Axioms: the three standard ones only, `propext`, `Classical.choice`, `Quot.sound`.  No axiom is
  added, no `sorry`/`admit`, no `native_decide`, no `bv_decide`.  `Verif/Audit.lean` collects the axioms
  of every theorem named in MANIFEST.json and fails the build if there is any other.
* The transcription of Rust into Lean.  Every model definition cites the file and lines it
  transcribes.  `Verif/Conformance.lean` executes the model with Lean `Float` against the snapshot
  values recorded in the crate's own unit tests; that is a sanity check of the transcription and is
  not used by any proof.
* `/repo` was read as text and never built or run here.  In particular nothing below was observed by
  executing the Rust program.

## 2. Arithmetic

The model is written once over a type `α` with `[Scalar α]` (the `f64` operations used by the crate).

| instance | used for |
|---|---|
| arbitrary `α` | control flow, data flow, invariants. These hold for any arithmetic, including real `f64`. |
| `ℝ` | calculus, conservation, inequalities. Exact arithmetic; **rounding is not modelled in these theorems**. Lean's `x/0 = 0` is excluded with explicit hypotheses. |
| `F64 L` | IEEE-754 binary64: signed zero, infinities, NaN, round-to-nearest-even. `L` supplies `sin cos exp ln`, constrained only by their special values. |
| `Float` | execution in conformance tests only. |

A theorem over `ℝ` says nothing about rounding error.  The manifest note says which instance each
theorem uses.

## 3. What is modelled

| Rust | Lean |
|---|---|
| `types.rs` | `Model/Types.lean`, conversions in `Model/Config.lean` |
| `fluid.rs` trait, `fluid/ideal_gas.rs` | `Model/Fluid.lean` |
| `ws.rs`, `ws/sinusoidal_drive.rs`, `ws/rhombic_drive.rs` | `Model/Ws.lean` |
| `chx`, `regen`, `hhx`: fixed approach, fixed conductance | `Model/Hx.lean` |
| `state_equations/flow_direction.rs`, `solver.rs`, `inputs.rs` | `Model/Solver.lean` |
| `state_equations/integrator.rs`, `cycle.rs` | `Model/Integrator.lean` |
| `engine.rs`, `engine/run.rs`, `engine/state.rs` | `Model/State.lean`, `Model/Engine.lean` |
| `performance.rs` | `Model/Performance.lean` |
| `config.rs`, `api.rs`, legacy conversions | `Model/Config.lean`, `Model/Api.lean` |
| serde's `rename_all = "snake_case"` | `Model/Serde.lean` |
| IEEE binary64 | `Model/Float64.lean` (NaN, signed infinities and zeros, and the representable non-zero reals; operations round the exact real result to nearest even) |

Specifications, which do not use the model's helpers, are in `Spec/`; proofs of internal lemmas in `Proofs/`;
the theorems named in the manifest and their concrete cases in `Props/` (`*Example.lean` hold the longer
concrete cases).  `Conformance.lean` replays the crate's unit-test snapshots.

Modelled abstractly:

* `MatrixDecomposition` (nalgebra LU/QR/SVD/Cholesky): a function `Mat → Vec → Option Vec`.  Theorems
  needing it to be right take the named hypotheses `Sound` (a returned vector solves the system) and, where
  success is claimed, `Complete` (it does not fail on a system with exactly one solution).  For `LU`, the one
  `run_engine` uses, `Model/Lu.lean` transcribes nalgebra's elimination with partial pivoting (from the published
  algorithm; the dependency's source is not in the sandbox) and C69 proves both hypotheses for it.  Executed in
  double precision it gives the recorded LU values of the code's own tests bit for bit.  `QR` is transcribed the same
  way (C80; recorded values reproduced to 1e-14).  Of `SvdDefault` only the use of the decomposition is modelled
  (C81), not the iteration computing it; `Cholesky` is unused and not modelled.
* `ode_solvers::Dopri5`: an interaction tree (`Stepper`) that asks for derivatives at points of its
  choosing and finally delivers the output lists or fails.  Theorems quantify over all such trees.
  Only C72 to C74, C76, C82 to C84 and C86 to C89 and C104 look inside: for them `Model/Dopri5.lean` transcribes the integrator (from the published
  algorithm; the dependency's source is not in the sandbox): tableau, initial step, step-size control, stiffness
  test, dense output.  Executed in double precision it meets the expectations of the code's own tests.
* GPU3, Mod2, nuclear-isomer components: all their bodies are `todo!()`; modelled as a panic.

* `serde`: `Model/Document.lean` follows what `serde_derive` 1.0 generates for the configuration types (maps of
  known fields, external, internal and adjacent tagging with its read-ahead buffer); how a format converts
  scalars is a parameter (`Scalars`).

Not modelled: TOML/JSON text (documents are modelled as parsed), number formatting (what `lib.rs:run_from_config` prints is a list of
labelled values), allocation, `anyhow` message
text, threads (there are none), `Cholesky` beyond being a `MatrixDecomposition`.

Panics and errors are explicit: `Exec ε β = Except (Fault ε) β` with `Fault = panic site | err e`.

## 4. Properties

How each is to be proved (α = any arithmetic).  Status lives in MANIFEST.json.

| id | plan |
|---|---|
| C01 | ℝ, iff with explicit `old ≠ 0` |
| C02 | `F64`, case analysis on classes |
| C03 | ℝ monotone/negation/scaling; tolerance monotonicity also `F64` |
| C04 | ℝ, iff between `A x = b` and ten balances in `Spec/Balances.lean` (chain rule form), `enth_norm ≠ 0` |
| C05, C06 | ℝ, from C04 and `Sound`; sums of balances |
| C07 | α for the loop invariant; ℝ for the upwind reading |
| C08 | α, induction on fuel with a ghost list of directions tried |
| C09 | ℝ, from C04 (balances do not mention `enth_norm`) |
| C10 | ℝ, elimination to 3×3 and its determinant |
| C11, C13 | ℝ, `HasDerivAt` at every time |
| C12, C14 | ℝ, bounds, attainment, periodicity; the C14 compression bound needs eccentricity ≥ crank radius, shown necessary |
| C15 | **false of the code** (`rhombic_drive.rs:202`): negation proved, `_partial` for the other dimensions |
| C16 | ℝ, `HasDerivAt` |
| C17 | **false for hydrogen**: negation with witness, and the sign and size of the error over any range of temperatures (integral of the discrepancy, sums of squares); helium proved as `_partial` |
| C18 | **false**: discrepancy `-R*Tref` proved exactly; `_partial` |
| C19 | ℝ |
| C20, C21 | ℝ, log-mean inequality |
| C22 | `F64`, NaN propagation through `is_converged`, then the outer loop |
| C23, C24, C26 | ℝ |
| C25 | `F64` |
| C27–C30 | ℝ, induction on sample lists; C30 a limit |
| C31 | α, induction |
| C32 | α, induction on the interaction tree with ghost log |
| C33–C35 | α, induction on `max_iters` |
| C36–C38 | α, induction on the outer loop with ghost log |
| C39 | ℝ and `F64` |
| C40 | **false of the code** (`state.rs:165-170` returns the old state): negation with witness; what holds as `_partial` |
| C41–C44 | ℝ; control parts α |
| C45 | ℝ, pointwise C06 plus linearity of the trapezoid; **the code double counts** the expansion-space thermal parasitic, so the exact identity with that term is stated |
| C46 | ℝ |
| C47 | α, length invariants |
| C48 | α, injectivity up to the ODE-solver name |
| C49, C50 | α, case analysis |
| C51 | ℝ / `UInt32`, `F64` for the division by zero |
| C52 | α; **false for rhombic** (same cause as C15), negation proved |
| C53 | strings, serde's snake_case rule transcribed |
| C54 | `F64`, with a decomposition witness returning NaN |
| C55, C56 | ℝ; chain rule along a trajectory, C05/C06 pointwise, then constancy from a zero right derivative and the fundamental theorem of calculus |
| C57 | ℝ; the determinant is a sum of positive products; sum-of-squares bounds for the hydrogen polynomials |
| C58 | ℝ; eliminate temperatures, each end flow is a monotone function of the pressure rate; intermediate value theorem for existence |
| C59 | ℝ; the search is iteration on a line with two kinks; the exchangers' compliance excludes cycling |
| C60 | ℝ; induction on the interaction tree, C58 and C59 at each request |
| C61 | ℝ; consequence of C55 for the ideal gas: constancy of `P Σ V/T`, then monotonicity of `V/T` in each temperature |
| C62 | ℝ; induction over the inner loop with "all points warm" as invariant, C60 for each integration, C39-style single outer pass |
| C63 | ℝ; invariant of the outer sequence, log mean of C21 |
| C64 | ℝ; two runs related step by step (simulation): equations, direction search, integrator, outer loop, performance, configuration |
| C65 | ℝ; report fields related to each other and to the configuration through the engine they came from |
| C66 | ℝ; numeric bounds, Bernstein form of the cp slope on three intervals |
| C67 | any α; case analysis on `run_from_config` down to the printed values |
| C68 | any α; runs with equal inner inputs agree step by step; the sweep by induction on its length |
| C69 | ℝ; `P A = L U` as loop invariant of the elimination, substitutions by induction, failure iff det = 0 |
| C70 | ℝ; a calculus of pairs (bounded, differing by at most a constant times ε) closed under the operations of the equations; flows by the secant of a piecewise linear function; Grönwall for the curves |
| C71 | ℝ; uniqueness and repetition from C70 with limits from compactness; existence by Picard–Lindelöf on the rates `solve` returns (C59, C70) |
| C72 | ℝ; invariant of the main loop of the transcribed `Dopri5` over all answers and step sizes: positive step, points emitted so far are the first multiples of the interval |
| C73 | ℝ; two integrations run side by side against the same equations: same states and memory, only the output differs |
| C74 | ℝ; same invariant with the answers on a quartic curve: quadrature, error estimate and dense output are exact, by ring identities |
| C75 | ℝ; C07 at each value of the series (C32, C36), equations written with the fluid functions |
| C76 | F64; invariant of the stepper: points emitted = repeated rounded sums not past the time reached; error of the sums against the padding 1e-14; the counterexample by computing the 28 sums in units of 2⁻⁵¹ |
| C77 | F64; values in the extended reals, rounding as a monotone map fixing machine numbers, NaN handled by every comparison being false; libm assumed only to keep cos in [−1,1] and exp(≤0) ≤ 1 |
| C78 | any α; per type a reader equals a declarative form (`Fits`) with literal names; canonical documents by induction over forms; example documents computed |
| C79 | induction over reorderings (permutation of one table, or inside one entry) against the form; buffered scalars only weaken; counterexample on the shipped legacy example |
| C80 | reflections are linear involutions preserving length; invariant: the system after `k` reflections has the triangular matrix the state stands for; then the back substitution of C69; equality with `LU` by uniqueness |
| C81 | orthogonality algebra for any decomposition; Cauchy-Schwarz along one column bounds that component of what is returned; scaling of C64; existence of decompositions from the spectral theorem and extension to a basis |
| C82 | textbook method in `Spec/DormandPrince.lean`; invariant of the main loop over all answers (chain of accepted steps); Gronwall on the dense output of each step, whose defect is bounded by comparison with the slope at the start of the step (C70), carried along the chain; C73 and C33 for the search |
| C83 | rates continued to all states by clamping the state to the limits (C70 makes them globally Lipschitz, C59 defined); global Picard-Lindelöf; Gronwall along the chain of C82 keeps the solution clear of the clamp, so it solves the original equations |
| C84 | every figure is a cycle mean of an observable that is Lipschitz in state and drive (calculus of C70); along a motion of C83 such an observable is Lipschitz in time, so the trapezoid sum over samples within δ of it differs from the integral by a constant times δ plus the spacing; the ladder and quotients carry the error to torque, heats and efficiency |
| C85 | entropy `cp ln T - R ln P` of every cell differentiated along a motion (balances of C07 as entropy balances, mixing terms of one sign by `ln x ≤ x - 1`), integrated over a closed cycle; first law likewise; **false for helium** because of finding 1: explicit closed motion in four phases, written in closed form for any difference of zeros; a second one in eight phases does work at a single temperature; `_partial` with the exact extra term; the same for a heat capacity that depends on the temperature, with an integral of `cp / T` for entropy and mixing terms of one sign by monotonicity, the error `E = h - ∫cp` of the enthalpy kept as separate terms, hence both gases of the crate |
| C86 | error estimate of a step bounded by `C (25 M + K) h²` (slopes compared with the slope at the start); the controller then cannot shrink a step below a 667th of the whole once it is that long, grows it by half each step before, and 41 rejections in a row are impossible; induction over the passes with a budget of steps; first step sizes bounded below. Run level: rates vanish with resting pistons (uniqueness, C58), C70 for a drive passing through every position and speed gives one Lipschitz constant for all drives |
| C87 | invariant of the main loop: the counters of the stiffness test are what a list of the accepted steps' stiffness says (`Watch`), the tried step was at most five times the next one; induction over the passes; questions counted along the way |
| C88 | C86 with the distance walked (`quiet_cycle`): the end of a slow cycle is within the tolerances of its start, so the search accepts the hints; values exist by C60, fixed approaches reproduce the hints, so the outer loop ends; C50 and C69 carry it to the configuration file |
| C89 | the ten balances are carried into each other by exchanging sides (a face seen from the other side transports the same enthalpy), solutions are unique (C58), the integrator is equivariant (induction over its conversation), and every average and the ladder are symmetric; lifted through both loops as C64 |
| C90 | for the ideal gases densities go with pressure and nothing else does, so each of the ten balances is multiplied by `k w`; solutions are unique (C58) and found (C59); chain rule for the course, change of variable in the cycle means; trapezoid sums, extremes, approaches and drops likewise; all drives and exchangers by cases |
| C91 | backward error analysis of elimination with partial pivoting (multipliers at most 1+8u, growth at most 2 per pass, invariant on L U over the passes), of both substitutions, and of the assembly of the matrix; rows of the exact matrix are the balances (C04); example followed in fractions by the kernel |
| C92 | running error analysis of the left-to-right sum by induction on the terms, each term with a bounded number of roundings; then one rounding at a time for the quotients and sums built from integrals; example engine in short binary fractions |
| C93 | invariant of the integrator loop with negative steps (points emitted are the first multiples of the interval), then the substitution sequence cannot get beyond its first member; example: an engine whose gas drifts three kelvin per cycle and is reported as steady |
| C94 | loop invariants in binary64: the last-step test compares with NaN or minus infinity; with interval zero the output loop ends only at time NaN |
| C95 | two runs side by side: components with the same volumes, approaches, drive and walls give the same `Cycle` and the same `State::update`, hence by induction over the outer loop the same run; the prices are the linear parts of the trapezoidal sums |
| C96 | same simulation, and unfolding of the report |
| C97 | two runs side by side whose states agree up to their heat flows, an invariant of the outer loop when approaches are constant |
| C98 | invariant of the outer sequence: with constant approaches all states have the same temperatures, so the convergence test gives the same answer in every iteration and can only succeed in the first |
| C99 | the sequences `Substituted` and `Visited` are deterministic; for an ideal gas the successor of a visited state is a function of temperatures and pressure at time zero; a repetition extends the sequence for ever, so the limit is always reached |
| C100 | C88 for every distance `δ` at once (a resting drive is slower than any bound), hence no distance at all; C86's bound on the solution by the piston speeds gives zero flows; C65 gives the report |
| C101 | C70 and C86 uniformly over all runs of one engine (`Kin`: any drive, exchanger temperatures within bounds); averages of small flows are small; conductance approaches go to zero with the heat and the flow (C23, C26), the logarithmic mean is continuous, so the second outer iteration starts and ends next to the temperatures at rest and passes the stopping test |
| C102 | `Stains`: in elimination with partial pivoting a NaN stays in the active part or reaches the right side, back substitution spreads it (`Proofs/LuNan.lean`); finite results have finite operands (C54, C75), so a passed error test makes size and slopes finite, and the equations' entries numbers; joined steps by the loop invariant of `dopri5`; then C33, C36, C50 and the stopping tests (C02) |
| C103 | eliminating the rate of temperature from mass and energy of a working space gives its inflow as a positive combination of the rates of pressure and volume and of the heat lost (`space_inflow`); the exchangers only store; at time zero every flow is strictly one way, so its trapezoid is positive; then the exception of C101 is void; Lipschitz estimates of the rhombic drive uniform in the crank radius (`small_crank`) |
| C104 | the slopes of a step as polynomials in the matrix, computed once from the specification of the method (`linear_slopes`), which C82 shows the model of the integrator follows; Gronwall between the exact motion and its Taylor polynomial of degree five; induction over the steps |
| C105 | false of the code (C18). The balances of a perfect gas with arbitrary zeros of enthalpy and internal energy, transformed (`C105_similar`, `C105_motion`); eliminating the rate of temperature shows that the distance of the zeros acts as a shift of 100 K of the temperature of the gas that comes and goes (`C105_inflow`), from which the negation and its consequence follow |
| C106 | the calculus of C70 with pairs of engines as the index: all coefficients of the equations are Lipschitz in state, pistons and design at once. Grönwall's inequality for the motions; for existence the rates of the second engine are continued beyond the limits and its solution shown never to reach them |
| C107 | adaptive queries: an inductive predicate for functions of the solver that are decided by at most `n` of its answers, shown to compose (bind) along the loops of the run. Lower bound by an adversary: a solver that turns the flows round so that every one of the four sign patterns is asked |
| C108 | the entropy of the gas of a space changes only by what flows in; compared with that of the exchanger's gas (a barrier argument with one-sided derivatives). The pressure follows from the conserved mass and the bounds on the temperatures. Continuation: the motion is extended as long as it keeps clear of limits that hold for every motion |
| C109 | the flows at a warm physical state follow the pistons' motion by the balances; with opposed pistons all four have the sign of the displacement, with spaces in step and an empty cooler the flow through it is proportional to the motion of the compression piston. Put into the formula of C42 for the loss, sample by sample |

## 5. Findings: where the code does not do what a user would expect

Found by reading; each is to be backed by a theorem.

1. `ideal_gas.rs:91`: `h - u = R (T - Tref)`, not `P/ρ = R T`.  Off by `R*Tref` everywhere.
2. `ideal_gas.rs:58-65,94-99`: hydrogen `enth` is `(T - Tref) * Σ c_i/(i+1) T^i`, which is not the
   integral of `cp`; so `cp ≠ ∂h/∂T`.  Helium is fine because only `c_0 ≠ 0`.
3. `rhombic_drive.rs:202`: `D_d: config.D_p`; the configured displacer diameter is ignored.
4. `state.rs:165-170`: the state returned at convergence is the previous one; for fixed-approach
   engines the reported mass and heat flows are 0 and avg = max = min = `pres_zero`.
5. `run.rs:39`: `enth_norm` may be 0 (helium, 200 K / 300 K).
6. `state.rs:519-520`: coinciding effective end temperatures give 0/0.
7. Fixed conductance with zero mass flow gives NaN approach.
8. Fixed-conductance regenerator: cold side hotter than hot side when NTU < 2.
9. `performance.rs:214-222`: expansion thermal parasitic enters the energy balance and is added again.
10. Resolution 0 underflows; resolution 1 divides by zero; both only after inner convergence.
11. NaN flows classify as negative, so a NaN solution can be returned as `Ok`.
12. `performance.rs:147`: regenerator mechanical parasitics never reach net power.
13. Rhombic drive: the compression volume can go below its clearance when the eccentricity is smaller than
    the crank radius (C14).
14. `State::update` panics if the integrator returns an empty series.
15. Wall heat through the working-space thermal resistances is counted in the reported heats but not in the
    state equations (C45).
16. The configuration tags of the GPU3 components are `g_p_u3` and `g_p_u3_n_i`, that of RefProp `ref_prop`
    (C53).
17. Coinciding end temperatures can give an infinite average, not only NaN (C22).
18. With a heat-capacity rate of `-0` a fixed-conductance cold or hot exchanger reports ±∞ (C25).
19. Because of finding 1, the state equations are singular for helium at `R*Tref/cp`, just under 100 K (C57);
    with a consistent `h - u` they would not be.
20. On the positive side: in exact arithmetic, at physical states above 100 K, `solve` cannot fail and its
    result does not depend on the hint; the budget of four solves is always enough (C58, C59).
21. The integrator accumulates its output times and the end is padded by the fixed `1e-14`.  For slow engines the
    rounding of the sums exceeds the padding and the last sample of the cycle is silently missing: proved for a
    period of 60 s and 29 samples, where a run reports 28 (C76).  Cycle averages are then taken over a cycle that
    is not closed.
22. `examples/run_from_legacy_config.rs` writes `"R_c": "inf"` as text inside `params`.  Serde reads an adjacently
    tagged enum from its own buffer when `params` comes before `model`, and that buffer does not turn text into a
    number.  The `config` crate keeps tables in hash maps unless `preserve_order` is set, so whether the example
    is accepted depends on the map's order (C79).  Conditional on the published behaviour of both dependencies.
23. `solver.rs:234`: the cutoff `1e-12` of `SvdDefault` is absolute, but the pressure column of the matrix is
    `volume × ∂ρ/∂P` (about 1e-10 for the tested engines).  Below about half a cubic centimetre of helium the pressure
    rate is taken for numerical noise and dropped (C81).  It also never fails, so singular systems are not reported.
    `Cholesky` (lines 221-230) is not exported and would not fit: the matrix is not symmetric.
24. Finding 1 is not harmless bookkeeping.  Flow work is taken as `R (T - Tref)`, so gas leaving a space at constant
    pressure warms what remains, by `R*Tref/cp` (100 K) per e-fold of mass, and the coded equations admit closed cycles
    of helium that beat Carnot, even one that does work with source, sink, exchangers and regenerator all at 300 K
    (`C85_perpetual`): in effect source and sink act 100 K colder than they are (C85, C105).
25. The pressure drop is added half to the compression side and taken half from the expansion side, whichever way the
    pistons move.  With spaces that grow and shrink together the larger one gains more than the other loses, and a flow
    resistance entered for the cooler raises the reported indicated power above the ideal one; with enough of it the reported efficiency exceeds any
    number (C109).

## 6. Validation of theorems

Wrong programs are tried in a scratch copy; each attempt is one line of `seeded/LOG.jsonl`.
