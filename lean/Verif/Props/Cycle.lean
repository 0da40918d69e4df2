import Verif.Spec.Cycle
import Verif.Proofs.Solver
import Verif.Props.Solver

/-! # C32–C35: integration and the inner loop

All statements hold for any arithmetic, any decomposition, any integrator strategy, except where `ℝ`
is written. -/

namespace Sett

open state_equations Spec

section
variable {α : Type} [Scalar α]

/-! ## C32 -/

theorem solve_consistent {T : MatrixDecomposition α} {i : Inputs α} {hint : FlowDirection}
    {s : Solution α} (h : solve T i hint = .ok s) : SelfConsistent T i s := by
  have := solveLoop_ok T (System.new i) _ _ s h
  simp only [System.solve, Option.map_eq_some_iff] at this
  obtain ⟨x, hx, rfl⟩ := this
  exact ⟨x, hx, rfl⟩

theorem system_ok {cycle : Cycle α} {dir : FlowDirection} {t : α} {y : V3 α} {e : Evaluation α}
    (h : system cycle dir t y = .ok e) :
    GoodEvaluation cycle e ∧ e.hint = dir ∧ e.time = t ∧ stateVector e.conditions = y := by
  unfold system at h
  simp only at h
  split at h
  · cases h
  · rename_i s hs
    cases h
    exact ⟨⟨hs, solve_consistent hs, rfl⟩, rfl, rfl, rfl⟩

theorem system_error {cycle : Cycle α} {dir : FlowDirection} {t : α} {y : V3 α} {f : Fault Empty}
    (h : system cycle dir t y = .error f) : f = .panic "integrator.rs:135" ∧
      ∃ err, solve cycle.Solver (cycle.calculate_inputs t ⟨y.y0, y.y1, y.y2⟩) dir = .error err := by
  unfold system at h
  simp only at h
  split at h
  · rename_i err he
    cases h
    exact ⟨rfl, err, he⟩
  · cases h

theorem goodLog_nil (cycle : Cycle α) (d : FlowDirection) : GoodLog cycle d [] := by
  intro n e h; simp at h

theorem goodLog_cons {cycle : Cycle α} {d : FlowDirection} {e : Evaluation α}
    {log : List (Evaluation α)} (he : GoodEvaluation cycle e) (hd : e.hint = d)
    (hl : GoodLog cycle (FlowDirection.from_solution e.solution) log) :
    GoodLog cycle d (e :: log) := by
  intro n e' h
  cases n with
  | zero =>
    simp at h; subst h
    exact ⟨he, .inl ⟨rfl, hd⟩⟩
  | succ n =>
    simp at h
    obtain ⟨h1, h2⟩ := hl n e' h
    refine ⟨h1, .inr ?_⟩
    rcases h2 with ⟨rfl, h2⟩ | ⟨m, p, rfl, h3, h4⟩
    · exact ⟨0, e, rfl, rfl, h2⟩
    · exact ⟨m + 1, p, rfl, by simpa using h3, h4⟩

theorem goodLog_head {cycle : Cycle α} {d : FlowDirection} {e : Evaluation α}
    {log : List (Evaluation α)} (h : GoodLog cycle d (e :: log)) :
    GoodEvaluation cycle e ∧ e.hint = d ∧
      GoodLog cycle (FlowDirection.from_solution e.solution) log := by
  obtain ⟨h1, h2⟩ := h 0 e rfl
  refine ⟨h1, ?_, ?_⟩
  · rcases h2 with ⟨-, h2⟩ | ⟨m, p, hm, -⟩
    · exact h2
    · omega
  · intro n e' hn
    obtain ⟨h3, h4⟩ := h (n + 1) e' (by simpa using hn)
    refine ⟨h3, ?_⟩
    rcases h4 with ⟨h4, -⟩ | ⟨m, p, hm, h5, h6⟩
    · omega
    · have : m = n := by omega
      subst this
      cases m with
      | zero => simp at h5; subst h5; exact .inl ⟨rfl, h6⟩
      | succ m => exact .inr ⟨m, p, rfl, by simpa using h5, h6⟩

theorem dirAfter_cons (d : FlowDirection) (e : Evaluation α) (log : List (Evaluation α)) :
    dirAfter d (e :: log) = dirAfter (FlowDirection.from_solution e.solution) log := by
  unfold dirAfter
  cases log with
  | nil => rfl
  | cons a l =>
    rw [List.getLast?_cons_cons]
    cases h : (a :: l).getLast? with
    | none => simp at h
    | some x => rfl

/-- The whole conversation between integrator and equations, exactly: an integration ends normally iff
some sequence of right evaluations leads the integrator to its end. -/
theorem run_ok_iff (cycle : Cycle α) (st : Stepper α) (d : FlowDirection)
    (out : Option (List α × List (V3 α))) (log : List (Evaluation α)) :
    st.run cycle d = .ok (out, log) ↔
      Reaches st (log.map question) (.done out) ∧ GoodLog cycle d log := by
  induction st generalizing d out log with
  | done o =>
    simp only [Stepper.run]
    constructor
    · intro h; cases h; exact ⟨.refl _, goodLog_nil _ _⟩
    · rintro ⟨h, -⟩
      cases log with
      | nil => cases h; rfl
      | cons e l => simp only [List.map_cons, question] at h; cases h
  | eval t y k ih =>
    simp only [Stepper.run]
    constructor
    · intro h
      split at h
      · cases h
      · rename_i ev hev
        split at h
        · cases h
        · rename_i o l hl
          cases h
          obtain ⟨h1, h2, h3, h4⟩ := system_ok hev
          obtain ⟨h5, h6⟩ := (ih _ _ _ _).1 hl
          refine ⟨?_, goodLog_cons h1 h2 h6⟩
          simp only [List.map_cons, question, h3, h4]
          exact .step h5
    · rintro ⟨h, hl⟩
      cases log with
      | nil => cases h
      | cons e l =>
        obtain ⟨h1, h2, h3⟩ := goodLog_head hl
        simp only [List.map_cons, question] at h
        cases h with
        | step h =>
          have hs : system cycle d e.time (stateVector e.conditions) = .ok e := by
            obtain ⟨et, ec, eh, es, ed⟩ := e
            obtain ⟨hs, -, hd⟩ := h1
            simp only at h2 hs hd
            subst h2 hd
            unfold system
            simp only [stateVector, hs]
          rw [hs]
          simp only
          rw [(ih _ _ _ _).2 ⟨h, h3⟩]

theorem run_error (cycle : Cycle α) (st : Stepper α) (d : FlowDirection) (f : Fault Empty)
    (h : st.run cycle d = .error f) :
    f = .panic "integrator.rs:135" ∧ ∃ log t y k err, Reaches st (log.map question) (.eval t y k) ∧
      GoodLog cycle d log ∧
      solve cycle.Solver (cycle.calculate_inputs t ⟨y.y0, y.y1, y.y2⟩) (dirAfter d log)
        = .error err := by
  induction st generalizing d with
  | done o => cases h
  | eval t y k ih =>
    simp only [Stepper.run] at h
    split at h
    · rename_i f' hf
      cases h
      obtain ⟨h1, err, h2⟩ := system_error hf
      exact ⟨h1, [], t, y, k, err, .refl _, goodLog_nil _ _, h2⟩
    · rename_i ev hev
      split at h
      · rename_i f' hf
        cases h
        obtain ⟨h1, log, t', y', k', err, h2, h3, h4⟩ := ih _ _ hf
        obtain ⟨g1, g2, g3, g4⟩ := system_ok hev
        refine ⟨h1, ev :: log, t', y', k', err, ?_, goodLog_cons g1 g2 h3, ?_⟩
        · simp only [List.map_cons, question, g3, g4]
          exact .step h2
        · rw [dirAfter_cons]; exact h4
      · cases h

/-- **C32.** A successful integration is a conversation in which the integrator, started at time zero in
the initial state with the requested tolerances and step, asked for derivatives at points of its own
choosing, every answer was the derivative of a self-consistent solution at exactly that time and state,
hinted with the directions of the answer before (unknown directions first), and the returned points pair
its output times and states in order.  Conversely, every such conversation is a successful
integration. -/
theorem C32_integration_ok_iff (env : Env α) (cycle : Cycle α) (ic : Conditions α) (n : UInt32)
    (tol : OdeTolerance α) (pts : List (Point α)) :
    integrationTryFrom env cycle ic n tol = .ok pts ↔
      ∃ dx log xs ys, timeStep env.build cycle.period n = .ok dx ∧
        Reaches (env.ode 0.0 (cycle.period + 1e-14) dx (stateVector ic) tol.rel tol.abs)
          (log.map question) (.done (some (xs, ys))) ∧
        GoodLog cycle ⟨.Unknown, .Unknown, .Unknown, .Unknown⟩ log ∧
        pts.length = min xs.length ys.length ∧
        ∀ (j : Nat) (p : Point α), pts[j]? = some p → xs[j]? = some p.time ∧
          ys[j]? = some (stateVector p.conditions) := by
  have key : ∀ (xs : List α) (ys : List (V3 α)), pts = toPoints xs ys ↔
      (pts.length = min xs.length ys.length ∧ ∀ (j : Nat) (p : Point α), pts[j]? = some p →
        xs[j]? = some p.time ∧ ys[j]? = some (stateVector p.conditions)) := by
    intro xs ys
    constructor
    · rintro rfl
      refine ⟨by simp [toPoints], fun j p hp => ?_⟩
      simp only [toPoints, List.getElem?_map, Option.map_eq_some_iff, List.getElem?_zip_eq_some] at hp
      obtain ⟨q, ⟨h1, h2⟩, rfl⟩ := hp
      exact ⟨h1, h2⟩
    · rintro ⟨hl, h⟩
      apply List.ext_getElem?
      intro j
      by_cases hj : j < pts.length
      · obtain ⟨h1, h2⟩ := h j pts[j] (List.getElem?_eq_getElem hj)
        rw [List.getElem?_eq_getElem hj]
        symm
        simp only [toPoints, List.getElem?_map, Option.map_eq_some_iff, List.getElem?_zip_eq_some]
        exact ⟨(_, _), ⟨h1, h2⟩, rfl⟩
      · rw [List.getElem?_eq_none (by omega), List.getElem?_eq_none]
        simp only [toPoints, List.length_map, List.length_zip]; omega
  unfold integrationTryFrom startStepper
  constructor
  · intro h
    split at h
    · cases h
    · rename_i dx hdx
      split at h
      · cases h
      · cases h
      · rename_i xs ys log hr
        cases h
        obtain ⟨h1, h2⟩ := (run_ok_iff _ _ _ _ _).1 hr
        exact ⟨dx, log, xs, ys, hdx, h1, h2, (key xs ys).1 rfl⟩
  · rintro ⟨dx, log, xs, ys, hdx, h1, h2, h3⟩
    rw [hdx]
    have := (run_ok_iff cycle _ _ _ _).2 ⟨h1, h2⟩
    simp only [stateVector] at this
    simp only [FlowDirection.default]
    rw [this, (key xs ys).2 h3]

/-- **C32**, failure: when a solve fails, the evaluation panics.  The points already evaluated were all
right and the one that failed was the next asked for. -/
theorem C32_failed_solve_panics (cycle : Cycle α) (st : Stepper α) (d : FlowDirection) :
    (∃ f, st.run cycle d = .error f) ↔
      ∃ log t y k err, Reaches st (log.map question) (.eval t y k) ∧ GoodLog cycle d log ∧
        solve cycle.Solver (cycle.calculate_inputs t ⟨y.y0, y.y1, y.y2⟩) (dirAfter d log)
          = .error err := by
  constructor
  · rintro ⟨f, h⟩
    exact (run_error cycle st d f h).2
  · rintro ⟨log, t, y, k, err, h1, h2, h3⟩
    induction log generalizing st d with
    | nil =>
      cases h1
      simp only [dirAfter, List.getLast?_nil] at h3
      refine ⟨.panic "integrator.rs:135", ?_⟩
      simp only [Stepper.run, system, h3]
    | cons e l ih =>
      obtain ⟨g1, g2, g3⟩ := goodLog_head h2
      simp only [List.map_cons, question] at h1
      cases h1 with
      | step h1 =>
        obtain ⟨f, hf⟩ := ih _ _ h1 g3 (by rwa [dirAfter_cons] at h3)
        refine ⟨f, ?_⟩
        have hs : system cycle d e.time (stateVector e.conditions) = .ok e := by
          obtain ⟨et, ec, eh, es, ed⟩ := e
          obtain ⟨hs, -, hd⟩ := g1
          simp only at g2 hs hd
          subst g2 hd
          unfold system
          simp only [stateVector, hs]
        simp only [Stepper.run, hs, hf]

/-- Specification of the reported series: each value carries the self-consistent solution at its own
time and conditions, hinted with the directions of the value before. -/
def Spec.GoodSeries (cycle : Cycle α) (first : FlowDirection)
    (vs : List (state_equations.Values α)) : Prop :=
  ∀ (n : Nat) (v : state_equations.Values α), vs[n]? = some v →
    SelfConsistent cycle.Solver (cycle.calculate_inputs v.time v.conditions) v.solution ∧
    ∃ hint, solve cycle.Solver (cycle.calculate_inputs v.time v.conditions) hint = .ok v.solution ∧
      ((n = 0 ∧ hint = first) ∨ ∃ m p, n = m + 1 ∧ vs[m]? = some p ∧
        hint = FlowDirection.from_solution p.solution)

theorem stateValuesFrom_ok {cycle : Cycle α} {pts : List (Point α)} {d : FlowDirection}
    {vs : List (state_equations.Values α)} (h : stateValuesFrom cycle d pts = .ok vs) :
    vs.map (fun v => (⟨v.time, v.conditions⟩ : Point α)) = pts ∧ Spec.GoodSeries cycle d vs := by
  induction pts generalizing d vs with
  | nil => cases h; exact ⟨rfl, fun n v hv => by simp at hv⟩
  | cons p ps ih =>
    simp only [stateValuesFrom] at h
    split at h
    · cases h
    · rename_i s hs
      split at h
      · cases h
      · rename_i vs' hvs
        cases h
        obtain ⟨h1, h2⟩ := ih hvs
        refine ⟨by simp [h1], ?_⟩
        intro n v hv
        cases n with
        | zero =>
          simp at hv; subst hv
          exact ⟨solve_consistent hs, d, hs, .inl ⟨rfl, rfl⟩⟩
        | succ n =>
          simp at hv
          obtain ⟨g1, hint, g2, g3⟩ := h2 n v hv
          refine ⟨g1, hint, g2, .inr ?_⟩
          rcases g3 with ⟨rfl, g3⟩ | ⟨m, q, rfl, g4, g5⟩
          · exact ⟨0, _, rfl, rfl, g3⟩
          · exact ⟨m + 1, q, rfl, by simpa using g4, g5⟩

/-- **C32**, reported series: the values keep the integrator's times and conditions in order, and each
carries the self-consistent solution there. -/
theorem C32_values_self_consistent (cycle : Cycle α) (pts : List (Point α))
    (vs : List (state_equations.Values α)) (h : intoStateValues cycle pts = .ok vs) :
    vs.map (fun v => (⟨v.time, v.conditions⟩ : Point α)) = pts ∧
      Spec.GoodSeries cycle ⟨.Unknown, .Unknown, .Unknown, .Unknown⟩ vs :=
  stateValuesFrom_ok h

end

/-- **C32** in exact arithmetic with a sound decomposition: every derivative the integrator is given is
the derivative of pressure and the two space temperatures for which all ten mass and energy balances
hold, gas carrying the enthalpy of the volume it leaves. -/
theorem C32_derivatives_balance (cycle : Cycle ℝ) (hT : Sound cycle.Solver)
    (hn : ∀ t c, (cycle.calculate_inputs t c).enth_norm ≠ 0) (st : Stepper ℝ) (d : FlowDirection)
    (out : Option (List ℝ × List (V3 ℝ))) (log : List (Evaluation ℝ))
    (h : st.run cycle d = .ok (out, log)) (e : Evaluation ℝ) (he : e ∈ log) :
    Balances (cycle.calculate_inputs e.time e.conditions)
      (upwind (cycle.calculate_inputs e.time e.conditions) e.solution) e.solution ∧
    e.dy = ⟨e.solution.dP_dt, e.solution.dTc_dt, e.solution.dTe_dt⟩ := by
  obtain ⟨n, hn'⟩ := List.getElem?_of_mem he
  obtain ⟨h1, -⟩ := ((run_ok_iff _ _ _ _ _).1 h).2 n e hn'
  exact ⟨C07_upwind_balances _ hT _ (hn _ _) _ _ h1.solved, h1.deriv⟩

section
variable {α : Type} [Scalar α]

/-! ## C33–C35 -/

theorem isConverged_true {pts : List (Point α)} {tol : ConvergenceTolerance α} {b : Bool} :
    integrationIsConverged pts tol = .ok b ↔ ∃ first last,
      pts.head?.map Point.conditions = some first ∧ pts.getLast?.map Point.conditions = some last ∧
      (b = true ↔ Within tol first.T_c last.T_c ∧ Within tol first.T_e last.T_e) := by
  unfold integrationIsConverged Within
  cases h1 : pts.head? with
  | none => simp
  | some f =>
    cases h2 : pts.getLast? with
    | none => simp
    | some l =>
      simp only [Except.ok.injEq, Option.map_some, Option.some.injEq]
      simp only [← Bool.and_eq_true, ConvergenceTolerance.is_converged]
      constructor
      · rintro rfl; exact ⟨_, _, rfl, rfl, Iff.rfl⟩
      · rintro ⟨_, _, rfl, rfl, h⟩; rw [Bool.eq_iff_iff]; exact h.symm

/-- One pass of the loop, read as a specification. -/
theorem steadyLoop_succ (env : Env α) (cycle : Cycle α) (i : SteadyStateInputs α) (fuel : Nat)
    (ic : Conditions α) :
    (∃ first last, OneCycle env cycle i ic first last ∧ Closed i first last ∧
      ((∃ pts, integrationTryFrom env cycle ic i.num_points i.ode_tol = .ok pts ∧
          steadyLoop env cycle i (fuel + 1) ic
            = ((intoStateValues cycle pts).lift, [⟨ic, 2⟩, ⟨ic, i.num_points⟩])) ∨
        ∃ f, integrationTryFrom env cycle ic i.num_points i.ode_tol = .error f ∧
          steadyLoop env cycle i (fuel + 1) ic = (.error f, [⟨ic, 2⟩, ⟨ic, i.num_points⟩]))) ∨
    (∃ first last, OneCycle env cycle i ic first last ∧ ¬Closed i first last ∧
      steadyLoop env cycle i (fuel + 1) ic =
        ((steadyLoop env cycle i fuel ⟨i.pres_zero, last.T_c, last.T_e⟩).1,
          ⟨ic, 2⟩ :: (steadyLoop env cycle i fuel ⟨i.pres_zero, last.T_c, last.T_e⟩).2)) ∨
    (∃ f, integrationTryFrom env cycle ic 2 i.ode_tol = .error f ∧
      steadyLoop env cycle i (fuel + 1) ic = (.error f, [⟨ic, 2⟩])) ∨
    ∃ s, integrationTryFrom env cycle ic 2 i.ode_tol = .ok [] ∧
      steadyLoop env cycle i (fuel + 1) ic = (.error (.panic s), [⟨ic, 2⟩]) := by
  simp only [steadyLoop]
  cases hI : integrationTryFrom env cycle ic 2 i.ode_tol with
  | error f => exact .inr (.inr (.inl ⟨f, rfl, rfl⟩))
  | ok pts =>
    simp only
    cases hc : integrationIsConverged pts i.conv_tol with
    | error f =>
      match f with
      | .panic s =>
        refine .inr (.inr (.inr ⟨s, ?_, rfl⟩))
        cases pts with
        | nil => rfl
        | cons a l =>
          unfold integrationIsConverged at hc
          cases hl : (a :: l).getLast? with
          | none => simp at hl
          | some x => rw [hl] at hc; simp at hc
    | ok b =>
      obtain ⟨first, last, h1, h2, h3⟩ := isConverged_true.1 hc
      cases b with
      | true =>
        refine .inl ⟨first, last, ⟨pts, hI, h1, h2⟩, h3.1 rfl, ?_⟩
        simp only
        cases hF : integrationTryFrom env cycle ic i.num_points i.ode_tol with
        | error f => exact .inr ⟨f, rfl, rfl⟩
        | ok fine => exact .inl ⟨fine, rfl, rfl⟩
      | false =>
        refine .inr (.inl ⟨first, last, ⟨pts, hI, h1, h2⟩, fun h => by simpa using h3.2 h, ?_⟩)
        have : finalConditions pts = .ok last := by
          unfold finalConditions
          cases hl : pts.getLast? with
          | none => rw [hl] at h2; simp at h2
          | some x => rw [hl] at h2; simp at h2; simp [h2]
        simp only [this]

theorem oneCycle_unique {env : Env α} {cycle : Cycle α} {i : SteadyStateInputs α} {ic f l f' l'}
    (h : OneCycle env cycle i ic f l) (h' : OneCycle env cycle i ic f' l') : f = f' ∧ l = l' := by
  obtain ⟨p, h1, h2, h3⟩ := h
  obtain ⟨p', h1', h2', h3'⟩ := h'
  rw [h1] at h1'
  cases h1'
  rw [h2] at h2'; rw [h3] at h3'
  exact ⟨Option.some.inj h2', Option.some.inj h3'⟩

theorem lift_ok {ε β : Type} {p : Panics β} {b : β} :
    (p.lift : Exec ε β) = .ok b ↔ p = .ok b := by
  cases p with
  | ok a => simp [Panics.lift]
  | error f => cases f with
    | panic s => simp [Panics.lift]
    | err e => exact e.elim

theorem lift_ne_err {ε β : Type} {p : Panics β} {e : ε} : (p.lift : Exec ε β) ≠ .error (.err e) := by
  cases p with
  | ok a => simp [Panics.lift]
  | error f => cases f with
    | panic s => simp [Panics.lift]
    | err e => exact e.elim

/-- What is returned when cycle number `n`, started from `ic`, closes. -/
def Spec.SteadyAt (env : Env α) (cycle : Cycle α) (i : SteadyStateInputs α) (ic : Conditions α)
    (vs : List (state_equations.Values α)) : Prop :=
  (∃ first last, OneCycle env cycle i ic first last ∧ Closed i first last) ∧
    ∃ pts, integrationTryFrom env cycle ic i.num_points i.ode_tol = .ok pts ∧
      intoStateValues cycle pts = .ok vs

theorem steadyLoop_ok {env : Env α} {cycle : Cycle α} {i : SteadyStateInputs α}
    {vs : List (state_equations.Values α)} {fuel k : Nat} {ic : Conditions α}
    (hs : Substituted env cycle i k ic) (h : (steadyLoop env cycle i fuel ic).1 = .ok vs) :
    ∃ n ic', n < k + fuel ∧ Substituted env cycle i n ic' ∧ Spec.SteadyAt env cycle i ic' vs := by
  induction fuel generalizing k ic with
  | zero => simp [steadyLoop] at h
  | succ fuel ih =>
    rcases steadyLoop_succ env cycle i fuel ic with
      ⟨f, l, h1, h2, ⟨pts, h3, h4⟩ | ⟨e, h3, h4⟩⟩ | ⟨f, l, h1, h2, h3⟩ | ⟨e, h1, h2⟩ | ⟨s, h1, h2⟩
    · rw [h4] at h
      exact ⟨k, ic, by omega, hs, ⟨f, l, h1, h2⟩, pts, h3, lift_ok.1 h⟩
    · rw [h4] at h; cases h
    · rw [h3] at h
      obtain ⟨n, ic', hn, h4, h5⟩ := ih (.next hs h1 h2) h
      exact ⟨n, ic', by omega, h4, h5⟩
    · rw [h2] at h; cases h
    · rw [h2] at h; cases h

theorem steadyLoop_of_steady {env : Env α} {cycle : Cycle α} {i : SteadyStateInputs α}
    {vs : List (state_equations.Values α)} {ic : Conditions α}
    (h : Spec.SteadyAt env cycle i ic vs) (fuel : Nat) :
    (steadyLoop env cycle i (fuel + 1) ic).1 = .ok vs := by
  obtain ⟨⟨f, l, h1, h2⟩, pts, h3, h4⟩ := h
  rcases steadyLoop_succ env cycle i fuel ic with
    ⟨f', l', g1, g2, ⟨pts', g3, g4⟩ | ⟨e, g3, g4⟩⟩ | ⟨f', l', g1, g2, g3⟩ | ⟨e, g1, g2⟩ | ⟨s, g1, g2⟩
  · rw [h3] at g3; cases g3
    rw [g4]; exact lift_ok.2 h4
  · rw [h3] at g3; cases g3
  · obtain ⟨rfl, rfl⟩ := oneCycle_unique h1 g1
    exact absurd h2 g2
  · obtain ⟨p, q, -⟩ := h1
    rw [q] at g1; cases g1
  · obtain ⟨p, q, q', -⟩ := h1
    rw [q] at g1; cases g1; simp at q'

theorem steadyLoop_reach {env : Env α} {cycle : Cycle α} {i : SteadyStateInputs α} {n : Nat}
    {ic : Conditions α} (h : Substituted env cycle i n ic) (m : Nat) :
    (steadyLoop env cycle i (n + m) ⟨i.pres_zero, i.temp_comp_hint, i.temp_exp_hint⟩).1
      = (steadyLoop env cycle i m ic).1 := by
  induction h generalizing m with
  | hints => simp
  | @next n ic f l hs h1 h2 ih =>
    rw [show n + 1 + m = n + (m + 1) by omega, ih]
    rcases steadyLoop_succ env cycle i m ic with
      ⟨f', l', g1, g2, -⟩ | ⟨f', l', g1, g2, g3⟩ | ⟨e, g1, g2⟩ | ⟨s, g1, g2⟩
    · obtain ⟨rfl, rfl⟩ := oneCycle_unique h1 g1
      exact absurd g2 h2
    · obtain ⟨rfl, rfl⟩ := oneCycle_unique h1 g1
      rw [g3]
    · obtain ⟨p, q, -⟩ := h1
      rw [q] at g1; cases g1
    · obtain ⟨p, q, q', -⟩ := h1
      rw [q] at g1; cases g1; simp at q'

/-- **C33.** `find_steady_state` succeeds exactly when some cycle of the successive-substitution
sequence from the hints, among the first `max_iters`, closes (both temperatures back within tolerance)
after all earlier ones failed to, and what it returns is the series of the integration from the initial
condition of that cycle. -/
theorem C33_ok_iff (env : Env α) (cycle : Cycle α) (i : SteadyStateInputs α)
    (vs : List (state_equations.Values α)) :
    findSteadyState env cycle i = .ok vs ↔
      ∃ n ic, n < i.max_iters ∧ Substituted env cycle i n ic ∧ Spec.SteadyAt env cycle i ic vs := by
  unfold findSteadyState findSteadyStateLogged
  constructor
  · intro h
    obtain ⟨n, ic, h1, h2, h3⟩ := steadyLoop_ok .hints h
    exact ⟨n, ic, by omega, h2, h3⟩
  · rintro ⟨n, ic, h1, h2, h3⟩
    obtain ⟨m, hm⟩ : ∃ m, i.max_iters = n + (m + 1) := ⟨i.max_iters - n - 1, by omega⟩
    rw [hm, steadyLoop_reach h2]
    exact steadyLoop_of_steady h3 m

/-- **C33**, the sequence is deterministic: there is at most one initial condition for each cycle
number, and at most one cycle that closes, so "the" returned cycle is well defined. -/
theorem C33_unique (env : Env α) (cycle : Cycle α) (i : SteadyStateInputs α) (n : Nat)
    (ic ic' : Conditions α) (h : Substituted env cycle i n ic) (h' : Substituted env cycle i n ic') :
    ic = ic' := by
  induction h generalizing ic' with
  | hints => cases h'; rfl
  | next hs h1 h2 ih =>
    cases h' with
    | next hs' h1' h2' =>
      have := ih _ hs'
      subst this
      obtain ⟨rfl, rfl⟩ := oneCycle_unique h1 h1'
      rfl

/-- **C33**, first: no cycle after a closing one belongs to the sequence. -/
theorem C33_first (env : Env α) (cycle : Cycle α) (i : SteadyStateInputs α) (n m : Nat)
    (ic ic' : Conditions α) (vs : List (state_equations.Values α))
    (h : Substituted env cycle i n ic) (hs : Spec.SteadyAt env cycle i ic vs)
    (h' : Substituted env cycle i m ic') : m ≤ n := by
  by_contra hlt
  have key : ∀ m ic', Substituted env cycle i m ic' → n < m → False := by
    intro m ic' h'
    induction h' with
    | hints => omega
    | @next k ic1 f l g1 g2 g3 ih =>
      intro hk
      rcases Nat.lt_or_ge n k with hlt | hge
      · exact ih hlt
      · have : k = n := by omega
        subst this
        have := C33_unique env cycle i _ _ _ h g1
        subst this
        obtain ⟨⟨f', l', g4, g5⟩, -⟩ := hs
        obtain ⟨rfl, rfl⟩ := oneCycle_unique g2 g4
        exact g3 g5
  exact key m ic' h' (by omega)

theorem integration_never_not_converged (env : Env α) (cycle : Cycle α) (ic : Conditions α)
    (n : UInt32) (tol : OdeTolerance α) :
    integrationTryFrom env cycle ic n tol ≠ .error (.err .not_converged) := by
  unfold integrationTryFrom
  intro h
  split at h
  · cases h
  · split at h <;> cases h

/-- **C33**, failure to converge: the error is returned exactly when all `max_iters` cycles were
integrated and none closed. -/
theorem C33_not_converged_iff (env : Env α) (cycle : Cycle α) (i : SteadyStateInputs α) :
    findSteadyState env cycle i = .error (.err .not_converged) ↔
      ∃ ic, Substituted env cycle i i.max_iters ic := by
  have hE := fun ic n => integration_never_not_converged env cycle ic n i.ode_tol
  unfold findSteadyState findSteadyStateLogged
  constructor
  · have key : ∀ fuel k ic, Substituted env cycle i k ic →
        (steadyLoop env cycle i fuel ic).1 = .error (.err .not_converged) →
        ∃ ic', Substituted env cycle i (k + fuel) ic' := by
      intro fuel
      induction fuel with
      | zero => intro k ic hs _; exact ⟨ic, hs⟩
      | succ fuel ih =>
        intro k ic hs h
        rcases steadyLoop_succ env cycle i fuel ic with
          ⟨f, l, h1, h2, ⟨pts, h3, h4⟩ | ⟨e, h3, h4⟩⟩ | ⟨f, l, h1, h2, h3⟩ | ⟨e, h1, h2⟩ | ⟨s, h1, h2⟩
        · rw [h4] at h; exact absurd h lift_ne_err
        · rw [h4] at h; cases h; exact absurd h3 (hE _ _)
        · rw [h3] at h
          obtain ⟨ic', h4⟩ := ih (k + 1) _ (.next hs h1 h2) h
          exact ⟨ic', by rwa [show k + (fuel + 1) = k + 1 + fuel by omega]⟩
        · rw [h2] at h; cases h; exact absurd h1 (hE _ _)
        · rw [h2] at h; cases h
    intro h
    simpa using key _ 0 _ .hints h
  · rintro ⟨ic, h⟩
    have := steadyLoop_reach h 0
    rw [Nat.add_zero] at this
    rw [this]; rfl

/-- **C34.** Every integration attempted starts from pressure `pres_zero`. -/
theorem C34_pressure_pinned (env : Env α) (cycle : Cycle α) (i : SteadyStateInputs α) :
    ∀ a ∈ (findSteadyStateLogged env cycle i).2, a.ic.P = i.pres_zero := by
  have key : ∀ fuel ic, ic.P = i.pres_zero →
      ∀ a ∈ (steadyLoop env cycle i fuel ic).2, a.ic.P = i.pres_zero := by
    intro fuel
    induction fuel with
    | zero => intro ic _ a ha; simp [steadyLoop] at ha
    | succ fuel ih =>
      intro ic hic a ha
      rcases steadyLoop_succ env cycle i fuel ic with
        ⟨f, l, h1, h2, ⟨pts, h3, h4⟩ | ⟨e, h3, h4⟩⟩ | ⟨f, l, h1, h2, h3⟩ | ⟨e, h1, h2⟩ | ⟨s, h1, h2⟩
      · rw [h4] at ha; simp at ha; rcases ha with rfl | rfl <;> exact hic
      · rw [h4] at ha; simp at ha; rcases ha with rfl | rfl <;> exact hic
      · rw [h3] at ha
        rcases List.mem_cons.1 ha with rfl | ha
        · exact hic
        · exact ih _ rfl a ha
      · rw [h2] at ha; simp at ha; subst ha; exact hic
      · rw [h2] at ha; simp at ha; subst ha; exact hic
  exact key _ _ rfl

/-- **C34**, the temperatures are carried over: the attempts are, in order, the members of the
successive-substitution sequence (the last one possibly integrated a second time at full
resolution). -/
theorem C34_attempts_are_the_sequence (env : Env α) (cycle : Cycle α) (i : SteadyStateInputs α) :
    ∀ a ∈ (findSteadyStateLogged env cycle i).2,
      (∃ n, Substituted env cycle i n a.ic) ∧ (a.num_points = 2 ∨ a.num_points = i.num_points) := by
  have key : ∀ fuel k ic, Substituted env cycle i k ic →
      ∀ a ∈ (steadyLoop env cycle i fuel ic).2, (∃ n, Substituted env cycle i n a.ic) ∧
        (a.num_points = 2 ∨ a.num_points = i.num_points) := by
    intro fuel
    induction fuel with
    | zero => intro k ic _ a ha; simp [steadyLoop] at ha
    | succ fuel ih =>
      intro k ic hs a ha
      rcases steadyLoop_succ env cycle i fuel ic with
        ⟨f, l, h1, h2, ⟨pts, h3, h4⟩ | ⟨e, h3, h4⟩⟩ | ⟨f, l, h1, h2, h3⟩ | ⟨e, h1, h2⟩ | ⟨s, h1, h2⟩
      · rw [h4] at ha; simp at ha
        rcases ha with rfl | rfl
        · exact ⟨⟨k, hs⟩, .inl rfl⟩
        · exact ⟨⟨k, hs⟩, .inr rfl⟩
      · rw [h4] at ha; simp at ha
        rcases ha with rfl | rfl
        · exact ⟨⟨k, hs⟩, .inl rfl⟩
        · exact ⟨⟨k, hs⟩, .inr rfl⟩
      · rw [h3] at ha
        rcases List.mem_cons.1 ha with rfl | ha
        · exact ⟨⟨k, hs⟩, .inl rfl⟩
        · exact ih _ _ (.next hs h1 h2) a ha
      · rw [h2] at ha; simp at ha; subst ha; exact ⟨⟨k, hs⟩, .inl rfl⟩
      · rw [h2] at ha; simp at ha; subst ha; exact ⟨⟨k, hs⟩, .inl rfl⟩
  exact key _ _ _ .hints

/-- **C35**, work bound: at most `max_iters + 1` integrations, and none when `max_iters` is zero, in
which case the error is returned at once. -/
theorem C35_work_bound (env : Env α) (cycle : Cycle α) (i : SteadyStateInputs α) :
    (findSteadyStateLogged env cycle i).2.length ≤ i.max_iters + 1 ∧
      (i.max_iters = 0 → findSteadyStateLogged env cycle i = (.error (.err .not_converged), [])) := by
  constructor
  · have key : ∀ fuel ic, (steadyLoop env cycle i fuel ic).2.length ≤ fuel + 1 := by
      intro fuel
      induction fuel with
      | zero => intro ic; simp [steadyLoop]
      | succ fuel ih =>
        intro ic
        rcases steadyLoop_succ env cycle i fuel ic with
          ⟨f, l, h1, h2, ⟨pts, h3, h4⟩ | ⟨e, h3, h4⟩⟩ | ⟨f, l, h1, h2, h3⟩ | ⟨e, h1, h2⟩ | ⟨s, h1, h2⟩
        · rw [h4]; simp
        · rw [h4]; simp
        · rw [h3]; simpa using ih _
        · rw [h2]; simp
        · rw [h2]; simp
    exact key _ _
  · intro h0
    unfold findSteadyStateLogged
    rw [h0]; rfl

/-- **C35**, monotone: raising the iteration limit never changes a successful result, nor the
integrations done to get it. -/
theorem C35_monotone (env : Env α) (cycle : Cycle α) (i : SteadyStateInputs α) (m : Nat)
    (hm : i.max_iters ≤ m) (vs : List (state_equations.Values α))
    (h : findSteadyState env cycle i = .ok vs) :
    findSteadyStateLogged env cycle { i with max_iters := m } = findSteadyStateLogged env cycle i := by
  have step : ∀ (j : SteadyStateInputs α), j.pres_zero = i.pres_zero → j.num_points = i.num_points →
      j.ode_tol = i.ode_tol → j.conv_tol = i.conv_tol → ∀ fuel ic,
      steadyLoop env cycle j fuel ic = steadyLoop env cycle i fuel ic := by
    intro j e1 e2 e3 e4 fuel
    induction fuel with
    | zero => intro ic; rfl
    | succ fuel ih => intro ic; simp only [steadyLoop, e1, e2, e3, e4, ih]
  have key : ∀ fuel fuel' ic, fuel ≤ fuel' → (steadyLoop env cycle i fuel ic).1 = .ok vs →
      steadyLoop env cycle i fuel' ic = steadyLoop env cycle i fuel ic := by
    intro fuel
    induction fuel with
    | zero => intro fuel' ic _ h; simp [steadyLoop] at h
    | succ fuel ih =>
      intro fuel' ic hle h
      obtain ⟨g, rfl⟩ : ∃ g, fuel' = g + 1 := ⟨fuel' - 1, by omega⟩
      simp only [steadyLoop] at h ⊢
      split
      · rfl
      · split
        · rfl
        · rfl
        · split
          · rfl
          · rename_i pts hp _ hc _ fc hf
            rw [hp] at h
            simp only at h
            rw [hc] at h
            simp only at h
            rw [hf] at h
            simp only at h
            rw [ih g _ (by omega) h]
  unfold findSteadyStateLogged
  rw [step { i with max_iters := m } rfl rfl rfl rfl]
  exact key _ _ _ hm h

end

/-! ## Concrete cases -/

namespace CycleExample

open BalanceExample

/-- A decomposition that always answers with the solution of `BalanceExample`. -/
noncomputable def constant : MatrixDecomposition ℝ := fun _ _ => some vec

/-- A cycle with the inputs of `BalanceExample` at every time and state. -/
noncomputable def cycle (T : MatrixDecomposition ℝ) : Cycle ℝ :=
  { Solver := T, calculate_inputs := fun _ _ => inputs, period := 1, pres_zero := 5 }

/-- An integrator that asks twice (the second time where the first derivative leads) and then reports
the start and a final state with temperatures 300 and 600. -/
noncomputable def ode : Ode ℝ := fun x xend dx y _ _ =>
  .eval x y fun dy => .eval (x + dx) ⟨y.y0 + dx * dy.y0, y.y1 + dx * dy.y1, y.y2 + dx * dy.y2⟩
    fun _ => .done (some ([x, xend], [y, ⟨y.y0, 300, 600⟩]))

noncomputable def env : Env ℝ := { ode, build := .checked }

noncomputable def inputs : SteadyStateInputs ℝ :=
  { pres_zero := 5, temp_comp_hint := 290, temp_exp_hint := 590, num_points := 2
    ode_tol := ⟨1, 1⟩, conv_tol := ⟨1, 1⟩, max_iters := 2 }

theorem constant_solve (i : Inputs ℝ) (hint : FlowDirection) :
    solve constant i hint = .ok (Solution.ofVec vec) := by
  rw [C08_ok_iff]
  have hs : ∀ d, (System.new i).solve constant d = some (Solution.ofVec vec) := fun d => rfl
  by_cases h : hint = forward
  · subst h
    exact ⟨[forward], forward, by simp, .here _, hs _, forward_dir⟩
  · exact ⟨[hint, forward], forward, by simp, .step ⟨h, _, hs _, forward_dir⟩ (.here _), hs _,
      forward_dir⟩

theorem run_system (cy : Cycle ℝ) (hc : cy.Solver = constant) (d : FlowDirection) (t : ℝ)
    (y : V3 ℝ) :
    system cy d t y = .ok ⟨t, ⟨y.y0, y.y1, y.y2⟩, d, Solution.ofVec vec, ⟨0, 0, 0⟩⟩ := by
  unfold system
  simp only [hc, constant_solve]
  rfl

theorem integration (cy : Cycle ℝ) (hc : cy.Solver = constant) (ic : Conditions ℝ)
    (tol : OdeTolerance ℝ) :
    integrationTryFrom env cy ic 2 tol
      = .ok [⟨0, ic⟩, ⟨cy.period + 1e-14, ⟨ic.P, 300, 600⟩⟩] := by
  have h0 : (0.0 : ℝ) = 0 := by norm_num
  simp [integrationTryFrom, timeStep, pointsMinusOne, env, startStepper, ode, Stepper.run,
    run_system cy hc, toPoints, h0]

/-- C32: two evaluations, the first hinted with unknown directions, the second with the directions of
the first. -/
example : ∃ log, (startStepper env (cycle constant) ⟨5, 290, 590⟩ 1 ⟨1, 1⟩).run (cycle constant)
      FlowDirection.default = .ok (some ([0.0, 1 + 1e-14], [⟨5, 290, 590⟩, ⟨5, 300, 600⟩]), log) ∧
    log.map Evaluation.hint = [FlowDirection.default, forward] := by
  refine ⟨?w, ?_, ?_⟩
  · exact [⟨0.0, ⟨5, 290, 590⟩, FlowDirection.default, Solution.ofVec vec, ⟨0, 0, 0⟩⟩,
      ⟨0.0 + 1, ⟨5 + 1 * 0, 290 + 1 * 0, 590 + 1 * 0⟩, forward, Solution.ofVec vec, ⟨0, 0, 0⟩⟩]
  · simp only [startStepper, env, ode, Stepper.run, run_system (cycle constant) rfl, forward_dir]
    rfl
  · rfl

/-- C32 in exact arithmetic: with the sound decomposition `exact` an integration started with forward
directions gets two right derivatives. -/
example : Sound (cycle exact).Solver ∧ (∀ t c, ((cycle exact).calculate_inputs t c).enth_norm ≠ 0) ∧
    ∃ out log, (ode 0 1 1 ⟨5, 290, 590⟩ 1 1).run (cycle exact) forward = .ok (out, log) ∧
      log.length = 2 := by
  have hs : ∀ t y, system (cycle exact) forward t y
      = .ok ⟨t, ⟨y.y0, y.y1, y.y2⟩, forward, Solution.ofVec vec, ⟨0, 0, 0⟩⟩ := by
    intro t y
    unfold system
    simp only [cycle, solve_ok]
    rfl
  refine ⟨exact_sound, fun _ _ => by norm_num [cycle, BalanceExample.inputs], ?o, ?w, ?_, ?_⟩
  · exact some ([0, 1], [⟨5, 290, 590⟩, ⟨5, 300, 600⟩])
  · exact [⟨0, ⟨5, 290, 590⟩, forward, Solution.ofVec vec, ⟨0, 0, 0⟩⟩,
      ⟨0 + 1, ⟨5 + 1 * 0, 290 + 1 * 0, 590 + 1 * 0⟩, forward, Solution.ofVec vec, ⟨0, 0, 0⟩⟩]
  · simp only [ode, Stepper.run, hs, forward_dir]
  · rfl

theorem oneCycle (ic : Conditions ℝ) :
    OneCycle env (cycle constant) inputs ic ic ⟨ic.P, 300, 600⟩ :=
  ⟨_, integration _ rfl ic _, rfl, rfl⟩

theorem substituted_one : Substituted env (cycle constant) inputs 1 ⟨5, 300, 600⟩ := by
  refine .next .hints (oneCycle _) ?_
  rintro ⟨⟨h, -⟩, -⟩
  rw [real_lt] at h
  norm_num [inputs, abs_of_pos] at h

theorem steady_one : Spec.SteadyAt env (cycle constant) inputs ⟨5, 300, 600⟩
    [⟨0, ⟨5, 300, 600⟩, Solution.ofVec vec⟩, ⟨1 + 1e-14, ⟨5, 300, 600⟩, Solution.ofVec vec⟩] := by
  refine ⟨⟨_, _, oneCycle _, ?_⟩, _, integration _ rfl _ _, ?_⟩
  · simp [Closed, Within, inputs]
  · simp [intoStateValues, stateValuesFrom, cycle, constant_solve]

/-- C33–C35: the first cycle (290, 590 → 300, 600) does not close, the second does; the run takes three
integrations, which is the bound for `max_iters = 2`. -/
theorem steady : findSteadyState env (cycle constant) inputs = .ok
    [⟨0, ⟨5, 300, 600⟩, Solution.ofVec vec⟩, ⟨1 + 1e-14, ⟨5, 300, 600⟩, Solution.ofVec vec⟩] :=
  (C33_ok_iff _ _ _ _).2 ⟨1, _, by simp [inputs], substituted_one, steady_one⟩

example : findSteadyState env (cycle constant) { inputs with max_iters := 7 }
    = findSteadyState env (cycle constant) inputs :=
  congrArg Prod.fst (C35_monotone env (cycle constant) inputs 7 (by simp [inputs]) _ steady)

/-- With one iteration allowed the same cycle is reported as not converged. -/
example : findSteadyState env (cycle constant) { inputs with max_iters := 1 }
    = .error (.err .not_converged) := by
  rw [C33_not_converged_iff]
  refine ⟨⟨5, 300, 600⟩, .next (first := ⟨5, 290, 590⟩) (last := ⟨5, 300, 600⟩) .hints
    ⟨_, integration _ rfl _ _, rfl, rfl⟩ ?_⟩
  rintro ⟨⟨h, -⟩, -⟩
  rw [real_lt] at h
  norm_num [inputs, abs_of_pos] at h

/-- C32, failure: a decomposition that fails makes the very first evaluation panic. -/
example : ∃ f, (ode 0 1 1 ⟨5, 290, 590⟩ 1 1).run (cycle fun _ _ => none) forward = .error f := by
  rw [C32_failed_solve_panics]
  refine ⟨[], _, _, _, .decomposition, .refl _, goodLog_nil _ _, ?_⟩
  simp [solve, solveLogged, solveLoop, System.solve, cycle, dirAfter]

end CycleExample
end Sett
