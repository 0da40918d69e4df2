import Verif.Spec.Run
import Verif.Proofs.Integrate
import Verif.Props.Cycle

/-! # C36–C38: the outer loop

All statements hold for any arithmetic, components, fluid, decomposition and integrator. -/

namespace Sett

open state_equations Spec

section
variable {α : Type} [Scalar α]

theorem within_iff {tol : ConvergenceTolerance α} {a b : α} :
    tol.is_converged a b = true ↔ Within tol a b := by
  simp [ConvergenceTolerance.is_converged, Within]

theorem close_iff {tol : ConvergenceTolerance α} {t t' : Temperatures α} :
    t.is_converged t' tol = true ↔ Close tol t t' := by
  simp only [Temperatures.is_converged, RegenTemp.is_converged, Bool.and_eq_true, within_iff]
  exact ⟨fun ⟨⟨h1, h2⟩, ⟨h3, h4⟩, h5⟩ => ⟨h1, h2, h3, h4, h5⟩,
    fun ⟨h1, h2, h3, h4, h5⟩ => ⟨⟨h1, h2⟩, ⟨h3, h4⟩, h5⟩⟩

/-- `State::update` against its specification. -/
theorem update_ok {s : State α} {c : Components α} {v : Values α} {tol : ConvergenceTolerance α}
    {r : State.Updated α} (h : s.update c v tol = .ok r) :
    ∃ s', Recomputed c s v s' ∧ ((r = .changed s' ∧ ¬Close tol s.temp s'.temp) ∨
      (r = .converged s ∧ Close tol s.temp s'.temp)) := by
  unfold State.update at h
  cases h1 : Pressure.from_values v with
  | error e => rw [h1] at h; cases h
  | ok p =>
    cases h2 : MassFlows.from_values v with
    | error e => rw [h1, h2] at h; cases h
    | ok m =>
      cases h3 : HeatFlows.from_values v s.temp.chx s.temp.hhx (c.ws.thermal_resistance s.ws) with
      | error e => rw [h1, h2] at h; simp only [bind, Except.bind] at h; rw [h3] at h; cases h
      | ok q =>
        rw [h1, h2] at h
        simp only [bind, Except.bind] at h
        rw [h3] at h
        simp only [pure, Except.pure] at h
        refine ⟨{ s with
            pres := p, mass_flow := m, heat_flow := q
            temp := Temperatures.from_approach s.temp.sink s.temp.source
              { chx := c.chx.approach
                  (State.chx { s with pres := p, mass_flow := m, heat_flow := q })
                regen := c.regen.approach
                  (State.regen { s with pres := p, mass_flow := m, heat_flow := q })
                hhx := c.hhx.approach
                  (State.hhx { s with pres := p, mass_flow := m, heat_flow := q }) }
              s.regen_imbalance },
          ⟨rfl, rfl, rfl, rfl, h1, h2, h3, rfl, rfl, rfl⟩, ?_⟩
        split at h
        · rename_i hc
          cases h
          exact .inr ⟨rfl, close_iff.1 hc⟩
        · rename_i hc
          cases h
          exact .inl ⟨rfl, fun h => hc (close_iff.2 h)⟩

theorem recomputed_unique {c : Components α} {s : State α} {v : Values α} {s' s'' : State α}
    (h : Recomputed c s v s') (h' : Recomputed c s v s'') : s' = s'' := by
  obtain ⟨f, p, ⟨a, b, r, d, e⟩, m, q, i⟩ := s'
  obtain ⟨f', p', ⟨a', b', r', d', e'⟩, m', q', i'⟩ := s''
  obtain ⟨e1, e2, e3, e4, e5, e6, e7, e8, e9, e10⟩ := h
  obtain ⟨g1, g2, g3, g4, g5, g6, g7, g8, g9, g10⟩ := h'
  simp only at *
  rw [e5] at g5; rw [e6] at g6; rw [e7] at g7
  cases g5; cases g6; cases g7
  subst e1 e2 e3 e4 g1 g2 g3 g4
  subst e8 e9 e10 g8 g9 g10
  rfl

theorem update_of_recomputed {s : State α} {c : Components α} {v : Values α}
    {tol : ConvergenceTolerance α} {s' : State α} (h : Recomputed c s v s') :
    (Close tol s.temp s'.temp → s.update c v tol = .ok (.converged s)) ∧
      (¬Close tol s.temp s'.temp → s.update c v tol = .ok (.changed s')) := by
  have hok : ∃ r, s.update c v tol = .ok r := by
    unfold State.update
    have h7 := h.heat_flow
    rw [show (⟨s.pres⟩ : ws.State α) = s.ws from rfl] at h7
    rw [h.pres, h.mass_flow]
    simp only [bind, Except.bind]
    rw [h7]
    simp only [pure, Except.pure]
    split <;> exact ⟨_, rfl⟩
  obtain ⟨r, hr⟩ := hok
  obtain ⟨s'', h1, h2⟩ := update_ok hr
  obtain rfl := recomputed_unique h h1
  rcases h2 with ⟨rfl, h2⟩ | ⟨rfl, h2⟩
  · exact ⟨fun h => absurd h h2, fun _ => hr⟩
  · exact ⟨fun _ => hr, fun h => absurd h2 h⟩

/-- One pass of the loop, read as a specification. -/
theorem runLoop_succ (env : Env α) (U : MatrixDecomposition α) (c : Components α)
    (settings : RunSettings α) (fuel : Nat) (s : State α) :
    (∃ vs s', Engine.inner env U c settings s = .ok vs ∧
      Recomputed c s (Values.ofStateValues vs) s' ∧ Close settings.loop_tol.outer s.temp s'.temp ∧
      Engine.runLoop env U c settings (fuel + 1) s = (.ok ⟨c, s, Values.ofStateValues vs⟩, [s])) ∨
    (∃ vs s', Engine.inner env U c settings s = .ok vs ∧
      Recomputed c s (Values.ofStateValues vs) s' ∧ ¬Close settings.loop_tol.outer s.temp s'.temp ∧
      Engine.runLoop env U c settings (fuel + 1) s =
        ((Engine.runLoop env U c settings fuel s').1,
          s :: (Engine.runLoop env U c settings fuel s').2)) ∨
    (∃ e, Engine.inner env U c settings s = .error (.err e) ∧
      Engine.runLoop env U c settings (fuel + 1) s = (.error (.err .InnerLoop), [s])) ∨
    (∃ p, Engine.inner env U c settings s = .error (.panic p) ∧
      Engine.runLoop env U c settings (fuel + 1) s = (.error (.panic p), [s])) ∨
    ∃ vs p, Engine.inner env U c settings s = .ok vs ∧
      (∀ s', ¬Recomputed c s (Values.ofStateValues vs) s') ∧
      Engine.runLoop env U c settings (fuel + 1) s = (.error (.panic p), [s]) := by
  simp only [Engine.runLoop]
  cases hI : Engine.inner env U c settings s with
  | error f =>
    cases f with
    | panic p => exact .inr (.inr (.inr (.inl ⟨p, rfl, rfl⟩)))
    | err e => exact .inr (.inr (.inl ⟨e, rfl, rfl⟩))
  | ok vs =>
    simp only
    cases hU : s.update c (Values.ofStateValues vs) settings.loop_tol.outer with
    | error f =>
      cases f with
      | err e => exact e.elim
      | panic p =>
        refine .inr (.inr (.inr (.inr ⟨vs, p, rfl, fun s' h => ?_, rfl⟩)))
        by_cases hc : Close settings.loop_tol.outer s.temp s'.temp
        · rw [(update_of_recomputed h).1 hc] at hU; cases hU
        · rw [(update_of_recomputed h).2 hc] at hU; cases hU
    | ok r =>
      obtain ⟨s', h1, h2⟩ := update_ok hU
      rcases h2 with ⟨rfl, h2⟩ | ⟨rfl, h2⟩
      · exact .inr (.inl ⟨vs, s', rfl, h1, h2, rfl⟩)
      · exact .inl ⟨vs, s', rfl, h1, h2, rfl⟩

variable {env : Env α} {U : MatrixDecomposition α} {c : Components α} {settings : RunSettings α}
  {start : State α}

theorem visited_unique {n : Nat} {s s' : State α} (h : Visited env U c settings start n s)
    (h' : Visited env U c settings start n s') : s = s' := by
  induction h generalizing s' with
  | start => cases h'; rfl
  | next hs h1 h2 h3 ih =>
    cases h' with
    | next hs' h1' h2' h3' =>
      have := ih hs'
      subst this
      rw [h1] at h1'; cases h1'
      exact recomputed_unique h2 h2'

theorem runLoop_reach {n : Nat} {s : State α} (h : Visited env U c settings start n s) (m : Nat) :
    (Engine.runLoop env U c settings (n + m) start).1 = (Engine.runLoop env U c settings m s).1 := by
  induction h generalizing m with
  | start => simp
  | @next n s s' vs hs h1 h2 h3 ih =>
    rw [show n + 1 + m = n + (m + 1) by omega, ih]
    rcases runLoop_succ env U c settings m s with
      ⟨vs', t, g1, g2, g3, -⟩ | ⟨vs', t, g1, g2, g3, g4⟩ | ⟨e, g1, -⟩ | ⟨p, g1, -⟩ | ⟨vs', p, g1, g2, -⟩
    all_goals rw [h1] at g1; cases g1
    · obtain rfl := recomputed_unique h2 g2; exact absurd g3 h3
    · obtain rfl := recomputed_unique h2 g2; rw [g4]
    · exact absurd h2 (g2 _)

/-- The four ways the loop can end, given where it started. -/
theorem runLoop_cases (k fuel : Nat) (s : State α) (hs : Visited env U c settings start k s) :
    (∃ n s' vs s'', n < k + fuel ∧ Visited env U c settings start n s' ∧
      Engine.inner env U c settings s' = .ok vs ∧ Recomputed c s' (Values.ofStateValues vs) s'' ∧
      Close settings.loop_tol.outer s'.temp s''.temp ∧
      (Engine.runLoop env U c settings fuel s).1 = .ok ⟨c, s', Values.ofStateValues vs⟩) ∨
    (∃ s', Visited env U c settings start (k + fuel) s' ∧
      (Engine.runLoop env U c settings fuel s).1 = .error (.err .OuterLoop)) ∨
    (∃ n s' e, n < k + fuel ∧ Visited env U c settings start n s' ∧
      Engine.inner env U c settings s' = .error (.err e) ∧
      (Engine.runLoop env U c settings fuel s).1 = .error (.err .InnerLoop)) ∨
    ∃ n s' p, n < k + fuel ∧ Visited env U c settings start n s' ∧
      (Engine.inner env U c settings s' = .error (.panic p) ∨
        ∃ vs, Engine.inner env U c settings s' = .ok vs ∧
          ∀ s'', ¬Recomputed c s' (Values.ofStateValues vs) s'') ∧
      (Engine.runLoop env U c settings fuel s).1 = .error (.panic p) := by
  induction fuel generalizing k s with
  | zero => exact .inr (.inl ⟨s, hs, rfl⟩)
  | succ fuel ih =>
    rcases runLoop_succ env U c settings fuel s with
      ⟨vs, t, g1, g2, g3, g4⟩ | ⟨vs, t, g1, g2, g3, g4⟩ | ⟨e, g1, g2⟩ | ⟨p, g1, g2⟩ |
      ⟨vs, p, g1, g2, g3⟩
    · exact .inl ⟨k, s, vs, t, by omega, hs, g1, g2, g3, by rw [g4]⟩
    · rw [g4, show k + (fuel + 1) = k + 1 + fuel by omega]
      exact ih (k + 1) t (.next hs g1 g2 g3)
    · exact .inr (.inr (.inl ⟨k, s, e, by omega, hs, g1, by rw [g2]⟩))
    · exact .inr (.inr (.inr ⟨k, s, p, by omega, hs, .inl g1, by rw [g2]⟩))
    · exact .inr (.inr (.inr ⟨k, s, p, by omega, hs, .inr ⟨vs, g1, g2⟩, by rw [g3]⟩))

end

section
variable {α : Type} [Scalar α] (env : Env α) (U : MatrixDecomposition α) (c : Components α)
  (fluid : Fluid α) (inputs : RunInputs α) (settings : RunSettings α)

/-- **C36.** `Engine::run` returns an engine exactly when, in one of the first `max_iters.outer` states
of the outer sequence, the inner solve succeeds and recomputing from its values leaves all five
temperatures within the outer tolerance.  The returned engine has the components given, *that* state,
and the values of that inner solve. -/
theorem C36_ok_iff (e : Engine α) :
    Engine.run env U c fluid inputs settings = .ok e ↔
      ∃ n vs s', n < settings.max_iters.outer ∧
        Visited env U c settings (State.new_hint c fluid inputs) n e.state ∧
        Engine.inner env U c settings e.state = .ok vs ∧ e.values = Values.ofStateValues vs ∧
        e.components = c ∧ Recomputed c e.state e.values s' ∧
        Close settings.loop_tol.outer e.state.temp s'.temp := by
  unfold Engine.run Engine.runLogged
  constructor
  · intro h
    rcases runLoop_cases (start := State.new_hint c fluid inputs) 0 settings.max_iters.outer _ .start
      with ⟨n, s', vs, s'', h1, h2, h3, h4, h5, h6⟩ | ⟨s', h1, h2⟩ | ⟨n, s', e', h1, h2, h3, h4⟩ |
        ⟨n, s', p, h1, h2, h3, h4⟩
    · rw [h6] at h; cases h
      exact ⟨n, vs, s'', by omega, h2, h3, rfl, rfl, h4, h5⟩
    · rw [h2] at h; cases h
    · rw [h4] at h; cases h
    · rw [h4] at h; cases h
  · rintro ⟨n, vs, s', h1, h2, h3, h4, h5, h6, h7⟩
    obtain ⟨m, hm⟩ : ∃ m, settings.max_iters.outer = n + (m + 1) :=
      ⟨settings.max_iters.outer - n - 1, by omega⟩
    rw [hm, runLoop_reach h2]
    rw [h4] at h6
    rcases runLoop_succ env U c settings m e.state with
      ⟨vs', t, g1, g2, g3, g4⟩ | ⟨vs', t, g1, g2, g3, g4⟩ | ⟨e, g1, -⟩ | ⟨p, g1, -⟩ | ⟨vs', p, g1, g2, -⟩
    all_goals rw [h3] at g1; cases g1
    · rw [g4, ← h4, ← h5]
    · obtain rfl := recomputed_unique h6 g2; exact absurd h7 g3
    · exact absurd h6 (g2 _)

/-- **C36**, consequence in terms of the inner specification: the returned values are the series of a
cycle that closes, integrated with the temperatures and pressure of the returned state. -/
theorem C36_values_are_steady (e : Engine α) (h : Engine.run env U c fluid inputs settings = .ok e) :
    ∃ n ic vs, n < settings.max_iters.inner ∧
      Substituted env (Run.new U c e.state).toCycle (innerRequest settings e.state) n ic ∧
      SteadyAt env (Run.new U c e.state).toCycle (innerRequest settings e.state) ic vs ∧
      e.values = Values.ofStateValues vs ∧ ic.P = e.state.pres.t_zero := by
  obtain ⟨n, vs, s', -, -, h3, h4, -⟩ := (C36_ok_iff env U c fluid inputs settings e).1 h
  obtain ⟨m, ic, g1, g2, g3⟩ := (C33_ok_iff _ _ _ _).1 h3
  refine ⟨m, ic, vs, g1, g2, g3, h4, ?_⟩
  cases g2 <;> rfl

/-! ## C37 -/

theorem visited_invariant {n : Nat} {s : State α}
    (h : Visited env U c settings (State.new_hint c fluid inputs) n s) :
    s.fluid = fluid ∧ s.temp.sink = inputs.temp_sink ∧ s.temp.source = inputs.temp_source ∧
      s.regen_imbalance.val = 0.0 := by
  induction h with
  | start => exact ⟨rfl, rfl, rfl, rfl⟩
  | next _ _ h2 _ ih =>
    exact ⟨h2.fluid.trans ih.1, h2.sink.trans ih.2.1, h2.source.trans ih.2.2.1,
      by rw [h2.imbalance]; exact ih.2.2.2⟩

theorem inner_head (ho : ReportsStart env.ode) {s : State α}
    {vs : List (state_equations.Values α)} (h : Engine.inner env U c settings s = .ok vs) :
    ∃ v, vs.head? = some v ∧ v.time = 0.0 ∧ v.conditions.P = s.pres.t_zero := by
  obtain ⟨m, ic, -, g2, -, pts, g3, g4⟩ := (C33_ok_iff _ _ _ _).1 h
  obtain ⟨dx, log, xs, ys, -, h2, -, h4, h5⟩ := (C32_integration_ok_iff _ _ _ _ _ _).1 g3
  obtain ⟨hx, hy⟩ := ho _ _ _ _ _ _ _ _ _ h2
  obtain ⟨h6, -⟩ := C32_values_self_consistent _ _ _ g4
  have hx' : xs ≠ [] := by rintro rfl; simp at hx
  have hy' : ys ≠ [] := by rintro rfl; simp at hy
  have hp : 0 < pts.length := by
    rw [h4]
    have := List.length_pos_iff.2 hx'
    have := List.length_pos_iff.2 hy'
    omega
  have hv : 0 < vs.length := by rw [← h6] at hp; simpa using hp
  refine ⟨vs[0], by rw [List.head?_eq_getElem?, List.getElem?_eq_getElem hv], ?_⟩
  have hp0 : pts[0]? = some ⟨vs[0].time, vs[0].conditions⟩ := by
    rw [← h6]; simp [hv]
  obtain ⟨k1, k2⟩ := h5 0 _ hp0
  rw [List.head?_eq_getElem?] at hx hy
  rw [hx] at k1; rw [hy] at k2
  simp only [Option.some.injEq] at k1 k2
  have hic : ic.P = s.pres.t_zero := by cases g2 <;> rfl
  refine ⟨k1.symm, ?_⟩
  have := congrArg V3.y0 k2
  simp only [stateVector] at this
  rw [← hic, this]

theorem pressure_t_zero {v : Values α} {p : Pressure α} (h : Pressure.from_values v = .ok p) :
    v.P.head? = some p.t_zero := by
  unfold Pressure.from_values at h
  cases h1 : v.final_time with
  | error e => rw [h1] at h; cases h
  | ok t =>
    cases h2 : v.P.head? with
    | none => rw [h1, h2] at h; cases h
    | some a =>
      cases h3 : maxBy v.P with
      | none => rw [h1, h2, h3] at h; cases h
      | some b =>
        cases h4 : minBy v.P with
        | none => rw [h1, h2, h3, h4] at h; cases h
        | some d => rw [h1, h2, h3, h4] at h; cases h; rfl

omit [Scalar α] in
theorem head_P (vs : List (state_equations.Values α)) :
    (Values.ofStateValues vs).P.head? = vs.head?.map fun v => v.conditions.P := by
  rw [ofStateValues_eq]; simp

theorem visited_pressure (ho : ReportsStart env.ode) {n : Nat} {s : State α}
    (h : Visited env U c settings (State.new_hint c fluid inputs) n s) :
    s.pres.t_zero = inputs.pres_zero := by
  induction h with
  | start => rfl
  | next hs h1 h2 h3 ih =>
    obtain ⟨v, g1, -, g3⟩ := inner_head env U c settings ho h1
    have := pressure_t_zero h2.pres
    rw [head_P, g1] at this
    simp only [Option.map_some, Option.some.injEq] at this
    rw [← this, g3, ih]

/-- **C37.** In every state visited by the run, sink, source, fluid and (zero) regenerator imbalance are
those supplied; and if the integrator reports its initial condition first, so is the pressure at time
zero. -/
theorem C37_visited_invariant (n : Nat) (s : State α)
    (h : Visited env U c settings (State.new_hint c fluid inputs) n s) :
    s.fluid = fluid ∧ s.temp.sink = inputs.temp_sink ∧ s.temp.source = inputs.temp_source ∧
      s.regen_imbalance.val = 0.0 ∧ (ReportsStart env.ode → s.pres.t_zero = inputs.pres_zero) := by
  obtain ⟨h1, h2, h3, h4⟩ := visited_invariant env U c fluid inputs settings h
  exact ⟨h1, h2, h3, h4, fun ho => visited_pressure env U c fluid inputs settings ho h⟩

/-- **C37**, every state handed to the inner solve is a member of the outer sequence, in order. -/
theorem C37_log_is_the_sequence (n : Nat) (s : State α)
    (h : (Engine.runLogged env U c fluid inputs settings).2[n]? = some s) :
    Visited env U c settings (State.new_hint c fluid inputs) n s := by
  have key : ∀ fuel k s0, Visited env U c settings (State.new_hint c fluid inputs) k s0 →
      ∀ n s, (Engine.runLoop env U c settings fuel s0).2[n]? = some s →
      Visited env U c settings (State.new_hint c fluid inputs) (k + n) s := by
    intro fuel
    induction fuel with
    | zero => intro k s0 _ n s h; simp [Engine.runLoop] at h
    | succ fuel ih =>
      intro k s0 h0 n s h
      rcases runLoop_succ env U c settings fuel s0 with
        ⟨vs, t, g1, g2, g3, g4⟩ | ⟨vs, t, g1, g2, g3, g4⟩ | ⟨e, g1, g4⟩ | ⟨p, g1, g4⟩ |
        ⟨vs, p, g1, g2, g4⟩ <;> rw [g4] at h <;> cases n with
        | zero => simp at h; subst h; simpa using h0
        | succ n => first
          | (simp at h; done)
          | (simp at h
             have := ih (k + 1) t (.next h0 g1 g2 g3) n s h
             rwa [show k + (n + 1) = k + 1 + n by omega])
  simpa using key _ 0 _ .start n s h

/-- **C37** for the returned engine. -/
theorem C37_returned_engine (e : Engine α) (h : Engine.run env U c fluid inputs settings = .ok e) :
    e.components = c ∧ e.state.fluid = fluid ∧ e.state.temp.sink = inputs.temp_sink ∧
      e.state.temp.source = inputs.temp_source ∧ e.state.regen_imbalance.val = 0.0 ∧
      (ReportsStart env.ode → e.state.pres.t_zero = inputs.pres_zero ∧
        e.values.P.head? = some inputs.pres_zero ∧ e.values.time.head? = some 0.0) := by
  obtain ⟨n, vs, s', -, h2, h3, h4, h5, -⟩ := (C36_ok_iff env U c fluid inputs settings e).1 h
  obtain ⟨g1, g2, g3, g4, g5⟩ := C37_visited_invariant env U c fluid inputs settings n _ h2
  refine ⟨h5, g1, g2, g3, g4, fun ho => ⟨g5 ho, ?_, ?_⟩⟩
  · obtain ⟨v, k1, -, k3⟩ := inner_head env U c settings ho h3
    rw [h4, head_P, k1]
    simp [k3, g5 ho]
  · obtain ⟨v, k1, k2, -⟩ := inner_head env U c settings ho h3
    rw [h4, ofStateValues_eq]
    simp [k1, k2]

/-! ## C38 -/

/-- **C38**, `OuterLoop`: exactly when `max_iters.outer` outer iterations complete without
convergence. -/
theorem C38_outer_loop_iff :
    Engine.run env U c fluid inputs settings = .error (.err .OuterLoop) ↔
      ∃ s, Visited env U c settings (State.new_hint c fluid inputs) settings.max_iters.outer s := by
  unfold Engine.run Engine.runLogged
  constructor
  · intro h
    rcases runLoop_cases (start := State.new_hint c fluid inputs) 0 settings.max_iters.outer _ .start
      with ⟨n, s', vs, s'', h1, h2, h3, h4, h5, h6⟩ | ⟨s', h1, h2⟩ | ⟨n, s', e', h1, h2, h3, h4⟩ |
        ⟨n, s', p, h1, h2, h3, h4⟩
    · rw [h6] at h; cases h
    · exact ⟨s', by simpa using h1⟩
    · rw [h4] at h; cases h
    · rw [h4] at h; cases h
  · rintro ⟨s, h⟩
    have := runLoop_reach h 0
    rw [Nat.add_zero] at this
    rw [this]; rfl

/-- **C38**, `InnerLoop`: exactly when the inner solve of some outer iteration returned an error. -/
theorem C38_inner_loop_iff :
    Engine.run env U c fluid inputs settings = .error (.err .InnerLoop) ↔
      ∃ n s e, n < settings.max_iters.outer ∧
        Visited env U c settings (State.new_hint c fluid inputs) n s ∧
        Engine.inner env U c settings s = .error (.err e) := by
  unfold Engine.run Engine.runLogged
  constructor
  · intro h
    rcases runLoop_cases (start := State.new_hint c fluid inputs) 0 settings.max_iters.outer _ .start
      with ⟨n, s', vs, s'', h1, h2, h3, h4, h5, h6⟩ | ⟨s', h1, h2⟩ | ⟨n, s', e', h1, h2, h3, h4⟩ |
        ⟨n, s', p, h1, h2, h3, h4⟩
    · rw [h6] at h; cases h
    · rw [h2] at h; cases h
    · exact ⟨n, s', e', by omega, h2, h3⟩
    · rw [h4] at h; cases h
  · rintro ⟨n, s, e, h1, h2, h3⟩
    obtain ⟨m, hm⟩ : ∃ m, settings.max_iters.outer = n + (m + 1) :=
      ⟨settings.max_iters.outer - n - 1, by omega⟩
    rw [hm, runLoop_reach h2]
    simp only [Engine.runLoop, h3]

/-- **C38**, work: one inner solve per logged state, at most `max_iters.outer` of them; with a limit of
zero the run fails at once. -/
theorem C38_work_bound :
    (Engine.runLogged env U c fluid inputs settings).2.length ≤ settings.max_iters.outer ∧
      (settings.max_iters.outer = 0 →
        Engine.runLogged env U c fluid inputs settings = (.error (.err .OuterLoop), [])) := by
  constructor
  · have key : ∀ fuel s, (Engine.runLoop env U c settings fuel s).2.length ≤ fuel := by
      intro fuel
      induction fuel with
      | zero => intro s; simp [Engine.runLoop]
      | succ fuel ih =>
        intro s
        rcases runLoop_succ env U c settings fuel s with
          ⟨vs, t, g1, g2, g3, g4⟩ | ⟨vs, t, g1, g2, g3, g4⟩ | ⟨e, g1, g4⟩ | ⟨p, g1, g4⟩ |
          ⟨vs, p, g1, g2, g4⟩ <;> rw [g4] <;> simp
        exact ih _
    exact key _ _
  · intro h0
    unfold Engine.runLogged
    rw [h0]; rfl

/-- **C38**, monotone: raising the outer limit never changes a successful result, nor the inner solves
done to get it. -/
theorem C38_monotone (m : Nat) (hm : settings.max_iters.outer ≤ m) (e : Engine α)
    (h : Engine.run env U c fluid inputs settings = .ok e) :
    Engine.runLogged env U c fluid inputs
        { settings with max_iters := { settings.max_iters with outer := m } }
      = Engine.runLogged env U c fluid inputs settings := by
  have step : ∀ fuel s, Engine.runLoop env U c
        { settings with max_iters := { settings.max_iters with outer := m } } fuel s
      = Engine.runLoop env U c settings fuel s := by
    intro fuel
    induction fuel with
    | zero => intro s; rfl
    | succ fuel ih =>
      intro s
      have hi : Engine.inner env U c
          { settings with max_iters := { settings.max_iters with outer := m } } s
        = Engine.inner env U c settings s := rfl
      simp only [Engine.runLoop, ih, hi]
  have key : ∀ fuel fuel' s, fuel ≤ fuel' → (Engine.runLoop env U c settings fuel s).1 = .ok e →
      Engine.runLoop env U c settings fuel' s = Engine.runLoop env U c settings fuel s := by
    intro fuel
    induction fuel with
    | zero => intro fuel' s _ h; simp [Engine.runLoop] at h
    | succ fuel ih =>
      intro fuel' s hle h
      obtain ⟨g, rfl⟩ : ∃ g, fuel' = g + 1 := ⟨fuel' - 1, by omega⟩
      rcases runLoop_succ env U c settings fuel s with
        ⟨vs, t, g1, g2, g3, g4⟩ | ⟨vs, t, g1, g2, g3, g4⟩ | ⟨e', g1, g4⟩ | ⟨p, g1, g4⟩ |
        ⟨vs, p, g1, g2, g4⟩ <;> rw [g4] at h ⊢
      · rcases runLoop_succ env U c settings g s with
          ⟨vs', t', k1, k2, k3, k4⟩ | ⟨vs', t', k1, k2, k3, k4⟩ | ⟨e', k1, k4⟩ | ⟨p, k1, k4⟩ |
          ⟨vs', p, k1, k2, k4⟩
        all_goals rw [g1] at k1; cases k1
        · exact k4
        · obtain rfl := recomputed_unique g2 k2; exact absurd g3 k3
        · exact absurd g2 (k2 _)
      · rcases runLoop_succ env U c settings g s with
          ⟨vs', t', k1, k2, k3, k4⟩ | ⟨vs', t', k1, k2, k3, k4⟩ | ⟨e', k1, k4⟩ | ⟨p, k1, k4⟩ |
          ⟨vs', p, k1, k2, k4⟩
        all_goals rw [g1] at k1; cases k1
        · obtain rfl := recomputed_unique g2 k2; exact absurd k3 g3
        · obtain rfl := recomputed_unique g2 k2
          rw [k4, ih g _ (by omega) h]
        · exact absurd g2 (k2 _)
      all_goals cases h
  unfold Engine.runLogged
  rw [step]
  exact key _ _ _ hm h

end
end Sett
