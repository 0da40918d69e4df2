import Verif.Spec.Settle
import Verif.Props.KinRuns
import Verif.Props.NoStroke
import Mathlib.Topology.MetricSpace.Basic

/-! # C101: engines with short strokes run, whatever their exchangers -/

namespace Sett

open Spec dopri5 state_equations

/-! ## Temperatures -/

/-- Temperatures of an engine with given approaches. -/
noncomputable abbrev restTemp (i : RunInputs ℝ) (a : Approach ℝ) : Temperatures ℝ :=
  Temperatures.from_approach i.temp_sink i.temp_source a ⟨0.0⟩

theorem restTemp_eq (i : RunInputs ℝ) (a : Approach ℝ) :
    (restTemp i a).chx = i.temp_sink + a.chx ∧ (restTemp i a).hhx = i.temp_source - a.hhx ∧
    (restTemp i a).regen.cold = i.temp_sink + a.chx + a.regen ∧
    (restTemp i a).regen.hot = i.temp_source - a.hhx - a.regen ∧
    (restTemp i a).regen.avg = (i.temp_source - a.hhx - 1 / 2 * a.regen - (i.temp_sink + a.chx) - 1 / 2 * a.regen)
      / Real.log ((i.temp_source - a.hhx - 1 / 2 * a.regen) / (i.temp_sink + a.chx + 1 / 2 * a.regen)) := by
  simp only [restTemp, Temperatures.from_approach, RegenImbalance.regen_temp]
  scalars
  simp

theorem restTemp_avg_pos {i : RunInputs ℝ} {a : Approach ℝ} (h : WarmApproach i a) : 0 < (restTemp i a).regen.avg := by
  have e := C21_average_between ⟨0.0⟩ (i.temp_sink + a.chx) (i.temp_source - a.hhx) a.regen
  obtain ⟨e1, e2, e3, e4, -⟩ := restTemp_eq i a
  replace e3 : (RegenImbalance.regen_temp (⟨0.0⟩ : RegenImbalance ℝ) (i.temp_sink + a.chx) (i.temp_source - a.hhx) a.regen).cold
    = _ := e3
  replace e4 : (RegenImbalance.regen_temp (⟨0.0⟩ : RegenImbalance ℝ) (i.temp_sink + a.chx) (i.temp_source - a.hhx) a.regen).hot
    = _ := e4
  simp only [effectiveEnds, e3, e4, add_sub_cancel_left, sub_sub_cancel] at e
  have := (e h.cold_end h.hot_end h.differ).1
  exact lt_trans (lt_min h.cold_end h.hot_end) this

theorem restTemp_near {i : RunInputs ℝ} {a : Approach ℝ} (h : WarmApproach i a) {ε : ℝ} (hε : 0 < ε) :
    ∃ η, 0 < η ∧ ∀ a' : Approach ℝ, |a'.chx - a.chx| ≤ η → |a'.regen - a.regen| ≤ η → |a'.hhx - a.hhx| ≤ η →
      tempGap (restTemp i a') (restTemp i a) ≤ ε := by
  have hc : ContinuousAt (fun p : ℝ × ℝ × ℝ => (i.temp_source - p.2.2 - 1 / 2 * p.2.1 - (i.temp_sink + p.1) - 1 / 2 * p.2.1)
      / Real.log ((i.temp_source - p.2.2 - 1 / 2 * p.2.1) / (i.temp_sink + p.1 + 1 / 2 * p.2.1))) (a.chx, a.regen, a.hhx) := by
    have h1 : 0 < i.temp_sink + a.chx + 1 / 2 * a.regen := by have := h.cold_end; linarith
    have h2 : 0 < i.temp_source - a.hhx - 1 / 2 * a.regen := by have := h.hot_end; linarith
    have h3 : i.temp_source - a.hhx - 1 / 2 * a.regen ≠ i.temp_sink + a.chx + 1 / 2 * a.regen := by
      intro e
      exact h.differ (by linarith)
    refine ContinuousAt.div (by fun_prop) (ContinuousAt.log (ContinuousAt.div (by fun_prop) (by fun_prop) h1.ne')
      (div_pos h2 h1).ne') ?_
    refine Real.log_ne_zero_of_pos_of_ne_one (div_pos h2 h1) ?_
    rw [ne_eq, div_eq_one_iff_eq h1.ne']
    exact h3
  obtain ⟨η, hη, hh⟩ := Metric.continuousAt_iff.1 hc (ε / 2) (half_pos hε)
  refine ⟨min (η / 2) (ε / 16), by positivity, ?_⟩
  intro a' d1 d2 d3
  have l1 := d1.trans (min_le_left _ _); have l2 := d2.trans (min_le_left _ _); have l3 := d3.trans (min_le_left _ _)
  replace d1 := d1.trans (min_le_right _ _); replace d2 := d2.trans (min_le_right _ _)
  replace d3 := d3.trans (min_le_right _ _)
  have hav := @hh (a'.chx, a'.regen, a'.hhx) (by
    simp only [Prod.dist_eq, Real.dist_eq]
    exact max_lt (by linarith) (max_lt (by linarith) (by linarith)))
  simp only [Real.dist_eq] at hav
  obtain ⟨e1, e2, e3, e4, e5⟩ := restTemp_eq i a
  obtain ⟨f1, f2, f3, f4, f5⟩ := restTemp_eq i a'
  unfold tempGap
  rw [e1, e2, e3, e4, e5, f1, f2, f3, f4, f5]
  have t1 : |i.temp_sink + a'.chx - (i.temp_sink + a.chx)| ≤ ε / 16 := by
    rw [show i.temp_sink + a'.chx - (i.temp_sink + a.chx) = a'.chx - a.chx by ring]; exact d1
  have t2 : |i.temp_source - a'.hhx - (i.temp_source - a.hhx)| ≤ ε / 16 := by
    rw [show i.temp_source - a'.hhx - (i.temp_source - a.hhx) = -(a'.hhx - a.hhx) by ring, abs_neg]; exact d3
  have t3 : |i.temp_sink + a'.chx + a'.regen - (i.temp_sink + a.chx + a.regen)| ≤ ε / 8 := by
    rw [show i.temp_sink + a'.chx + a'.regen - (i.temp_sink + a.chx + a.regen) = (a'.chx - a.chx) + (a'.regen - a.regen) by ring]
    refine (abs_add_le _ _).trans (by linarith)
  have t4 : |i.temp_source - a'.hhx - a'.regen - (i.temp_source - a.hhx - a.regen)| ≤ ε / 8 := by
    rw [show i.temp_source - a'.hhx - a'.regen - (i.temp_source - a.hhx - a.regen)
      = -((a'.hhx - a.hhx) + (a'.regen - a.regen)) by ring, abs_neg]
    refine (abs_add_le _ _).trans (by linarith)
  linarith

theorem within_near {tol : ConvergenceTolerance ℝ} {x y z ε μ : ℝ} (hμ : 0 < μ) (hz : μ ≤ |z|) (hx : |x - z| ≤ ε)
    (hy : |y - z| ≤ ε) (h1 : 2 * ε < tol.abs) (h2 : ε ≤ μ / 2) (h3 : 4 * ε < tol.rel * μ) : Within tol x y := by
  have hd : |y - x| ≤ 2 * ε := by
    rw [show y - x = (y - z) - (x - z) by ring]
    exact (abs_sub _ _).trans (by linarith)
  have hx' : μ / 2 ≤ |x| := by
    have := abs_sub_abs_le_abs_sub z x
    rw [abs_sub_comm] at hx
    linarith
  refine ⟨(real_lt _ _).2 ?_, (real_lt _ _).2 ?_⟩
  · rw [real_abs]; linarith
  · rw [real_abs, abs_div, div_lt_iff₀ (by linarith)]
    have h4 : 0 ≤ ε := (abs_nonneg _).trans hx
    have h5 : 0 < tol.rel := by
      by_contra h
      have := mul_nonpos_of_nonpos_of_nonneg (not_lt.1 h) hμ.le
      linarith
    have := mul_le_mul_of_nonneg_left hx' h5.le
    linarith

/-- Two sets of temperatures close enough to the same third one pass the stopping test. -/
theorem close_near {tol : ConvergenceTolerance ℝ} (ha : 0 < tol.abs) (hr : 0 < tol.rel) {i : RunInputs ℝ} {a : Approach ℝ}
    (h : WarmApproach i a) : ∃ ε, 0 < ε ∧ ∀ T T' : Temperatures ℝ, tempGap T (restTemp i a) ≤ ε →
      tempGap T' (restTemp i a) ≤ ε → Close tol T T' := by
  obtain ⟨e1, e2, e3, e4, -⟩ := restTemp_eq i a
  have p1 : 0 < |(restTemp i a).chx| := by rw [e1]; exact abs_pos.2 (by linarith [h.chx])
  have p2 : 0 < |(restTemp i a).hhx| := by rw [e2]; exact abs_pos.2 (by linarith [h.hhx])
  have p3 : 0 < |(restTemp i a).regen.cold| := by rw [e3]; exact abs_pos.2 h.cold_side
  have p4 : 0 < |(restTemp i a).regen.hot| := by rw [e4]; exact abs_pos.2 h.hot_side
  have p5 : 0 < |(restTemp i a).regen.avg| := abs_pos.2 (restTemp_avg_pos h).ne'
  obtain ⟨μ, hμ, m1, m2, m3, m4, m5⟩ : ∃ μ : ℝ, 0 < μ ∧ μ ≤ |(restTemp i a).chx| ∧ μ ≤ |(restTemp i a).hhx| ∧
      μ ≤ |(restTemp i a).regen.cold| ∧ μ ≤ |(restTemp i a).regen.hot| ∧ μ ≤ |(restTemp i a).regen.avg| := by
    refine ⟨min |(restTemp i a).chx| (min |(restTemp i a).hhx| (min |(restTemp i a).regen.cold|
      (min |(restTemp i a).regen.hot| |(restTemp i a).regen.avg|))), by positivity, ?_, ?_, ?_, ?_, ?_⟩
    all_goals simp
  refine ⟨min (tol.abs / 3) (min (μ / 2) (tol.rel * μ / 5)), by positivity, ?_⟩
  intro T T' g g'
  set ε := min (tol.abs / 3) (min (μ / 2) (tol.rel * μ / 5)) with hε
  have q1 : ε ≤ tol.abs / 3 := min_le_left _ _
  have q2 : ε ≤ μ / 2 := (min_le_right _ _).trans (min_le_left _ _)
  have q3 : ε ≤ tol.rel * μ / 5 := (min_le_right _ _).trans (min_le_right _ _)
  have q4 : 0 < tol.rel * μ := by positivity
  unfold tempGap at g g'
  have z1 := abs_nonneg (T.chx - (restTemp i a).chx); have z2 := abs_nonneg (T.hhx - (restTemp i a).hhx)
  have z3 := abs_nonneg (T.regen.cold - (restTemp i a).regen.cold)
  have z4 := abs_nonneg (T.regen.avg - (restTemp i a).regen.avg)
  have z5 := abs_nonneg (T.regen.hot - (restTemp i a).regen.hot)
  have y1 := abs_nonneg (T'.chx - (restTemp i a).chx); have y2 := abs_nonneg (T'.hhx - (restTemp i a).hhx)
  have y3 := abs_nonneg (T'.regen.cold - (restTemp i a).regen.cold)
  have y4 := abs_nonneg (T'.regen.avg - (restTemp i a).regen.avg)
  have y5 := abs_nonneg (T'.regen.hot - (restTemp i a).regen.hot)
  exact ⟨within_near hμ m1 (by linarith) (by linarith) (by linarith) q2 (by linarith),
    within_near hμ m2 (by linarith) (by linarith) (by linarith) q2 (by linarith),
    within_near hμ m3 (by linarith) (by linarith) (by linarith) q2 (by linarith),
    within_near hμ m5 (by linarith) (by linarith) (by linarith) q2 (by linarith),
    within_near hμ m4 (by linarith) (by linarith) (by linarith) q2 (by linarith)⟩

/-! ## Averages -/

theorem mean_small {x y : List ℝ} {tf δ : ℝ} (hg : CycleGrid x tf) (hl : y.length = x.length) (hb : ∀ a ∈ y, |a| ≤ δ) :
    |trapezoid x y / tf| ≤ δ := by
  obtain ⟨ts, rfl, hlast⟩ := hg.cons
  obtain ⟨b1, b2⟩ := average_bounds 0 ts y hl hg.increasing (-δ) δ (fun a ha => (abs_le.1 (hb a ha)).1)
    (fun a ha => (abs_le.1 (hb a ha)).2)
  rw [hlast, sub_zero] at b1 b2
  rw [abs_le, le_div_iff₀ hg.positive, div_le_iff₀ hg.positive]
  exact ⟨b1, b2⟩

theorem grid_even {n : Nat} (hn : 2 ≤ n) {h : ℝ} (hh : 0 < h) :
    CycleGrid ((List.range n).map fun k : Nat => k * h) (((n : ℝ) - 1) * h) := by
  obtain ⟨m, rfl⟩ : ∃ m, n = m + 2 := ⟨n - 2, by omega⟩
  refine ⟨?_, ?_, ?_, ?_⟩
  · simp [List.range_succ_eq_map]
  · rw [List.range_succ, List.map_append, List.map_singleton, List.getLast?_concat]
    congr 1
    push_cast
    ring
  · refine List.Pairwise.isChain ?_
    rw [List.pairwise_map]
    refine List.pairwise_lt_range.imp fun {a b} hab => ?_
    have : (a : ℝ) ≤ b := by exact_mod_cast hab.le
    exact mul_le_mul_of_nonneg_right this hh.le
  · push_cast
    have : (0 : ℝ) ≤ m := by positivity
    have : 0 < (m : ℝ) + 2 - 1 := by linarith
    positivity

/-- Averages of a cycle in which nothing is far from the exchanger temperatures and all flows are small. -/
theorem flows_small {vs : List (state_equations.Values ℝ)} {tf δ : ℝ} (hg : CycleGrid (vs.map (·.time)) tf) (hδ : 0 ≤ δ)
    {ic : Conditions ℝ} (hv : ∀ v ∈ vs, Nearby δ ic v.conditions ∧
      solutionGap v.solution ⟨0, 0, 0, 0, 0, 0, 0, 0, 0, 0⟩ ≤ δ) :
    (∀ m, MassFlows.from_values (Values.ofStateValues vs) = .ok m →
      (0 ≤ m.chx ∧ m.chx ≤ δ) ∧ (0 ≤ m.regen ∧ m.regen ≤ δ) ∧ (0 ≤ m.hhx ∧ m.hhx ≤ δ)) ∧
    ∀ R q, HeatFlows.from_values (Values.ofStateValues vs) ic.T_c ic.T_e R = .ok q →
      |q.chx| ≤ δ / |R.comp| + δ ∧ |q.hhx| ≤ δ / |R.exp| + δ := by
  have parts : ∀ v ∈ vs, |v.solution.m_dot_ck| ≤ δ ∧ |v.solution.m_dot_kr| ≤ δ ∧ |v.solution.m_dot_rl| ≤ δ ∧
      |v.solution.m_dot_le| ≤ δ ∧ |v.solution.Q_dot_k| ≤ δ ∧ |v.solution.Q_dot_l| ≤ δ := by
    intro v h
    have h := (hv v h).2
    simp only [solutionGap, sub_zero] at h
    have h0 := abs_nonneg v.solution.m_dot_ck; have h1 := abs_nonneg v.solution.m_dot_kr
    have h2 := abs_nonneg v.solution.m_dot_rl; have h3 := abs_nonneg v.solution.m_dot_le
    have h4 := abs_nonneg v.solution.Q_dot_k; have h5 := abs_nonneg v.solution.Q_dot_r
    have h6 := abs_nonneg v.solution.Q_dot_l; have h7 := abs_nonneg v.solution.dTc_dt
    have h8 := abs_nonneg v.solution.dTe_dt; have h9 := abs_nonneg v.solution.dP_dt
    refine ⟨?_, ?_, ?_, ?_, ?_, ?_⟩ <;> linarith
  have hg' : CycleGrid (Values.ofStateValues vs).time tf := by rw [ofStateValues_eq]; exact hg
  have mean : ∀ f : state_equations.Values ℝ → ℝ, ∀ M, (∀ v ∈ vs, |f v| ≤ M) →
      |trapezoid (vs.map (·.time)) (vs.map f) / tf| ≤ M := by
    intro f M h
    refine mean_small hg (by simp) fun a ha => ?_
    obtain ⟨v, hv, rfl⟩ := List.mem_map.1 ha
    exact h v hv
  constructor
  · intro m hm
    obtain ⟨m1, m2, m3⟩ := massflows_ok hm
    have key : ∀ (f g : state_equations.Values ℝ → ℝ) (x : ℝ), (∀ v ∈ vs, |f v| ≤ δ ∧ |g v| ≤ δ) →
        (Values.ofStateValues vs).m_dot_avg (vs.map f) (vs.map g) = .ok x → 0 ≤ x ∧ x ≤ δ := by
      intro f g x hfg hx
      refine ⟨m_dot_nonneg hg' hx, ?_⟩
      obtain ⟨t, ht, rfl⟩ := m_dot_ok hx
      have : t = tf := by have := hg'.last; rw [ht] at this; exact Option.some.inj this
      subst this
      refine (le_abs_self _).trans (mean_small hg' (by rw [ofStateValues_eq]; simp) fun a ha => ?_)
      obtain ⟨p, hp, rfl⟩ := mem_zipWith ha
      rw [List.zip_map', List.mem_map] at hp
      obtain ⟨v, hv, rfl⟩ := hp
      obtain ⟨b1, b2⟩ := hfg v hv
      simp only
      rw [abs_of_nonneg (by positivity)]
      linarith [abs_add_le (f v) (g v)]
    rw [ofStateValues_eq] at m1 m2 m3 key
    exact ⟨key _ _ _ (fun v hv => ⟨(parts v hv).1, (parts v hv).2.1⟩) m1,
      key _ _ _ (fun v hv => ⟨(parts v hv).2.1, (parts v hv).2.2.1⟩) m2,
      key _ _ _ (fun v hv => ⟨(parts v hv).2.2.1, (parts v hv).2.2.2.1⟩) m3⟩
  · intro R q hq
    rw [heatflows_real _ _ _ _ tf hg'.last] at hq
    cases hq
    rw [ofStateValues_eq]
    simp only [List.map_map]
    refine ⟨(abs_add_le _ _).trans (add_le_add (mean _ _ fun v hv' => ?_) (mean _ _ fun v hv' => (parts v hv').2.2.2.2.1)),
      (abs_add_le _ _).trans (add_le_add (mean _ _ fun v hv' => ?_) (mean _ _ fun v hv' => (parts v hv').2.2.2.2.2))⟩
    · simp only [Function.comp, abs_div]
      exact div_le_div_of_nonneg_right (hv v hv').1.comp_temp (abs_nonneg _)
    · simp only [Function.comp, abs_div, abs_sub_comm ic.T_e]
      exact div_le_div_of_nonneg_right (hv v hv').1.exp_temp (abs_nonneg _)

/-! ## Engines -/

/-- In the first or second iteration of the outer loop, although the run is sane and the gas warm, no gas passes one of the
exchangers on average. -/
def Spec.StandsStill (env : Env ℝ) (U : MatrixDecomposition ℝ) (c : Components ℝ) (settings : RunSettings ℝ)
    (start : State ℝ) : Prop :=
  ∃ k s vs m, k ≤ 1 ∧ Visited env U c settings start k s ∧ Engine.inner env U c settings s = .ok vs ∧
    (SaneRun (Run.new U c s) ∧ ∀ v ∈ vs, Warm v.conditions) ∧ MassFlows.from_values (Values.ofStateValues vs) = .ok m ∧ (m.chx = 0 ∨ m.regen = 0 ∨ m.hhx = 0)

section
variable {U : MatrixDecomposition ℝ} {c : Components ℝ} {n : GasName} {inputs : RunInputs ℝ} {a : Approach ℝ}

/-- **C101**, engines.  Take an engine whose exchangers settle as the flows vanish, with no parasitic heat, and with sane
temperatures both for the approaches assumed initially and for those at rest; limits, and positive tolerances.  There is a
bound on speeds and accelerations of the pistons up to which the run succeeds, whatever the drive, within two iterations of
the outer loop, and reports a cycle in which the pressure departs from that at time zero by no more than the inner
tolerance; unless no gas passes one of the exchangers on average. -/
theorem C101_engine (hT : Sound U) (hc : Complete U) (hset : Settling c a) (h0 : WarmApproach inputs (initialApproach c))
    (ha : WarmApproach inputs a) (hvk : 0 ≤ c.chx.volume) (hvr : 0 ≤ c.regen.volume) (hvl : 0 ≤ c.hhx.volume)
    (hnorm : (IdealGas.new n : IdealGas ℝ).enth inputs.temp_sink inputs.pres_zero
      + (IdealGas.new n : IdealGas ℝ).enth inputs.temp_source inputs.pres_zero ≠ 0)
    (hq : ∀ q, (c.ws.parasitics q).comp.thermal = 0 ∧ (c.ws.parasitics q).exp.thermal = 0) (L : Limits) {d : ℝ} (hd : 0 < d)
    (hin0 : Inside L d ⟨inputs.pres_zero, inputs.temp_sink + c.chx.initial_approach,
      inputs.temp_source - c.hhx.initial_approach⟩)
    (hin : Inside L d ⟨inputs.pres_zero, inputs.temp_sink + a.chx, inputs.temp_source - a.hhx⟩) (settings : RunSettings ℝ)
    (hn : 2 ≤ settings.resolution.toNat) (hrel : 0 ≤ settings.ode_tol.rel) (htol : 0 < leastAllowed settings.ode_tol L)
    (hia : 0 < settings.loop_tol.inner.abs) (hir : 0 < settings.loop_tol.inner.rel) (him : 1 ≤ settings.max_iters.inner)
    (hoa : 0 < settings.loop_tol.outer.abs) (hor : 0 < settings.loop_tol.outer.rel) (hom : 2 ≤ settings.max_iters.outer) :
    ∃ w, 0 < w ∧ ∀ c', Redriven c c' → SlowDrive (firstRun U c' n inputs) L w → 1e-10 ≤ (firstRun U c' n inputs).period →
      (firstRun U c' n inputs).period < 1e6 - 1 →
      ((settings.resolution.toNat : ℝ) - 1) * 1e-14 < (firstRun U c' n inputs).period →
      ∀ (outs : Nat) (env : Env ℝ), env.ode = dopri5.solve outs → settings.resolution.toNat + 2 ≤ outs →
      (∃ e, Engine.run env U c' (IdealGas.new n).toFluid inputs settings = .ok e ∧
        e.values.P.length = settings.resolution.toNat ∧
        ∀ x ∈ e.values.P, |x - inputs.pres_zero| ≤ settings.loop_tol.inner.abs) ∨
      StandsStill env U c' settings (State.new_hint c' (IdealGas.new n).toFluid inputs) := by
  set T0 := restTemp inputs (initialApproach c) with hT0
  set T1 := restTemp inputs a with hT1
  have v0 := restTemp_avg_pos h0
  have v1 := restTemp_avg_pos ha
  rw [← hT0] at v0
  rw [← hT1] at v1
  obtain ⟨x1, x2, x3, x4, -⟩ := restTemp_eq inputs (initialApproach c)
  obtain ⟨y1, y2, y3, y4, -⟩ := restTemp_eq inputs a
  rw [← hT0] at x1 x2 x3 x4
  rw [← hT1] at y1 y2 y3 y4
  obtain ⟨τ, hτ, t1, t2⟩ : ∃ τ : ℝ, 0 < τ ∧ τ ≤ T0.regen.avg ∧ τ ≤ T1.regen.avg / 2 :=
    ⟨min T0.regen.avg (T1.regen.avg / 2), by positivity, min_le_left _ _, min_le_right _ _⟩
  let size (T : Temperatures ℝ) : ℝ := |T.chx| + |T.hhx| + |T.regen.cold| + |T.regen.avg| + |T.regen.hot|
  have size0 : ∀ T, 0 ≤ size T := fun T => by positivity
  have hsize : ∀ T : Temperatures ℝ, |T.chx| ≤ size T ∧ |T.hhx| ≤ size T ∧ |T.regen.cold| ≤ size T ∧ |T.regen.avg| ≤ size T ∧
      |T.regen.hot| ≤ size T := by
    intro T
    have z1 := abs_nonneg T.chx; have z2 := abs_nonneg T.hhx; have z3 := abs_nonneg T.regen.cold
    have z4 := abs_nonneg T.regen.avg; have z5 := abs_nonneg T.regen.hot
    simp only [size]
    refine ⟨?_, ?_, ?_, ?_, ?_⟩ <;> linarith
  obtain ⟨Θ, hΘ⟩ : ∃ Θ, Θ = size T0 + size T1 + 1 := ⟨_, rfl⟩
  have hΘ1 : 1 ≤ Θ := by have := size0 T0; have := size0 T1; linarith
  obtain ⟨ε1, hε1, hclose⟩ := close_near hoa hor ha
  rw [← hT1] at hclose
  obtain ⟨ε, hε, a1, a2, a3, a4⟩ : ∃ ε : ℝ, 0 < ε ∧ ε ≤ ε1 ∧ ε ≤ d / 2 ∧ ε ≤ T1.regen.avg / 2 ∧ ε ≤ 1 := by
    refine ⟨min ε1 (min (d / 2) (min (T1.regen.avg / 2) 1)), by positivity, ?_, ?_, ?_, ?_⟩
    all_goals simp
  obtain ⟨η, hη, hnear⟩ := restTemp_near ha hε
  rw [← hT1] at hnear
  obtain ⟨K, hK0, hKT, hK⟩ : ∃ K : ℝ, 0 < K ∧ 2 * Θ ≤ K ∧ ∀ T, τ ≤ T → T ≤ Θ → (IdealGas.new n : IdealGas ℝ).cp T 0 ≤ K := by
    obtain ⟨M, hM⟩ := (isCompact_Icc (a := τ) (b := Θ)).exists_bound_of_continuousOn (cp_continuous n).continuousOn
    refine ⟨max M (2 * Θ), lt_of_lt_of_le (by linarith) (le_max_right _ _), le_max_right _ _, fun T p q => ?_⟩
    have := hM T ⟨p, q⟩
    rw [Real.norm_eq_abs] at this
    exact (le_abs_self _).trans (this.trans (le_max_left _ _))
  obtain ⟨ηk, pk, hk⟩ := hset.chx η hη
  obtain ⟨ηr, pr, hr⟩ := hset.regen K η hK0 hη
  obtain ⟨ηl, pl, hl⟩ := hset.hhx η hη
  let R := c.ws.thermal_resistance ⟨(State.new_hint c (IdealGas.new n).toFluid inputs).pres⟩
  obtain ⟨δ, hδ, d1, d2, d3, d4, d5, d6⟩ : ∃ δ : ℝ, 0 < δ ∧ δ ≤ d / 2 ∧ δ ≤ settings.loop_tol.inner.abs ∧
      δ ≤ settings.loop_tol.inner.rel ∧ δ / |R.comp| + δ ≤ ηk ∧ δ / |R.exp| + δ ≤ ηl ∧ δ ≤ ηr := by
    have key : ∀ (r x y : ℝ), 0 < x → y ≤ x / (1 / |r| + 1) → y / |r| + y ≤ x := by
      intro r x y hx hy
      rw [le_div_iff₀ (by positivity)] at hy
      calc y / |r| + y = y * (1 / |r| + 1) := by ring
        _ ≤ x := hy
    refine ⟨min (d / 2) (min settings.loop_tol.inner.abs (min settings.loop_tol.inner.rel (min (ηk / (1 / |R.comp| + 1))
      (min (ηl / (1 / |R.exp| + 1)) ηr)))), by positivity, ?_, ?_, ?_, key _ _ _ pk ?_, key _ _ _ pl ?_, ?_⟩
    all_goals simp
  have hqB : NoParasiticHeat (firstRun U c n inputs) := ⟨(hq _).1, (hq _).2⟩
  obtain ⟨w, hw, hsearch⟩ := kin_search (B := firstRun U c n inputs) (n := n) (Θ := Θ) rfl hT hc hqB L hτ hδ htol
  refine ⟨w, hw, ?_⟩
  intro c' hre hslow hp hp' hres outs env ho hout
  set start := State.new_hint c' (IdealGas.new n).toFluid inputs with hstart
  have hfreq : ∀ q, 1 / c'.ws.frequency q = (firstRun U c' n inputs).period := by
    intro q
    show _ = 1.0 / c'.ws.frequency _
    rw [lit_1, hre.frequency q]
  have hfpos : ∀ q, 0 < c'.ws.frequency q := by
    intro q
    have : 0 < 1 / c'.ws.frequency q := by rw [hfreq]; exact lt_of_lt_of_le (by norm_num) hp
    exact one_div_pos.1 this
  have hturn : Turning c' settings.resolution := by
    refine ⟨hfpos, hn, fun q => ?_⟩
    have : ((settings.resolution.toNat : ℝ) - 1) * 1e-14 < 1 / c'.ws.frequency q := by rw [hfreq]; exact hres
    rwa [lt_div_iff₀ (hfpos q)] at this
  -- one iteration of the outer loop
  have step : ∀ k s, Visited env U c' settings start k s → s.pres.t_zero = inputs.pres_zero →
      (τ ≤ s.temp.regen.avg ∧ size s.temp ≤ Θ) → Inside L δ ⟨inputs.pres_zero, s.temp.chx, s.temp.hhx⟩ →
      ∃ vs, Engine.inner env U c' settings s = .ok vs ∧ (SaneRun (Run.new U c' s) ∧ ∀ v ∈ vs, Warm v.conditions) ∧
        vs.length = settings.resolution.toNat ∧ (∀ v ∈ vs, |v.conditions.P - inputs.pres_zero| ≤ δ) ∧ ∀ s', Recomputed c' s (Values.ofStateValues vs) s' →
          s'.pres.t_zero = inputs.pres_zero ∧ (s'.mass_flow.chx = 0 ∨ s'.mass_flow.regen = 0 ∨ s'.mass_flow.hhx = 0 ∨
            tempGap s'.temp T1 ≤ ε) := by
    intro k s hvis hP ⟨hav, hsz⟩ hins
    obtain ⟨i1, i2, i3, i4⟩ := visited_invariant _ _ _ _ _ _ hvis
    obtain ⟨q1, q2, q3, q4, q5⟩ := hsize s.temp
    have hkin : Kin (firstRun U c n inputs) τ Θ (Run.new U c' s) := by
      refine ⟨i1, rfl, hre.chx_vol, hre.regen_vol, hre.hhx_vol, hre.parasitics _ _, ⟨?_, ?_⟩, ⟨?_, ?_⟩, ⟨hav, ?_⟩, ?_, ?_⟩
      · show 100 ≤ s.temp.chx
        have := hins.comp_temp.1
        simp only at this
        linarith
      · exact (le_abs_self _).trans (q1.trans hsz)
      · show 100 ≤ s.temp.hhx
        have := hins.exp_temp.1
        simp only at this
        linarith
      · exact (le_abs_self _).trans (q2.trans hsz)
      · exact (le_abs_self _).trans (q4.trans hsz)
      · exact q3.trans hsz
      · exact q5.trans hsz
    have hvol : (Run.new U c' s).ws_vol_fn = (firstRun U c' n inputs).ws_vol_fn := hre.volumes _ _
    have hper : (Run.new U c' s).period = (firstRun U c' n inputs).period := by
      show 1.0 / c'.ws.frequency _ = _
      rw [lit_1, hfreq]
    have hslow' : SlowDrive (Run.new U c' s) L w := by
      obtain ⟨s1, s2, s3, s4, s5⟩ := hslow
      simp only [SteadyDrive, driveGap] at s5
      rw [← hvol] at s1 s2 s3 s4 s5
      exact ⟨s1, s2, s3, s4, s5⟩
    have hsane : SaneRun (Run.new U c' s) := by
      refine ⟨?_, fun t => lt_of_lt_of_le L.Vmin_pos (hslow'.comp_vol t).1,
        fun t => lt_of_lt_of_le L.Vmin_pos (hslow'.exp_vol t).1, ?_, ?_, ?_, lt_of_lt_of_le hτ hav, hkin.chx.1, hkin.hhx.1⟩
      · show 0.5 * (s.fluid.enth s.temp.sink s.pres.avg + s.fluid.enth s.temp.source s.pres.avg) ≠ (0 : ℝ)
        rw [i1, i2, i3]
        exact mul_ne_zero (by norm_num) hnorm
      · exact le_of_le_of_eq hvk hre.chx_vol.symm
      · exact le_of_le_of_eq hvr hre.regen_vol.symm
      · exact le_of_le_of_eq hvl hre.hhx_vol.symm
    have hin' : Inside L δ ⟨s.pres.t_zero, s.temp.chx, s.temp.hhx⟩ := by rw [hP]; exact hins
    obtain ⟨vs, w1, w2, w3⟩ := hsearch _ hkin hsane hslow' (by rw [hper]; exact hp) (by rw [hper]; exact hp') outs env
      (innerRequest settings s) ho hn (by rw [hper]; exact hres) hout hrel le_rfl d2 d3 him hin'
    refine ⟨vs, w1, ⟨hsane, fun v hv => ?_⟩, w2, fun v hv => ?_, ?_⟩
    · obtain ⟨⟨n1, n2, n3⟩, -⟩ := w3 v hv
      have j1 := hins.pres.1; have j2 := hins.comp_temp.1; have j3 := hins.exp_temp.1
      have j4 := L.Pmin_pos
      rw [abs_le] at n1 n2 n3
      obtain ⟨n1, -⟩ := n1; obtain ⟨n2, -⟩ := n2; obtain ⟨n3, -⟩ := n3
      change -δ ≤ v.conditions.P - s.pres.t_zero at n1
      change -δ ≤ v.conditions.T_c - s.temp.chx at n2
      change -δ ≤ v.conditions.T_e - s.temp.hhx at n3
      rw [hP] at n1
      simp only at j1 j2 j3
      exact ⟨by linarith, by linarith, by linarith⟩
    · have := (w3 v hv).1.pres
      rw [← hP]; exact this
    intro s' hs'
    obtain ⟨g1, g2, -⟩ := inner_grid outs env ho U c' settings hturn s vs w1
    have hpz := pressure_t_zero hs'.pres
    rw [head_P, g2, Option.some.injEq] at hpz
    refine ⟨by rw [← hpz, hP], ?_⟩
    have hn1 : (0 : ℝ) < (settings.resolution.toNat : ℝ) - 1 := by
      have : (2 : ℝ) ≤ settings.resolution.toNat := by exact_mod_cast hn
      linarith
    have hgrid := grid_even hn (h := 1 / c'.ws.frequency ⟨s.pres⟩ / ((settings.resolution.toNat : ℝ) - 1))
      (div_pos (one_div_pos.2 (hfpos _)) hn1)
    rw [← g1] at hgrid
    obtain ⟨fm, fq⟩ := flows_small hgrid hδ.le w3
    obtain ⟨⟨m1, m1'⟩, ⟨m2, m2'⟩, ⟨m3, m3'⟩⟩ := fm _ hs'.mass_flow
    have hh := hs'.heat_flow
    rw [hre.walls _ ⟨(State.new_hint c (IdealGas.new n).toFluid inputs).pres⟩] at hh
    obtain ⟨f1, f2⟩ := fq _ _ hh
    rcases m1.eq_or_lt with e | m1
    · exact .inl e.symm
    rcases m2.eq_or_lt with e | m2
    · exact .inr (.inl e.symm)
    rcases m3.eq_or_lt with e | m3
    · exact .inr (.inr (.inl e.symm))
    refine .inr (.inr (.inr ?_))
    have cp0 : ∀ T P, 0 < T → 0 < s.fluid.cp T P := by
      intro T P hT
      rw [i1]
      show 0 < (IdealGas.new n : IdealGas ℝ).cp T 0
      have := IdealGas.cv_pos n T hT
      have hR : 0 < (IdealGas.new n : IdealGas ℝ).gas_constant := IdealGas.gas_constant_pos n
      linarith
    have o1 := hk (coldView s.fluid s.temp s'.pres s'.mass_flow s'.heat_flow) (cp0 _ _ (by
      have : 100 ≤ s.temp.chx := hkin.chx.1
      linarith)) m1 (f1.trans d4)
    have o2 := hr (regenView s.fluid s.temp s'.pres s'.mass_flow s'.heat_flow) (cp0 _ _ (lt_of_lt_of_le hτ hav)) (by
      show s.fluid.cp s.temp.regen.avg _ ≤ K
      rw [i1]
      exact hK _ hav hkin.regen.2) m2 (m2'.trans d6) (by
      show |s.temp.hhx - s.temp.chx| ≤ K
      refine (abs_sub _ _).trans ?_
      linarith)
    have o3 := hl (hotView s.fluid s.temp s'.pres s'.mass_flow s'.heat_flow) (cp0 _ _ (by
      have : 100 ≤ s.temp.hhx := hkin.hhx.1
      linarith)) m3 (f2.trans d5)
    have := hnear ⟨_, _, _⟩ o1 o2 o3
    have z1 := hs'.chx; have z2 := hs'.hhx; have z3 := hs'.regen
    rw [i2, hre.chx_approach] at z1
    rw [i3, hre.hhx_approach] at z2
    rw [z1, z2, hre.regen_approach, show s.regen_imbalance = ⟨0.0⟩ by cases h : s.regen_imbalance; rw [h] at i4; simp only at i4; rw [i4]] at z3
    unfold tempGap at this ⊢
    rw [z1, z2, z3]
    exact this
  -- the hints
  have s0t : start.temp = T0 := by
    simp only [hstart, hT0, State.new_hint, restTemp, initialApproach, hre.chx_initial, hre.regen_initial, hre.hhx_initial]
  obtain ⟨vs0, u1, u0, u2, u3, u4⟩ := step 0 start .start rfl (by
    rw [s0t]
    refine ⟨t1, ?_⟩
    have := size0 T1
    linarith) (by
    rw [s0t, x1, x2]
    obtain ⟨⟨p1, p2⟩, ⟨p3, p4⟩, ⟨p5, p6⟩⟩ := hin0
    simp only at p1 p2 p3 p4 p5 p6
    refine ⟨⟨?_, ?_⟩, ⟨?_, ?_⟩, ⟨?_, ?_⟩⟩ <;> simp only [initialApproach] <;> linarith)
  have nonempty : ∀ vs : List (state_equations.Values ℝ), vs.length = settings.resolution.toNat → vs ≠ [] := by
    rintro vs hl rfl
    simp only [List.length_nil] at hl
    omega
  have done : ∀ (vs : List (state_equations.Values ℝ)) s, vs.length = settings.resolution.toNat →
      (∀ v ∈ vs, |v.conditions.P - inputs.pres_zero| ≤ δ) →
      Engine.run env U c' (IdealGas.new n).toFluid inputs settings = .ok ⟨c', s, Values.ofStateValues vs⟩ →
      ∃ e, Engine.run env U c' (IdealGas.new n).toFluid inputs settings = .ok e ∧
        e.values.P.length = settings.resolution.toNat ∧
        ∀ x ∈ e.values.P, |x - inputs.pres_zero| ≤ settings.loop_tol.inner.abs := by
    intro vs s hl hP he
    refine ⟨_, he, ?_, ?_⟩
    · show (Values.ofStateValues vs).P.length = _
      rw [ofStateValues_eq, List.length_map, hl]
    · intro x hx
      replace hx : x ∈ (Values.ofStateValues vs).P := hx
      rw [ofStateValues_eq] at hx
      obtain ⟨v, hv, rfl⟩ := List.mem_map.1 hx
      exact (hP v hv).trans d2
  obtain ⟨m, hm⟩ : ∃ m, settings.max_iters.outer = m + 2 := ⟨settings.max_iters.outer - 2, by omega⟩
  have hrun : Engine.run env U c' (IdealGas.new n).toFluid inputs settings
      = (Engine.runLoop env U c' settings (m + 2) start).1 := by
    unfold Engine.run Engine.runLogged
    rw [hm]
  rcases runLoop_succ env U c' settings (m + 1) start with
    ⟨vs, t, g1, g2, g3, g4⟩ | ⟨vs, t, g1, g2, g3, g4⟩ | ⟨e, g1, g4⟩ | ⟨p, g1, g4⟩ | ⟨vs, p, g1, g2, g4⟩
  · rw [u1] at g1; cases g1
    exact .inl (done vs0 start u2 u3 (by rw [hrun, g4]))
  · rw [u1] at g1; cases g1
    obtain ⟨r1, r2⟩ := u4 t g2
    rcases r2 with r2 | r2 | r2 | r2
    · exact .inr ⟨0, start, vs0, t.mass_flow, by omega, .start, u1, u0, g2.mass_flow, .inl r2⟩
    · exact .inr ⟨0, start, vs0, t.mass_flow, by omega, .start, u1, u0, g2.mass_flow, .inr (.inl r2)⟩
    · exact .inr ⟨0, start, vs0, t.mass_flow, by omega, .start, u1, u0, g2.mass_flow, .inr (.inr r2)⟩
    have hvis : Visited env U c' settings start 1 t := .next .start u1 g2 g3
    have r2' := r2
    unfold tempGap at r2'
    have z1 := abs_nonneg (t.temp.chx - T1.chx); have z2 := abs_nonneg (t.temp.hhx - T1.hhx)
    have z3 := abs_nonneg (t.temp.regen.cold - T1.regen.cold); have z4 := abs_nonneg (t.temp.regen.avg - T1.regen.avg)
    have z5 := abs_nonneg (t.temp.regen.hot - T1.regen.hot)
    have n1 := abs_le.1 (show |t.temp.chx - T1.chx| ≤ ε by linarith)
    have n2 := abs_le.1 (show |t.temp.hhx - T1.hhx| ≤ ε by linarith)
    have n4 := abs_le.1 (show |t.temp.regen.avg - T1.regen.avg| ≤ ε by linarith)
    obtain ⟨vs1, o1, o0, o2, o3, o4⟩ := step 1 t hvis r1 (by
      refine ⟨by linarith, ?_⟩
      have := size0 T0
      have b1 := abs_sub_abs_le_abs_sub t.temp.chx T1.chx; have b2 := abs_sub_abs_le_abs_sub t.temp.hhx T1.hhx
      have b3 := abs_sub_abs_le_abs_sub t.temp.regen.cold T1.regen.cold
      have b4 := abs_sub_abs_le_abs_sub t.temp.regen.avg T1.regen.avg
      have b5 := abs_sub_abs_le_abs_sub t.temp.regen.hot T1.regen.hot
      have : size t.temp ≤ size T1 + ε := by simp only [size]; linarith
      linarith) (by
      obtain ⟨⟨p1, p2⟩, ⟨p3, p4⟩, ⟨p5, p6⟩⟩ := hin
      simp only at p1 p2 p3 p4 p5 p6
      rw [← y1] at p3 p4
      rw [← y2] at p5 p6
      refine ⟨⟨?_, ?_⟩, ⟨?_, ?_⟩, ⟨?_, ?_⟩⟩ <;> simp only <;> linarith)
    rcases runLoop_succ env U c' settings m t with
      ⟨vs, t', k1, k2, k3, k4⟩ | ⟨vs, t', k1, k2, k3, k4⟩ | ⟨e, k1, k4⟩ | ⟨p, k1, k4⟩ | ⟨vs, p, k1, k2, k4⟩
    · rw [o1] at k1; cases k1
      exact .inl (done vs1 t o2 o3 (by rw [hrun, g4, k4]))
    · rw [o1] at k1; cases k1
      obtain ⟨-, r3⟩ := o4 t' k2
      rcases r3 with r3 | r3 | r3 | r3
      · exact .inr ⟨1, t, vs1, t'.mass_flow, le_rfl, hvis, o1, o0, k2.mass_flow, .inl r3⟩
      · exact .inr ⟨1, t, vs1, t'.mass_flow, le_rfl, hvis, o1, o0, k2.mass_flow, .inr (.inl r3)⟩
      · exact .inr ⟨1, t, vs1, t'.mass_flow, le_rfl, hvis, o1, o0, k2.mass_flow, .inr (.inr r3)⟩
      exact absurd (hclose _ _ (r2.trans a1) (r3.trans a1)) k3
    · rw [o1] at k1; cases k1
    · rw [o1] at k1; cases k1
    · rw [o1] at k1; cases k1
      obtain ⟨s'', hs''⟩ := recomputed_exists c' t vs1 (nonempty _ o2)
      exact absurd hs'' (k2 s'')
  · rw [u1] at g1; cases g1
  · rw [u1] at g1; cases g1
  · rw [u1] at g1; cases g1
    obtain ⟨s'', hs''⟩ := recomputed_exists c' start vs0 (nonempty _ u2)
    exact absurd hs'' (g2 s'')

end

end Sett
