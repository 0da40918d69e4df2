import Verif.Proofs.Performance
import Verif.Props.Reported

/-! # C41–C47: performance figures and results -/

namespace Sett

open state_equations performance Spec

/-! ## C47 -/

section
variable {α : Type} [Scalar α]

/-- **C47.** Computing the results of an engine whose values came from state-equation values never
panics, and all thirteen series have one entry per point.  Any arithmetic. -/
theorem C47_series_aligned (e : Engine α) (vs : List (state_equations.Values α))
    (h : e.values = Values.ofStateValues vs) :
    ∃ r, RunResults.ofEngine e = .ok r ∧
      ∀ l ∈ [r.values.time, r.values.P, r.values.P_c, r.values.P_e, r.values.T_c, r.values.T_e,
        r.values.m_dot_ck, r.values.m_dot_kr, r.values.m_dot_rl, r.values.m_dot_le,
        r.values.Q_dot_k, r.values.Q_dot_r, r.values.Q_dot_l], l.length = vs.length := by
  obtain ⟨r, hr⟩ := results_ok e vs h
  refine ⟨r, hr, ?_⟩
  obtain ⟨p, hp, -, -, -, -, -, hv⟩ := results_performance hr
  obtain ⟨p', hp', h1, h2, -⟩ := performance_ok e vs h
  rw [hp] at hp'; cases hp'
  rw [hv, h1, h2, h, ofStateValues_eq]
  simp

/-- **C47** for a run: every successful `Engine::run` yields results, with every series as long as the
list of points the integrator reported. -/
theorem C47_run (env : Env α) (U : MatrixDecomposition α) (c : Components α) (fluid : Fluid α)
    (inputs : RunInputs α) (settings : RunSettings α) (e : Engine α)
    (h : Engine.run env U c fluid inputs settings = .ok e) :
    ∃ r ic pts, RunResults.ofEngine e = .ok r ∧
      integrationTryFrom env (Run.new U c e.state).toCycle ic settings.resolution settings.ode_tol
        = .ok pts ∧
      ∀ l ∈ [r.values.time, r.values.P, r.values.P_c, r.values.P_e, r.values.T_c, r.values.T_e,
        r.values.m_dot_ck, r.values.m_dot_kr, r.values.m_dot_rl, r.values.m_dot_le,
        r.values.Q_dot_k, r.values.Q_dot_r, r.values.Q_dot_l], l.length = pts.length := by
  obtain ⟨n, ic, vs, -, -, ⟨-, pts, h1, h2⟩, h3, -⟩ :=
    C36_values_are_steady env U c fluid inputs settings e h
  obtain ⟨r, hr, hl⟩ := C47_series_aligned e vs h3
  refine ⟨r, ic, pts, hr, h1, ?_⟩
  have : vs.length = pts.length := by
    rw [← (C32_values_self_consistent _ _ _ h2).1]; simp
  rwa [← this]

/-- **C47**, conversely: series of different lengths are never combined silently.  Performance numbers exist
exactly when the pressures, the four mass flows and the times have equally many samples; otherwise computing
them panics. -/
theorem C47_misaligned (e : Engine α) :
    (∃ p, performance.Performance.ofEngine e = .ok p) ↔
      ∀ l ∈ [e.values.m_dot_ck, e.values.m_dot_kr, e.values.m_dot_rl, e.values.m_dot_le, e.values.time],
        l.length = e.values.P.length := by
  have zip_iff : ∀ {f : α → α → α} {a b c : List α}, DVector.zipWith f a b = .ok c →
      a.length = b.length ∧ c.length = a.length := by
    intro f a b c h
    unfold DVector.zipWith at h
    split_ifs at h with hl
    cases h
    exact ⟨hl, by simp [hl]⟩
  have zip_ok : ∀ {f : α → α → α} {a b : List α}, a.length = b.length →
      ∃ c, DVector.zipWith f a b = .ok c ∧ c.length = a.length := by
    intro f a b h
    exact ⟨_, if_pos h, by simp [h]⟩
  have drop_iff : ∀ {m0 m1 d r : List α} {R : α}, performance.calculate_hx_pressure_drop m0 m1 d R = .ok r →
      m0.length = m1.length ∧ m0.length = d.length ∧ r.length = m0.length := by
    intro m0 m1 d r R h
    unfold performance.calculate_hx_pressure_drop at h
    cases h1 : DVector.add m0 m1 with
    | error f => rw [h1] at h; cases h
    | ok s =>
      rw [h1] at h
      simp only [bind, Except.bind] at h
      cases h2 : DVector.component_div (DVector.smul 0.5 s) d with
      | error f => rw [h2] at h; cases h
      | ok q =>
        rw [h2] at h
        cases h
        have a := zip_iff h1
        have b := zip_iff h2
        simp only [DVector.smul, List.length_map] at b ⊢
        omega
  have drop_ok : ∀ {m0 m1 d : List α} {R : α}, m0.length = m1.length → m0.length = d.length →
      ∃ r, performance.calculate_hx_pressure_drop m0 m1 d R = .ok r ∧ r.length = m0.length := by
    intro m0 m1 d R h1 h2
    obtain ⟨s, hs, hl⟩ := zip_ok (f := (· + ·)) h1
    obtain ⟨q, hq, hl2⟩ := zip_ok (f := (· / ·)) (a := DVector.smul 0.5 s) (b := d)
      (by simp only [DVector.smul, List.length_map]; omega)
    refine ⟨DVector.smul R q, ?_, ?_⟩
    · unfold performance.calculate_hx_pressure_drop DVector.add DVector.component_div
      rw [hs]
      simp only [bind, Except.bind]
      rw [hq]
      rfl
    · simp only [DVector.smul, List.length_map] at hl2 ⊢
      omega
  have step : ∀ {β γ : Type} {x : Panics β} {f : β → Panics γ} {b : γ}, (x >>= f) = .ok b →
      ∃ a, x = .ok a ∧ f a = .ok b := by
    intro β γ x f b h
    cases x with
    | ok a => exact ⟨a, rfl, h⟩
    | error p => cases h
  simp only [List.mem_cons, List.not_mem_nil, or_false, forall_eq_or_imp, forall_eq]
  constructor
  · rintro ⟨p, h⟩
    unfold performance.Performance.ofEngine at h
    obtain ⟨pd, h1, h⟩ := step h
    obtain ⟨pw, h2, h⟩ := step h
    unfold performance.PressuresWithDrops.new at h1
    obtain ⟨a, ha, h1⟩ := step h1
    obtain ⟨b, hb, h1⟩ := step h1
    obtain ⟨c, hc, h1⟩ := step h1
    obtain ⟨t, ht, h1⟩ := step h1
    obtain ⟨u, hu, h1⟩ := step h1
    obtain ⟨v, hv, h1⟩ := step h1
    obtain ⟨w, hw, h1⟩ := step h1
    cases h1
    unfold performance.Powers.new at h2
    obtain ⟨wc, hwc, -⟩ := step h2
    have a' := drop_iff ha
    have b' := drop_iff hb
    have v' := zip_iff hv
    have wc' := zip_iff hwc
    simp only [List.length_map, performance.dV_dts] at a' b' v' wc'
    omega
  · rintro ⟨h1, h2, h3, h4, h5⟩
    obtain ⟨a, ha, la⟩ := drop_ok (m0 := e.values.m_dot_ck) (m1 := e.values.m_dot_kr)
      (d := e.values.P.map fun pres => e.state.fluid.dens e.state.temp.chx pres)
      (R := e.components.chx.hydraulic_resistance e.state.chx) (by omega) (by simp [h1])
    obtain ⟨b, hb, lb⟩ := drop_ok (m0 := e.values.m_dot_rl) (m1 := e.values.m_dot_le)
      (d := e.values.P.map fun pres => e.state.fluid.dens e.state.temp.hhx pres)
      (R := e.components.hhx.hydraulic_resistance e.state.hhx) (by omega) (by simp [h3])
    obtain ⟨c, hc, lc⟩ := drop_ok (m0 := e.values.m_dot_kr) (m1 := e.values.m_dot_rl)
      (d := e.values.P.map fun pres => e.state.fluid.dens e.state.temp.regen.avg pres)
      (R := e.components.regen.hydraulic_resistance e.state.regen) (by omega) (by simp [h2])
    obtain ⟨t, ht, lt⟩ := zip_ok (f := (· + ·)) (a := a) (b := b) (by omega)
    obtain ⟨u, hu, lu⟩ := zip_ok (f := (· + ·)) (a := t) (b := c) (by omega)
    obtain ⟨v, hv, lv⟩ := zip_ok (f := (· + ·)) (a := e.values.P) (b := DVector.smul 0.5 u)
      (by simp only [DVector.smul, List.length_map]; omega)
    obtain ⟨w, hw, lw⟩ := zip_ok (f := (· - ·)) (a := e.values.P) (b := DVector.smul 0.5 u)
      (by simp only [DVector.smul, List.length_map]; omega)
    have hpd : performance.PressuresWithDrops.new e = .ok { P_c := v, P_e := w } := by
      unfold performance.PressuresWithDrops.new
      simp only [ha, hb, hc, bind, Except.bind]
      unfold DVector.add DVector.sub
      simp only [ht, hu, hv, hw]
      rfl
    have hpw : ∃ pw, performance.Powers.new { P_c := v, P_e := w } e = .ok pw := by
      unfold performance.Powers.new performance.dV_dts DVector.component_mul DVector.add
      obtain ⟨wc, hwc, lwc⟩ := zip_ok (f := (· * ·)) (a := v)
        (b := (e.values.time.map (e.components.ws.volumes e.state.ws)).map fun v => v.1.deriv) (by simp; omega)
      obtain ⟨we, hwe, lwe⟩ := zip_ok (f := (· * ·)) (a := w)
        (b := (e.values.time.map (e.components.ws.volumes e.state.ws)).map fun v => v.2.deriv) (by simp; omega)
      obtain ⟨s, hs, -⟩ := zip_ok (f := (· + ·)) (a := wc) (b := we) (by omega)
      obtain ⟨dV, hdV, ldV⟩ := zip_ok (f := (· + ·))
        (a := (e.values.time.map (e.components.ws.volumes e.state.ws)).map fun v => v.1.deriv)
        (b := (e.values.time.map (e.components.ws.volumes e.state.ws)).map fun v => v.2.deriv) (by simp)
      obtain ⟨w0, hw0, -⟩ := zip_ok (f := (· * ·)) (a := e.values.P) (b := dV) (by simp at ldV; omega)
      simp only [hwc, hwe, hs, hdV, hw0, bind, Except.bind]
      exact ⟨_, rfl⟩
    obtain ⟨pw, hpw⟩ := hpw
    unfold performance.Performance.ofEngine
    simp only [hpd, hpw, bind, Except.bind]
    exact ⟨_, rfl⟩

end

/-! ## C41 -/

/-- Pressure drop through an exchanger: resistance times mean volumetric flow. -/
noncomputable def Spec.drop (R m_in m_out dens : ℝ) : ℝ := R * ((m_in + m_out) / 2 / dens)

/-- The three drops at one sample of an engine. -/
noncomputable def Spec.dropChx (e : Engine ℝ) (v : state_equations.Values ℝ) : ℝ :=
  Spec.drop (e.components.chx.hydraulic_resistance e.state.chx) v.solution.m_dot_ck
    v.solution.m_dot_kr (e.state.fluid.dens e.state.temp.chx v.conditions.P)
@[inherit_doc Spec.dropChx]
noncomputable def Spec.dropRegen (e : Engine ℝ) (v : state_equations.Values ℝ) : ℝ :=
  Spec.drop (e.components.regen.hydraulic_resistance e.state.regen) v.solution.m_dot_kr
    v.solution.m_dot_rl (e.state.fluid.dens e.state.temp.regen.avg v.conditions.P)
@[inherit_doc Spec.dropChx]
noncomputable def Spec.dropHhx (e : Engine ℝ) (v : state_equations.Values ℝ) : ℝ :=
  Spec.drop (e.components.hhx.hydraulic_resistance e.state.hhx) v.solution.m_dot_rl
    v.solution.m_dot_le (e.state.fluid.dens e.state.temp.hhx v.conditions.P)

theorem sampleDrop_eq (e : Engine ℝ) (v : state_equations.Values ℝ) :
    sampleDrop e v = dropChx e v + dropRegen e v + dropHhx e v := by
  unfold sampleDrop dropChx dropRegen dropHhx Spec.drop
  scalars
  ring

theorem results_pressures {e : Engine ℝ} {vs : List (state_equations.Values ℝ)}
    (h : e.values = Values.ofStateValues vs) {r : api.RunResults ℝ}
    (hr : RunResults.ofEngine e = .ok r) :
    r.values.P_c = vs.map (fun v => v.conditions.P
        + (dropChx e v + dropRegen e v + dropHhx e v) / 2) ∧
      r.values.P_e = vs.map (fun v => v.conditions.P
        - (dropChx e v + dropRegen e v + dropHhx e v) / 2) ∧
      r.values.P = vs.map fun v => v.conditions.P := by
  obtain ⟨p, hp, -, -, -, -, -, hv⟩ := results_performance hr
  obtain ⟨p', hp', h1, h2, -⟩ := performance_ok e vs h
  rw [hp] at hp'; cases hp'
  rw [hv]
  refine ⟨?_, ?_, by rw [h, ofStateValues_eq]⟩
  · simp only
    rw [h1]
    apply List.map_congr_left
    intro v _
    rw [sampleDrop_eq]; scalars; ring
  · simp only
    rw [h2]
    apply List.map_congr_left
    intro v _
    rw [sampleDrop_eq]; scalars; ring

/-- **C41.** At every sample the space pressures straddle the cycle pressure: their mean is the cycle
pressure and their difference is the sum of the three exchanger drops. -/
theorem C41_pressures (e : Engine ℝ) (vs : List (state_equations.Values ℝ))
    (h : e.values = Values.ofStateValues vs) (r : api.RunResults ℝ)
    (hr : RunResults.ofEngine e = .ok r) (i : Nat) (v : state_equations.Values ℝ)
    (hi : vs[i]? = some v) :
    ∃ pc pe, r.values.P_c[i]? = some pc ∧ r.values.P_e[i]? = some pe ∧
      r.values.P[i]? = some v.conditions.P ∧ pc + pe = 2 * v.conditions.P ∧
      pc - pe = dropChx e v + dropRegen e v + dropHhx e v := by
  obtain ⟨h1, h2, h3⟩ := results_pressures h hr
  refine ⟨_, _, by rw [h1]; simp [hi]; rfl, by rw [h2]; simp [hi]; rfl, by rw [h3]; simp [hi], ?_, ?_⟩
  · ring
  · ring

/-- **C41**, ordering: with non-negative resistances and positive densities, flow from cold to hot
through every exchanger gives `P_c ≥ P ≥ P_e`, and flow from hot to cold the reverse. -/
theorem C41_ordering (e : Engine ℝ) (vs : List (state_equations.Values ℝ))
    (h : e.values = Values.ofStateValues vs) (r : api.RunResults ℝ)
    (hr : RunResults.ofEngine e = .ok r) (i : Nat) (v : state_equations.Values ℝ)
    (hi : vs[i]? = some v)
    (hR : 0 ≤ e.components.chx.hydraulic_resistance e.state.chx ∧
      0 ≤ e.components.regen.hydraulic_resistance e.state.regen ∧
      0 ≤ e.components.hhx.hydraulic_resistance e.state.hhx)
    (hd : 0 < e.state.fluid.dens e.state.temp.chx v.conditions.P ∧
      0 < e.state.fluid.dens e.state.temp.regen.avg v.conditions.P ∧
      0 < e.state.fluid.dens e.state.temp.hhx v.conditions.P)
    (pc pe : ℝ) (hc : r.values.P_c[i]? = some pc) (he : r.values.P_e[i]? = some pe) :
    (0 ≤ v.solution.m_dot_ck → 0 ≤ v.solution.m_dot_kr → 0 ≤ v.solution.m_dot_rl →
      0 ≤ v.solution.m_dot_le → pe ≤ v.conditions.P ∧ v.conditions.P ≤ pc) ∧
    (v.solution.m_dot_ck ≤ 0 → v.solution.m_dot_kr ≤ 0 → v.solution.m_dot_rl ≤ 0 →
      v.solution.m_dot_le ≤ 0 → pc ≤ v.conditions.P ∧ v.conditions.P ≤ pe) := by
  obtain ⟨pc', pe', g1, g2, -, g4, g5⟩ := C41_pressures e vs h r hr i v hi
  rw [hc] at g1; cases g1
  rw [he] at g2; cases g2
  obtain ⟨r1, r2, r3⟩ := hR
  obtain ⟨d1, d2, d3⟩ := hd
  have pos : ∀ R m m' d : ℝ, 0 ≤ R → 0 < d → 0 ≤ m → 0 ≤ m' → 0 ≤ Spec.drop R m m' d := by
    intro R m m' d hR hd hm hm'; unfold Spec.drop; positivity
  have neg : ∀ R m m' d : ℝ, 0 ≤ R → 0 < d → m ≤ 0 → m' ≤ 0 → Spec.drop R m m' d ≤ 0 := by
    intro R m m' d hR hd hm hm'
    have := pos R (-m) (-m') d hR hd (by linarith) (by linarith)
    have e : Spec.drop R (-m) (-m') d = -Spec.drop R m m' d := by unfold Spec.drop; ring
    linarith
  constructor
  · intro m1 m2 m3 m4
    have a1 : 0 ≤ dropChx e v := pos _ _ _ _ r1 d1 m1 m2
    have a2 : 0 ≤ dropRegen e v := pos _ _ _ _ r2 d2 m2 m3
    have a3 : 0 ≤ dropHhx e v := pos _ _ _ _ r3 d3 m3 m4
    constructor <;> linarith
  · intro m1 m2 m3 m4
    have a1 : dropChx e v ≤ 0 := neg _ _ _ _ r1 d1 m1 m2
    have a2 : dropRegen e v ≤ 0 := neg _ _ _ _ r2 d2 m2 m3
    have a3 : dropHhx e v ≤ 0 := neg _ _ _ _ r3 d3 m3 m4
    constructor <;> linarith

/-! ## C42 -/

/-- Sample times of a series. -/
def Spec.times {α : Type} (vs : List (state_equations.Values α)) : List α := vs.map fun v => v.time

/-- Rates of change of the two working-space volumes of an engine at a given time. -/
def Spec.dVc (e : Engine ℝ) (t : ℝ) : ℝ := (e.components.ws.volumes ⟨e.state.pres⟩ t).1.deriv
@[inherit_doc Spec.dVc]
def Spec.dVe (e : Engine ℝ) (t : ℝ) : ℝ := (e.components.ws.volumes ⟨e.state.pres⟩ t).2.deriv

/-- The cycle work rate of a pressure acting on each working space. -/
noncomputable def Spec.cycleWork (e : Engine ℝ) (vs : List (state_equations.Values ℝ))
    (pc pe : state_equations.Values ℝ → ℝ) : ℝ :=
  e.components.ws.frequency ⟨e.state.pres⟩
    * trapezoid (times vs) (vs.map fun v => pc v * dVc e v.time + pe v * dVe e v.time)

theorem results_powers {e : Engine ℝ} {vs : List (state_equations.Values ℝ)}
    (h : e.values = Values.ofStateValues vs) {r : api.RunResults ℝ}
    (hr : RunResults.ofEngine e = .ok r) :
    r.power.indicated = cycleWork e vs
        (fun v => v.conditions.P + (dropChx e v + dropRegen e v + dropHhx e v) / 2)
        (fun v => v.conditions.P - (dropChx e v + dropRegen e v + dropHhx e v) / 2) ∧
      r.power.ideal_indicated = cycleWork e vs (fun v => v.conditions.P)
        (fun v => v.conditions.P) ∧
      r.power.shaft = r.power.indicated - (e.components.ws.parasitics e.state.ws).comp.mechanical
        - (e.components.ws.parasitics e.state.ws).exp.mechanical ∧
      r.power.net = r.power.shaft - (e.components.chx.parasitics e.state.chx).mechanical
        - (e.components.hhx.parasitics e.state.hhx).mechanical := by
  obtain ⟨p, hp, -, -, -, hpow, -, -⟩ := results_performance hr
  obtain ⟨p', hp', h1, h2, h3, -⟩ := performance_ok e vs h
  rw [hp] at hp'; cases hp'
  have h4 : p.pressures_with_drops = ⟨vs.map fun v => v.conditions.P + 0.5 * sampleDrop e v,
      vs.map fun v => v.conditions.P - 0.5 * sampleDrop e v⟩ := by
    rw [← h1, ← h2]
  rw [h4, powers_eq e vs h] at h3
  have h5 := (Except.ok.inj h3).symm
  rw [hpow, h5]
  refine ⟨?_, ?_, rfl, rfl⟩
  · simp only [integrate_eq, cycleWork]
    congr 2
    apply List.map_congr_left
    intro v _
    rw [sampleDrop_eq]
    simp only [sampleVol, State.ws, dVc, dVe]
    scalars
    ring
  · simp only [integrate_eq, cycleWork]
    congr 2
    apply List.map_congr_left
    intro v _
    simp only [sampleVol, State.ws, dVc, dVe]
    ring

/-- **C42**, general: the pressure-drop loss is the cycle integral of half the total drop times the
difference of the volume rates. -/
theorem C42_pressure_drop_loss (e : Engine ℝ) (vs : List (state_equations.Values ℝ))
    (h : e.values = Values.ofStateValues vs) (r : api.RunResults ℝ)
    (hr : RunResults.ofEngine e = .ok r) :
    r.power.indicated - r.power.ideal_indicated
      = e.components.ws.frequency ⟨e.state.pres⟩ * trapezoid (times vs) (vs.map fun v =>
          (dropChx e v + dropRegen e v + dropHhx e v) / 2 * (dVc e v.time - dVe e v.time)) := by
  obtain ⟨h1, h2, -⟩ := results_powers h hr
  rw [h1, h2, cycleWork, cycleWork, ← mul_sub, ← trapezoid_sub]
  congr 2
  apply List.map_congr_left
  intro v _
  ring

/-- **C42**, no resistance: no pressure difference and no loss. -/
theorem C42_no_resistance (e : Engine ℝ) (vs : List (state_equations.Values ℝ))
    (h : e.values = Values.ofStateValues vs) (r : api.RunResults ℝ)
    (hr : RunResults.ofEngine e = .ok r)
    (hk : e.components.chx.hydraulic_resistance e.state.chx = 0)
    (hg : e.components.regen.hydraulic_resistance e.state.regen = 0)
    (hl : e.components.hhx.hydraulic_resistance e.state.hhx = 0) :
    r.values.P_c = r.values.P ∧ r.values.P_e = r.values.P ∧
      r.power.indicated = r.power.ideal_indicated := by
  have z : ∀ v, dropChx e v = 0 ∧ dropRegen e v = 0 ∧ dropHhx e v = 0 := by
    intro v; simp [dropChx, dropRegen, dropHhx, Spec.drop, hk, hg, hl]
  obtain ⟨h1, h2, h3⟩ := results_pressures h hr
  refine ⟨?_, ?_, ?_⟩
  · rw [h1, h3]; apply List.map_congr_left; intro v _; simp [z v]
  · rw [h2, h3]; apply List.map_congr_left; intro v _; simp [z v]
  · obtain ⟨g1, g2, -⟩ := results_powers h hr
    rw [g1, g2]; simp [z]

/-! ## C43, C44 -/

/-- **C43.** The power ladder. -/
theorem C43_ladder (e : Engine ℝ) (vs : List (state_equations.Values ℝ))
    (h : e.values = Values.ofStateValues vs) (r : api.RunResults ℝ)
    (hr : RunResults.ofEngine e = .ok r) :
    r.power.indicated - r.power.shaft = (e.components.ws.parasitics e.state.ws).comp.mechanical
        + (e.components.ws.parasitics e.state.ws).exp.mechanical ∧
    r.power.shaft - r.power.net = (e.components.chx.parasitics e.state.chx).mechanical
        + (e.components.hhx.parasitics e.state.hhx).mechanical := by
  obtain ⟨-, -, h1, h2⟩ := results_powers h hr
  constructor
  · rw [h1]; ring
  · rw [h2]; ring

/-- **C43**, ordering: with non-negative mechanical parasitics `net ≤ shaft ≤ indicated`. -/
theorem C43_ordering (e : Engine ℝ) (vs : List (state_equations.Values ℝ))
    (h : e.values = Values.ofStateValues vs) (r : api.RunResults ℝ)
    (hr : RunResults.ofEngine e = .ok r)
    (h1 : 0 ≤ (e.components.ws.parasitics e.state.ws).comp.mechanical)
    (h2 : 0 ≤ (e.components.ws.parasitics e.state.ws).exp.mechanical)
    (h3 : 0 ≤ (e.components.chx.parasitics e.state.chx).mechanical)
    (h4 : 0 ≤ (e.components.hhx.parasitics e.state.hhx).mechanical) :
    r.power.net ≤ r.power.shaft ∧ r.power.shaft ≤ r.power.indicated := by
  obtain ⟨g1, g2⟩ := C43_ladder e vs h r hr
  constructor <;> linarith

/-- **C44.** Torque times angular speed is shaft power; efficiency times heat input is net power. -/
theorem C44_torque_efficiency (e : Engine ℝ) (r : api.RunResults ℝ)
    (hr : RunResults.ofEngine e = .ok r) :
    (e.components.ws.frequency e.state.ws ≠ 0 →
      r.shaft_torque * (2 * Real.pi * e.components.ws.frequency e.state.ws) = r.power.shaft) ∧
    (r.heat_flow.input ≠ 0 → r.efficiency.mechanical * r.heat_flow.input = r.power.net) ∧
    (0 < r.heat_flow.input → 0 ≤ r.power.net → r.power.net ≤ r.heat_flow.input →
      0 ≤ r.efficiency.mechanical ∧ r.efficiency.mechanical ≤ 1) := by
  obtain ⟨p, hp, he, hin, -, hpow, ht, -⟩ := results_performance hr
  have key : p.shaft_torque = p.power.shaft / (2.0 * Scalar.pi * e.components.ws.frequency e.state.ws)
      ∧ p.efficiency = p.power.net / p.heat.input := by
    unfold Performance.ofEngine at hp
    cases h1 : PressuresWithDrops.new e with
    | error f => rw [h1] at hp; cases hp
    | ok a =>
      cases h2 : Powers.new a e with
      | error f => rw [h1] at hp; simp only [bind, Except.bind] at hp; rw [h2] at hp; cases hp
      | ok b =>
        rw [h1] at hp; simp only [bind, Except.bind] at hp; rw [h2] at hp; cases hp
        exact ⟨rfl, rfl⟩
  rw [he, hin, hpow, ht, key.1, key.2]
  refine ⟨fun hf => ?_, fun hi => ?_, fun hi h0 h1 => ?_⟩
  · scalars
    have := Real.pi_pos.ne'
    field_simp
  · simp only
    field_simp
  · exact ⟨div_nonneg h0 hi.le, (div_le_one hi).2 h1⟩

/-! ## C46 -/

theorem results_heats {e : Engine ℝ} {vs : List (state_equations.Values ℝ)}
    (h : e.values = Values.ofStateValues vs) {r : api.RunResults ℝ}
    (hr : RunResults.ofEngine e = .ok r) :
    let f := e.components.ws.frequency e.state.ws
    let R := e.components.ws.thermal_resistance e.state.ws
    let ext := (e.components.hhx.parasitics e.state.hhx).thermal
      + (e.components.regen.parasitics e.state.regen).thermal
      + (e.components.ws.parasitics e.state.ws).exp.thermal
    r.heat_flow.input = f * trapezoid (times vs) (vs.map fun v => v.solution.Q_dot_l)
        - f * trapezoid (times vs) (vs.map fun v => (v.conditions.T_e - e.state.temp.hhx) / R.exp)
        + ext ∧
      r.heat_flow.rejection
        = f * trapezoid (times vs) (vs.map fun v => (v.conditions.T_c - e.state.temp.chx) / R.comp)
        + f * trapezoid (times vs) (vs.map fun v => v.solution.Q_dot_k)
        + (r.power.ideal_indicated - r.power.indicated)
        + ((e.components.ws.parasitics e.state.ws).comp.mechanical
          + (e.components.ws.parasitics e.state.ws).exp.mechanical) + ext := by
  obtain ⟨p, hp, -, hin, hrej, hpow, -, -⟩ := results_performance hr
  obtain ⟨p', hp', -, -, -, h4, -⟩ := performance_ok e vs h
  rw [hp] at hp'; cases hp'
  intro f R ext
  rw [hin, hrej, hpow, h4]
  unfold Heats.new
  rw [h, ofStateValues_eq]
  simp only [integrate_eq, DVector.sdiv, List.map_map, Function.comp_def]
  exact ⟨rfl, rfl⟩

/-- **C46.** When the sampled cycle ends after one period, the reported heats and the heat-flow summary
computed from the same values differ only by the external thermal losses (both), and the pressure-drop
and mechanical terms (rejection). -/
theorem C46_heats_agree (e : Engine ℝ) (vs : List (state_equations.Values ℝ))
    (h : e.values = Values.ofStateValues vs) (r : api.RunResults ℝ)
    (hr : RunResults.ofEngine e = .ok r) (q : HeatFlows ℝ)
    (hq : HeatFlows.from_values e.values e.state.temp.chx e.state.temp.hhx
      (e.components.ws.thermal_resistance e.state.ws) = .ok q)
    (tf : ℝ) (ht : (times vs).getLast? = some tf)
    (hf : e.components.ws.frequency e.state.ws = 1 / tf) :
    let ext := (e.components.hhx.parasitics e.state.hhx).thermal
      + (e.components.regen.parasitics e.state.regen).thermal
      + (e.components.ws.parasitics e.state.ws).exp.thermal
    r.heat_flow.input = q.hhx + ext ∧
      r.heat_flow.rejection = q.chx + (r.power.ideal_indicated - r.power.indicated)
        + ((e.components.ws.parasitics e.state.ws).comp.mechanical
          + (e.components.ws.parasitics e.state.ws).exp.mechanical) + ext := by
  intro ext
  obtain ⟨h1, h2⟩ := results_heats h hr
  have ht' : e.values.time.getLast? = some tf := by
    rw [h, ofStateValues_eq]; exact ht
  rw [heatflows_real _ _ _ _ tf ht'] at hq
  cases hq
  rw [h1, h2, hf, h, ofStateValues_eq]
  simp only [List.map_map, Function.comp_def]
  have neg : trapezoid (times vs) (vs.map fun v => (e.state.temp.hhx - v.conditions.T_e)
        / (e.components.ws.thermal_resistance e.state.ws).exp)
      = -trapezoid (times vs) (vs.map fun v => (v.conditions.T_e - e.state.temp.hhx)
        / (e.components.ws.thermal_resistance e.state.ws).exp) := by
    rw [← trapezoid_neg]
    congr 1
    apply List.map_congr_left
    intro v _
    ring
  constructor
  · rw [show (vs.map fun v => v.time) = times vs from rfl, neg]; ring
  · rw [show (vs.map fun v => v.time) = times vs from rfl]; ring

/-! ## C45 -/

/-- Time covered by a list of sample times. -/
def Spec.span : List ℝ → ℝ
  | [] => 0
  | x0 :: xs => (x0 :: xs).getLast (by simp) - x0

theorem trapezoid_const_map {β : Type} (c : ℝ) (vs : List β) (t : β → ℝ) :
    trapezoid (vs.map t) (vs.map fun _ => c) = c * span (vs.map t) := by
  cases vs with
  | nil => simp [trapezoid, span]
  | cons v vs =>
    simp only [List.map_cons]
    rw [trapezoid_const c (t v) (vs.map t) _ (by simp) (by simp)]
    simp [span]

/-- Rate of change of the gas's internal energy at a sample, from the solution there. -/
noncomputable def Spec.storage (U : MatrixDecomposition ℝ) (e : Engine ℝ)
    (v : state_equations.Values ℝ) : ℝ :=
  totalEnergyRate ((Run.new U e.components e.state).calculate_inputs v.time v.conditions) v.solution

/-- **C45.** First law on the reported results of any successful run, for any number of samples.  Heat
input minus heat rejection equals shaft power plus: the thermal parasitics of the two working spaces
(over the time covered), the internal energy stored per cycle, the net regenerator heat per cycle, minus
the wall heat through the thermal resistances.  `vs` are the solved samples behind the returned values. -/
theorem C45_first_law (env : Env ℝ) (U : MatrixDecomposition ℝ) (hU : Sound U) (c : Components ℝ)
    (fluid : Fluid ℝ) (inputs : RunInputs ℝ) (settings : RunSettings ℝ) (e : Engine ℝ)
    (h : Engine.run env U c fluid inputs settings = .ok e)
    (hn : fluid.enth inputs.temp_sink e.state.pres.avg
      + fluid.enth inputs.temp_source e.state.pres.avg ≠ 0)
    (r : api.RunResults ℝ) (hr : RunResults.ofEngine e = .ok r)
    (vs : List (state_equations.Values ℝ)) (hvs : Engine.inner env U c settings e.state = .ok vs) :
    e.values = Values.ofStateValues vs ∧
      let f := c.ws.frequency ⟨e.state.pres⟩
      let R := c.ws.thermal_resistance ⟨e.state.pres⟩
      let par := c.ws.parasitics ⟨e.state.pres⟩
      r.heat_flow.input - r.heat_flow.rejection = r.power.shaft
        + f * span (times vs) * (par.comp.thermal + par.exp.thermal)
        + f * trapezoid (times vs) (vs.map (storage U e))
        + f * trapezoid (times vs) (vs.map fun v => v.solution.Q_dot_r)
        - f * trapezoid (times vs) (vs.map fun v => (v.conditions.T_c - e.state.temp.chx) / R.comp)
        - f * trapezoid (times vs) (vs.map fun v => (v.conditions.T_e - e.state.temp.hhx) / R.exp)
      := by
  obtain ⟨-, vs', -, -, -, h0, h3, -⟩ := (C36_ok_iff env U c fluid inputs settings e).1 h
  rw [hvs] at h0; cases h0
  obtain ⟨-, -, -, -, -, pts, -, h2⟩ := (C33_ok_iff _ _ _ _).1 hvs
  obtain ⟨hc, hfl, hsi, hso, -⟩ := C37_returned_engine env U c fluid inputs settings e h
  subst hc
  refine ⟨h3, ?_⟩
  intro f R par
  have hgood := (C32_values_self_consistent _ _ _ h2).2
  have hnorm : ∀ t cd, ((Run.new U e.components e.state).calculate_inputs t cd).enth_norm ≠ 0 := by
    intro t cd
    show (0.5 : ℝ) * (e.state.fluid.enth e.state.temp.sink e.state.pres.avg
      + e.state.fluid.enth e.state.temp.source e.state.pres.avg) ≠ 0
    rw [hfl, hsi, hso]
    exact mul_ne_zero (by norm_num) hn
  have hpt : ∀ v ∈ vs, v.solution.Q_dot_l - v.solution.Q_dot_k = storage U e v
      + v.conditions.P * (dVc e v.time + dVe e v.time) + v.solution.Q_dot_r
      + (par.comp.thermal + par.exp.thermal) := by
    intro v hv
    obtain ⟨j, hj⟩ := List.getElem?_of_mem hv
    obtain ⟨-, hint, hs, -⟩ := hgood j v hj
    have := C06_total_energy_balance U hU _ (hnorm v.time v.conditions) hint _ hs
    unfold storage
    rw [this]
    show _ = -v.conditions.P * (dVc e v.time + dVe e v.time) - par.comp.thermal - par.exp.thermal
      - _ - _ + _ + _ + _ + _
    ring
  have hint : trapezoid (times vs) (vs.map fun v => v.solution.Q_dot_l)
      - trapezoid (times vs) (vs.map fun v => v.solution.Q_dot_k)
      = trapezoid (times vs) (vs.map (storage U e))
        + trapezoid (times vs) (vs.map fun v => v.conditions.P * dVc e v.time
            + v.conditions.P * dVe e v.time)
        + trapezoid (times vs) (vs.map fun v => v.solution.Q_dot_r)
        + (par.comp.thermal + par.exp.thermal) * span (times vs) := by
    have hspan : (par.comp.thermal + par.exp.thermal) * span (times vs)
        = trapezoid (times vs) (vs.map fun _ => par.comp.thermal + par.exp.thermal) :=
      (trapezoid_const_map _ vs fun v => v.time).symm
    rw [hspan, ← trapezoid_sub, ← trapezoid_add, ← trapezoid_add, ← trapezoid_add]
    congr 1
    apply List.map_congr_left
    intro v hv
    rw [hpt v hv]; ring
  obtain ⟨g1, g2⟩ := results_heats h3 hr
  obtain ⟨-, k2, k3, -⟩ := results_powers h3 hr
  have hW : r.power.ideal_indicated = f * trapezoid (times vs) (vs.map fun v =>
      v.conditions.P * dVc e v.time + v.conditions.P * dVe e v.time) := k2
  rw [g1, g2, k3]
  simp only [State.ws]
  have := congrArg (f * ·) hint
  simp only [mul_sub, mul_add] at this
  rw [hW]
  linear_combination this

/-- **C45**, closed cycle: when one period is covered, no internal energy is stored, the regenerator's net
heat is zero and no heat crosses the walls, heat input minus rejection is shaft power plus the working
spaces' thermal parasitics — so it equals shaft power exactly when those vanish. -/
theorem C45_closed_cycle (env : Env ℝ) (U : MatrixDecomposition ℝ) (hU : Sound U) (c : Components ℝ)
    (fluid : Fluid ℝ) (inputs : RunInputs ℝ) (settings : RunSettings ℝ) (e : Engine ℝ)
    (h : Engine.run env U c fluid inputs settings = .ok e)
    (hn : fluid.enth inputs.temp_sink e.state.pres.avg
      + fluid.enth inputs.temp_source e.state.pres.avg ≠ 0)
    (r : api.RunResults ℝ) (hr : RunResults.ofEngine e = .ok r)
    (vs : List (state_equations.Values ℝ)) (hvs : Engine.inner env U c settings e.state = .ok vs)
    (hclosed : c.ws.frequency ⟨e.state.pres⟩ * span (times vs) = 1 ∧
      trapezoid (times vs) (vs.map (storage U e)) = 0 ∧
      trapezoid (times vs) (vs.map fun v => v.solution.Q_dot_r) = 0 ∧
      trapezoid (times vs) (vs.map fun v => (v.conditions.T_c - e.state.temp.chx)
        / (c.ws.thermal_resistance ⟨e.state.pres⟩).comp) = 0 ∧
      trapezoid (times vs) (vs.map fun v => (v.conditions.T_e - e.state.temp.hhx)
        / (c.ws.thermal_resistance ⟨e.state.pres⟩).exp) = 0) :
    r.heat_flow.input - r.heat_flow.rejection = r.power.shaft
      + (c.ws.parasitics ⟨e.state.pres⟩).comp.thermal
      + (c.ws.parasitics ⟨e.state.pres⟩).exp.thermal := by
  have hl := (C45_first_law env U hU c fluid inputs settings e h hn r hr vs hvs).2
  obtain ⟨h1, h2, h3, h4, h5⟩ := hclosed
  simp only [h1, h2, h3, h4, h5] at hl
  linarith

end Sett
