import Verif.Props.SucceedsExample
import Verif.Props.FixedApproach
import Verif.Props.Grid
import Verif.Props.Autonomous
import Verif.Props.NoPanic
import Verif.Props.Lu

/-! # C88: runs that cannot fail -/

namespace Sett

open Spec dopri5 state_equations

section
variable {r : Run ℝ} {n : GasName}

/-- A search whose integrations from the hints succeed and stay within half the tolerance of them ends with the first
cycle. -/
theorem search_first (hf : r.fluid = (IdealGas.new n).toFluid) (hs : SaneRun r) (hT : Sound r.solver)
    (hc : Complete r.solver) {L : Limits} {outs : Nat} {env : Env ℝ} (ho : env.ode = dopri5.solve outs)
    {i : SteadyStateInputs ℝ} (hn : 2 ≤ i.num_points.toNat) (hres : ((i.num_points.toNat : ℝ) - 1) * 1e-14 < r.period)
    {δ : ℝ} (ha : δ < i.conv_tol.abs) (hr : δ < i.conv_tol.rel) (hm : 1 ≤ i.max_iters)
    (hTc : 100 ≤ i.temp_comp_hint) (hTe : 100 ≤ i.temp_exp_hint)
    (h : ∀ num : UInt32, num = 2 ∨ num = i.num_points →
      ∃ pts, integrationTryFrom env r.toCycle ⟨i.pres_zero, i.temp_comp_hint, i.temp_exp_hint⟩ num i.ode_tol = .ok pts ∧
        ∀ p ∈ pts, WithinLimits r L p.time p.conditions ∧
          Nearby δ ⟨i.pres_zero, i.temp_comp_hint, i.temp_exp_hint⟩ p.conditions) :
    ∃ vs, findSteadyState env r.toCycle i = .ok vs ∧ vs.length = i.num_points.toNat ∧
      ∀ v ∈ vs, Nearby δ ⟨i.pres_zero, i.temp_comp_hint, i.temp_exp_hint⟩ v.conditions := by
  obtain ⟨pts, h1, h2⟩ := h 2 (.inl rfl)
  obtain ⟨pts', h3, h4⟩ := h i.num_points (.inr rfl)
  obtain ⟨vs, hvs, hall⟩ := C60_values r n hf hT hc pts' fun p hp => physical_of_within hs (h4 p hp).1
  have e := (C32_values_self_consistent _ _ _ hvs).1
  have hn1 : (1 : ℝ) < i.num_points.toNat := by exact_mod_cast hn
  have hres2 : (((2 : UInt32).toNat : ℝ) - 1) * 1e-14 < r.toCycle.period := by
    refine lt_of_le_of_lt ?_ hres
    refine mul_le_mul_of_nonneg_right ?_ (by norm_num)
    have : (2 : ℝ) ≤ i.num_points.toNat := by exact_mod_cast hn
    show ((2 : ℕ) : ℝ) - 1 ≤ _
    push_cast
    linarith
  obtain ⟨-, g2, g3⟩ := C72_integration outs env ho r.toCycle _ 2 i.ode_tol (by decide) hres2 pts h1
  obtain ⟨k1, -, -⟩ := C72_integration outs env ho r.toCycle _ i.num_points i.ode_tol hn hres pts' h3
  cases hl : pts.getLast? with
  | none => rw [hl] at g3; cases g3
  | some q =>
    have near := (h2 q (List.mem_of_getLast? hl)).2
    have close : ∀ a b : ℝ, 100 ≤ a → |b - a| ≤ δ → Within i.conv_tol a b := by
      intro a b h100 hab
      refine ⟨(real_lt _ _).2 ?_, (real_lt _ _).2 ?_⟩
      · rw [real_abs]; linarith
      · rw [real_abs, abs_div, abs_of_pos (by linarith : 0 < a)]
        refine lt_of_le_of_lt (div_le_self (abs_nonneg _) (by linarith)) (by linarith)
    refine ⟨vs, (C33_ok_iff _ _ _ _).2 ⟨0, _, hm, .hints, ⟨_, q.conditions, ⟨pts, h1, g2, by rw [hl]; rfl⟩,
      close _ _ hTc near.comp_temp, close _ _ hTe near.exp_temp⟩, pts', h3, hvs⟩, ?_, ?_⟩
    · have l1 := congrArg List.length k1
      have l2 := congrArg List.length e
      simp only [List.length_map, List.length_range] at l1 l2
      rw [l2, l1]
    · intro v hv
      have : (⟨v.time, v.conditions⟩ : Point ℝ) ∈ pts' := by rw [← e]; exact List.mem_map_of_mem hv
      exact (h4 _ this).2

/-- **C88**, the search.  For an engine with no parasitic heat, limits, a distance `δ` from them and an error allowed per
step, there is a bound on speeds and accelerations of the pistons up to which the search for the steady cycle succeeds,
whatever the drive, with tolerances no smaller than `δ`, and reports nothing further than `δ` from its hints. -/
theorem C88_search (hf : r.fluid = (IdealGas.new n).toFluid) (hs : SaneRun r) (hT : Sound r.solver)
    (hc : Complete r.solver) (hq : NoParasiticHeat r) (L : Limits) {δ σ : ℝ} (hδ : 0 < δ) (hσ : 0 < σ) :
    ∃ w, 0 < w ∧ ∀ r', SameEngine r r' → SlowDrive r' L w → 1e-10 ≤ r'.period → r'.period < 1e6 - 1 →
      ∀ (outs : Nat) (env : Env ℝ) (i : SteadyStateInputs ℝ),
      env.ode = dopri5.solve outs → 2 ≤ i.num_points.toNat → ((i.num_points.toNat : ℝ) - 1) * 1e-14 < r'.period →
      i.num_points.toNat + 2 ≤ outs → 0 ≤ i.ode_tol.rel → σ ≤ leastAllowed i.ode_tol L →
      δ ≤ i.conv_tol.abs → δ ≤ i.conv_tol.rel → 1 ≤ i.max_iters →
      Inside L δ ⟨i.pres_zero, i.temp_comp_hint, i.temp_exp_hint⟩ →
      ∃ vs, findSteadyState env r'.toCycle i = .ok vs ∧ vs.length = i.num_points.toNat ∧
        ∀ v ∈ vs, Nearby δ ⟨i.pres_zero, i.temp_comp_hint, i.temp_exp_hint⟩ v.conditions := by
  obtain ⟨w, hw, -, h⟩ := C86_slow hf hs hT hc hq L (half_pos hδ) hσ
  refine ⟨w, hw, ?_⟩
  intro r' hr hd hp hp' outs env i ho hn hres hout hrel htol ha hrt hm hin
  have h2 : (2 : ℝ) ≤ i.num_points.toNat := by exact_mod_cast hn
  have key : ∀ num : UInt32, num = 2 ∨ num = i.num_points → ∃ pts, integrationTryFrom env r'.toCycle
      ⟨i.pres_zero, i.temp_comp_hint, i.temp_exp_hint⟩ num i.ode_tol = .ok pts ∧ ∀ p ∈ pts,
        WithinLimits r' { L with Wmax := 1 } p.time p.conditions ∧
          Nearby (δ / 2) ⟨i.pres_zero, i.temp_comp_hint, i.temp_exp_hint⟩ p.conditions := by
    intro num hnum
    have hnum2 : 2 ≤ num.toNat ∧ num.toNat ≤ i.num_points.toNat := by
      rcases hnum with rfl | rfl
      · exact ⟨le_rfl, hn⟩
      · exact ⟨hn, le_rfl⟩
    have hle : (num.toNat : ℝ) ≤ i.num_points.toNat := by exact_mod_cast hnum2.2
    refine h r' hr hd hp hp' outs env _ num i.ode_tol ho hnum2.1 (lt_of_le_of_lt ?_ hres) (by omega) hrel htol
      ⟨⟨?_, ?_⟩, ⟨?_, ?_⟩, ⟨?_, ?_⟩⟩
    · exact mul_le_mul_of_nonneg_right (by linarith) (by norm_num)
    all_goals linarith [hin.pres.1, hin.pres.2, hin.comp_temp.1, hin.comp_temp.2, hin.exp_temp.1, hin.exp_temp.2]
  obtain ⟨vs, v1, v2, v3⟩ := search_first (δ := δ / 2) (L := { L with Wmax := 1 }) ((same_fluid hr).trans hf) (same_sane hr hs hd)
    (same_solver hr ▸ hT) (same_solver hr ▸ hc) ho hn hres (by linarith) (by linarith) hm (by linarith [hin.comp_temp.1])
    (by linarith [hin.exp_temp.1]) key
  exact ⟨vs, v1, v2, fun v hv => ⟨(v3 v hv).pres.trans (by linarith), (v3 v hv).comp_temp.trans (by linarith),
      (v3 v hv).exp_temp.trans (by linarith)⟩⟩

end

/-- The first cycle problem of a run. -/
noncomputable abbrev firstRun (U : MatrixDecomposition ℝ) (c : Components ℝ) (n : GasName) (inputs : RunInputs ℝ) : Run ℝ :=
  Run.new U c (State.new_hint c (IdealGas.new n).toFluid inputs)

section
variable {U : MatrixDecomposition ℝ} {c : Components ℝ} {n : GasName} {inputs : RunInputs ℝ}

/-- With fixed approaches and positive outer tolerances, a run whose first search succeeds is finished. -/
theorem finished_first {env : Env ℝ} {settings : RunSettings ℝ} (hs : SaneEngine c n inputs)
    (ha : 0 < settings.loop_tol.outer.abs) (hr : 0 < settings.loop_tol.outer.rel) (ho : settings.max_iters.outer ≠ 0)
    {vs : List (state_equations.Values ℝ)} (hv : vs ≠ [])
    (h : Engine.inner env U c settings (State.new_hint c (IdealGas.new n).toFluid inputs) = .ok vs) :
    Engine.run env U c (IdealGas.new n).toFluid inputs settings
      = .ok ⟨c, State.new_hint c (IdealGas.new n).toFluid inputs, Values.ofStateValues vs⟩ := by
  obtain ⟨m, hm'⟩ : ∃ m, settings.max_iters.outer = m + 1 := Nat.exists_eq_succ_of_ne_zero ho
  unfold Engine.run Engine.runLogged
  rw [hm']
  rcases runLoop_succ env U c settings m (State.new_hint c (IdealGas.new n).toFluid inputs) with
    ⟨vs', t, g1, g2, g3, g4⟩ | ⟨vs', t, g1, g2, g3, g4⟩ | ⟨e, g1, g4⟩ | ⟨p, g1, g4⟩ | ⟨vs', p, g1, g2, g4⟩
  · rw [h] at g1; cases g1
    rw [g4]
  · have ht : t.temp = (State.new_hint c (IdealGas.new n).toFluid inputs).temp := by
      have e1 := g2.chx; have e2 := g2.hhx; have e3 := g2.regen
      have e4 := g2.sink; have e5 := g2.source
      rw [hs.chx_fixed] at e1; rw [hs.hhx_fixed] at e2; rw [hs.regen_fixed] at e3
      obtain ⟨_, _, ⟨t1, t2, t3, t4, t5⟩, _, _, _⟩ := t
      simp only at e1 e2 e3 e4 e5
      subst e1 e2 e3 e4 e5
      rfl
    have hw := fun x => within_self settings.loop_tol.outer ha hr x
    rw [ht] at g3
    exact absurd ⟨hw _, hw _, hw _, hw _, hw _⟩ g3
  · rw [h] at g1; cases g1
  · rw [h] at g1; cases g1
  · rw [h] at g1; cases g1
    obtain ⟨s'', hs''⟩ := recomputed_exists c (State.new_hint c (IdealGas.new n).toFluid inputs) vs hv
    exact absurd hs'' (g2 s'')

/-- **C88**, whole runs.  For an engine with fixed approaches and no parasitic heat, limits, a distance `δ` from them
and an error allowed per step, there is a bound on speeds and accelerations of the pistons up to which the run of
the engine succeeds, whatever the drive, with tolerances no smaller than `δ`; it returns the engine in the state of the
hints, and a cycle in which neither the pressure nor a temperature ever departs from that of the hints by more than `δ`. -/
theorem C88_engine (hs : SaneEngine c n inputs) (hT : Sound U) (hc : Complete U)
    (hq : NoParasiticHeat (firstRun U c n inputs)) (L : Limits) {δ σ : ℝ} (hδ : 0 < δ) (hσ : 0 < σ) :
    ∃ w, 0 < w ∧ ∀ c', SaneEngine c' n inputs → SameEngine (firstRun U c n inputs) (firstRun U c' n inputs) →
      SlowDrive (firstRun U c' n inputs) L w → 1e-10 ≤ (firstRun U c' n inputs).period →
      (firstRun U c' n inputs).period < 1e6 - 1 →
      ∀ (outs : Nat) (env : Env ℝ) (settings : RunSettings ℝ), env.ode = dopri5.solve outs → 2 ≤ settings.resolution.toNat →
      ((settings.resolution.toNat : ℝ) - 1) * 1e-14 < (firstRun U c' n inputs).period →
      settings.resolution.toNat + 2 ≤ outs → 0 ≤ settings.ode_tol.rel → σ ≤ leastAllowed settings.ode_tol L →
      δ ≤ settings.loop_tol.inner.abs → δ ≤ settings.loop_tol.inner.rel → 1 ≤ settings.max_iters.inner →
      0 < settings.loop_tol.outer.abs → 0 < settings.loop_tol.outer.rel → settings.max_iters.outer ≠ 0 →
      Inside L δ ⟨inputs.pres_zero, inputs.temp_sink + c'.chx.initial_approach,
        inputs.temp_source - c'.hhx.initial_approach⟩ →
      ∃ e, Engine.run env U c' (IdealGas.new n).toFluid inputs settings = .ok e ∧
        e.state = State.new_hint c' (IdealGas.new n).toFluid inputs ∧ e.values.P.length = settings.resolution.toNat ∧
        (∀ x ∈ e.values.P, |x - inputs.pres_zero| ≤ δ) ∧
        (∀ x ∈ e.values.T_c, |x - (inputs.temp_sink + c'.chx.initial_approach)| ≤ δ) ∧
        ∀ x ∈ e.values.T_e, |x - (inputs.temp_source - c'.hhx.initial_approach)| ≤ δ := by
  obtain ⟨w, hw, h⟩ := C88_search (r := firstRun U c n inputs) rfl (saneRun_start hs U) hT hc hq L hδ hσ
  refine ⟨w, hw, ?_⟩
  intro c' hs' hsame hd hp hp' outs env settings ho hn hres hout hrel htol ha hrt hm hoa hor hom hin
  obtain ⟨vs, v1, v2, v3⟩ := h _ hsame hd hp hp' outs env
    (innerRequest settings (State.new_hint c' (IdealGas.new n).toFluid inputs)) ho hn hres hout hrel htol ha hrt hm hin
  have hv : vs ≠ [] := by
    rintro rfl
    have : (0 : ℕ) = settings.resolution.toNat := v2
    omega
  refine ⟨_, finished_first hs' hoa hor hom hv v1, rfl, ?_, ?_, ?_, ?_⟩
  · show (Values.ofStateValues vs).P.length = _
    rw [ofStateValues_eq, List.length_map, v2]
    rfl
  · intro x hx
    replace hx : x ∈ (Values.ofStateValues vs).P := hx
    rw [ofStateValues_eq] at hx
    obtain ⟨v, hv, rfl⟩ := List.mem_map.1 hx
    exact (v3 v hv).pres
  · intro x hx
    replace hx : x ∈ (Values.ofStateValues vs).T_c := hx
    rw [ofStateValues_eq] at hx
    obtain ⟨v, hv, rfl⟩ := List.mem_map.1 hx
    exact (v3 v hv).comp_temp
  · intro x hx
    replace hx : x ∈ (Values.ofStateValues vs).T_e := hx
    rw [ofStateValues_eq] at hx
    obtain ⟨v, hv, rfl⟩ := List.mem_map.1 hx
    exact (v3 v hv).exp_temp

end

/-! ## Configuration files -/

/-- The configuration with other swept volumes. -/
def Spec.withStroke (c : Config ℝ) (p : ws.SinusoidalDrive.Config ℝ) (a b : ℝ) : Config ℝ :=
  { c with engine := { c.engine with components :=
    { c.engine.components with ws := .Sinusoidal { p with V_swept_c := a, V_swept_e := b } } } }

theorem sane_withStroke {c : Config ℝ} {k : chx.FixedApproach.Config ℝ} {r : regen.FixedApproach.Config ℝ}
    {l : hhx.FixedApproach.Config ℝ} (h : Spec.SaneConfig c k r l) {p : ws.SinusoidalDrive.Config ℝ} (hc : 0 < p.V_clearance_c)
    (he : 0 < p.V_clearance_e) {a b : ℝ} (ha : 0 ≤ a) (hb : 0 ≤ b) :
    Spec.SaneConfig (withStroke c p a b) k r l :=
  ⟨h.fluid, .sinusoidal _ hc he ha hb, h.chx, h.regen, h.hhx, h.vol, h.chx_temp, h.hhx_temp, h.cold_end, h.hot_end,
    h.ends_differ, h.norm, h.tol, h.outer⟩

theorem same_of_asked {c : Config ℝ} {k : chx.FixedApproach.Config ℝ} {r : regen.FixedApproach.Config ℝ}
    {l : hhx.FixedApproach.Config ℝ} (h : Spec.SaneConfig c k r l) {p : ws.SinusoidalDrive.Config ℝ}
    (hp : c.engine.components.ws = .Sinusoidal p) {a b : ℝ} {x x' : Components ℝ} {g g' : IdealGas ℝ}
    (hx : Spec.Asked c x g) (hx' : Spec.Asked (withStroke c p a b) x' g') (U : MatrixDecomposition ℝ) (n : GasName) :
    SameEngine (firstRun U x n (Spec.inputsOf c)) (firstRun U x' n (Spec.inputsOf c)) ∧
      x'.chx.initial_approach = k.DT ∧ x'.hhx.initial_approach = l.DT ∧
      (∀ s, x'.ws.frequency s = p.frequency) ∧ (∀ s, (x.ws.parasitics s).comp.thermal = 0) ∧
      (∀ s, (x.ws.parasitics s).exp.thermal = p.Q_parasitic_e) ∧
      ∃ d : ws.SinusoidalDrive ℝ, d.frequency = p.frequency ∧ d.comp_geometry = ⟨p.V_clearance_c, a⟩ ∧
        d.exp_geometry = ⟨p.V_clearance_e, b⟩ ∧ (firstRun U x' n (Spec.inputsOf c)).ws_vol_fn = d.volumes := by
  obtain ⟨a1, a2, a3, a4, -⟩ := hx
  obtain ⟨b1, b2, b3, b4, -⟩ := hx'
  replace b2 : Spec.BuildsChx c.engine.components.chx x'.chx := b2
  replace b3 : Spec.BuildsRegen c.engine.components.regen x'.regen := b3
  replace b4 : Spec.BuildsHhx c.engine.components.hhx x'.hhx := b4
  replace b1 : Spec.BuildsWs (.Sinusoidal { p with V_swept_c := a, V_swept_e := b }) x'.ws := b1
  rw [hp] at a1
  rw [h.chx] at a2 b2; rw [h.regen] at a3 b3; rw [h.hhx] at a4 b4
  obtain ⟨xw, xk, xr, xl⟩ := x
  obtain ⟨yw, yk, yr, yl⟩ := x'
  simp only at a1 a2 a3 a4 b1 b2 b3 b4 ⊢
  cases a1 with
  | sinusoidal _ _ f1 f2 f3 f4 =>
  cases b1 with
  | sinusoidal _ _ g1 g2 g3 g4 =>
  cases a2 with
  | fixedApproach _ _ k1 k2 k3 =>
  cases b2 with
  | fixedApproach _ _ k1' k2' k3' =>
  cases a3 with
  | fixedApproach _ _ r1 r2 r3 =>
  cases b3 with
  | fixedApproach _ _ r1' r2' r3' =>
  cases a4 with
  | fixedApproach _ _ l1 l2 l3 =>
  cases b4 with
  | fixedApproach _ _ l1' l2' l3' =>
  refine ⟨?_, k3', l3', g1, fun s => by rw [f4]; exact lit_0, fun s => by rw [f4],
    ⟨⟨p.frequency, p.phase_angle, ⟨p.V_clearance_c, a⟩, ⟨p.V_clearance_e, b⟩, ⟨p.R_c, p.R_e⟩, ⟨⟨0, 0, 0⟩, ⟨0, 0, 0⟩⟩⟩,
      rfl, rfl, rfl, ?_⟩⟩
  · simp only [SameEngine, firstRun, Run.new, State.new_hint, k1, k3, k1', k3', r1, r3, r1', r3', l1, l3, l1', l3', f4, g4]
  · funext t
    exact g2 _ t

/-- A configuration with sane numbers and a short enough stroke runs, and its gas stays warm. -/
theorem short_stroke (c : Config ℝ) (k : chx.FixedApproach.Config ℝ) (r : regen.FixedApproach.Config ℝ)
    (l : hhx.FixedApproach.Config ℝ) (h : Spec.SaneConfig c k r l) (p : ws.SinusoidalDrive.Config ℝ)
    (hp : c.engine.components.ws = .Sinusoidal p) (hQ : p.Q_parasitic_e = 0) (hP : 0 < c.conditions.pres_zero)
    (hTk : 100 < c.conditions.temp_sink + k.DT) (hTl : 100 < c.conditions.temp_source - l.DT)
    (hf : 1.01e-6 ≤ p.frequency) (hf' : p.frequency ≤ 1e10) (hn : 2 ≤ c.solver.ode.num_timesteps.toNat)
    (hres : ((c.solver.ode.num_timesteps.toNat : ℝ) - 1) * 1e-14 < 1 / p.frequency)
    (hrel : 0 ≤ c.solver.ode.tolerance.rel) (habs : 0 < c.solver.ode.tolerance.abs)
    (hia : 0 < c.solver.inner_loop.tolerance.abs) (hir : 0 < c.solver.inner_loop.tolerance.rel)
    (him : 1 ≤ c.solver.inner_loop.max_iterations.toNat) :
    ∃ v, 0 < v ∧ ∀ a b, 0 ≤ a → a ≤ v → 0 ≤ b → b ≤ v → ∀ (outs : Nat) (env : Env ℝ), env.ode = dopri5.solve outs →
      c.solver.ode.num_timesteps.toNat + 2 ≤ outs → ∃ x g e res, Asked (withStroke c p a b) x g ∧
        Engine.run env lu.LU x (IdealGas.new (Spec.gas c.engine.fluid)).toFluid (Spec.inputsOf c) (Spec.settingsOf c) = .ok e ∧
        SaneEngine x (Spec.gas c.engine.fluid) (Spec.inputsOf c) ∧
        e.state = State.new_hint x (IdealGas.new (Spec.gas c.engine.fluid)).toFluid (Spec.inputsOf c) ∧
        (∀ y ∈ e.values.P, 0 < y) ∧ (∀ y ∈ e.values.T_c, 100 ≤ y) ∧ (∀ y ∈ e.values.T_e, 100 ≤ y) ∧
        RunResults.ofEngine e = .ok res ∧ run_engine env lu.LU (withStroke c p a b) = .ok res := by
  have hv : 0 < p.V_clearance_c ∧ 0 < p.V_clearance_e := by
    have hd := h.drive
    rw [hp] at hd
    cases hd with
    | sinusoidal _ h1 h2 _ _ => exact ⟨h1, h2⟩
  have hsup : ∀ {c : Config ℝ}, Spec.SaneConfig c k r l → Spec.Supported c := by
    intro c h
    refine ⟨h.fluid, ?_, ?_, ?_, ?_⟩
    · have hd := h.drive
      generalize c.engine.components.ws = w at hd
      cases hd <;> simp
    · rw [h.chx]; simp
    · rw [h.regen]; simp
    · rw [h.hhx]; simp
  obtain ⟨x, g, hx, -⟩ := C50_ok_iff (⟨dopri5.solve 0, .checked⟩ : Env ℝ) lu.LU c (hsup h)
  have base := same_of_asked h hp hx (a := p.V_swept_c) (b := p.V_swept_e) (x' := x) (g' := g)
    ⟨by have := hx.ws; rw [hp] at this; exact this, hx.chx, hx.regen, hx.hhx, hx.fluid⟩ lu.LU (Spec.gas c.engine.fluid)
  set Tk := c.conditions.temp_sink + k.DT with hTk'
  set Tl := c.conditions.temp_source - l.DT with hTl'
  set P := c.conditions.pres_zero with hP'
  let L : Limits := { Pmin := P / 2, Pmax := 2 * P, Tmax := Tk + Tl, Vmin := min p.V_clearance_c p.V_clearance_e
                      Vmax := p.V_clearance_c + p.V_clearance_e + 1, Wmax := 1
                      Pmin_pos := half_pos hP, Vmin_pos := lt_min hv.1 hv.2 }
  obtain ⟨δ, hδ, d1, d2, d3, d4, d5, d6⟩ : ∃ δ : ℝ, 0 < δ ∧ δ ≤ P / 2 ∧ δ ≤ Tk - 100 ∧ δ ≤ Tl - 100 ∧
      δ ≤ c.solver.inner_loop.tolerance.abs ∧ δ ≤ c.solver.inner_loop.tolerance.rel ∧ δ ≤ 100 := by
    refine ⟨min (P / 2) (min (Tk - 100) (min (Tl - 100) (min c.solver.inner_loop.tolerance.abs
      (min c.solver.inner_loop.tolerance.rel 100)))), ?_, ?_, ?_, ?_, ?_, ?_, ?_⟩
    · have := sub_pos.2 hTk; have := sub_pos.2 hTl
      positivity
    all_goals simp
  obtain ⟨w, hw, hrun⟩ := C88_engine (saneEngine_of_config h hx) C69_sound C69_complete
    ⟨base.2.2.2.2.1 _, (base.2.2.2.2.2.1 _).trans hQ⟩ L hδ habs
  set o := 2 * Real.pi * p.frequency with ho
  have hf0 : 0 < p.frequency := lt_of_lt_of_le (by norm_num) hf
  have ho0 : 0 < o := by have := Real.pi_pos; positivity
  refine ⟨min 1 (w / (o + o ^ 2)), by positivity, ?_⟩
  intro a b ha ha' hb hb' outs env hode hout
  have a1 := ha'.trans (min_le_left _ _); have a2 := ha'.trans (min_le_right _ _)
  have b1 := hb'.trans (min_le_left _ _); have b2 := hb'.trans (min_le_right _ _)
  have h' := sane_withStroke h hv.1 hv.2 ha hb
  obtain ⟨x', g', hx', h1, -⟩ := C50_ok_iff env lu.LU _ (hsup h')
  obtain ⟨s1, s2, s3, s4, -, -, d, e1, e2, e3, e4⟩ := same_of_asked h hp hx hx' lu.LU (Spec.gas c.engine.fluid)
  have hper : (firstRun lu.LU x' (Spec.gas c.engine.fluid) (Spec.inputsOf c)).period = 1 / p.frequency := by
    show 1.0 / x'.ws.frequency _ = _
    rw [s4, lit_1]
  have hs' : SaneEngine x' (Spec.gas c.engine.fluid) (Spec.inputsOf c) := saneEngine_of_config h' hx'
  have q1 : SlowDrive (firstRun lu.LU x' (Spec.gas c.engine.fluid) (Spec.inputsOf c)) L w := by
    refine sinusoidal_slow d e4 (by rw [e1]; exact hf0.le) (by rw [e2]; exact ha) (by rw [e3]; exact hb) ?_ ?_ ?_ ?_ ?_
    · rw [e2]; exact min_le_left _ _
    · rw [e2]; show _ + a ≤ p.V_clearance_c + p.V_clearance_e + 1; linarith [hv.2]
    · rw [e3]; exact min_le_right _ _
    · rw [e3]; show _ + b ≤ p.V_clearance_c + p.V_clearance_e + 1; linarith [hv.1]
    · rw [e1, e2, e3]
      calc (a + b) * (o + o ^ 2) ≤ (w / (o + o ^ 2) + w / (o + o ^ 2)) * (o + o ^ 2) :=
            mul_le_mul_of_nonneg_right (add_le_add a2 b2) (by positivity)
        _ = 2 * w := by field_simp; ring
  have q2 : 1e-10 ≤ (firstRun lu.LU x' (Spec.gas c.engine.fluid) (Spec.inputsOf c)).period := by
    rw [hper, le_div_iff₀ hf0]
    norm_num at hf' ⊢
    linarith
  have q3 : (firstRun lu.LU x' (Spec.gas c.engine.fluid) (Spec.inputsOf c)).period < 1e6 - 1 := by
    rw [hper, div_lt_iff₀ hf0]
    norm_num at hf ⊢
    linarith
  have key := hrun x' hs' s1 q1 q2 q3 outs env (Spec.settingsOf c) hode hn (by rw [hper]; exact hres) hout hrel (by
    show _ ≤ c.solver.ode.tolerance.abs + min (P / 2) 100 * c.solver.ode.tolerance.rel
    have : 0 ≤ min (P / 2) 100 * c.solver.ode.tolerance.rel := mul_nonneg (by positivity) hrel
    linarith) d4 d5 him h.tol.1 h.tol.2 h.outer (by
    rw [s2, s3]
    refine ⟨⟨?_, ?_⟩, ⟨?_, ?_⟩, ⟨?_, ?_⟩⟩
    · show P / 2 + δ ≤ P; linarith
    · show P ≤ 2 * P - δ; linarith
    · show 100 + δ ≤ Tk; linarith
    · show Tk ≤ Tk + Tl - δ; linarith
    · show 100 + δ ≤ Tl; linarith
    · show Tl ≤ Tk + Tl - δ; linarith)
  obtain ⟨e, he, k1, -, k2, k3, k4⟩ := key
  rw [s2] at k3
  rw [s3] at k4
  have hg := hx'.fluid
  subst hg
  obtain ⟨-, -, vs, -, -, -, h3, -⟩ := C36_values_are_steady env lu.LU x' _ _ _ e he
  obtain ⟨res, hres⟩ := results_ok e vs h3
  refine ⟨x', _, e, res, hx', he, hs', k1, ?_, ?_, ?_, hres, (h1 res).2 ⟨e, he, hres⟩⟩
  · intro y hy
    have := (abs_le.1 (k2 y hy)).1
    change -δ ≤ y - P at this
    linarith
  · intro y hy
    have := (abs_le.1 (k3 y hy)).1
    change -δ ≤ y - Tk at this
    linarith
  · intro y hy
    have := (abs_le.1 (k4 y hy)).1
    change -δ ≤ y - Tl at this
    linarith

/-- **C88**, configuration files.  Take a configuration with sane numbers: an ideal gas, fixed approaches, a sinusoidal
drive without parasitic heat, exchangers above 100 K, positive pressure and tolerances, at least two time steps, and a
frequency between one cycle in eleven days and 10 GHz.  There is a swept volume up to which `run_engine` succeeds on the
same configuration with any two smaller ones. -/
theorem C88_run_engine (c : Config ℝ) (k : chx.FixedApproach.Config ℝ) (r : regen.FixedApproach.Config ℝ)
    (l : hhx.FixedApproach.Config ℝ) (h : Spec.SaneConfig c k r l) (p : ws.SinusoidalDrive.Config ℝ)
    (hp : c.engine.components.ws = .Sinusoidal p) (hQ : p.Q_parasitic_e = 0) (hP : 0 < c.conditions.pres_zero)
    (hTk : 100 < c.conditions.temp_sink + k.DT) (hTl : 100 < c.conditions.temp_source - l.DT)
    (hf : 1.01e-6 ≤ p.frequency) (hf' : p.frequency ≤ 1e10) (hn : 2 ≤ c.solver.ode.num_timesteps.toNat)
    (hres : ((c.solver.ode.num_timesteps.toNat : ℝ) - 1) * 1e-14 < 1 / p.frequency)
    (hrel : 0 ≤ c.solver.ode.tolerance.rel) (habs : 0 < c.solver.ode.tolerance.abs)
    (hia : 0 < c.solver.inner_loop.tolerance.abs) (hir : 0 < c.solver.inner_loop.tolerance.rel)
    (him : 1 ≤ c.solver.inner_loop.max_iterations.toNat) :
    ∃ v, 0 < v ∧ ∀ a b, 0 ≤ a → a ≤ v → 0 ≤ b → b ≤ v → ∀ (outs : Nat) (env : Env ℝ), env.ode = dopri5.solve outs →
      c.solver.ode.num_timesteps.toNat + 2 ≤ outs → ∃ res, run_engine env lu.LU (withStroke c p a b) = .ok res := by
  obtain ⟨v, hv, h⟩ := short_stroke c k r l h p hp hQ hP hTk hTl hf hf' hn hres hrel habs hia hir him
  refine ⟨v, hv, fun a b ha ha' hb hb' outs env ho hout => ?_⟩
  obtain ⟨-, -, -, res, -, -, -, -, -, -, -, -, hres⟩ := h a b ha ha' hb hb' outs env ho hout
  exact ⟨res, hres⟩

end Sett
