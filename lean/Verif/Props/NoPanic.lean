import Verif.Spec.Sane
import Verif.Props.Autonomous
import Verif.Props.FixedApproach
import Verif.Props.HeatExchangers
import Verif.Props.Config
import Verif.Props.Drives

/-! # C62: a run on sane inputs does not panic

The crate panics on a failed solve inside the integrator (`integrator.rs:135`), on a failed solve of a
reported point (`:97`), on an empty integration and on `num_points - 1` underflow.  On sane inputs, with an
integrator that keeps the gas warm, none of these can happen. -/

namespace Sett

open Spec state_equations api

theorem SaneRun.physical {r : Run ℝ} (h : SaneRun r) (t : ℝ) {y : Conditions ℝ} (hy : Warm y) :
    Physical r t y 100 :=
  ⟨h.norm, hy.pres, h.comp_vol t, h.exp_vol t, h.chx_vol, h.regen_vol, h.hhx_vol, h.regen_temp,
    hy.comp, h.chx_temp, h.hhx_temp, hy.exp⟩

/-- The rates exist, and there is only one choice of them where it matters. -/
theorem ratesOf_exists (r : Run ℝ) (n : GasName) (hf : r.fluid = (IdealGas.new n).toFluid)
    (h : SaneRun r) : (∃ f, RatesOf r f) ∧
      ∀ f g, RatesOf r f → RatesOf r g → ∀ t y, Warm (conditionsOf y) → f t y = g t y := by
  constructor
  · have : ∀ t y, ∃ dy, Warm (conditionsOf y) → IsRate r t y dy := by
      intro t y
      by_cases hy : Warm (conditionsOf y)
      · obtain ⟨s, hs, -⟩ := C58_unique_consistent _
          (C58_ideal_gas_stable r n hf t _ (SaneRun.physical h t hy))
        exact ⟨_, fun _ => ⟨s, hs, rfl⟩⟩
      · exact ⟨y, fun h => absurd h hy⟩
    choose f hf using this
    exact ⟨f, hf⟩
  · intro f g h1 h2 t y hy
    obtain ⟨s, hs, e⟩ := h1 t y hy
    obtain ⟨s', hs', e'⟩ := h2 t y hy
    rw [e, e', consistent_unique (C58_ideal_gas_stable r n hf t _ (SaneRun.physical h t hy)) hs hs']

theorem timeStep_two (b : Build) (p : ℝ) : ∃ dx, timeStep b p 2 = .ok dx := by
  cases b <;> exact ⟨_, rfl⟩

theorem timeStep_ok (b : Build) (p : ℝ) (n : UInt32) (h : n ≠ 0 ∨ b = .wrapping) :
    ∃ dx, timeStep b p n = .ok dx := by
  unfold timeStep pointsMinusOne
  cases b with
  | wrapping => exact ⟨_, rfl⟩
  | checked =>
    rcases h with h | h
    · simp only [h, if_false]; exact ⟨_, rfl⟩
    · cases h

section
variable {env : Env ℝ} {r : Run ℝ} {n : GasName} {f : ℝ → V3 ℝ → V3 ℝ} {tol : OdeTolerance ℝ}
  {m : UInt32} {P : ℝ}

/-- One integration: warm points, or an error. -/
theorem integration_warm (hs : SaneRun r) (hf : r.fluid = (IdealGas.new n).toFluid)
    (hT : Sound r.solver) (hc : Complete r.solver) (hr : RatesOf r f) (hk : KeepsWarm env r f tol m P)
    (T_c T_e : ℝ) (h1 : 100 ≤ T_c) (h2 : 100 ≤ T_e) (k : UInt32) (hkm : k = 2 ∨ k = m)
    (hm : m ≠ 0 ∨ env.build = .wrapping) :
    integrationTryFrom env r.toCycle ⟨P, T_c, T_e⟩ k tol = .error (.err .integration) ∨
      ∃ pts, integrationTryFrom env r.toCycle ⟨P, T_c, T_e⟩ k tol = .ok pts ∧ pts ≠ [] ∧
        ∀ p ∈ pts, Warm p.conditions := by
  obtain ⟨dx, hdx⟩ : ∃ dx, timeStep env.build r.period k = .ok dx := by
    rcases hkm with rfl | rfl
    · exact timeStep_two _ _
    · exact timeStep_ok _ _ _ hm
  have hw : StaysWarm f (startStepper env r.toCycle ⟨P, T_c, T_e⟩ dx tol) :=
    hk T_c T_e dx h1 h2 (by rcases hkm with rfl | rfl <;> simp [hdx])
  rw [C60_integration env r n hf hT hc f _ k tol dx hdx fun t y h =>
    ⟨SaneRun.physical hs t (hw.asked t y h), hr t y (hw.asked t y h)⟩]
  cases hI : Integrated f (startStepper env r.toCycle ⟨P, T_c, T_e⟩ dx tol) with
  | none => exact .inl rfl
  | some o =>
    obtain ⟨xs, ys⟩ := o
    obtain ⟨g1, g2, g3⟩ := hw.reported xs ys hI
    refine .inr ⟨_, rfl, ?_, ?_⟩
    · intro h
      simp only [toPoints, List.map_eq_nil_iff, List.zip_eq_nil_iff] at h
      exact h.elim g1 g2
    · intro p hp
      simp only [toPoints, List.mem_map] at hp
      obtain ⟨q, hq, rfl⟩ := hp
      exact g3 q.2 (List.of_mem_zip hq).2

/-- **C62**, inner loop.  On a sane run of an ideal gas, with a decomposition that is right and does not
fail on regular systems and an integrator that keeps the gas warm, `find_steady_state` started warm returns
warm values or an error: it does not panic. -/
theorem C62_inner (hs : SaneRun r) (hf : r.fluid = (IdealGas.new n).toFluid)
    (hT : Sound r.solver) (hc : Complete r.solver) (hr : RatesOf r f) (i : SteadyStateInputs ℝ)
    (hm : i.num_points ≠ 0 ∨ env.build = .wrapping)
    (hk : KeepsWarm env r f i.ode_tol i.num_points i.pres_zero)
    (h1 : 100 ≤ i.temp_comp_hint) (h2 : 100 ≤ i.temp_exp_hint) :
    Orderly (findSteadyState env r.toCycle i) := by
  unfold findSteadyState findSteadyStateLogged
  generalize i.max_iters = fuel
  generalize i.temp_comp_hint = T_c at h1
  generalize i.temp_exp_hint = T_e at h2
  induction fuel generalizing T_c T_e with
  | zero => simp only [steadyLoop, Orderly]
  | succ fuel ih =>
    simp only [steadyLoop]
    rcases integration_warm hs hf hT hc hr hk T_c T_e h1 h2 2 (.inl rfl) hm with e | ⟨pts, e, g1, g2⟩
    · rw [e]; simp only [Orderly]
    rw [e]
    simp only
    obtain ⟨p, hp⟩ : ∃ p, pts.head? = some p := by
      cases pts with
      | nil => exact absurd rfl g1
      | cons a l => exact ⟨a, rfl⟩
    obtain ⟨q, hq⟩ : ∃ q, pts.getLast? = some q := by
      cases hl : pts.getLast? with
      | none => exact absurd (List.getLast?_eq_none_iff.1 hl) g1
      | some q => exact ⟨q, rfl⟩
    have hI : integrationIsConverged pts i.conv_tol
        = .ok (i.conv_tol.is_converged p.conditions.T_c q.conditions.T_c
            && i.conv_tol.is_converged p.conditions.T_e q.conditions.T_e) := by
      unfold integrationIsConverged; rw [hp, hq]
    rw [hI]
    cases (i.conv_tol.is_converged p.conditions.T_c q.conditions.T_c
      && i.conv_tol.is_converged p.conditions.T_e q.conditions.T_e) with
    | true =>
      simp only
      rcases integration_warm hs hf hT hc hr hk T_c T_e h1 h2 i.num_points (.inr rfl) hm with
        e | ⟨pts', e, g3, g4⟩
      · rw [e]; simp only [Orderly]
      rw [e]
      simp only
      obtain ⟨vs, hvs, hall⟩ := C60_values r n hf hT hc pts' fun p hp =>
        SaneRun.physical hs _ (g4 p hp)
      rw [hvs]
      simp only [Panics.lift, Orderly]
      constructor
      · rintro rfl
        cases hall
        exact g3 rfl
      · clear hvs e g3
        induction hall with
        | nil => simp
        | @cons a b l l' hab _ ih' =>
          intro v hv
          rcases List.mem_cons.1 hv with rfl | hv
          · rw [hab.2.1]; exact g4 a (by simp)
          · exact ih' (fun p hp => g4 p (by simp [hp])) v hv
    | false =>
      simp only
      have hF : finalConditions pts = .ok q.conditions := by unfold finalConditions; rw [hq]
      rw [hF]
      have hw := g2 q (List.mem_of_getLast? hq)
      exact ih _ hw.comp _ hw.exp
end

section
variable (env : Env ℝ) (U : MatrixDecomposition ℝ) (c : Components ℝ) (n : GasName)
  (inputs : RunInputs ℝ) (settings : RunSettings ℝ)

/-- **C62**, outer loop, any components: if every state of the outer sequence gives a sane run on which
the integrator keeps the gas warm, `Engine::run` returns an engine or an error: it does not panic. -/
theorem C62_engine (hT : Sound U) (hc : Complete U)
    (hm : settings.resolution ≠ 0 ∨ env.build = .wrapping)
    (hv : ∀ k s, Visited env U c settings (State.new_hint c (IdealGas.new n).toFluid inputs) k s →
      SaneRun (Run.new U c s) ∧ ∃ f, RatesOf (Run.new U c s) f ∧
        KeepsWarm env (Run.new U c s) f settings.ode_tol settings.resolution s.pres.t_zero) :
    ∀ msg, Engine.run env U c (IdealGas.new n).toFluid inputs settings ≠ .error (.panic msg) := by
  intro msg h
  unfold Engine.run Engine.runLogged at h
  rcases runLoop_cases (env := env) (U := U) (c := c) (settings := settings)
    (start := State.new_hint c (IdealGas.new n).toFluid inputs) 0 settings.max_iters.outer _ .start
    with ⟨k, s', vs, s'', h1, h2, h3, h4, h5, h6⟩ | ⟨s', h1, h2⟩ | ⟨k, s', e', h1, h2, h3, h4⟩ |
      ⟨k, s', p, h1, h2, h3, h4⟩
  · rw [h6] at h; cases h
  · rw [h2] at h; cases h
  · rw [h4] at h; cases h
  · obtain ⟨hs, f, hr, hk⟩ := hv k s' h2
    have hfl : (Run.new U c s').fluid = (IdealGas.new n).toFluid :=
      (C37_visited_invariant env U c _ inputs settings k s' h2).1
    have ho : Orderly (Engine.inner env U c settings s') :=
      C62_inner hs hfl hT hc hr _ hm hk hs.chx_temp hs.hhx_temp
    rcases h3 with h3 | ⟨vs, h3, h5⟩
    · rw [h3] at ho; exact ho
    · rw [h3] at ho
      obtain ⟨s'', hs''⟩ := recomputed_exists c s' vs ho.1
      exact h5 s'' hs''
end

/-! ## Engines with fixed approaches -/

section
variable {env : Env ℝ} {U : MatrixDecomposition ℝ} {c : Components ℝ} {n : GasName}
  {inputs : RunInputs ℝ} {settings : RunSettings ℝ}

theorem saneRun_start (h : SaneEngine c n inputs) (U : MatrixDecomposition ℝ) :
    SaneRun (Run.new U c (State.new_hint c (IdealGas.new n).toFluid inputs)) := by
  refine ⟨?_, h.comp_vol _, h.exp_vol _, h.chx_vol, h.regen_vol, h.hhx_vol, ?_, h.chx_temp, h.hhx_temp⟩
  · have := h.norm
    show 0.5 * (_ + _) ≠ (0 : ℝ)
    exact mul_ne_zero (by norm_num) this
  · have hb := C21_average_between ⟨0⟩ (inputs.temp_sink + c.chx.initial_approach)
      (inputs.temp_source - c.hhx.initial_approach) c.regen.initial_approach
    simp only [Spec.effectiveEnds] at hb
    have hcold : (RegenImbalance.regen_temp (⟨0⟩ : RegenImbalance ℝ)
        (inputs.temp_sink + c.chx.initial_approach)
        (inputs.temp_source - c.hhx.initial_approach) c.regen.initial_approach).cold
        = inputs.temp_sink + c.chx.initial_approach + c.regen.initial_approach := by
      norm_num [RegenImbalance.regen_temp]
    have hhot : (RegenImbalance.regen_temp (⟨0⟩ : RegenImbalance ℝ)
        (inputs.temp_sink + c.chx.initial_approach)
        (inputs.temp_source - c.hhx.initial_approach) c.regen.initial_approach).hot
        = inputs.temp_source - c.hhx.initial_approach - c.regen.initial_approach := by
      norm_num [RegenImbalance.regen_temp]
    rw [hcold, hhot] at hb
    have h1 := h.cold_end
    have h2 := h.hot_end
    have h3 := h.ends_differ
    ring_nf at hb h1 h2 h3
    have hb' := (hb h1 h2 h3).1
    have : (0 : ℝ) < min _ _ := lt_min h1 h2
    show 0 < (RegenImbalance.regen_temp ⟨0.0⟩ _ _ _).avg
    rw [show (0.0 : ℝ) = 0 by norm_num]
    exact this.trans hb'

/-- **C62**, engines with fixed approaches.  On sane inputs, with positive outer tolerances and an
integrator that keeps the gas warm in the starting state, the whole run has exactly two possible
outcomes besides an outer limit of zero: an engine, in the starting state, or the error `InnerLoop`. -/
theorem C62_fixed_approach (hs : SaneEngine c n inputs) (hT : Sound U) (hc : Complete U)
    (hm : settings.resolution ≠ 0 ∨ env.build = .wrapping)
    (ha : 0 < settings.loop_tol.outer.abs) (hr : 0 < settings.loop_tol.outer.rel)
    (ho : settings.max_iters.outer ≠ 0)
    (hk : ∃ f, RatesOf (Run.new U c (State.new_hint c (IdealGas.new n).toFluid inputs)) f ∧
      KeepsWarm env (Run.new U c (State.new_hint c (IdealGas.new n).toFluid inputs)) f
        settings.ode_tol settings.resolution inputs.pres_zero) :
    (∃ e, Engine.run env U c (IdealGas.new n).toFluid inputs settings = .ok e ∧
      e.state = State.new_hint c (IdealGas.new n).toFluid inputs) ∨
    Engine.run env U c (IdealGas.new n).toFluid inputs settings = .error (.err .InnerLoop) := by
  obtain ⟨f, hf, hk⟩ := hk
  have hsr := saneRun_start hs U
  have hor : Orderly (Engine.inner env U c settings
      (State.new_hint c (IdealGas.new n).toFluid inputs)) :=
    C62_inner hsr rfl hT hc hf _ hm hk hsr.chx_temp hsr.hhx_temp
  obtain ⟨m, hm'⟩ : ∃ m, settings.max_iters.outer = m + 1 := Nat.exists_eq_succ_of_ne_zero ho
  unfold Engine.run Engine.runLogged
  rw [hm']
  rcases runLoop_succ env U c settings m (State.new_hint c (IdealGas.new n).toFluid inputs) with
    ⟨vs', t, g1, g2, g3, g4⟩ | ⟨vs', t, g1, g2, g3, g4⟩ | ⟨e, g1, g4⟩ | ⟨p, g1, g4⟩ |
    ⟨vs', p, g1, g2, g4⟩
  · rw [g4]; exact .inl ⟨_, rfl, rfl⟩
  · have ht : t.temp = (State.new_hint c (IdealGas.new n).toFluid inputs).temp := by
      have e1 := g2.chx; have e2 := g2.hhx; have e3 := g2.regen
      have e4 := g2.sink; have e5 := g2.source
      rw [hs.chx_fixed] at e1; rw [hs.hhx_fixed] at e2; rw [hs.regen_fixed] at e3
      obtain ⟨_, _, ⟨t1, t2, t3, t4, t5⟩, _, _, _⟩ := t
      simp only at e1 e2 e3 e4 e5
      subst e1 e2 e3 e4 e5
      rfl
    have hw := fun x => within_self settings.loop_tol.outer ha hr x
    rw [ht] at g3
    exact absurd ⟨hw _, hw _, hw _, hw _, hw _⟩ g3
  · rw [g4]; exact .inr rfl
  · rw [g1] at hor; exact hor.elim
  · rw [g1] at hor
    obtain ⟨s'', hs''⟩ := recomputed_exists c _ vs' hor.1
    exact absurd hs'' (g2 s'')
end

/-! ## Configuration files -/

/-- A drive configuration whose spaces never empty. -/
inductive Spec.SaneDrive : ws.Config ℝ → Prop
  | sinusoidal (p : ws.SinusoidalDrive.Config ℝ) (c : 0 < p.V_clearance_c) (e : 0 < p.V_clearance_e)
      (c' : 0 ≤ p.V_swept_c) (e' : 0 ≤ p.V_swept_e) : SaneDrive (.Sinusoidal p)
  | rhombic (p : ws.RhombicDrive.Config ℝ) (c : 0 < p.V_clearance_c) (e : 0 < p.V_clearance_e)
      (crank : 0 ≤ p.r_crank) (ecc : p.r_crank ≤ p.eccentricity)
      (rod : p.eccentricity + p.r_crank < p.L_conn) : SaneDrive (.Rhombic p)

/-- A configuration with sane numbers: an ideal gas, a drive whose spaces never empty and three
fixed-approach exchangers `k`, `r`, `l`. -/
structure Spec.SaneConfig (c : Config ℝ) (k : chx.FixedApproach.Config ℝ)
    (r : regen.FixedApproach.Config ℝ) (l : hhx.FixedApproach.Config ℝ) : Prop where
  fluid : Spec.gasModel c.engine.fluid = .IdealGas
  drive : Spec.SaneDrive c.engine.components.ws
  chx : c.engine.components.chx = .FixedApproach k
  regen : c.engine.components.regen = .FixedApproach r
  hhx : c.engine.components.hhx = .FixedApproach l
  vol : 0 ≤ k.vol ∧ 0 ≤ r.vol ∧ 0 ≤ l.vol
  chx_temp : 100 ≤ c.conditions.temp_sink + k.DT
  hhx_temp : 100 ≤ c.conditions.temp_source - l.DT
  cold_end : 0 < c.conditions.temp_sink + k.DT + r.DT / 2
  hot_end : 0 < c.conditions.temp_source - l.DT - r.DT / 2
  ends_differ : c.conditions.temp_sink + k.DT + r.DT / 2 ≠ c.conditions.temp_source - l.DT - r.DT / 2
  norm : (IdealGas.new (Spec.gas c.engine.fluid) : IdealGas ℝ).enth
      c.conditions.temp_sink c.conditions.pres_zero
    + (IdealGas.new (Spec.gas c.engine.fluid) : IdealGas ℝ).enth
      c.conditions.temp_source c.conditions.pres_zero ≠ 0
  tol : 0 < c.solver.outer_loop.tolerance.abs ∧ 0 < c.solver.outer_loop.tolerance.rel
  outer : c.solver.outer_loop.max_iterations.toNat ≠ 0

theorem saneEngine_of_config {c : Config ℝ} {k : chx.FixedApproach.Config ℝ}
    {r : regen.FixedApproach.Config ℝ} {l : hhx.FixedApproach.Config ℝ} (h : Spec.SaneConfig c k r l)
    {x : Components ℝ} {g : IdealGas ℝ} (ha : Spec.Asked c x g) :
    SaneEngine x (Spec.gas c.engine.fluid) (Spec.inputsOf c) := by
  obtain ⟨a1, a2, a3, a4, -⟩ := ha
  rw [h.chx] at a2; rw [h.regen] at a3; rw [h.hhx] at a4
  have hv : ∀ s t, 0 < (x.ws.volumes s t).1.value ∧ 0 < (x.ws.volumes s t).2.value := by
    intro s t
    have hd := h.drive
    generalize c.engine.components.ws = w at a1 hd
    generalize x.ws = v at a1
    cases hd with
    | sinusoidal p h1 h2 h3 h4 =>
      cases a1 with
      | sinusoidal _ _ _ e _ _ =>
        rw [e]
        exact ws.C12_sinusoidal_positive _ h3 h4 h1 h2 t
    | rhombic p h1 h2 h3 h4 h5 =>
      cases a1 with
      | rhombic _ _ _ e _ _ =>
        obtain ⟨D, -, e⟩ := e
        rw [e]
        set y : ws.RhombicDrive ℝ := ⟨p.frequency, ⟨p.eccentricity, p.r_crank, p.D_p, D, p.L_conn⟩,
          v.parasitics s, p.R_c, p.R_e, p.V_clearance_c, p.V_clearance_e⟩
        have hg : ws.Feasible y.geometry := ⟨h3.trans h4, h3, h5⟩
        exact ⟨h1.trans_le (ws.C14_rhombic_compression_ge y hg h4 t),
          h2.trans_le (ws.C14_rhombic_expansion_ge y hg t)⟩
  cases a2 with
  | fixedApproach _ _ b1 b2 b3 =>
    cases a3 with
    | fixedApproach _ _ d1 d2 d3 =>
      cases a4 with
      | fixedApproach _ _ f1 f2 f3 =>
        refine ⟨fun s => by rw [b2, b3], fun s => by rw [d2, d3], fun s => by rw [f2, f3],
          fun s t => (hv s t).1, fun s t => (hv s t).2, ?_, ?_, ?_, ?_, ?_, ?_, ?_, ?_, h.norm⟩
        · rw [b1]; exact h.vol.1
        · rw [d1]; exact h.vol.2.1
        · rw [f1]; exact h.vol.2.2
        · rw [b3]; exact h.chx_temp
        · rw [f3]; exact h.hhx_temp
        · rw [b3, d3]; exact h.cold_end
        · rw [f3, d3]; exact h.hot_end
        · rw [b3, d3, f3]; exact h.ends_differ

/-- **C62**, entry point.  `run_engine` on a configuration with sane numbers, with an integrator that keeps
the gas warm, returns results or the error `InnerLoop`; it neither panics nor reports `OuterLoop`. -/
theorem C62_run_engine (env : Env ℝ) (lu : MatrixDecomposition ℝ) (c : Config ℝ)
    (k : chx.FixedApproach.Config ℝ) (r : regen.FixedApproach.Config ℝ)
    (l : hhx.FixedApproach.Config ℝ) (h : Spec.SaneConfig c k r l) (hT : Sound lu) (hc : Complete lu)
    (hm : c.solver.ode.num_timesteps ≠ 0 ∨ env.build = .wrapping)
    (hk : ∀ x g, Spec.Asked c x g → ∃ f,
      RatesOf (Run.new lu x (State.new_hint x g.toFluid (Spec.inputsOf c))) f ∧
      KeepsWarm env (Run.new lu x (State.new_hint x g.toFluid (Spec.inputsOf c))) f
        (Spec.settingsOf c).ode_tol c.solver.ode.num_timesteps c.conditions.pres_zero) :
    (∃ res, run_engine env lu c = .ok res) ∨ run_engine env lu c = .error (.err .InnerLoop) := by
  have hsup : Spec.Supported c := by
    refine ⟨h.fluid, ?_, ?_, ?_, ?_⟩
    · have hd := h.drive
      generalize c.engine.components.ws = w at hd
      cases hd <;> simp
    · rw [h.chx]; simp
    · rw [h.regen]; simp
    · rw [h.hhx]; simp
  obtain ⟨x, g, hx, h1, h2, -⟩ := C50_ok_iff env lu c hsup
  obtain ⟨f, hf, hkf⟩ := hk x g hx
  have hs := saneEngine_of_config h hx
  have hg := hx.fluid
  subst hg
  rcases C62_fixed_approach (env := env) (U := lu) (settings := Spec.settingsOf c) hs hT hc hm h.tol.1
    h.tol.2 h.outer ⟨f, hf, hkf⟩ with ⟨e, he, -⟩ | he
  · obtain ⟨-, -, vs, -, -, -, h3, -⟩ := C36_values_are_steady env lu x _ _ _ e he
    obtain ⟨res, hres⟩ := results_ok e vs h3
    exact .inl ⟨res, (h1 res).2 ⟨e, he, hres⟩⟩
  · exact .inr ((h2 _).2 he)

end Sett
