import Verif.Props.WholeRun
import Verif.Props.Results

/-! # C100: an engine whose pistons do not move -/

namespace Sett

open Spec dopri5 state_equations

/-- The pistons stand still. -/
structure Spec.Motionless (r : Run ℝ) : Prop where
  comp_vol : ∀ t t', (r.ws_vol_fn t).1.value = (r.ws_vol_fn t').1.value
  exp_vol : ∀ t t', (r.ws_vol_fn t).2.value = (r.ws_vol_fn t').2.value
  comp_rate : ∀ t, (r.ws_vol_fn t).1.deriv = 0
  exp_rate : ∀ t, (r.ws_vol_fn t).2.deriv = 0

/-- A sample at which the gas rests in the state `y`. -/
structure Spec.Resting (y : Conditions ℝ) (v : state_equations.Values ℝ) : Prop where
  conditions : v.conditions = y
  solution : v.solution = ⟨0, 0, 0, 0, 0, 0, 0, 0, 0, 0⟩

theorem solution_zero {s : Solution ℝ} (h : solutionGap s ⟨0, 0, 0, 0, 0, 0, 0, 0, 0, 0⟩ ≤ 0) :
    s = ⟨0, 0, 0, 0, 0, 0, 0, 0, 0, 0⟩ := by
  obtain ⟨a, b, c, d, e, f, g, i, j, k⟩ := s
  simp only [solutionGap, sub_zero] at h
  have p := fun x : ℝ => abs_nonneg x
  have z : ∀ x : ℝ, |x| ≤ 0 → x = 0 := fun x hx => abs_eq_zero.1 (le_antisymm hx (p x))
  have := p a; have := p b; have := p c; have := p d; have := p e; have := p f; have := p g; have := p i
  have := p j; have := p k
  rw [z a (by linarith), z b (by linarith), z c (by linarith), z d (by linarith), z e (by linarith),
    z f (by linarith), z g (by linarith), z i (by linarith), z j (by linarith), z k (by linarith)]

section
variable {r : Run ℝ} {n : GasName}

/-- **C100**, the search: when the pistons stand still and there is no parasitic heat, the search for the steady
cycle succeeds with its first cycle, whatever the tolerances, and every sample is at rest in the state of the
hints. -/
theorem C100_search (hf : r.fluid = (IdealGas.new n).toFluid) (hs : SaneRun r) (hT : Sound r.solver)
    (hc : Complete r.solver) (hq : NoParasiticHeat r) (hm : Motionless r) (hp : 1e-10 ≤ r.period)
    (hp' : r.period < 1e6 - 1) (outs : Nat) (env : Env ℝ) (i : SteadyStateInputs ℝ)
    (ho : env.ode = dopri5.solve outs) (hn : 2 ≤ i.num_points.toNat)
    (hres : ((i.num_points.toNat : ℝ) - 1) * 1e-14 < r.period) (hout : i.num_points.toNat + 2 ≤ outs)
    (hrel : 0 ≤ i.ode_tol.rel) (habs : 0 < i.ode_tol.abs) (hia : 0 < i.conv_tol.abs) (hir : 0 < i.conv_tol.rel)
    (him : 1 ≤ i.max_iters) (hP : 0 < i.pres_zero) (hTc : 100 < i.temp_comp_hint) (hTe : 100 < i.temp_exp_hint) :
    ∃ vs, findSteadyState env r.toCycle i = .ok vs ∧ vs.length = i.num_points.toNat ∧
      ∀ v ∈ vs, Resting ⟨i.pres_zero, i.temp_comp_hint, i.temp_exp_hint⟩ v := by
  set P := i.pres_zero with hP'
  set Tk := i.temp_comp_hint with hTk'
  set Tl := i.temp_exp_hint with hTl'
  have vc := hs.comp_vol 0; have ve := hs.exp_vol 0
  let L : Limits := { Pmin := P / 2, Pmax := 2 * P, Tmax := Tk + Tl
                      Vmin := min (r.ws_vol_fn 0).1.value (r.ws_vol_fn 0).2.value
                      Vmax := (r.ws_vol_fn 0).1.value + (r.ws_vol_fn 0).2.value, Wmax := 1
                      Pmin_pos := half_pos hP, Vmin_pos := lt_min vc ve }
  have hslow : ∀ w, 0 < w → SlowDrive r L w := by
    intro w hw
    refine ⟨fun t => ?_, fun t => ?_, fun t => ?_, fun t => ?_, ?_⟩
    · rw [hm.comp_vol t 0]; exact ⟨min_le_left _ _, by show _ ≤ _ + _; linarith⟩
    · rw [hm.exp_vol t 0]; exact ⟨min_le_right _ _, by show _ ≤ _ + _; linarith⟩
    · rw [hm.comp_rate, abs_zero]; exact hw.le
    · rw [hm.exp_rate, abs_zero]; exact hw.le
    · intro t t'
      simp only [driveGap, hm.comp_vol t t', hm.exp_vol t t', hm.comp_rate, hm.exp_rate, sub_self, abs_zero, add_zero]
      positivity
  obtain ⟨δ, hδ, d1, d2, d3, d4, d5, d6⟩ : ∃ δ : ℝ, 0 < δ ∧ δ ≤ P / 2 ∧ δ ≤ Tk - 100 ∧ δ ≤ Tl - 100 ∧
      δ ≤ i.conv_tol.abs ∧ δ ≤ i.conv_tol.rel ∧ δ ≤ 100 := by
    refine ⟨min (P / 2) (min (Tk - 100) (min (Tl - 100) (min i.conv_tol.abs (min i.conv_tol.rel 100)))), ?_, ?_, ?_, ?_,
      ?_, ?_, ?_⟩
    · have := sub_pos.2 hTc; have := sub_pos.2 hTe
      positivity
    all_goals simp
  have key : ∀ ε, 0 < ε → ε ≤ δ → ∃ vs, findSteadyState env r.toCycle i = .ok vs ∧ vs.length = i.num_points.toNat ∧
      ∀ v ∈ vs, Nearby ε ⟨P, Tk, Tl⟩ v.conditions := by
    intro ε hε hεδ
    obtain ⟨w, hw, h⟩ := C88_search hf hs hT hc hq L hε habs
    refine h r rfl (hslow w hw) hp hp' outs env i ho hn hres hout hrel ?_ (hεδ.trans d4) (hεδ.trans d5) him
      ⟨⟨?_, ?_⟩, ⟨?_, ?_⟩, ⟨?_, ?_⟩⟩
    · show _ ≤ i.ode_tol.abs + min (P / 2) 100 * i.ode_tol.rel
      have : 0 ≤ min (P / 2) 100 * i.ode_tol.rel := mul_nonneg (by positivity) hrel
      linarith
    · show P / 2 + ε ≤ P; linarith
    · show P ≤ 2 * P - ε; linarith
    · show 100 + ε ≤ Tk; linarith
    · show Tk ≤ Tk + Tl - ε; linarith
    · show 100 + ε ≤ Tl; linarith
    · show Tl ≤ Tk + Tl - ε; linarith
  obtain ⟨vs, v1, v2, -⟩ := key δ hδ le_rfl
  have near : ∀ v ∈ vs, v.conditions = ⟨P, Tk, Tl⟩ := by
    intro v hv
    have hall : ∀ ε, 0 < ε → ε ≤ δ → Nearby ε ⟨P, Tk, Tl⟩ v.conditions := by
      intro ε hε hεδ
      obtain ⟨vs', w1, -, w3⟩ := key ε hε hεδ
      rw [v1] at w1
      cases w1
      exact w3 v hv
    have zero : ∀ x : ℝ, (∀ ε, 0 < ε → ε ≤ δ → |x| ≤ ε) → x = 0 := by
      intro x hx
      by_contra hne
      have h0 := abs_pos.2 hne
      have := hx (min δ (|x| / 2)) (lt_min hδ (half_pos h0)) (min_le_left _ _)
      have := this.trans (min_le_right _ _)
      linarith
    have e1 := zero _ fun ε h1 h2 => (hall ε h1 h2).pres
    have e2 := zero _ fun ε h1 h2 => (hall ε h1 h2).comp_temp
    have e3 := zero _ fun ε h1 h2 => (hall ε h1 h2).exp_temp
    cases e : v.conditions
    rw [e] at e1 e2 e3
    simp only [sub_eq_zero] at e1 e2 e3
    rw [e1, e2, e3]
  refine ⟨vs, v1, v2, fun v hv => ⟨near v hv, ?_⟩⟩
  obtain ⟨m, ic, -, -, -, pts, -, g⟩ := (C33_ok_iff _ _ _ _).1 v1
  obtain ⟨-, good⟩ := C32_values_self_consistent _ _ _ g
  obtain ⟨j, hj⟩ := List.mem_iff_getElem?.1 hv
  obtain ⟨-, hint, hsol, -⟩ := good j v hj
  obtain ⟨C, -, hC⟩ := C86_speeds hf hs hT hc hq L
  have hw : WithinLimits r L v.time v.conditions := by
    rw [near v hv]
    have := hslow 1 one_pos
    refine ⟨⟨?_, ?_⟩, ⟨hTc.le, ?_⟩, ⟨hTe.le, ?_⟩, this.comp_vol _, this.exp_vol _, this.comp_rate _, this.exp_rate _⟩
    · show P / 2 ≤ P; linarith
    · show P ≤ 2 * P; linarith
    · show Tk ≤ Tk + Tl; linarith
    · show Tl ≤ Tk + Tl; linarith
  have := (hC r rfl hs v.time v.conditions hint v.solution hw hsol).1
  rw [hm.comp_rate, hm.exp_rate, abs_zero, add_zero, mul_zero] at this
  exact solution_zero this

end

/-! ## Engines -/

section
variable {U : MatrixDecomposition ℝ} {c : Components ℝ} {n : GasName} {inputs : RunInputs ℝ}

/-- **C100**, whole runs: an engine with fixed approaches, no parasitic heat and pistons that stand still runs
successfully, whatever its tolerances; it is returned in the state of the hints, and at each of the requested
samples the gas is at rest: pressure at time zero, spaces as warm as the exchangers, no flows, no heat. -/
theorem C100_engine (hs : SaneEngine c n inputs) (hT : Sound U) (hc : Complete U)
    (hq : NoParasiticHeat (firstRun U c n inputs)) (hm : Motionless (firstRun U c n inputs))
    (hp : 1e-10 ≤ (firstRun U c n inputs).period) (hp' : (firstRun U c n inputs).period < 1e6 - 1) (outs : Nat)
    (env : Env ℝ) (settings : RunSettings ℝ) (ho : env.ode = dopri5.solve outs) (hn : 2 ≤ settings.resolution.toNat)
    (hres : ((settings.resolution.toNat : ℝ) - 1) * 1e-14 < (firstRun U c n inputs).period)
    (hout : settings.resolution.toNat + 2 ≤ outs) (hrel : 0 ≤ settings.ode_tol.rel) (habs : 0 < settings.ode_tol.abs)
    (hia : 0 < settings.loop_tol.inner.abs) (hir : 0 < settings.loop_tol.inner.rel) (him : 1 ≤ settings.max_iters.inner)
    (hoa : 0 < settings.loop_tol.outer.abs) (hor : 0 < settings.loop_tol.outer.rel) (hom : settings.max_iters.outer ≠ 0)
    (hP : 0 < inputs.pres_zero) (hTk : 100 < inputs.temp_sink + c.chx.initial_approach)
    (hTl : 100 < inputs.temp_source - c.hhx.initial_approach) :
    ∃ vs, Engine.run env U c (IdealGas.new n).toFluid inputs settings
        = .ok ⟨c, State.new_hint c (IdealGas.new n).toFluid inputs, Values.ofStateValues vs⟩ ∧
      vs.length = settings.resolution.toNat ∧
      ∀ v ∈ vs, Resting ⟨inputs.pres_zero, inputs.temp_sink + c.chx.initial_approach,
        inputs.temp_source - c.hhx.initial_approach⟩ v := by
  obtain ⟨vs, v1, v2, v3⟩ := C100_search (r := firstRun U c n inputs) rfl (saneRun_start hs U) hT hc hq hm hp hp' outs env
    (innerRequest settings (State.new_hint c (IdealGas.new n).toFluid inputs)) ho hn hres hout hrel habs hia hir him hP
    hTk hTl
  have hv : vs ≠ [] := by
    rintro rfl
    have : (0 : ℕ) = settings.resolution.toNat := v2
    omega
  exact ⟨vs, finished_first hs hoa hor hom hv v1, v2, v3⟩

end

/-! ## Configurations -/

/-- Drives that do not move: a sinusoidal one without swept volumes, a rhombic one without crank radius. -/
inductive Spec.NoStroke : ws.Config ℝ → Prop
  | sinusoidal (p : ws.SinusoidalDrive.Config ℝ) (c : p.V_swept_c = 0) (e : p.V_swept_e = 0) : NoStroke (.Sinusoidal p)
  | rhombic (p : ws.RhombicDrive.Config ℝ) (crank : p.r_crank = 0) : NoStroke (.Rhombic p)

/-- The report of an engine that does nothing: pressures and temperatures at their initial values, no flows, no
indicated power; shaft and net power, heat input and rejection consist of the configured losses. -/
structure Spec.Idle (c : Config ℝ) (r : api.RunResults ℝ) : Prop where
  samples : r.values.time.length = c.solver.ode.num_timesteps.toNat
  P : ∀ x ∈ r.values.P, x = c.conditions.pres_zero
  P_c : ∀ x ∈ r.values.P_c, x = c.conditions.pres_zero
  P_e : ∀ x ∈ r.values.P_e, x = c.conditions.pres_zero
  T_c : ∀ x ∈ r.values.T_c, x = r.temperature.chx
  T_e : ∀ x ∈ r.values.T_e, x = r.temperature.hhx
  m_dot_ck : ∀ x ∈ r.values.m_dot_ck, x = 0
  m_dot_kr : ∀ x ∈ r.values.m_dot_kr, x = 0
  m_dot_rl : ∀ x ∈ r.values.m_dot_rl, x = 0
  m_dot_le : ∀ x ∈ r.values.m_dot_le, x = 0
  Q_dot_k : ∀ x ∈ r.values.Q_dot_k, x = 0
  Q_dot_r : ∀ x ∈ r.values.Q_dot_r, x = 0
  Q_dot_l : ∀ x ∈ r.values.Q_dot_l, x = 0
  indicated : r.power.indicated = 0
  ideal : r.power.ideal_indicated = 0
  shaft : r.power.shaft = -((driveNumbers c.engine.components.ws).workComp + (driveNumbers c.engine.components.ws).workExp)
  net : r.power.net = -((driveNumbers c.engine.components.ws).workComp + (driveNumbers c.engine.components.ws).workExp
    + (chxNumbers c.engine.components.chx).work + (hhxNumbers c.engine.components.hhx).work)
  input : r.heat_flow.input = (hhxNumbers c.engine.components.hhx).heat + (regenNumbers c.engine.components.regen).heat
  rejection : r.heat_flow.rejection = (driveNumbers c.engine.components.ws).workComp
    + (driveNumbers c.engine.components.ws).workExp + (hhxNumbers c.engine.components.hhx).heat
    + (regenNumbers c.engine.components.regen).heat

theorem noStroke_volumes {c : Config ℝ} {x : Components ℝ} {g : IdealGas ℝ} (hx : Asked c x g)
    (hw : NoStroke c.engine.components.ws) (s : ws.State ℝ) (t : ℝ) :
    (∀ t', (x.ws.volumes s t).1.value = (x.ws.volumes s t').1.value) ∧
    (∀ t', (x.ws.volumes s t).2.value = (x.ws.volumes s t').2.value) ∧
    (x.ws.volumes s t).1.deriv = 0 ∧ (x.ws.volumes s t).2.deriv = 0 := by
  have a1 := hx.ws
  generalize c.engine.components.ws = w at hw a1
  obtain ⟨xw, xk, xr, xl⟩ := x
  simp only at a1 ⊢
  cases a1 with
  | sinusoidal p _ f1 f2 f3 f4 =>
    cases hw with
    | sinusoidal _ h1 h2 =>
      simp only [f2, ws.SinusoidalDrive.volumes, h1, h2, mul_zero, zero_mul, add_zero, implies_true, and_self]
  | rhombic p _ f1 f2 f3 f4 =>
    cases hw with
    | rhombic _ h1 =>
      obtain ⟨d, -, f2⟩ := f2
      simp only [f2, ws.RhombicDrive.volumes, h1, mul_zero, zero_mul, add_zero, zero_div, implies_true, and_self, sub_zero,
        neg_zero]

/-- **C100**, configuration files: a configuration with sane numbers, positive pressure and tolerances, no parasitic
heat of the expansion space and a drive without stroke runs successfully, and reports an engine that does nothing. -/
theorem C100_run_engine (c : Config ℝ) (k : chx.FixedApproach.Config ℝ) (r : regen.FixedApproach.Config ℝ)
    (l : hhx.FixedApproach.Config ℝ) (h : Spec.SaneConfig c k r l) (hw : NoStroke c.engine.components.ws)
    (hQ : (driveNumbers c.engine.components.ws).heatExp = 0) (hP : 0 < c.conditions.pres_zero)
    (hTk : 100 < c.conditions.temp_sink + k.DT) (hTl : 100 < c.conditions.temp_source - l.DT)
    (hf : 1.01e-6 ≤ (driveNumbers c.engine.components.ws).frequency)
    (hf' : (driveNumbers c.engine.components.ws).frequency ≤ 1e10) (hn : 2 ≤ c.solver.ode.num_timesteps.toNat)
    (hres : ((c.solver.ode.num_timesteps.toNat : ℝ) - 1) * 1e-14 < 1 / (driveNumbers c.engine.components.ws).frequency)
    (hrel : 0 ≤ c.solver.ode.tolerance.rel) (habs : 0 < c.solver.ode.tolerance.abs)
    (hia : 0 < c.solver.inner_loop.tolerance.abs) (hir : 0 < c.solver.inner_loop.tolerance.rel)
    (him : 1 ≤ c.solver.inner_loop.max_iterations.toNat) (outs : Nat) (env : Env ℝ) (ho : env.ode = dopri5.solve outs)
    (hout : c.solver.ode.num_timesteps.toNat + 2 ≤ outs) :
    ∃ res, run_engine env lu.LU c = .ok res ∧ Idle c res := by
  have hsup : Spec.Supported c := by
    refine ⟨h.fluid, ?_, ?_, ?_, ?_⟩
    · generalize c.engine.components.ws = w at hw
      cases hw <;> simp
    · rw [h.chx]; simp
    · rw [h.regen]; simp
    · rw [h.hhx]; simp
  obtain ⟨x, g, hx, h1, -⟩ := C50_ok_iff env lu.LU c hsup
  have nd := asked_drive hx
  obtain ⟨-, -, kf⟩ := asked_chx hx
  obtain ⟨-, -, -, lf⟩ := asked_hhx hx
  obtain ⟨ki, -⟩ := kf k.DT (by rw [h.chx]; rfl)
  obtain ⟨li, -⟩ := lf l.DT (by rw [h.hhx]; rfl)
  have hf0 : 0 < (driveNumbers c.engine.components.ws).frequency := lt_of_lt_of_le (by norm_num) hf
  have hg := hx.fluid
  subst hg
  have hs := saneEngine_of_config h hx
  have hper : (firstRun lu.LU x (Spec.gas c.engine.fluid) (Spec.inputsOf c)).period
      = 1 / (driveNumbers c.engine.components.ws).frequency := by
    show 1.0 / x.ws.frequency _ = _
    rw [(nd _).1, lit_1]
  have hm : Motionless (firstRun lu.LU x (Spec.gas c.engine.fluid) (Spec.inputsOf c)) :=
    ⟨fun t => (noStroke_volumes hx hw _ t).1, fun t => (noStroke_volumes hx hw _ t).2.1,
      fun t => (noStroke_volumes hx hw _ t).2.2.1, fun t => (noStroke_volumes hx hw _ t).2.2.2⟩
  have hq : NoParasiticHeat (firstRun lu.LU x (Spec.gas c.engine.fluid) (Spec.inputsOf c)) := by
    refine ⟨?_, (nd _).2.2.2.2.2.trans hQ⟩
    show (x.ws.parasitics _).comp.thermal = 0
    have a1 := hx.ws
    generalize c.engine.components.ws = w at a1
    obtain ⟨xw, xk, xr, xl⟩ := x
    simp only at a1 ⊢
    cases a1 with
    | sinusoidal _ _ f1 f2 f3 f4 => rw [f4]; exact lit_0
    | rhombic _ _ f1 f2 f3 f4 => rw [f4]; exact lit_0
  obtain ⟨vs, hv, hlen, hrest⟩ := C100_engine hs C69_sound C69_complete hq hm (by
      rw [hper, le_div_iff₀ hf0]
      norm_num at hf' ⊢
      linarith) (by
      rw [hper, div_lt_iff₀ hf0]
      norm_num at hf ⊢
      linarith) outs env (Spec.settingsOf c) ho hn (by rw [hper]; exact hres) hout hrel habs hia hir him h.tol.1 h.tol.2
    h.outer hP (by rw [ki]; exact hTk) (by rw [li]; exact hTl)
  obtain ⟨res, hr⟩ := results_ok ⟨x, State.new_hint x (IdealGas.new (Spec.gas c.engine.fluid)).toFluid
    (Spec.inputsOf c), Values.ofStateValues vs⟩ vs rfl
  have hrun := (h1 res).2 ⟨_, hv, hr⟩
  refine ⟨res, hrun, ?_⟩
  obtain ⟨y, g', hy, rep⟩ := C65_recomputes env lu.LU c res hrun
  obtain ⟨q1, q2, q3⟩ := results_pressures rfl hr
  obtain ⟨-, -, -, -, -, s6, -⟩ := results_state hr
  obtain ⟨p, hp, -, -, -, -, -, hval⟩ := results_performance hr
  simp only [ofStateValues_eq] at hval
  have zero : ∀ (L : List ℝ) (f : ℝ → ℝ) (hf : ∀ t, f t = 0) T, pvWork T L f = 0 := by
    intro L f hf T
    refine trapezoid_zero _ _ fun a ha => ?_
    simp only [hf, mul_zero] at ha
    obtain ⟨i, hi⟩ := List.mem_iff_getElem?.1 ha
    simp only [List.getElem?_zipWith] at hi
    split at hi <;> simp_all
  have z1 := fun t => (noStroke_volumes hy hw ⟨res.pressure⟩ t).2.2.1
  have z2 := fun t => (noStroke_volumes hy hw ⟨res.pressure⟩ t).2.2.2
  have ri : res.power.indicated = 0 := by rw [rep.indicated, zero _ _ z1, zero _ _ z2]; ring
  have rj : res.power.ideal_indicated = 0 := by rw [rep.ideal, zero _ _ z1, zero _ _ z2]; ring
  have rs := rep.shaft
  rw [ri] at rs
  have rn := rep.net
  rw [rs] at rn
  have mem : ∀ (f : state_equations.Values ℝ → ℝ) (a : ℝ), (∀ v ∈ vs, f v = a) → ∀ y ∈ vs.map f, y = a := by
    intro f a hfa y hy
    obtain ⟨v, hv, rfl⟩ := List.mem_map.1 hy
    exact hfa v hv
  have cond := fun v hv => (hrest v hv).conditions
  have sol := fun v hv => (hrest v hv).solution
  have tk : res.temperature.chx = (Spec.inputsOf c).temp_sink + x.chx.initial_approach := by rw [s6]; rfl
  have tl : res.temperature.hhx = (Spec.inputsOf c).temp_source - x.hhx.initial_approach := by rw [s6]; rfl
  have m1 : ∀ y ∈ res.values.T_c, y = res.temperature.chx := by
    rw [hval, tk]; exact mem _ _ fun v hv => by rw [cond v hv]
  have m2 : ∀ y ∈ res.values.T_e, y = res.temperature.hhx := by
    rw [hval, tl]; exact mem _ _ fun v hv => by rw [cond v hv]
  have m3 : ∀ y ∈ res.values.Q_dot_k, y = 0 := by rw [hval]; exact mem _ _ fun v hv => by rw [sol v hv]
  have m4 : ∀ y ∈ res.values.Q_dot_l, y = 0 := by rw [hval]; exact mem _ _ fun v hv => by rw [sol v hv]
  refine ⟨?_, ?_, ?_, ?_, m1, m2, ?_, ?_, ?_, ?_, m3, ?_, m4, ri, rj, by rw [rs]; ring, by rw [rn]; ring, ?_, ?_⟩
  · rw [hval]; simp only [List.length_map]; exact hlen
  · rw [q3]; exact mem _ _ fun v hv => by rw [cond v hv]; rfl
  · rw [q1]; exact mem _ _ fun v hv => by
      rw [cond v hv]; simp only [dropChx, dropRegen, dropHhx, Spec.drop, sol v hv]
      simp [Spec.inputsOf]
  · rw [q2]; exact mem _ _ fun v hv => by
      rw [cond v hv]; simp only [dropChx, dropRegen, dropHhx, Spec.drop, sol v hv]
      simp [Spec.inputsOf]
  · rw [hval]; exact mem _ _ fun v hv => by rw [sol v hv]
  · rw [hval]; exact mem _ _ fun v hv => by rw [sol v hv]
  · rw [hval]; exact mem _ _ fun v hv => by rw [sol v hv]
  · rw [hval]; exact mem _ _ fun v hv => by rw [sol v hv]
  · rw [hval]; exact mem _ _ fun v hv => by rw [sol v hv]
  · rw [rep.input, trapezoid_zero _ _ m4, trapezoid_zero, hQ]
    · ring
    · intro a ha
      obtain ⟨T, hT, rfl⟩ := List.mem_map.1 ha
      rw [m2 T hT, sub_self, zero_div]
  · rw [rep.rejection, trapezoid_zero _ _ m3, trapezoid_zero, hQ, ri, rj, rs]
    · ring
    · intro a ha
      obtain ⟨T, hT, rfl⟩ := List.mem_map.1 ha
      rw [m1 T hT, sub_self, zero_div]

end Sett
