import Verif.Props.Settle

/-! # C101 for configuration files -/

namespace Sett

open Spec dopri5 state_equations

theorem residual_small {U Q C η ε : ℝ} (hU : 0 < U) (hC : 0 < C) (hε : 0 < ε) (hη : η = ε * U) (hQ : |Q| ≤ η) :
    |Q / C / (Real.exp (U / C) - 1)| ≤ ε := by
  have h1 : 1 < Real.exp (U / C) := Real.one_lt_exp_iff.2 (div_pos hU hC)
  have h2 : 0 < Real.exp (U / C) - 1 := by linarith
  rw [abs_div, abs_div, abs_of_pos hC, abs_of_pos h2]
  refine (residual_le (abs_nonneg Q) hC hU).trans ?_
  rw [div_le_iff₀ hU, ← hη]
  exact hQ

theorem settling_of_config {c : Config ℝ} {x : Components ℝ} {g : IdealGas ℝ} (hx : Asked c x g)
    (hk : ChxConducts c.engine.components.chx) (hr : RegenConducts c.engine.components.regen)
    (hl : HhxConducts c.engine.components.hhx) :
    Settling x ⟨(chxApproach c.engine.components.chx).2, (regenApproaches c.engine.components.regen).2,
      (hhxApproach c.engine.components.hhx).2⟩ ∧
    initialApproach x = ⟨(chxApproach c.engine.components.chx).1, (regenApproaches c.engine.components.regen).1,
      (hhxApproach c.engine.components.hhx).1⟩ ∧ 0 ≤ x.chx.volume ∧ 0 ≤ x.regen.volume ∧ 0 ≤ x.hhx.volume := by
  obtain ⟨-, a2, a3, a4, -⟩ := hx
  unfold initialApproach
  obtain ⟨xw, xk, xr, xl⟩ := x
  simp only at a2 a3 a4 ⊢
  generalize c.engine.components.chx = ck at *
  generalize c.engine.components.regen = cr at *
  generalize c.engine.components.hhx = cl at *
  have ten : (10.0 : ℝ) = 10 := by norm_num
  have k : (∀ ε, 0 < ε → ∃ η, 0 < η ∧ ∀ s : chx.State ℝ, 0 < s.hxr.cp → 0 < s.hxr.m_dot → |s.hxr.Q_dot| ≤ η →
      |xk.approach s - (chxApproach ck).2| ≤ ε) ∧ xk.initial_approach = (chxApproach ck).1 ∧ 0 ≤ xk.volume := by
    cases hk with
    | approach p hv =>
      cases a2 with
      | fixedApproach _ _ k1 k2 k3 =>
        refine ⟨fun ε hε => ⟨1, one_pos, fun s _ _ _ => ?_⟩, k3, by rw [k1]; exact hv⟩
        rw [k2]
        simpa [chxApproach] using hε.le
    | conductance p hv hU =>
      cases a2 with
      | fixedConductance _ _ k1 k2 k3 =>
        refine ⟨fun ε hε => ⟨ε * p.UA, mul_pos hε hU, fun s h1 h2 h3 => ?_⟩, ?_, by rw [k1]; exact hv⟩
        · have hC := mul_pos h1 h2
          have := residual_small hU hC hε rfl h3
          rw [← ntu_form _ hU hC] at this
          rw [k2, show (chxApproach (.FixedConductance p)).2 = 0 from rfl, sub_zero]
          simp only [ntuApproach]
          scalars
          exact this
        · rw [k3]
          have : Scalar.lt p.UA 0.0 = false := by
            rw [Bool.eq_false_iff, ne_eq, real_lt, lit_0]
            exact not_lt.2 hU.le
          rw [this]
          exact ten
  have r : (∀ K ε, 0 < K → 0 < ε → ∃ η, 0 < η ∧ ∀ s : regen.State ℝ, 0 < s.hxr.cp → s.hxr.cp ≤ K → 0 < s.hxr.m_dot →
      s.hxr.m_dot ≤ η → |s.temp_hhx - s.temp_chx| ≤ K → |xr.approach s - (regenApproaches cr).2| ≤ ε) ∧
      xr.initial_approach = (regenApproaches cr).1 ∧ 0 ≤ xr.volume := by
    cases hr with
    | approach p hv =>
      cases a3 with
      | fixedApproach _ _ k1 k2 k3 =>
        refine ⟨fun K ε _ hε => ⟨1, one_pos, fun s _ _ _ _ _ => ?_⟩, k3, by rw [k1]; exact hv⟩
        rw [k2]
        simpa [regenApproaches] using hε.le
    | conductance p hv hU =>
      cases a3 with
      | fixedConductance _ _ k1 k2 k3 =>
        refine ⟨fun K ε hK hε => ⟨ε * p.UA / (2 * K * K), by positivity, fun s h1 h2 h3 h4 h5 => ?_⟩, ?_, by rw [k1]; exact hv⟩
        · have hC := mul_pos h1 h3
          rw [k2, show (regenApproaches (.FixedConductance p)).2 = 0 from rfl, sub_zero]
          simp only [regenApproach]
          scalars
          set C := s.hxr.cp * s.hxr.m_dot with hC'
          have e : 1 - p.UA / C / 2 / (1 + p.UA / C / 2) = 2 * C / (2 * C + p.UA) := by
            have : 2 * C + p.UA ≠ 0 := by positivity
            field_simp
            ring
          rw [e, abs_mul, abs_of_pos (by positivity)]
          have b1 : C ≤ ε * p.UA / (2 * K) := by
            calc C ≤ K * (ε * p.UA / (2 * K * K)) := mul_le_mul h2 h4 h3.le hK.le
              _ = ε * p.UA / (2 * K) := by field_simp
          calc 2 * C / (2 * C + p.UA) * |s.temp_hhx - s.temp_chx| ≤ 2 * C / p.UA * K := by
                refine mul_le_mul ?_ h5 (abs_nonneg _) (by positivity)
                exact div_le_div_of_nonneg_left (by positivity) hU (by linarith)
            _ ≤ 2 * (ε * p.UA / (2 * K)) / p.UA * K := by gcongr
            _ = ε := by field_simp
        · rw [k3]; exact ten
  have l : (∀ ε, 0 < ε → ∃ η, 0 < η ∧ ∀ s : hhx.State ℝ, 0 < s.hxr.cp → 0 < s.hxr.m_dot → |s.hxr.Q_dot| ≤ η →
      |xl.approach s - (hhxApproach cl).2| ≤ ε) ∧ xl.initial_approach = (hhxApproach cl).1 ∧ 0 ≤ xl.volume := by
    cases hl with
    | approach p hv =>
      cases a4 with
      | fixedApproach _ _ k1 k2 k3 =>
        refine ⟨fun ε hε => ⟨1, one_pos, fun s _ _ _ => ?_⟩, k3, by rw [k1]; exact hv⟩
        rw [k2]
        simpa [hhxApproach] using hε.le
    | conductance p hv hU =>
      cases a4 with
      | fixedConductance _ _ k1 k2 k3 =>
        refine ⟨fun ε hε => ⟨ε * p.UA, mul_pos hε hU, fun s h1 h2 h3 => ?_⟩, ?_, by rw [k1]; exact hv⟩
        · have hC := mul_pos h1 h2
          have := residual_small hU hC hε rfl h3
          rw [← ntu_form _ hU hC] at this
          rw [k2, show (hhxApproach (.FixedConductance p)).2 = 0 from rfl, sub_zero]
          simp only [ntuApproach]
          scalars
          exact this
        · rw [k3]; exact ten
  exact ⟨⟨k.1, r.1, l.1⟩, by rw [k.2.1, r.2.1, l.2.1], k.2.2, r.2.2, l.2.2⟩

theorem redriven_of_asked {c : Config ℝ} {p : ws.SinusoidalDrive.Config ℝ} (hp : c.engine.components.ws = .Sinusoidal p)
    {a b : ℝ} {x x' : Components ℝ} {g g' : IdealGas ℝ} (hx : Asked c x g) (hx' : Asked (withStroke c p a b) x' g') :
    Redriven x x' ∧ (∀ q, x'.ws.frequency q = p.frequency) ∧ (∀ q, (x.ws.parasitics q).comp.thermal = 0) ∧
      (∀ q, (x.ws.parasitics q).exp.thermal = p.Q_parasitic_e) ∧
      ∃ d : ws.SinusoidalDrive ℝ, d.frequency = p.frequency ∧ d.comp_geometry = ⟨p.V_clearance_c, a⟩ ∧
        d.exp_geometry = ⟨p.V_clearance_e, b⟩ ∧ ∀ q, x'.ws.volumes q = d.volumes := by
  obtain ⟨a1, a2, a3, a4, -⟩ := hx
  obtain ⟨b1, b2, b3, b4, -⟩ := hx'
  replace b2 : BuildsChx c.engine.components.chx x'.chx := b2
  replace b3 : BuildsRegen c.engine.components.regen x'.regen := b3
  replace b4 : BuildsHhx c.engine.components.hhx x'.hhx := b4
  replace b1 : BuildsWs (.Sinusoidal { p with V_swept_c := a, V_swept_e := b }) x'.ws := b1
  rw [hp] at a1
  obtain ⟨xw, xk, xr, xl⟩ := x
  obtain ⟨yw, yk, yr, yl⟩ := x'
  simp only at a1 a2 a3 a4 b1 b2 b3 b4 ⊢
  generalize c.engine.components.chx = ck at *
  generalize c.engine.components.regen = cr at *
  generalize c.engine.components.hhx = cl at *
  cases a1 with
  | sinusoidal _ _ f1 f2 f3 f4 =>
  cases b1 with
  | sinusoidal _ _ g1 g2 g3 g4 =>
  have k : yk.volume = xk.volume ∧ (∀ s, yk.approach s = xk.approach s) ∧ yk.initial_approach = xk.initial_approach := by
    cases a2 <;> cases b2 <;> simp_all
  have r : yr.volume = xr.volume ∧ (∀ s, yr.approach s = xr.approach s) ∧ yr.initial_approach = xr.initial_approach := by
    cases a3 <;> cases b3 <;> simp_all
  have l : yl.volume = xl.volume ∧ (∀ s, yl.approach s = xl.approach s) ∧ yl.initial_approach = xl.initial_approach := by
    cases a4 <;> cases b4 <;> simp_all
  have vol : ∀ q, yw.volumes q = (⟨p.frequency, p.phase_angle, ⟨p.V_clearance_c, a⟩, ⟨p.V_clearance_e, b⟩, ⟨p.R_c, p.R_e⟩,
      ⟨⟨0, 0, 0⟩, ⟨0, 0, 0⟩⟩⟩ : ws.SinusoidalDrive ℝ).volumes := fun q => funext fun t => g2 q t
  refine ⟨⟨k.1, k.2.1, k.2.2, r.1, r.2.1, r.2.2, l.1, l.2.1, l.2.2, fun q q' => by rw [g4, f4], fun q q' => by rw [g3, f3],
    fun q q' => by rw [g1, g1], fun q q' => by rw [vol, vol]⟩, g1, fun s => by rw [f4]; exact lit_0, fun s => by rw [f4],
    ⟨_, rfl, rfl, rfl, vol⟩⟩

/-- Configurations, whatever the drive: the engine `x` asked for by a configuration, and the same engine with other drives. -/
theorem settles_of_config {c : Config ℝ} {x : Components ℝ} {g : IdealGas ℝ} (hx0 : Asked c x g)
    (hk : ChxConducts c.engine.components.chx) (hr : RegenConducts c.engine.components.regen)
    (hl : HhxConducts c.engine.components.hhx)
    (hfirst : WarmApproach (inputsOf c) ⟨(chxApproach c.engine.components.chx).1,
      (regenApproaches c.engine.components.regen).1, (hhxApproach c.engine.components.hhx).1⟩)
    (hrest : WarmApproach (inputsOf c) ⟨(chxApproach c.engine.components.chx).2,
      (regenApproaches c.engine.components.regen).2, (hhxApproach c.engine.components.hhx).2⟩)
    (hnorm : (IdealGas.new (gas c.engine.fluid) : IdealGas ℝ).enth c.conditions.temp_sink c.conditions.pres_zero
      + (IdealGas.new (gas c.engine.fluid) : IdealGas ℝ).enth c.conditions.temp_source c.conditions.pres_zero ≠ 0)
    (hpar : ∀ q, (x.ws.parasitics q).comp.thermal = 0 ∧ (x.ws.parasitics q).exp.thermal = 0)
    (hP : 0 < c.conditions.pres_zero) {f : ℝ}
    (hf : 1.01e-6 ≤ f) (hf' : f ≤ 1e10) (hn : 2 ≤ c.solver.ode.num_timesteps.toNat)
    (hres : ((c.solver.ode.num_timesteps.toNat : ℝ) - 1) * 1e-14 < 1 / f)
    (hrel : 0 ≤ c.solver.ode.tolerance.rel) (habs : 0 < c.solver.ode.tolerance.abs)
    (hia : 0 < c.solver.inner_loop.tolerance.abs) (hir : 0 < c.solver.inner_loop.tolerance.rel)
    (him : 1 ≤ c.solver.inner_loop.max_iterations.toNat) (hoa : 0 < c.solver.outer_loop.tolerance.abs)
    (hor : 0 < c.solver.outer_loop.tolerance.rel) (hom : 2 ≤ c.solver.outer_loop.max_iterations.toNat)
    {Vmin Vmax : ℝ} (hV : 0 < Vmin) :
    ∃ (L : Limits) (w : ℝ), L.Vmin = Vmin ∧ L.Vmax = Vmax ∧ 0 < w ∧ ∀ x', Redriven x x' → (∀ q, x'.ws.frequency q = f) →
      SlowDrive (firstRun lu.LU x' (gas c.engine.fluid) (inputsOf c)) L w →
      ∀ (outs : Nat) (env : Env ℝ), env.ode = dopri5.solve outs → c.solver.ode.num_timesteps.toNat + 2 ≤ outs →
      (∃ e, Engine.run env lu.LU x' (IdealGas.new (gas c.engine.fluid)).toFluid (inputsOf c) (settingsOf c) = .ok e) ∨
      StandsStill env lu.LU x' (settingsOf c)
        (State.new_hint x' (IdealGas.new (gas c.engine.fluid)).toFluid (inputsOf c)) := by
  obtain ⟨hset, hinit, v1, v2, v3⟩ := settling_of_config hx0 hk hr hl
  set P := c.conditions.pres_zero with hP'
  set a0 : Approach ℝ := ⟨(chxApproach c.engine.components.chx).1, (regenApproaches c.engine.components.regen).1,
    (hhxApproach c.engine.components.hhx).1⟩ with ha0
  set a1 : Approach ℝ := ⟨(chxApproach c.engine.components.chx).2, (regenApproaches c.engine.components.regen).2,
    (hhxApproach c.engine.components.hhx).2⟩ with ha1
  set i := inputsOf c with hi
  have w1 := hfirst.chx; have w2 := hfirst.hhx; have w3 := hrest.chx; have w4 := hrest.hhx
  have c0 : x.chx.initial_approach = a0.chx := congrArg Approach.chx hinit
  have c1 : x.hhx.initial_approach = a0.hhx := congrArg Approach.hhx hinit
  let L : Limits := { Pmin := P / 2, Pmax := 2 * P
                      Tmax := (i.temp_sink + a0.chx) + (i.temp_source - a0.hhx) + (i.temp_sink + a1.chx) + (i.temp_source - a1.hhx)
                      Vmin := Vmin
                      Vmax := Vmax, Wmax := 1
                      Pmin_pos := half_pos hP, Vmin_pos := hV }
  obtain ⟨δ, hδ, d1, d2, d3, d4, d5, d6⟩ : ∃ δ : ℝ, 0 < δ ∧ δ ≤ P / 2 ∧ δ ≤ i.temp_sink + a0.chx - 100 ∧
      δ ≤ i.temp_source - a0.hhx - 100 ∧ δ ≤ i.temp_sink + a1.chx - 100 ∧ δ ≤ i.temp_source - a1.hhx - 100 ∧ δ ≤ 100 := by
    refine ⟨min (P / 2) (min (i.temp_sink + a0.chx - 100) (min (i.temp_source - a0.hhx - 100)
      (min (i.temp_sink + a1.chx - 100) (min (i.temp_source - a1.hhx - 100) 100)))), ?_, ?_, ?_, ?_, ?_, ?_, ?_⟩
    · have := sub_pos.2 w1; have := sub_pos.2 w2; have := sub_pos.2 w3; have := sub_pos.2 w4
      positivity
    all_goals simp
  have hip : i.pres_zero = P := rfl
  obtain ⟨w, hw, hrun⟩ := C101_engine (U := lu.LU) (c := x) (n := gas c.engine.fluid) (inputs := i) (a := a1) C69_sound
    C69_complete hset (by rw [hinit]; exact hfirst) hrest v1 v2 v3 hnorm hpar L hδ (by
      rw [c0, c1, hip]
      refine ⟨⟨?_, ?_⟩, ⟨?_, ?_⟩, ⟨?_, ?_⟩⟩ <;> simp only [L] <;> linarith) (by
      rw [hip]
      refine ⟨⟨?_, ?_⟩, ⟨?_, ?_⟩, ⟨?_, ?_⟩⟩ <;> simp only [L] <;> linarith) (settingsOf c) hn hrel (by
      show 0 < c.solver.ode.tolerance.abs + min (P / 2) 100 * c.solver.ode.tolerance.rel
      have : 0 ≤ min (P / 2) 100 * c.solver.ode.tolerance.rel := mul_nonneg (by positivity) hrel
      linarith) hia hir him hoa hor hom
  have hf0 : 0 < f := lt_of_lt_of_le (by norm_num) hf
  refine ⟨L, w, rfl, rfl, hw, ?_⟩
  intro x' hre s4 q1 outs env hode hout
  have hper : (firstRun lu.LU x' (gas c.engine.fluid) i).period = 1 / f := by
    show 1.0 / x'.ws.frequency _ = _
    rw [s4, lit_1]
  rcases hrun x' hre q1 (by
    rw [hper, le_div_iff₀ hf0]
    norm_num at hf' ⊢
    linarith) (by
    rw [hper, div_lt_iff₀ hf0]
    norm_num at hf ⊢
    linarith) (by rw [hper]; exact hres) outs env hode hout with ⟨e, he, -⟩ | hstill
  · exact .inl ⟨e, he⟩
  · exact .inr hstill

/-- **C101**, configuration files.  Take a configuration with an ideal gas, exchangers of fixed approach or of positive
conductance in any combination, a sinusoidal drive with clearances and no parasitic heat, sane temperatures both for the
approaches assumed first and for those at rest, positive pressure and tolerances, at least two time steps and two outer
iterations, and a frequency between one cycle in eleven days and 10 GHz.  There is a swept volume up to which `run_engine`
succeeds on the same configuration with any two smaller ones, unless no gas passes one of the exchangers on average. -/
theorem C101_run_engine (c : Config ℝ) (p : ws.SinusoidalDrive.Config ℝ) (hfl : gasModel c.engine.fluid = .IdealGas)
    (hp : c.engine.components.ws = .Sinusoidal p) (hk : ChxConducts c.engine.components.chx)
    (hr : RegenConducts c.engine.components.regen) (hl : HhxConducts c.engine.components.hhx)
    (hfirst : WarmApproach (inputsOf c) ⟨(chxApproach c.engine.components.chx).1,
      (regenApproaches c.engine.components.regen).1, (hhxApproach c.engine.components.hhx).1⟩)
    (hrest : WarmApproach (inputsOf c) ⟨(chxApproach c.engine.components.chx).2,
      (regenApproaches c.engine.components.regen).2, (hhxApproach c.engine.components.hhx).2⟩)
    (hnorm : (IdealGas.new (gas c.engine.fluid) : IdealGas ℝ).enth c.conditions.temp_sink c.conditions.pres_zero
      + (IdealGas.new (gas c.engine.fluid) : IdealGas ℝ).enth c.conditions.temp_source c.conditions.pres_zero ≠ 0)
    (hvc : 0 < p.V_clearance_c) (hve : 0 < p.V_clearance_e) (hQ : p.Q_parasitic_e = 0) (hP : 0 < c.conditions.pres_zero)
    (hf : 1.01e-6 ≤ p.frequency) (hf' : p.frequency ≤ 1e10) (hn : 2 ≤ c.solver.ode.num_timesteps.toNat)
    (hres : ((c.solver.ode.num_timesteps.toNat : ℝ) - 1) * 1e-14 < 1 / p.frequency)
    (hrel : 0 ≤ c.solver.ode.tolerance.rel) (habs : 0 < c.solver.ode.tolerance.abs)
    (hia : 0 < c.solver.inner_loop.tolerance.abs) (hir : 0 < c.solver.inner_loop.tolerance.rel)
    (him : 1 ≤ c.solver.inner_loop.max_iterations.toNat) (hoa : 0 < c.solver.outer_loop.tolerance.abs)
    (hor : 0 < c.solver.outer_loop.tolerance.rel) (hom : 2 ≤ c.solver.outer_loop.max_iterations.toNat) :
    ∃ v, 0 < v ∧ ∀ a b, 0 ≤ a → a ≤ v → 0 ≤ b → b ≤ v → ∀ (outs : Nat) (env : Env ℝ), env.ode = dopri5.solve outs →
      c.solver.ode.num_timesteps.toNat + 2 ≤ outs →
      (∃ res, run_engine env lu.LU (withStroke c p a b) = .ok res) ∨
      ∃ x g, Asked (withStroke c p a b) x g ∧
        StandsStill env lu.LU x (settingsOf c) (State.new_hint x g.toFluid (inputsOf c)) := by
  have hsup : ∀ w, c.engine.components.ws = .Sinusoidal p → Supported { c with engine := { c.engine with components :=
      { c.engine.components with ws := .Sinusoidal w } } } := by
    intro w _
    refine ⟨hfl, ?_, ?_, ?_, ?_⟩
    · simp
    · show (∀ p, c.engine.components.chx ≠ _) ∧ ∀ p, c.engine.components.chx ≠ _
      generalize c.engine.components.chx = y at hk
      cases hk <;> simp
    · show (∀ p, c.engine.components.regen ≠ _) ∧ ∀ p, c.engine.components.regen ≠ _
      generalize c.engine.components.regen = y at hr
      cases hr <;> simp
    · show (∀ p, c.engine.components.hhx ≠ _) ∧ (∀ p, c.engine.components.hhx ≠ _) ∧ (∀ p, c.engine.components.hhx ≠ _) ∧
        ∀ p, c.engine.components.hhx ≠ _
      generalize c.engine.components.hhx = y at hl
      cases hl <;> simp
  obtain ⟨x, g, hx, -⟩ := C50_ok_iff (⟨dopri5.solve 0, .checked⟩ : Env ℝ) lu.LU (withStroke c p p.V_swept_c p.V_swept_e)
    (hsup _ hp)
  have hx0 : Asked c x g := ⟨by rw [hp]; exact hx.ws, hx.chx, hx.regen, hx.hhx, hx.fluid⟩
  obtain ⟨-, -, par1, par2, -⟩ := redriven_of_asked hp hx0 hx
  obtain ⟨L, w, hL1, hL2, hw, hrun⟩ := settles_of_config hx0 hk hr hl hfirst hrest hnorm
    (fun q => ⟨par1 q, (par2 q).trans hQ⟩) hP hf hf' hn hres hrel habs hia hir him hoa hor hom
    (Vmin := min p.V_clearance_c p.V_clearance_e) (Vmax := p.V_clearance_c + p.V_clearance_e + 1) (lt_min hvc hve)
  set o := 2 * Real.pi * p.frequency with ho
  have hf0 : 0 < p.frequency := lt_of_lt_of_le (by norm_num) hf
  have ho0 : 0 < o := by have := Real.pi_pos; positivity
  refine ⟨min 1 (w / (o + o ^ 2)), by positivity, ?_⟩
  intro a b ha ha' hb hb' outs env hode hout
  have e1 := ha'.trans (min_le_left _ _); have e2 := ha'.trans (min_le_right _ _)
  have f1 := hb'.trans (min_le_left _ _); have f2 := hb'.trans (min_le_right _ _)
  obtain ⟨x', g', hx', h1, -⟩ := C50_ok_iff env lu.LU (withStroke c p a b) (hsup _ hp)
  obtain ⟨hre, s4, -, -, d, k1, k2, k3, k4⟩ := redriven_of_asked hp hx0 hx'
  have q1 : SlowDrive (firstRun lu.LU x' (gas c.engine.fluid) (inputsOf c)) L w := by
    refine sinusoidal_slow d (k4 _) (by rw [k1]; exact hf0.le) (by rw [k2]; exact ha) (by rw [k3]; exact hb) ?_ ?_ ?_ ?_ ?_
    · rw [k2, hL1]; exact min_le_left _ _
    · rw [k2, hL2]; show _ + a ≤ p.V_clearance_c + p.V_clearance_e + 1; linarith
    · rw [k3, hL1]; exact min_le_right _ _
    · rw [k3, hL2]; show _ + b ≤ p.V_clearance_c + p.V_clearance_e + 1; linarith
    · rw [k1, k2, k3]
      calc (a + b) * (o + o ^ 2) ≤ (w / (o + o ^ 2) + w / (o + o ^ 2)) * (o + o ^ 2) :=
            mul_le_mul_of_nonneg_right (add_le_add e2 f2) (by positivity)
        _ = 2 * w := by field_simp; ring
  have key := hrun x' hre s4 q1 outs env hode hout
  have hg := hx'.fluid
  rcases key with ⟨e, he⟩ | hstill
  · left
    obtain ⟨-, -, vs, -, -, -, h3, -⟩ := C36_values_are_steady env lu.LU x' _ _ _ e he
    obtain ⟨res, hres⟩ := results_ok e vs h3
    refine ⟨res, (h1 res).2 ⟨e, ?_, hres⟩⟩
    rw [hg]
    exact he
  · right
    refine ⟨x', g', hx', ?_⟩
    rw [hg]
    exact hstill

end Sett
