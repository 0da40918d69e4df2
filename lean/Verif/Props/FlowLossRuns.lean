import Verif.Props.FlowLoss
import Verif.Props.WholeRunExample

/-! # C109: configurations in which flow resistance costs power, and in which it pays -/

namespace Sett

open Spec state_equations

section
variable {c : Config ℝ} {k : chx.FixedApproach.Config ℝ} {r : regen.FixedApproach.Config ℝ} {l : hhx.FixedApproach.Config ℝ}
  {p : ws.SinusoidalDrive.Config ℝ}

/-- What the components of a configuration with other strokes are. -/
theorem stroke_parts (h : SaneConfig c k r l) (hp : c.engine.components.ws = .Sinusoidal p) {a b : ℝ} {x : Components ℝ}
    {g : IdealGas ℝ} (hx : Asked (withStroke c p a b) x g) :
    x.chx.volume = k.vol ∧ (∀ s, x.chx.hydraulic_resistance s = k.R_hyd) ∧ x.regen.volume = r.vol ∧
      (∀ s, x.regen.hydraulic_resistance s = r.R_hyd) ∧ (∀ s, x.hhx.hydraulic_resistance s = l.R_hyd) ∧
      (∀ s, x.ws.frequency s = p.frequency) ∧ (∀ s, (x.ws.parasitics s).comp.thermal = 0) ∧
      (∀ s, (x.ws.parasitics s).exp.thermal = p.Q_parasitic_e) ∧
      ∀ s t, x.ws.volumes s t =
        (⟨p.V_clearance_c + 0.5 * a * (1 + Real.cos (2 * Real.pi * p.frequency * t)),
          -0.5 * a * Real.sin (2 * Real.pi * p.frequency * t) * (2 * Real.pi * p.frequency)⟩,
        ⟨p.V_clearance_e + 0.5 * b * (1 + Real.cos (2 * Real.pi * p.frequency * t + p.phase_angle * Real.pi / 180)),
          -0.5 * b * Real.sin (2 * Real.pi * p.frequency * t + p.phase_angle * Real.pi / 180) * (2 * Real.pi * p.frequency)⟩) := by
  obtain ⟨b1, b2, b3, b4, -⟩ := hx
  replace b2 : Spec.BuildsChx c.engine.components.chx x.chx := b2
  replace b3 : Spec.BuildsRegen c.engine.components.regen x.regen := b3
  replace b4 : Spec.BuildsHhx c.engine.components.hhx x.hhx := b4
  replace b1 : Spec.BuildsWs (.Sinusoidal { p with V_swept_c := a, V_swept_e := b }) x.ws := b1
  rw [h.chx] at b2; rw [h.regen] at b3; rw [h.hhx] at b4
  obtain ⟨yw, yk, yr, yl⟩ := x
  simp only at b1 b2 b3 b4 ⊢
  cases b1 with
  | sinusoidal _ _ g1 g2 g3 g4 =>
  cases b2 with
  | fixedApproach _ _ k1 k2 k3 k4 =>
  cases b3 with
  | fixedApproach _ _ r1 r2 r3 r4 =>
  cases b4 with
  | fixedApproach _ _ l1 l2 l3 l4 =>
  refine ⟨k1, k4, r1, r4, l4, g1, fun s => by rw [g4]; exact lit_0, fun s => by rw [g4], fun s t => ?_⟩
  rw [g2]
  simp only [ws.SinusoidalDrive.volumes]
  scalars

end

section
variable (c : Config ℝ) (k : chx.FixedApproach.Config ℝ) (r : regen.FixedApproach.Config ℝ) (l : hhx.FixedApproach.Config ℝ)
  (p : ws.SinusoidalDrive.Config ℝ)

/-- **C109**, configuration files, gain.  Take a configuration with sane numbers (as in C88) for helium whose two pistons move
in phase, with a cooler without volume but with flow resistance, and no resistance in regenerator and heater.  With an expansion
space that is `κ > 1` times as large and short enough strokes `run_engine` succeeds and reports more indicated power than
without the resistance. -/
theorem C109_run_engine_gain (h : SaneConfig c k r l) (hHe : c.engine.fluid = .Helium .IdealGas)
    (hp : c.engine.components.ws = .Sinusoidal p) (hQ : p.Q_parasitic_e = 0) (hP : 0 < c.conditions.pres_zero)
    (hTk : 100 < c.conditions.temp_sink + k.DT) (hTl : 100 < c.conditions.temp_source - l.DT)
    (hf : 1.01e-6 ≤ p.frequency) (hf' : p.frequency ≤ 1e10) (hn : 4 ≤ c.solver.ode.num_timesteps.toNat)
    (hres : ((c.solver.ode.num_timesteps.toNat : ℝ) - 1) * 1e-14 < 1 / p.frequency)
    (hrel : 0 ≤ c.solver.ode.tolerance.rel) (habs : 0 < c.solver.ode.tolerance.abs)
    (hia : 0 < c.solver.inner_loop.tolerance.abs) (hir : 0 < c.solver.inner_loop.tolerance.rel)
    (him : 1 ≤ c.solver.inner_loop.max_iterations.toNat)
    (hphase : p.phase_angle = 0) {κ : ℝ} (hκ : 1 < κ) (hclear : κ * p.V_clearance_c ≤ p.V_clearance_e) (hvk : k.vol = 0) (hvr : 0 < r.vol)
    (hRk : 0 < k.R_hyd) (hRr : r.R_hyd = 0) (hRl : l.R_hyd = 0) :
    ∃ v, 0 < v ∧ ∀ a, 0 < a → κ * a ≤ v → ∀ (outs : Nat) (env : Env ℝ), env.ode = dopri5.solve outs →
      c.solver.ode.num_timesteps.toNat + 2 ≤ outs →
      ∃ res, run_engine env lu.LU (withStroke c p a (κ * a)) = .ok res ∧ res.power.ideal_indicated < res.power.indicated := by
  obtain ⟨v, hv, hrun⟩ := short_stroke c k r l h p hp hQ hP hTk hTl hf hf' (by omega) hres hrel habs hia hir him
  refine ⟨v, hv, fun a ha hav outs env ho hout => ?_⟩
  have haκ : a ≤ κ * a := le_mul_of_one_le_left ha.le hκ.le
  obtain ⟨x, g, e, res, hx, he, hs, hst, w1, w2, w3, hr, hok⟩ := hrun a (κ * a) ha.le (haκ.trans hav) (by positivity) hav outs env ho hout
  obtain ⟨a1, a2, a3, a4, a5, a6, a7, a8, a9⟩ := stroke_parts h hp hx
  have hf0 : 0 < p.frequency := lt_of_lt_of_le (by norm_num) hf
  rw [hHe] at he hs hst
  refine ⟨res, hok, C109_gain (U := lu.LU) (c := x) (e := e) (κ := κ) ho C69_sound ⟨fun q => by rw [a6]; exact hf0, ?_, fun q => ?_⟩ he hr ?_
    ⟨a7 _, (a8 _).trans hQ⟩ w1 w2 w3 hκ (fun t => ?_) (fun t => ?_) (a1.trans hvk) (hvr.trans_eq a3.symm) (by rw [a2]; exact hRk)
    (by rw [a4]; exact hRr) (by rw [a5]; exact hRl) ⟨1, ?_, ?_⟩⟩
  · show 2 ≤ c.solver.ode.num_timesteps.toNat; omega
  · rw [a6]; rwa [lt_div_iff₀ hf0] at hres
  · rw [hst]; exact saneRun_start hs lu.LU
  · rw [a9, hphase]
    simp only [zero_mul, zero_div, add_zero]
    ring
  · rw [a9, hphase]
    simp only [zero_mul, zero_div, add_zero]
    linarith
  · show 1 < c.solver.ode.num_timesteps.toNat; omega
  · rw [a9, a6]
    have hN : (4 : ℝ) ≤ c.solver.ode.num_timesteps.toNat := by exact_mod_cast hn
    have et : 2 * Real.pi * p.frequency * (((1 : ℕ) : ℝ) * (1 / p.frequency / (((settingsOf c).resolution.toNat : ℝ) - 1)))
        = 2 * Real.pi / ((c.solver.ode.num_timesteps.toNat : ℝ) - 1) := by
      show 2 * Real.pi * p.frequency * (((1 : ℕ) : ℝ) * (1 / p.frequency / ((c.solver.ode.num_timesteps.toNat : ℝ) - 1))) = _
      push_cast
      field_simp
    simp only
    rw [et]
    have hpi := Real.pi_pos
    have hs0 : 0 < Real.sin (2 * Real.pi / ((c.solver.ode.num_timesteps.toNat : ℝ) - 1)) := by
      apply Real.sin_pos_of_pos_of_lt_pi
      · exact div_pos (by positivity) (by linarith)
      · rw [div_lt_iff₀ (by linarith)]; nlinarith
    have : 0 < 0.5 * a * Real.sin (2 * Real.pi / ((c.solver.ode.num_timesteps.toNat : ℝ) - 1)) * (2 * Real.pi * p.frequency) := by
      positivity
    intro h0
    linarith

/-- **C109**, configuration files, no gain.  Take a configuration with sane numbers whose two pistons move in opposite phase.
With short enough strokes `run_engine` succeeds and, whatever the flow resistances, reports no more indicated power than without. -/
theorem C109_run_engine_no_gain (h : SaneConfig c k r l)
    (hp : c.engine.components.ws = .Sinusoidal p) (hQ : p.Q_parasitic_e = 0) (hP : 0 < c.conditions.pres_zero)
    (hTk : 100 < c.conditions.temp_sink + k.DT) (hTl : 100 < c.conditions.temp_source - l.DT)
    (hf : 1.01e-6 ≤ p.frequency) (hf' : p.frequency ≤ 1e10) (hn : 2 ≤ c.solver.ode.num_timesteps.toNat)
    (hres : ((c.solver.ode.num_timesteps.toNat : ℝ) - 1) * 1e-14 < 1 / p.frequency)
    (hrel : 0 ≤ c.solver.ode.tolerance.rel) (habs : 0 < c.solver.ode.tolerance.abs)
    (hia : 0 < c.solver.inner_loop.tolerance.abs) (hir : 0 < c.solver.inner_loop.tolerance.rel)
    (him : 1 ≤ c.solver.inner_loop.max_iterations.toNat)
    (hphase : p.phase_angle = 180) (hRk : 0 ≤ k.R_hyd) (hRr : 0 ≤ r.R_hyd) (hRl : 0 ≤ l.R_hyd) :
    ∃ v, 0 < v ∧ ∀ a b, 0 ≤ a → a ≤ v → 0 ≤ b → b ≤ v → ∀ (outs : Nat) (env : Env ℝ), env.ode = dopri5.solve outs →
      c.solver.ode.num_timesteps.toNat + 2 ≤ outs →
      ∃ res, run_engine env lu.LU (withStroke c p a b) = .ok res ∧ res.power.indicated ≤ res.power.ideal_indicated := by
  obtain ⟨v, hv, hrun⟩ := short_stroke c k r l h p hp hQ hP hTk hTl hf hf' hn hres hrel habs hia hir him
  refine ⟨v, hv, fun a b ha ha' hb hb' outs env ho hout => ?_⟩
  obtain ⟨x, g, e, res, hx, he, hs, hst, w1, w2, w3, hr, hok⟩ := hrun a b ha ha' hb hb' outs env ho hout
  obtain ⟨a1, a2, a3, a4, a5, a6, a7, a8, a9⟩ := stroke_parts h hp hx
  have hf0 : 0 < p.frequency := lt_of_lt_of_le (by norm_num) hf
  refine ⟨res, hok, C109_no_gain (U := lu.LU) (c := x) (e := e) ho C69_sound ⟨fun q => by rw [a6]; exact hf0, hn, fun q => ?_⟩ he hr ?_
    ⟨a7 _, (a8 _).trans hQ⟩ w1 w2 w3 (fun t => ?_) (by rw [a2]; exact hRk)
    (by rw [a4]; exact hRr) (by rw [a5]; exact hRl)⟩
  · rw [a6]; rwa [lt_div_iff₀ hf0] at hres
  · rw [hst]; exact saneRun_start hs lu.LU
  · rw [a9, hphase, show (180 : ℝ) * Real.pi / 180 = Real.pi by ring, Real.sin_add_pi]
    have hpi := Real.pi_pos
    have : 0 ≤ 0.5 * a * (0.5 * b) * Real.sin (2 * Real.pi * p.frequency * t) ^ 2 * (2 * Real.pi * p.frequency) ^ 2 := by positivity
    simp only
    linarith

end

namespace WholeRunExample

/-- The engine of the example with both pistons in phase, a larger hot space, and a cooler that is nothing but an obstacle. -/
noncomputable def throttled : Config ℝ :=
  { engine :=
      { fluid := .Helium .IdealGas
        components :=
          { ws := .Sinusoidal ⟨70, 0, 5e-4, 2e-5, 1, 0, 5e-4, 4e-5, 1, 0, 0⟩
            chx := .FixedApproach ⟨0, 40, 1e4, 0⟩
            regen := .FixedApproach ⟨1e-4, 10, 0, 0⟩
            hhx := .FixedApproach ⟨1e-4, 100, 0, 0, 0⟩ } }
    solver :=
      { inner_loop := ⟨⟨1e-2, 1e-4⟩, 20⟩, outer_loop := ⟨⟨1e-2, 1e-4⟩, 20⟩, ode := ⟨⟨1e-6, 1e-6⟩, 30⟩ }
    conditions := ⟨300, 500, 10e6⟩ }

theorem throttled_sane : SaneConfig throttled ⟨0, 40, 1e4, 0⟩ ⟨1e-4, 10, 0, 0⟩ ⟨1e-4, 100, 0, 0, 0⟩ := by
  refine ⟨rfl, .sinusoidal _ ?_ ?_ ?_ ?_, rfl, rfl, rfl, ?_, ?_, ?_, ?_, ?_, ?_, ?_, ?_, ?_⟩
  any_goals (norm_num [throttled]; done)
  · show (IdealGas.helium : IdealGas ℝ).enth 300 10e6 + (IdealGas.helium : IdealGas ℝ).enth 500 10e6 ≠ 0
    rw [IdealGas.helium_enth, IdealGas.helium_enth]
    norm_num
  · show (20 : UInt32).toNat ≠ 0; decide

/-- C109: an obstacle in the flow path raises the power that is reported. -/
example : ∃ v, 0 < v ∧ ∀ a, 0 < a → 2 * a ≤ v → ∀ build,
    ∃ res, run_engine ⟨dopri5.solve 40, build⟩ lu.LU
      (withStroke throttled ⟨70, 0, 5e-4, 2e-5, 1, 0, 5e-4, 4e-5, 1, 0, 0⟩ a (2 * a)) = .ok res ∧
      res.power.ideal_indicated < res.power.indicated := by
  have h30 : (30 : UInt32).toNat = 30 := by decide
  have h20 : (20 : UInt32).toNat = 20 := by decide
  obtain ⟨v, hv, h⟩ := C109_run_engine_gain throttled _ _ _ _ throttled_sane rfl rfl rfl (by norm_num [throttled]) (by norm_num [throttled])
    (by norm_num [throttled]) (by norm_num) (by norm_num) (by simp [throttled, h30]) (by simp [throttled, h30]; norm_num)
    (by norm_num [throttled]) (by norm_num [throttled]) (by norm_num [throttled]) (by norm_num [throttled]) (by simp [throttled, h20])
    rfl (κ := 2) (by norm_num) (by norm_num) rfl (by norm_num) (by norm_num) rfl rfl
  exact ⟨v, hv, fun a ha hav build => h a ha hav 40 _ rfl (by simp [throttled, h30])⟩

/-- The engine of the example with its pistons against each other and resistance everywhere. -/
noncomputable def opposed : Config ℝ :=
  { config with
    engine :=
      { fluid := .Helium .IdealGas
        components :=
          { ws := .Sinusoidal ⟨70, 180, 5e-4, 2e-5, 1, 0, 5e-4, 4e-5, 1, 0, 0⟩
            chx := .FixedApproach ⟨4e-5, 40, 1e4, 0⟩
            regen := .FixedApproach ⟨1e-4, 10, 1e5, 0⟩
            hhx := .FixedApproach ⟨1e-4, 100, 1e4, 0, 0⟩ } } }

theorem opposed_sane : SaneConfig opposed ⟨4e-5, 40, 1e4, 0⟩ ⟨1e-4, 10, 1e5, 0⟩ ⟨1e-4, 100, 1e4, 0, 0⟩ := by
  refine ⟨rfl, .sinusoidal _ ?_ ?_ ?_ ?_, rfl, rfl, rfl, ?_, ?_, ?_, ?_, ?_, ?_, ?_, ?_, ?_⟩
  any_goals (norm_num [opposed, config]; done)
  · show (IdealGas.helium : IdealGas ℝ).enth 300 10e6 + (IdealGas.helium : IdealGas ℝ).enth 500 10e6 ≠ 0
    rw [IdealGas.helium_enth, IdealGas.helium_enth]
    norm_num
  · show (20 : UInt32).toNat ≠ 0; decide

/-- C109: here the resistance costs power. -/
example : ∃ v, 0 < v ∧ ∀ a b, 0 ≤ a → a ≤ v → 0 ≤ b → b ≤ v → ∀ build,
    ∃ res, run_engine ⟨dopri5.solve 40, build⟩ lu.LU
      (withStroke opposed ⟨70, 180, 5e-4, 2e-5, 1, 0, 5e-4, 4e-5, 1, 0, 0⟩ a b) = .ok res ∧
      res.power.indicated ≤ res.power.ideal_indicated := by
  have h30 : (30 : UInt32).toNat = 30 := by decide
  have h20 : (20 : UInt32).toNat = 20 := by decide
  obtain ⟨v, hv, h⟩ := C109_run_engine_no_gain opposed _ _ _ _ opposed_sane rfl rfl (by norm_num [opposed, config]) (by norm_num [opposed, config])
    (by norm_num [opposed, config]) (by norm_num) (by norm_num) (by simp [opposed, config, h30]) (by simp [opposed, config, h30]; norm_num)
    (by norm_num [opposed, config]) (by norm_num [opposed, config]) (by norm_num [opposed, config]) (by norm_num [opposed, config])
    (by simp [opposed, config, h20]) rfl (by norm_num) (by norm_num) (by norm_num)
  exact ⟨v, hv, fun a b ha ha' hb hb' build => h a b ha ha' hb hb' 40 _ rfl (by simp [opposed, config, h30])⟩

end WholeRunExample

end Sett
