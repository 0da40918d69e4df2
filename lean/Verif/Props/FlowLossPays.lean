import Verif.Props.FlowLossRuns
import Verif.Props.Losses

/-! # C109: losses alone can raise the reported efficiency above any number -/

namespace Sett

open Spec

/-- A configuration charged with its own losses is itself. -/
theorem charge_self {c : Config ℝ} {k : chx.FixedApproach.Config ℝ} {r : regen.FixedApproach.Config ℝ} {l : hhx.FixedApproach.Config ℝ}
    {p : ws.SinusoidalDrive.Config ℝ} (h : SaneConfig c k r l) (a b : ℝ) :
    charge ⟨k.R_hyd, r.R_hyd, l.R_hyd, p.W_parasitic_c, p.W_parasitic_e, k.W_parasitic, l.W_parasitic, r.Q_parasitic, l.Q_parasitic⟩
      (withStroke c p a b) = withStroke c p a b := by
  have h1 := h.chx
  have h2 := h.regen
  have h3 := h.hhx
  obtain ⟨⟨fl, ⟨cx, cl, cr, cw⟩⟩, so, co⟩ := c
  simp only at h1 h2 h3
  subst h1 h2 h3
  rfl

/-- **C109**, efficiency.  For the configurations of `C109_run_engine_gain`: whatever number one names, there are losses, all of
them at least 0, with which the same engine is reported to have a positive heat input and a larger efficiency than that. -/
theorem C109_any_efficiency (c : Config ℝ) (k : chx.FixedApproach.Config ℝ) (r : regen.FixedApproach.Config ℝ)
    (l : hhx.FixedApproach.Config ℝ) (p : ws.SinusoidalDrive.Config ℝ) (h : SaneConfig c k r l) (hHe : c.engine.fluid = .Helium .IdealGas)
    (hp : c.engine.components.ws = .Sinusoidal p) (hQ : p.Q_parasitic_e = 0) (hP : 0 < c.conditions.pres_zero)
    (hTk : 100 < c.conditions.temp_sink + k.DT) (hTl : 100 < c.conditions.temp_source - l.DT)
    (hf : 1.01e-6 ≤ p.frequency) (hf' : p.frequency ≤ 1e10) (hn : 4 ≤ c.solver.ode.num_timesteps.toNat)
    (hres : ((c.solver.ode.num_timesteps.toNat : ℝ) - 1) * 1e-14 < 1 / p.frequency)
    (hrel : 0 ≤ c.solver.ode.tolerance.rel) (habs : 0 < c.solver.ode.tolerance.abs)
    (hia : 0 < c.solver.inner_loop.tolerance.abs) (hir : 0 < c.solver.inner_loop.tolerance.rel)
    (him : 1 ≤ c.solver.inner_loop.max_iterations.toNat)
    (hphase : p.phase_angle = 0) {κ : ℝ} (hκ : 1 < κ) (hclear : κ * p.V_clearance_c ≤ p.V_clearance_e) (hvk : k.vol = 0) (hvr : 0 < r.vol)
    (hRk : 0 < k.R_hyd) (hRr : r.R_hyd = 0) (hRl : l.R_hyd = 0) :
    ∃ v, 0 < v ∧ ∀ a, 0 < a → κ * a ≤ v → ∀ (outs : Nat) (env : Env ℝ), env.ode = dopri5.solve outs →
      c.solver.ode.num_timesteps.toNat + 2 ≤ outs → ∀ η : ℝ, ∃ L : Losses ℝ,
      (0 ≤ L.flowChx ∧ 0 ≤ L.flowRegen ∧ 0 ≤ L.flowHhx ∧ 0 ≤ L.workComp ∧ 0 ≤ L.workExp ∧ 0 ≤ L.workChx ∧ 0 ≤ L.workHhx ∧
        0 ≤ L.heatRegen ∧ 0 ≤ L.heatHhx) ∧
      ∃ res, run_engine env lu.LU (charge L (withStroke c p a (κ * a))) = .ok res ∧ 0 < res.heat_flow.input ∧ η < res.efficiency.mechanical := by
  obtain ⟨v, hv, hrun⟩ := C109_run_engine_gain c k r l p h hHe hp hQ hP hTk hTl hf hf' hn hres hrel habs hia hir him hphase hκ hclear hvk
    hvr hRk hRr hRl
  refine ⟨v, hv, fun a ha hav outs env ho hout η => ?_⟩
  obtain ⟨res, hok, hgain⟩ := hrun a ha hav outs env ho hout
  obtain ⟨p1, p2, p3, q, q', hL⟩ := C95_prices env lu.LU _ res hok
  have hp1 : p1 < 0 := by
    obtain ⟨r', h1, -, h2, -⟩ := hL ⟨k.R_hyd, r.R_hyd, l.R_hyd, p.W_parasitic_c, p.W_parasitic_e, k.W_parasitic, l.W_parasitic,
      r.Q_parasitic, l.Q_parasitic⟩
    rw [charge_self h, hok] at h1
    cases h1
    simp only [hRr, hRl, zero_mul, add_zero] at h2
    by_contra hc
    have := mul_nonneg hRk.le (not_lt.1 hc)
    linarith
  set Q := q + |q| + 1 with hQdef
  have hQ1 : 1 ≤ Q := by have := neg_abs_le q; linarith
  set N := (|η| * Q + |res.power.ideal_indicated| + 1) / -p1 with hN
  have hN0 : 0 ≤ N := div_nonneg (by positivity) (by linarith)
  have hNp : N * p1 = -(|η| * Q + |res.power.ideal_indicated| + 1) := by
    rw [hN, div_mul_eq_mul_div, div_neg, mul_div_assoc, div_self hp1.ne, mul_one]
  refine ⟨⟨N, 0, 0, 0, 0, 0, 0, 0, |q| + 1⟩, ⟨hN0, le_rfl, le_rfl, le_rfl, le_rfl, le_rfl, le_rfl, le_rfl, by positivity⟩, ?_⟩
  obtain ⟨r', h1, -, h2, h3, h4, h5, -⟩ := hL ⟨N, 0, 0, 0, 0, 0, 0, 0, |q| + 1⟩
  simp only [zero_mul, add_zero, zero_add, sub_zero] at h2 h3 h4 h5
  have h5' : r'.heat_flow.input = Q := by rw [h5, hQdef]; ring
  obtain ⟨-, -, -, e, -, -, he⟩ := C50_ok_only_if_run_ok env lu.LU _ r' h1
  have key := (C44_torque_efficiency e r' he).2.1 (by rw [h5']; linarith)
  refine ⟨r', h1, by rw [h5']; linarith, ?_⟩
  rw [h4, h3, h2, hNp, h5'] at key
  by_contra hc
  have hm : r'.efficiency.mechanical * Q ≤ |η| * Q :=
    mul_le_mul_of_nonneg_right ((not_lt.1 hc).trans (le_abs_self η)) (by linarith)
  have := neg_abs_le res.power.ideal_indicated
  linarith

/-- C109: the engine of the example, reported to deliver two hundred times its heat input. -/
example : ∃ v, 0 < v ∧ ∀ a, 0 < a → 2 * a ≤ v → ∀ build, ∃ L : Losses ℝ,
    (0 ≤ L.flowChx ∧ 0 ≤ L.flowRegen ∧ 0 ≤ L.flowHhx ∧ 0 ≤ L.workComp ∧ 0 ≤ L.workExp ∧ 0 ≤ L.workChx ∧ 0 ≤ L.workHhx ∧
      0 ≤ L.heatRegen ∧ 0 ≤ L.heatHhx) ∧
    ∃ res, run_engine ⟨dopri5.solve 40, build⟩ lu.LU
      (charge L (withStroke WholeRunExample.throttled ⟨70, 0, 5e-4, 2e-5, 1, 0, 5e-4, 4e-5, 1, 0, 0⟩ a (2 * a))) = .ok res ∧
      0 < res.heat_flow.input ∧ 200 < res.efficiency.mechanical := by
  have h30 : (30 : UInt32).toNat = 30 := by decide
  have h20 : (20 : UInt32).toNat = 20 := by decide
  obtain ⟨v, hv, h⟩ := C109_any_efficiency WholeRunExample.throttled _ _ _ _ WholeRunExample.throttled_sane rfl rfl rfl
    (by norm_num [WholeRunExample.throttled]) (by norm_num [WholeRunExample.throttled])
    (by norm_num [WholeRunExample.throttled]) (by norm_num) (by norm_num) (by simp [WholeRunExample.throttled, h30])
    (by simp [WholeRunExample.throttled, h30]; norm_num)
    (by norm_num [WholeRunExample.throttled]) (by norm_num [WholeRunExample.throttled]) (by norm_num [WholeRunExample.throttled])
    (by norm_num [WholeRunExample.throttled]) (by simp [WholeRunExample.throttled, h20])
    rfl (κ := 2) (by norm_num) (by norm_num) rfl (by norm_num) (by norm_num) rfl rfl
  exact ⟨v, hv, fun a ha hav build => h a ha hav 40 _ rfl (by simp [WholeRunExample.throttled, h30]) 200⟩

end Sett
