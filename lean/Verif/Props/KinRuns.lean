import Verif.Props.Kin
import Verif.Props.WholeRun

/-! # C86 and C88 uniformly over the runs of one engine -/

namespace Sett

open Spec dopri5 state_equations

section
variable {B : Run ℝ} {n : GasName} {τ Θ : ℝ}

/-- C86, one constant for all runs of an engine with no parasitic heat: the ten unknowns are at most `C` times the speeds
of the pistons, and Lipschitz in state, positions and speeds with constant `C`. -/
theorem kin_speeds (hf : B.fluid = (IdealGas.new n).toFluid) (hT : Sound B.solver)
    (hc : Complete B.solver) (hq : NoParasiticHeat B) (L : Limits) (hτ : 0 < τ) : ∃ C, 0 < C ∧ ∀ r', Kin B τ Θ r' →
      SaneRun r' → ∀ t y hint s, WithinLimits r' L t y → solve r'.solver (r'.calculate_inputs t y) hint = .ok s →
      solutionGap s ⟨0, 0, 0, 0, 0, 0, 0, 0, 0, 0⟩ ≤ C * (|(r'.ws_vol_fn t).1.deriv| + |(r'.ws_vol_fn t).2.deriv|) ∧
      ∀ t' y' hint' s', WithinLimits r' L t' y' → solve r'.solver (r'.calculate_inputs t' y') hint' = .ok s' →
        solutionGap s s' ≤ C * (stateGap y y' + driveGap r' t t') := by
  obtain ⟨C, hC, hl⟩ := C70_kin (Θ := Θ) hf hT L hτ
  refine ⟨C, hC, ?_⟩
  intro r hr hs t y hint s w e
  have self : ∀ T : Temperatures ℝ, tempGap T T = 0 := fun T => by simp [tempGap]
  refine ⟨?_, ?_⟩
  · let z : Run ℝ := { r with ws_vol_fn := fun _ => (⟨(r.ws_vol_fn t).1.value, 0⟩, ⟨(r.ws_vol_fn t).2.value, 0⟩) }
    have kz : Kin B τ Θ z := ⟨hr.fluid, hr.solver, hr.chx_vol, hr.regen_vol, hr.hhx_vol, hr.parasitics, hr.chx, hr.hhx,
      hr.regen, hr.cold, hr.hot⟩
    have sz : SaneRun z := ⟨hs.norm, fun _ => hs.comp_vol t, fun _ => hs.exp_vol t, hs.chx_vol, hs.regen_vol, hs.hhx_vol,
      hs.regen_temp, hs.chx_temp, hs.hhx_temp⟩
    have wz : WithinLimits z L t y := by
      have h0 : 0 ≤ L.Wmax := (abs_nonneg _).trans w.comp_rate
      refine ⟨w.pres, w.comp_temp, w.exp_temp, w.comp_vol, w.exp_vol, ?_, ?_⟩ <;> show |(0 : ℝ)| ≤ _ <;> simpa using h0
    have fz : z.fluid = (IdealGas.new n).toFluid := hr.fluid.trans hf
    have tz : Sound z.solver := hr.solver.symm ▸ hT
    obtain ⟨s0, h0⟩ := C59_run_solve z n fz tz (hr.solver.symm ▸ hc) t y (physical_of_within sz wz)
    have hb := C07_upwind_balances _ tz _ sz.norm _ s0 (h0 hint)
    have hst := C58_ideal_gas_stable z n fz t y (physical_of_within sz wz)
    have e0 := rest_solution (z.calculate_inputs t y) hst rfl rfl
      ((congrArg (fun p => p.comp.thermal) hr.parasitics).trans hq.comp)
      ((congrArg (fun p => p.exp.thermal) hr.parasitics).trans hq.exp) s0 hb
    have := hl r z hr kz hs sz t t y y hint hint s s0 w wz e (h0 hint)
    rw [e0] at this
    refine this.trans (le_of_eq ?_)
    rw [show z.temp = r.temp from rfl, self]
    simp [stateGap, pistonGap, z]
  · intro t' y' hint' s' w' e'
    have := hl r r hr hr hs hs t t' y y' hint hint' s s' w w' e e'
    rw [self, add_zero] at this
    exact this

/-- The rates of all slow drives, within limits on pressure, temperatures and volumes. -/
theorem kin_slow_rates (hf : B.fluid = (IdealGas.new n).toFluid) (hT : Sound B.solver)
    (hc : Complete B.solver) (hq : NoParasiticHeat B) (L : Limits) (hτ : 0 < τ) : ∃ C, 0 < C ∧ ∀ w, 0 < w → w ≤ 1 → ∀ r',
      Kin B τ Θ r' → SaneRun r' → SlowDrive r' L w →
        (∀ t y hint s, WithinLimits r' { L with Wmax := 1 } t y → solve r'.solver (r'.calculate_inputs t y) hint = .ok s →
          solutionGap s ⟨0, 0, 0, 0, 0, 0, 0, 0, 0, 0⟩ ≤ 2 * C * w) ∧ RatesUpTo r' { L with Wmax := 1 } (2 * C * w) ∧
        Gentle (runRates r' { L with Wmax := 1 }) (2 * C * w) (3 * C) w := by
  obtain ⟨C, hC, hall⟩ := kin_speeds (Θ := Θ) hf hT hc hq { L with Wmax := 1 } hτ
  refine ⟨C, hC, ?_⟩
  intro w hw0 hw1 r' hr hs' hd
  have small : ∀ t, |(r'.ws_vol_fn t).1.deriv| + |(r'.ws_vol_fn t).2.deriv| ≤ 2 * w := by
    intro t
    linarith [hd.comp_rate t, hd.exp_rate t]
  have hM0 : 0 ≤ 2 * C * w := by positivity
  have rates : RatesUpTo r' { L with Wmax := 1 } (2 * C * w) := by
    intro t y hint s hw e
    have h := (hall r' hr hs' t y hint s hw e).1.trans (mul_le_mul_of_nonneg_left (small t) hC.le)
    simp only [solutionGap, sub_zero] at h
    have h0 := abs_nonneg s.m_dot_ck; have h1 := abs_nonneg s.m_dot_kr; have h2 := abs_nonneg s.m_dot_rl
    have h3 := abs_nonneg s.m_dot_le; have h4 := abs_nonneg s.Q_dot_k; have h5 := abs_nonneg s.Q_dot_r
    have h6 := abs_nonneg s.Q_dot_l; have h7 := abs_nonneg s.dTc_dt; have h8 := abs_nonneg s.dTe_dt
    have h9 := abs_nonneg s.dP_dt
    refine ⟨?_, ?_, ?_⟩ <;> linarith
  refine ⟨fun t y hint s hw e => ?_, rates, ?_⟩
  · have h := (hall r' hr hs' t y hint s hw e).1.trans (mul_le_mul_of_nonneg_left (small t) hC.le)
    linarith
  refine ⟨?_, ?_⟩
  · rintro t y k ⟨hw, hint, s, e, rfl⟩
    obtain ⟨b1, b2, b3⟩ := rates t _ hint s hw e
    exact norm_vec_le b1 b2 b3
  · rintro t y k t' y' k' ⟨hw, hint, s, e, rfl⟩ ⟨hw', hint', s', e', rfl⟩
    have h := (hall r' hr hs' t _ hint s hw e).2 t' _ hint' s' hw' e'
    have hg : stateGap (conditionsOf y) (conditionsOf y') ≤ 3 * ‖vec y - vec y'‖ := stateGap_le _ _
    have h1 := mul_le_mul_of_nonneg_left (add_le_add hg (hd.steady t t')) hC.le
    have h2 : 0 ≤ C * (w * |t - t'|) := by positivity
    have h3 : ‖vec ⟨s.dP_dt, s.dTc_dt, s.dTe_dt⟩ - vec ⟨s'.dP_dt, s'.dTc_dt, s'.dTe_dt⟩‖ ≤ solutionGap s s' := by
      unfold solutionGap
      have h0 := abs_nonneg (s.m_dot_ck - s'.m_dot_ck); have h1 := abs_nonneg (s.m_dot_kr - s'.m_dot_kr)
      have h2 := abs_nonneg (s.m_dot_rl - s'.m_dot_rl); have h3 := abs_nonneg (s.m_dot_le - s'.m_dot_le)
      have h4 := abs_nonneg (s.Q_dot_k - s'.Q_dot_k); have h5 := abs_nonneg (s.Q_dot_r - s'.Q_dot_r)
      have h6 := abs_nonneg (s.Q_dot_l - s'.Q_dot_l); have h7 := abs_nonneg (s.dTc_dt - s'.dTc_dt)
      have h8 := abs_nonneg (s.dTe_dt - s'.dTe_dt); have h9 := abs_nonneg (s.dP_dt - s'.dP_dt)
      simp only [vec, Prod.mk_sub_mk, Prod.norm_mk, Real.norm_eq_abs]
      refine max_le ?_ (max_le ?_ ?_) <;> linarith
    linarith

/-- C86, slow engines, uniformly over the runs of one engine.  Whatever the tolerance (an error of `σ > 0` per step), the limits on pressure, temperatures
and volumes, and the distance `δ` the initial state keeps from them, there is a `w > 0` such that for every drive of the
engine with speeds and accelerations up to `w` the integration of one cycle succeeds, and reports states no further
than `δ` from the initial one. -/
theorem kin_slow (hf : B.fluid = (IdealGas.new n).toFluid) (hT : Sound B.solver)
    (hc : Complete B.solver) (hq : NoParasiticHeat B) (L : Limits) (hτ : 0 < τ) {δ σ : ℝ} (hδ : 0 < δ) (hσ : 0 < σ) :
    ∃ w, 0 < w ∧ w ≤ 1 ∧ (∀ r', Kin B τ Θ r' → SaneRun r' → SlowDrive r' L w → ∀ t y hint s,
      WithinLimits r' { L with Wmax := 1 } t y → solve r'.solver (r'.calculate_inputs t y) hint = .ok s →
      solutionGap s ⟨0, 0, 0, 0, 0, 0, 0, 0, 0, 0⟩ ≤ δ) ∧ ∀ r', Kin B τ Θ r' → SaneRun r' → SlowDrive r' L w → 1e-10 ≤ r'.period → r'.period < 1e6 - 1 →
      ∀ (outs : Nat) (env : Env ℝ) (ic : Conditions ℝ) (num : UInt32) (tol : OdeTolerance ℝ),
      env.ode = dopri5.solve outs → 2 ≤ num.toNat → ((num.toNat : ℝ) - 1) * 1e-14 < r'.period → num.toNat + 2 ≤ outs →
      0 ≤ tol.rel → σ ≤ leastAllowed tol L → Inside L δ ic →
      ∃ pts, integrationTryFrom env r'.toCycle ic num tol = .ok pts ∧ ∀ p ∈ pts,
        WithinLimits r' { L with Wmax := 1 } p.time p.conditions ∧ Nearby δ ic p.conditions := by
  obtain ⟨C, hC, hall⟩ := kin_slow_rates (Θ := Θ) hf hT hc hq L hτ
  obtain ⟨w, hw0, hw1, hwδ, hwM, hwσ⟩ : ∃ w : ℝ, 0 < w ∧ w ≤ 1 ∧ 25 * (2 * C * w) * 1e6 ≤ δ ∧ 2 * C * w ≤ 1e20 * σ ∧
      3 * C * (25 * (2 * C * w) + w) * 1e6 ^ 2 ≤ 1e4 * σ := by
    have key : ∀ a b : ℝ, 0 < a → 0 < b → ∃ w, 0 < w ∧ ∀ x, 0 < x → x ≤ w → a * x ≤ b := by
      intro a b ha hb
      refine ⟨b / a, by positivity, fun x _ hx => ?_⟩
      rw [le_div_iff₀ ha] at hx
      linarith
    obtain ⟨w1, p1, h1⟩ := key (25 * (2 * C) * 1e6) δ (by positivity) hδ
    obtain ⟨w2, p2, h2⟩ := key (2 * C) (1e20 * σ) (by positivity) (by positivity)
    obtain ⟨w3, p3, h3⟩ := key (3 * C * (25 * (2 * C) + 1) * 1e6 ^ 2) (1e4 * σ) (by positivity) (by positivity)
    have hp : 0 < min 1 (min w1 (min w2 w3)) := by positivity
    refine ⟨min 1 (min w1 (min w2 w3)), hp, min_le_left _ _, ?_, ?_, ?_⟩
    · have := h1 _ hp ((min_le_right _ _).trans (min_le_left _ _))
      linarith
    · exact h2 _ hp ((min_le_right _ _).trans ((min_le_right _ _).trans (min_le_left _ _)))
    · have := h3 _ hp ((min_le_right _ _).trans ((min_le_right _ _).trans (min_le_right _ _)))
      linarith
  refine ⟨w, hw0, hw1, ?_, ?_⟩
  · intro r' hr hs' hd t y hint s hw e
    have h := (hall w hw0 hw1 r' hr hs' hd).1 t y hint s hw e
    have : 0 ≤ 2 * C * w := by positivity
    linarith
  intro r' hr hs' hd hp hp' outs env ic num tol ho hn hres hout hrel htol hin
  have hf' : r'.fluid = (IdealGas.new n).toFluid := hr.fluid.trans hf
  have hTs : Sound r'.solver := hr.solver.symm ▸ hT
  have hcs : Complete r'.solver := hr.solver.symm ▸ hc
  obtain ⟨-, rates, gentle⟩ := hall w hw0 hw1 r' hr hs' hd
  have hp0 : 0 < r'.period := lt_of_lt_of_le (by norm_num) hp
  have hlen : r'.period + 1e-14 ≤ 1e6 := by norm_num at hp' ⊢; linarith
  have hM0 : 0 ≤ 2 * C * w := by positivity
  have hD : 0 ≤ 3 * C * (25 * (2 * C * w) + w) := by positivity
  refine quiet_cycle (L := { L with Wmax := 1 }) hf' hs' hTs hcs ⟨hd.comp_vol, hd.exp_vol, fun t => (hd.comp_rate t).trans hw1,
    fun t => (hd.exp_rate t).trans hw1⟩ hM0 (by positivity) hw0.le rates gentle hp hp'
    (le_trans (mul_le_mul_of_nonneg_left hlen (by positivity)) hwδ) ho hn hres hout hrel (hσ.trans_le htol) ?_ ?_
    ⟨hin.pres, hin.comp_temp, hin.exp_temp⟩
  · exact hwM.trans (mul_le_mul_of_nonneg_left htol (by norm_num))
  · refine le_trans (le_trans (mul_le_mul_of_nonneg_left (pow_le_pow_left₀ (by positivity) hlen 2) hD) hwσ) ?_
    exact mul_le_mul_of_nonneg_left htol (by norm_num)

/-- C88, the search, uniformly over the runs of one engine.  For an engine with no parasitic heat, limits, a distance `δ` from them and an error allowed per
step, there is a bound on speeds and accelerations of the pistons up to which the search for the steady cycle succeeds,
whatever the drive, with tolerances no smaller than `δ`, and reports nothing further than `δ` from its hints, and no flow, heat or rate above
`δ`. -/
theorem kin_search (hf : B.fluid = (IdealGas.new n).toFluid) (hT : Sound B.solver)
    (hc : Complete B.solver) (hq : NoParasiticHeat B) (L : Limits) (hτ : 0 < τ) {δ σ : ℝ} (hδ : 0 < δ) (hσ : 0 < σ) :
    ∃ w, 0 < w ∧ ∀ r', Kin B τ Θ r' → SaneRun r' → SlowDrive r' L w → 1e-10 ≤ r'.period → r'.period < 1e6 - 1 →
      ∀ (outs : Nat) (env : Env ℝ) (i : SteadyStateInputs ℝ),
      env.ode = dopri5.solve outs → 2 ≤ i.num_points.toNat → ((i.num_points.toNat : ℝ) - 1) * 1e-14 < r'.period →
      i.num_points.toNat + 2 ≤ outs → 0 ≤ i.ode_tol.rel → σ ≤ leastAllowed i.ode_tol L →
      δ ≤ i.conv_tol.abs → δ ≤ i.conv_tol.rel → 1 ≤ i.max_iters →
      Inside L δ ⟨i.pres_zero, i.temp_comp_hint, i.temp_exp_hint⟩ →
      ∃ vs, findSteadyState env r'.toCycle i = .ok vs ∧ vs.length = i.num_points.toNat ∧
        ∀ v ∈ vs, Nearby δ ⟨i.pres_zero, i.temp_comp_hint, i.temp_exp_hint⟩ v.conditions ∧
          solutionGap v.solution ⟨0, 0, 0, 0, 0, 0, 0, 0, 0, 0⟩ ≤ δ := by
  obtain ⟨w, hw, hw1, hflow, h⟩ := kin_slow (Θ := Θ) hf hT hc hq L hτ (half_pos hδ) hσ
  refine ⟨w, hw, ?_⟩
  intro r' hr hs' hd hp hp' outs env i ho hn hres hout hrel htol ha hrt hm hin
  have h2 : (2 : ℝ) ≤ i.num_points.toNat := by exact_mod_cast hn
  have key : ∀ num : UInt32, num = 2 ∨ num = i.num_points → ∃ pts, integrationTryFrom env r'.toCycle
      ⟨i.pres_zero, i.temp_comp_hint, i.temp_exp_hint⟩ num i.ode_tol = .ok pts ∧ ∀ p ∈ pts,
        WithinLimits r' { L with Wmax := 1 } p.time p.conditions ∧
          Nearby (δ / 2) ⟨i.pres_zero, i.temp_comp_hint, i.temp_exp_hint⟩ p.conditions := by
    intro num hnum
    have hnum2 : 2 ≤ num.toNat ∧ num.toNat ≤ i.num_points.toNat := by
      rcases hnum with rfl | rfl
      · exact ⟨le_rfl, hn⟩
      · exact ⟨hn, le_rfl⟩
    have hle : (num.toNat : ℝ) ≤ i.num_points.toNat := by exact_mod_cast hnum2.2
    refine h r' hr hs' hd hp hp' outs env _ num i.ode_tol ho hnum2.1 (lt_of_le_of_lt ?_ hres) (by omega) hrel htol
      ⟨⟨?_, ?_⟩, ⟨?_, ?_⟩, ⟨?_, ?_⟩⟩
    · exact mul_le_mul_of_nonneg_right (by linarith) (by norm_num)
    all_goals linarith [hin.pres.1, hin.pres.2, hin.comp_temp.1, hin.comp_temp.2, hin.exp_temp.1, hin.exp_temp.2]
  obtain ⟨vs, v1, v2, v3⟩ := search_first (δ := δ / 2) (L := { L with Wmax := 1 }) (hr.fluid.trans hf) hs'
    (hr.solver.symm ▸ hT) (hr.solver.symm ▸ hc) ho hn hres (by linarith) (by linarith) hm (by linarith [hin.comp_temp.1])
    (by linarith [hin.exp_temp.1]) key
  refine ⟨vs, v1, v2, fun v hv => ⟨⟨(v3 v hv).pres.trans (by linarith), (v3 v hv).comp_temp.trans (by linarith),
      (v3 v hv).exp_temp.trans (by linarith)⟩, ?_⟩⟩
  obtain ⟨m, ic, -, -, -, pts, -, g⟩ := (C33_ok_iff _ _ _ _).1 v1
  obtain ⟨-, good⟩ := C32_values_self_consistent _ _ _ g
  obtain ⟨j, hj⟩ := List.mem_iff_getElem?.1 hv
  obtain ⟨-, hint, hsol, -⟩ := good j v hj
  obtain ⟨n1, n2⟩ := abs_le.1 (v3 v hv).pres
  obtain ⟨n3, n4⟩ := abs_le.1 (v3 v hv).comp_temp
  obtain ⟨n5, n6⟩ := abs_le.1 (v3 v hv).exp_temp
  obtain ⟨⟨i1, i2⟩, ⟨i3, i4⟩, ⟨i5, i6⟩⟩ := hin
  simp only at n1 n2 n3 n4 n5 n6 i1 i2 i3 i4 i5 i6
  refine (hflow r' hr hs' hd v.time v.conditions hint v.solution ⟨⟨?_, ?_⟩, ⟨?_, ?_⟩, ⟨?_, ?_⟩, hd.comp_vol _,
    hd.exp_vol _, (hd.comp_rate _).trans hw1, (hd.exp_rate _).trans hw1⟩ hsol).trans (by linarith)
  all_goals (try simp only); linarith

end

end Sett
