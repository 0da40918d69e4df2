import Verif.Props.Unique
import Verif.Props.Pressure

/-! # C71: trajectories of the state equations exist -/

namespace Sett

open Spec state_equations Set Metric
open scoped NNReal

/-- Picard–Lindelöf as in Mathlib's `exists_eq_forall_mem_Icc_hasDerivWithinAt`, keeping also that the solution
stays in the ball. -/
theorem picard_in_ball {E : Type*} [NormedAddCommGroup E] [NormedSpace ℝ E] [CompleteSpace E]
    {f : ℝ → E → E} {tmin tmax : ℝ} {t₀ : Icc tmin tmax} {x₀ x : E} {a r L K : ℝ≥0}
    (hf : IsPicardLindelof f t₀ x₀ a r L K) (hx : x ∈ closedBall x₀ r) :
    ∃ α : ℝ → E, α t₀ = x ∧ (∀ t, α t ∈ closedBall x₀ a) ∧ Continuous α ∧
      ∀ t ∈ Icc tmin tmax, HasDerivWithinAt α (f t (α t)) (Icc tmin tmax) t := by
  obtain ⟨α, hα⟩ := ODE.FunSpace.exists_isFixedPt_next hf hx
  refine ⟨α.compProj, by rw [ODE.FunSpace.compProj_val, ← hα, ODE.FunSpace.next_apply₀],
    fun t => α.compProj_mem_closedBall hf.mul_max_le, α.continuous_compProj, fun t ht ↦ ?_⟩
  apply ODE.hasDerivWithinAt_picard_Icc t₀.2 hf.continuousOn_uncurry
    α.continuous_compProj.continuousOn (fun _ ht' ↦ α.compProj_mem_closedBall hf.mul_max_le)
    x ht |>.congr_of_mem _ ht
  intro t' ht'
  nth_rw 1 [← hα]
  rw [ODE.FunSpace.compProj_of_mem ht', ODE.FunSpace.next_apply]

section
variable {r : Run ℝ} {n : GasName}

/-- The rates at a point, from `solve` with the default hint; zero if it fails. -/
noncomputable def pointRate (r : Run ℝ) (t : ℝ) (x : ℝ × ℝ × ℝ) : ℝ × ℝ × ℝ :=
  match solve r.solver (r.calculate_inputs t ⟨x.1, x.2.1, x.2.2⟩) FlowDirection.default with
  | .ok s => (s.dP_dt, s.dTc_dt, s.dTe_dt)
  | .error _ => 0

theorem pointRate_eq {t : ℝ} {x : ℝ × ℝ × ℝ} {s : Solution ℝ}
    (h : solve r.solver (r.calculate_inputs t ⟨x.1, x.2.1, x.2.2⟩) FlowDirection.default = .ok s) :
    pointRate r t x = (s.dP_dt, s.dTc_dt, s.dTe_dt) := by
  simp only [pointRate, h]

/-- **C71**, existence: from any state with the gas under pressure and both spaces above 100 K, at any time,
there is a trajectory for some time to come. -/
theorem C71_exists (hf : r.fluid = (IdealGas.new n).toFluid) (hs : SaneRun r) (hT : Sound r.solver)
    (hc : Complete r.solver) (hd : ContinuousDrive r) (a : ℝ) (y₀ : Conditions ℝ) (hP : 0 < y₀.P)
    (hTc : 100 < y₀.T_c) (hTe : 100 < y₀.T_e) :
    ∃ b y, a < b ∧ y a = y₀ ∧ Trajectory r y a b := by
  -- a ball of warm states
  obtain ⟨ρ, hρ, hρP, hρc, hρe⟩ : ∃ ρ : ℝ, 0 < ρ ∧ ρ < y₀.P ∧ ρ ≤ y₀.T_c - 100 ∧ ρ ≤ y₀.T_e - 100 :=
    ⟨min (y₀.P / 2) (min (y₀.T_c - 100) (y₀.T_e - 100)),
      lt_min (by linarith) (lt_min (by linarith) (by linarith)),
      (min_le_left _ _).trans_lt (by linarith), (min_le_right _ _).trans (min_le_left _ _),
      (min_le_right _ _).trans (min_le_right _ _)⟩
  set x₀ := point y₀ with hx₀
  -- limits for the coming unit of time
  obtain ⟨v, hv, hv'⟩ := floor_of_pos hd.comp_vol.continuousOn (a := a) (b := a + 1) (fun t _ => hs.comp_vol t)
  obtain ⟨w, hw, hw'⟩ := floor_of_pos hd.exp_vol.continuousOn (a := a) (b := a + 1) (fun t _ => hs.exp_vol t)
  obtain ⟨D1, d1⟩ := ceil_of_cont (hd.comp_vol.continuousOn (s := Icc a (a + 1)))
  obtain ⟨D2, d2⟩ := ceil_of_cont (hd.exp_vol.continuousOn (s := Icc a (a + 1)))
  obtain ⟨D3, d3⟩ := ceil_of_cont (hd.comp_rate.continuousOn (s := Icc a (a + 1)))
  obtain ⟨D4, d4⟩ := ceil_of_cont (hd.exp_rate.continuousOn (s := Icc a (a + 1)))
  let L : Limits := ⟨y₀.P - ρ, y₀.P + ρ, max (y₀.T_c + ρ) (y₀.T_e + ρ), min v w, max D1 D2, max D3 D4,
    by linarith, lt_min hv hw⟩
  have ball : ∀ x ∈ closedBall x₀ ρ, |x.1 - y₀.P| ≤ ρ ∧ |x.2.1 - y₀.T_c| ≤ ρ ∧ |x.2.2 - y₀.T_e| ≤ ρ := by
    intro x hx
    rw [mem_closedBall, dist_eq_norm] at hx
    have h1 := norm_fst_le (x - x₀)
    have h2 := norm_snd_le (x - x₀)
    have h3 := norm_fst_le (x - x₀).2
    have h4 := norm_snd_le (x - x₀).2
    exact ⟨h1.trans hx, h3.trans (h2.trans hx), h4.trans (h2.trans hx)⟩
  have lim : ∀ t ∈ Icc a (a + 1), ∀ x ∈ closedBall x₀ ρ, WithinLimits r L t ⟨x.1, x.2.1, x.2.2⟩ := by
    intro t ht x hx
    obtain ⟨h1, h2, h3⟩ := ball x hx
    rw [abs_le] at h1 h2 h3
    exact ⟨⟨by simp only [L]; linarith, by simp only [L]; linarith⟩,
      ⟨by simp only; linarith, le_trans (by simp only; linarith) (le_max_left _ _)⟩,
      ⟨by simp only; linarith, le_trans (by simp only; linarith) (le_max_right _ _)⟩,
      ⟨(min_le_left _ _).trans (hv' t ht), (le_abs_self _).trans ((d1 t ht).trans (le_max_left _ _))⟩,
      ⟨(min_le_right _ _).trans (hw' t ht), (le_abs_self _).trans ((d2 t ht).trans (le_max_right _ _))⟩,
      (d3 t ht).trans (le_max_left _ _), (d4 t ht).trans (le_max_right _ _)⟩
  -- the solution there
  have sol : ∀ t ∈ Icc a (a + 1), ∀ x ∈ closedBall x₀ ρ, ∃ s, ∀ hint,
      solve r.solver (r.calculate_inputs t ⟨x.1, x.2.1, x.2.2⟩) hint = .ok s := fun t ht x hx =>
    C59_run_solve r n hf hT hc t _ (physical_of_within hs (lim t ht x hx))
  obtain ⟨C, hC, hlip⟩ := C70_lipschitz hf hs hT L
  obtain ⟨B, hB, hbd⟩ := C70_bounded hf hs hT L
  have gap : ∀ t ∈ Icc a (a + 1), ∀ t' ∈ Icc a (a + 1), ∀ x ∈ closedBall x₀ ρ, ∀ x' ∈ closedBall x₀ ρ,
      dist (pointRate r t x) (pointRate r t' x')
        ≤ C * (stateGap ⟨x.1, x.2.1, x.2.2⟩ ⟨x'.1, x'.2.1, x'.2.2⟩ + driveGap r t t') := by
    intro t ht t' ht' x hx x' hx'
    obtain ⟨s, hs1⟩ := sol t ht x hx
    obtain ⟨s', hs2⟩ := sol t' ht' x' hx'
    have h := hlip t t' _ _ _ _ s s' (lim t ht x hx) (lim t' ht' x' hx') (hs1 FlowDirection.default)
      (hs2 FlowDirection.default)
    rw [pointRate_eq (hs1 _), pointRate_eq (hs2 _), dist_eq_norm]
    refine le_trans ?_ h
    simp only [solutionGap, Prod.mk_sub_mk, Prod.norm_mk, Real.norm_eq_abs]
    have n0 := abs_nonneg (s.m_dot_ck - s'.m_dot_ck); have n1 := abs_nonneg (s.m_dot_kr - s'.m_dot_kr)
    have n2 := abs_nonneg (s.m_dot_rl - s'.m_dot_rl); have n3 := abs_nonneg (s.m_dot_le - s'.m_dot_le)
    have n4 := abs_nonneg (s.Q_dot_k - s'.Q_dot_k); have n5 := abs_nonneg (s.Q_dot_r - s'.Q_dot_r)
    have n6 := abs_nonneg (s.Q_dot_l - s'.Q_dot_l); have n7 := abs_nonneg (s.dTc_dt - s'.dTc_dt)
    have n8 := abs_nonneg (s.dTe_dt - s'.dTe_dt); have n9 := abs_nonneg (s.dP_dt - s'.dP_dt)
    refine max_le (by linarith) (max_le (by linarith) (by linarith))
  set τ : ℝ := min 1 (ρ / (B + 1)) with hτ
  have hτ0 : 0 < τ := lt_min one_pos (by positivity)
  have hτ1 : τ ≤ 1 := min_le_left _ _
  have sub : Icc a (a + τ) ⊆ Icc a (a + 1) := Icc_subset_Icc le_rfl (by linarith)
  have pl : IsPicardLindelof (pointRate r) (tmin := a) (tmax := a + τ) ⟨a, ⟨le_rfl, by linarith⟩⟩ x₀
      ⟨ρ, hρ.le⟩ 0 ⟨B, hB⟩ ⟨3 * C, by positivity⟩ := by
    refine ⟨fun t ht => ?_, fun x hx => ?_, fun t ht x hx => ?_, ?_⟩
    · refine LipschitzOnWith.of_dist_le_mul fun x hx x' hx' => ?_
      refine (gap t (sub ht) t (sub ht) x hx x' hx').trans ?_
      rw [driveGap_self, add_zero]
      have := mul_le_mul_of_nonneg_left (stateGap_le ⟨x.1, x.2.1, x.2.2⟩ ⟨x'.1, x'.2.1, x'.2.2⟩) hC
      refine this.trans (le_of_eq ?_)
      show C * (3 * ‖x - x'‖) = 3 * C * dist x x'
      rw [dist_eq_norm]; ring
    · intro t ht
      have hg : Continuous fun t' => C * driveGap r t' t := by
        have h1 := hd.comp_vol; have h2 := hd.exp_vol; have h3 := hd.comp_rate; have h4 := hd.exp_rate
        unfold driveGap
        fun_prop
      have h0 : Filter.Tendsto (fun t' => C * driveGap r t' t) (nhdsWithin t (Icc a (a + τ))) (nhds 0) := by
        have := (hg.tendsto t).mono_left (nhdsWithin_le_nhds (s := Icc a (a + τ)))
        simpa [driveGap_self] using this
      refine tendsto_iff_dist_tendsto_zero.2 (squeeze_zero' (Filter.Eventually.of_forall fun _ => dist_nonneg)
        ?_ h0)
      filter_upwards [self_mem_nhdsWithin] with t' ht'
      have := gap t' (sub ht') t (sub ht) x hx x hx
      simpa [stateGap] using this
    · obtain ⟨s, hs1⟩ := sol t (sub ht) x hx
      obtain ⟨-, -, -, -, -, -, -, h1, h2, h3⟩ := hbd t _ _ s (lim t (sub ht) x hx) (hs1 FlowDirection.default)
      rw [pointRate_eq (hs1 _)]
      simp only [Prod.norm_mk, Real.norm_eq_abs]
      exact max_le h3 (max_le h1 h2)
    · show B * max (a + τ - a) (a - a) ≤ ρ - 0
      rw [add_sub_cancel_left, sub_self, max_eq_left hτ0.le, sub_zero]
      calc B * τ ≤ (B + 1) * (ρ / (B + 1)) :=
            mul_le_mul (by linarith) (min_le_right _ _) hτ0.le (by positivity)
        _ = ρ := by field_simp
  obtain ⟨α, hα0, hmem, hcont, hder⟩ := picard_in_ball pl (mem_closedBall_self le_rfl)
  refine ⟨a + τ, fun t => ⟨(α t).1, (α t).2.1, (α t).2.2⟩, by linarith, ?_,
    ⟨?_, ?_, ?_⟩, ?_, ?_⟩
  · show (⟨_, _, _⟩ : Conditions ℝ) = _
    rw [show α a = x₀ from hα0]; rfl
  · exact (continuous_fst.comp hcont).continuousOn
  · exact (continuous_fst.comp (continuous_snd.comp hcont)).continuousOn
  · exact (continuous_snd.comp (continuous_snd.comp hcont)).continuousOn
  · intro t ht
    have h := lim t (sub ht) _ (hmem t)
    exact ⟨L.Pmin_pos.trans_le h.pres.1, h.comp_temp.1, h.exp_temp.1⟩
  · intro t ht
    have ht' : t ∈ Icc a (a + τ) := ⟨ht.1, ht.2.le⟩
    obtain ⟨s, hs1⟩ := sol t (sub ht') _ (hmem t)
    have h := (hder t ht').mono_of_mem_nhdsWithin (s := Ici t)
      (mem_nhdsWithin.2 ⟨Iio (a + τ), isOpen_Iio, ht.2, fun u hu => ⟨ht.1.trans hu.2, le_of_lt hu.1⟩⟩)
    rw [pointRate_eq (hs1 _)] at h
    refine ⟨s, ⟨⟨FlowDirection.default, hs1 _⟩, ?_, ?_, ?_⟩⟩
    · exact h.fst
    · exact h.snd.fst
    · exact h.snd.snd

end

/-- **C71**, the criterion of the inner loop: if the two temperatures of the working spaces are back after one
period (nothing is asked of the pressure), the gas repeats the same cycle from then on. -/
theorem C71_steady_state (U : MatrixDecomposition ℝ) (hU : Sound U) (c : Components ℝ) (state : State ℝ)
    (n : GasName) (hf : state.fluid = (IdealGas.new n).toFluid) (hs : SaneRun (Run.new U c state))
    (hdrive : ExactDrive c.ws) (hd : ContinuousDrive (Run.new U c state)) {a b p : ℝ} (hp0 : 0 ≤ p)
    (hp : ∀ t, (Run.new U c state).ws_vol_fn (t + p) = (Run.new U c state).ws_vol_fn t)
    {y : ℝ → Conditions ℝ} (hy : Trajectory (Run.new U c state) y a b) (hpb : a + p ≤ b)
    (hTc : (y (a + p)).T_c = (y a).T_c) (hTe : (y (a + p)).T_e = (y a).T_e) :
    ∀ t, a ≤ t → t + p ≤ b → y (t + p) = y t := by
  have reg : Regular y a b := ⟨hy.cont.pres, hy.cont.comp, hy.cont.exp,
    fun t ht => by linarith [(hy.warm t ht).comp], fun t ht => by linarith [(hy.warm t ht).exp]⟩
  have ha : a ∈ Icc a b := ⟨le_rfl, by linarith⟩
  have hap : a + p ∈ Icc a b := ⟨by linarith, hpb⟩
  have law := C61_pressure_law U hU c hdrive state n hf y a b reg hy.follows (a + p) hap
  have hV : volumePerTemp (Run.new U c state) y (a + p) = volumePerTemp (Run.new U c state) y a := by
    simp only [volumePerTemp, hp a, hTc, hTe]
  have hpos : 0 < volumePerTemp (Run.new U c state) y a := by
    have h1 := hs.comp_vol a; have h2 := hs.exp_vol a; have h3 := reg.comp_pos a ha
    have h4 := reg.exp_pos a ha
    have h5 := hs.chx_vol; have h6 := hs.regen_vol; have h7 := hs.hhx_vol; have h8 := hs.regen_temp
    have h9 : (0 : ℝ) < (Run.new U c state).temp.chx := by linarith [hs.chx_temp]
    have h10 : (0 : ℝ) < (Run.new U c state).temp.hhx := by linarith [hs.hhx_temp]
    unfold volumePerTemp
    positivity
  rw [hV] at law
  have hP : (y (a + p)).P = (y a).P := mul_right_cancel₀ hpos.ne' law
  have hy0 : y (a + p) = y a := by
    cases h : y (a + p); cases h' : y a
    rw [h, h'] at hTc hTe hP
    simp only at hTc hTe hP
    rw [hTc, hTe, hP]
  exact C71_repeats (r := Run.new U c state) hf hs hU hd hp0 hp hy hy0

end Sett
