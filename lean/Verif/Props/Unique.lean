import Verif.Props.Lipschitz
import Verif.Props.SearchSucceeds
import Mathlib.Analysis.ODE.ExistUnique

/-! # C70, C71: trajectories of the state equations exist, are unique and depend continuously on their start -/

namespace Sett

open Spec state_equations Set

theorem driveGap_self (r : Run ℝ) (t : ℝ) : driveGap r t t = 0 := by simp [driveGap]

/-- The state as a point. -/
def point (y : Conditions ℝ) : ℝ × ℝ × ℝ := (y.P, y.T_c, y.T_e)

theorem norm_point (y z : Conditions ℝ) : ‖point y - point z‖ ≤ stateGap y z := by
  simp only [point, Prod.mk_sub_mk, Prod.norm_mk, Real.norm_eq_abs, stateGap]
  have := abs_nonneg (y.P - z.P); have := abs_nonneg (y.T_c - z.T_c); have := abs_nonneg (y.T_e - z.T_e)
  refine max_le (by linarith) (max_le (by linarith) (by linarith))

theorem stateGap_le (y z : Conditions ℝ) : stateGap y z ≤ 3 * ‖point y - point z‖ := by
  simp only [point, Prod.mk_sub_mk, Prod.norm_mk, Real.norm_eq_abs, stateGap]
  have h1 := le_max_left |y.P - z.P| (max |y.T_c - z.T_c| |y.T_e - z.T_e|)
  have h2 := (le_max_left |y.T_c - z.T_c| |y.T_e - z.T_e|).trans
    (le_max_right |y.P - z.P| (max |y.T_c - z.T_c| |y.T_e - z.T_e|))
  have h3 := (le_max_right |y.T_c - z.T_c| |y.T_e - z.T_e|).trans
    (le_max_right |y.P - z.P| (max |y.T_c - z.T_c| |y.T_e - z.T_e|))
  linarith

theorem gronwall_le {δ K ε x : ℝ} (hK : 0 ≤ K) (hε : 0 ≤ ε) :
    gronwallBound δ K ε x ≤ (δ + ε * x) * Real.exp (K * x) := by
  rcases hK.eq_or_lt with rfl | hK
  · rw [gronwallBound_K0]; simp
  · rw [gronwallBound_of_K_ne_0 hK.ne']
    have h1 : Real.exp (K * x) - 1 ≤ K * x * Real.exp (K * x) := by
      have h := Real.add_one_le_exp (-(K * x))
      have h2 := mul_le_mul_of_nonneg_right h (Real.exp_pos (K * x)).le
      rw [← Real.exp_add, neg_add_cancel, Real.exp_zero] at h2
      linarith
    have h2 : ε / K * (Real.exp (K * x) - 1) ≤ ε / K * (K * x * Real.exp (K * x)) :=
      mul_le_mul_of_nonneg_left h1 (by positivity)
    have h3 : ε / K * (K * x * Real.exp (K * x)) = ε * x * Real.exp (K * x) := by field_simp
    show δ * Real.exp (K * x) + ε / K * (Real.exp (K * x) - 1) ≤ _
    linarith

section depends

variable {r : Run ℝ} {n : GasName}

/-- **C70**, dependence on the start and on errors: within given limits there is a rate `C` such that two
curves which follow the state equations up to errors `e` and `e'` in their rates separate by no more than
the distance they start with plus what the errors add up to, times `3 exp(C (t - a))`. -/
theorem C70_depends (hf : r.fluid = (IdealGas.new n).toFluid) (hs : SaneRun r) (hT : Sound r.solver)
    (L : Limits) : ∃ C, 0 ≤ C ∧ ∀ (a b e e' : ℝ) (y z : ℝ → Conditions ℝ), 0 ≤ e → 0 ≤ e' →
      ContinuousState y a b → ContinuousState z a b →
      (∀ t ∈ Icc a b, WithinLimits r L t (y t) ∧ WithinLimits r L t (z t)) →
      (∀ t ∈ Ico a b, ∃ s, NearlyFollows r y t s e) → (∀ t ∈ Ico a b, ∃ s, NearlyFollows r z t s e') →
      ∀ t ∈ Icc a b, stateGap (y t) (z t)
        ≤ 3 * ((stateGap (y a) (z a) + (e + e') * (t - a)) * Real.exp (C * (t - a))) := by
  obtain ⟨C, hC, hlip⟩ := C70_lipschitz hf hs hT L
  refine ⟨3 * C, by positivity, ?_⟩
  intro a b e e' y z he he' cy cz hw hy hz t ht
  have hv : ∀ t ∈ Ico a b, ∃ v, HasDerivWithinAt (fun t => point (y t) - point (z t)) v (Ici t) t ∧
      ‖v‖ ≤ 3 * C * ‖point (y t) - point (z t)‖ + (e + e') := by
    intro t ht
    obtain ⟨s, ⟨hint, hsol⟩, p, c, x, dp, dc, dx, hse⟩ := hy t ht
    obtain ⟨s', ⟨hint', hsol'⟩, p', c', x', dp', dc', dx', hse'⟩ := hz t ht
    have hw' := hw t ⟨ht.1, ht.2.le⟩
    have h := hlip t t (y t) (z t) hint hint' s s' hw'.1 hw'.2 hsol hsol'
    rw [driveGap_self, add_zero] at h
    have h3 : C * stateGap (y t) (z t) ≤ 3 * C * ‖point (y t) - point (z t)‖ := by
      have := mul_le_mul_of_nonneg_left (stateGap_le (y t) (z t)) hC
      linarith
    refine ⟨(p, c, x) - (p', c', x'), (dp.prodMk (dc.prodMk dx)).sub (dp'.prodMk (dc'.prodMk dx')), ?_⟩
    simp only [solutionGap] at h
    have n0 := abs_nonneg (s.m_dot_ck - s'.m_dot_ck); have n1 := abs_nonneg (s.m_dot_kr - s'.m_dot_kr)
    have n2 := abs_nonneg (s.m_dot_rl - s'.m_dot_rl); have n3 := abs_nonneg (s.m_dot_le - s'.m_dot_le)
    have n4 := abs_nonneg (s.Q_dot_k - s'.Q_dot_k); have n5 := abs_nonneg (s.Q_dot_r - s'.Q_dot_r)
    have n6 := abs_nonneg (s.Q_dot_l - s'.Q_dot_l); have n7 := abs_nonneg (s.dTc_dt - s'.dTc_dt)
    have n8 := abs_nonneg (s.dTe_dt - s'.dTe_dt); have n9 := abs_nonneg (s.dP_dt - s'.dP_dt)
    have m0 := abs_nonneg (p - s.dP_dt); have m1 := abs_nonneg (c - s.dTc_dt)
    have m2 := abs_nonneg (x - s.dTe_dt); have m3 := abs_nonneg (p' - s'.dP_dt)
    have m4 := abs_nonneg (c' - s'.dTc_dt); have m5 := abs_nonneg (x' - s'.dTe_dt)
    have tri : ∀ u u' w w' : ℝ, |u - u'| ≤ |u - w| + |w - w'| + |u' - w'| := by
      intro u u' w w'
      have : u - u' = (u - w) + (w - w') - (u' - w') := by ring
      rw [this]
      exact (abs_sub _ _).trans (add_le_add (abs_add_le _ _) le_rfl)
    have t0 := tri p p' s.dP_dt s'.dP_dt
    have t1 := tri c c' s.dTc_dt s'.dTc_dt
    have t2 := tri x x' s.dTe_dt s'.dTe_dt
    simp only [Prod.mk_sub_mk, Prod.norm_mk, Real.norm_eq_abs] at h3 ⊢
    refine max_le (by linarith) (max_le (by linarith) (by linarith))
  choose! v hv hv' using hv
  have hcont : ContinuousOn (fun t => point (y t) - point (z t)) (Icc a b) :=
    (cy.pres.prodMk (cy.comp.prodMk cy.exp)).sub (cz.pres.prodMk (cz.comp.prodMk cz.exp))
  have h := norm_le_gronwallBound_of_norm_deriv_right_le hcont hv (norm_point (y a) (z a)) hv' t ht
  refine (stateGap_le (y t) (z t)).trans (mul_le_mul_of_nonneg_left (h.trans ?_) (by norm_num))
  exact gronwall_le (by positivity) (by positivity)

theorem nearlyFollows_of_follows {y : ℝ → Conditions ℝ} {t : ℝ} {s : Solution ℝ} (h : Follows r y t s) :
    NearlyFollows r y t s 0 :=
  ⟨h.solved, s.dP_dt, s.dTc_dt, s.dTe_dt, h.pres, h.comp, h.exp, by simp⟩

/-- A continuous positive function on `[a, b]` is bounded away from zero there. -/
theorem floor_of_pos {f : ℝ → ℝ} {a b : ℝ} (hf : ContinuousOn f (Icc a b)) (h : ∀ t ∈ Icc a b, 0 < f t) :
    ∃ c, 0 < c ∧ ∀ t ∈ Icc a b, c ≤ f t := by
  rcases (Icc a b).eq_empty_or_nonempty with he | hne
  · exact ⟨1, one_pos, by simp [he]⟩
  · obtain ⟨x, hx, hmin⟩ := isCompact_Icc.exists_isMinOn hne hf
    exact ⟨f x, h x hx, fun t ht => hmin ht⟩

theorem ceil_of_cont {f : ℝ → ℝ} {a b : ℝ} (hf : ContinuousOn f (Icc a b)) :
    ∃ B, ∀ t ∈ Icc a b, |f t| ≤ B :=
  isCompact_Icc.exists_bound_of_continuousOn hf

/-- Two warm continuous curves lie within some limits. -/
theorem limits_exist (hs : SaneRun r) (hd : ContinuousDrive r) {a b : ℝ} {y z : ℝ → Conditions ℝ}
    (cy : ContinuousState y a b) (cz : ContinuousState z a b) (wy : ∀ t ∈ Icc a b, Warm (y t))
    (wz : ∀ t ∈ Icc a b, Warm (z t)) :
    ∃ L, ∀ t ∈ Icc a b, WithinLimits r L t (y t) ∧ WithinLimits r L t (z t) := by
  obtain ⟨p, hp, hp'⟩ := floor_of_pos cy.pres (fun t ht => (wy t ht).pres)
  obtain ⟨q, hq, hq'⟩ := floor_of_pos cz.pres (fun t ht => (wz t ht).pres)
  obtain ⟨v, hv, hv'⟩ := floor_of_pos hd.comp_vol.continuousOn (a := a) (b := b) (fun t _ => hs.comp_vol t)
  obtain ⟨w, hw, hw'⟩ := floor_of_pos hd.exp_vol.continuousOn (a := a) (b := b) (fun t _ => hs.exp_vol t)
  obtain ⟨B1, b1⟩ := ceil_of_cont cy.pres
  obtain ⟨B2, b2⟩ := ceil_of_cont cz.pres
  obtain ⟨B3, b3⟩ := ceil_of_cont cy.comp
  obtain ⟨B4, b4⟩ := ceil_of_cont cz.comp
  obtain ⟨B5, b5⟩ := ceil_of_cont cy.exp
  obtain ⟨B6, b6⟩ := ceil_of_cont cz.exp
  obtain ⟨D1, d1⟩ := ceil_of_cont (hd.comp_vol.continuousOn (s := Icc a b))
  obtain ⟨D2, d2⟩ := ceil_of_cont (hd.exp_vol.continuousOn (s := Icc a b))
  obtain ⟨D3, d3⟩ := ceil_of_cont (hd.comp_rate.continuousOn (s := Icc a b))
  obtain ⟨D4, d4⟩ := ceil_of_cont (hd.exp_rate.continuousOn (s := Icc a b))
  refine ⟨⟨min p q, max B1 B2, max (max B3 B4) (max B5 B6), min v w, max D1 D2, max D3 D4,
    lt_min hp hq, lt_min hv hw⟩, fun t ht => ⟨?_, ?_⟩⟩
  · have := wy t ht
    exact ⟨⟨(min_le_left _ _).trans (hp' t ht), (le_abs_self _).trans ((b1 t ht).trans (le_max_left _ _))⟩,
      ⟨this.comp, (le_abs_self _).trans ((b3 t ht).trans ((le_max_left _ _).trans (le_max_left _ _)))⟩,
      ⟨this.exp, (le_abs_self _).trans ((b5 t ht).trans ((le_max_left _ _).trans (le_max_right _ _)))⟩,
      ⟨(min_le_left _ _).trans (hv' t ht), (le_abs_self _).trans ((d1 t ht).trans (le_max_left _ _))⟩,
      ⟨(min_le_right _ _).trans (hw' t ht), (le_abs_self _).trans ((d2 t ht).trans (le_max_right _ _))⟩,
      (d3 t ht).trans (le_max_left _ _), (d4 t ht).trans (le_max_right _ _)⟩
  · have := wz t ht
    exact ⟨⟨(min_le_right _ _).trans (hq' t ht), (le_abs_self _).trans ((b2 t ht).trans (le_max_right _ _))⟩,
      ⟨this.comp, (le_abs_self _).trans ((b4 t ht).trans ((le_max_right _ _).trans (le_max_left _ _)))⟩,
      ⟨this.exp, (le_abs_self _).trans ((b6 t ht).trans ((le_max_right _ _).trans (le_max_right _ _)))⟩,
      ⟨(min_le_left _ _).trans (hv' t ht), (le_abs_self _).trans ((d1 t ht).trans (le_max_left _ _))⟩,
      ⟨(min_le_right _ _).trans (hw' t ht), (le_abs_self _).trans ((d2 t ht).trans (le_max_right _ _))⟩,
      (d3 t ht).trans (le_max_left _ _), (d4 t ht).trans (le_max_right _ _)⟩

theorem eq_of_stateGap {y z : Conditions ℝ} (h : stateGap y z ≤ 0) : y = z := by
  unfold stateGap at h
  have h1 := abs_nonneg (y.P - z.P); have h2 := abs_nonneg (y.T_c - z.T_c); have h3 := abs_nonneg (y.T_e - z.T_e)
  obtain ⟨P, c, e⟩ := y
  obtain ⟨P', c', e'⟩ := z
  simp only at *
  rw [Conditions.mk.injEq]
  exact ⟨sub_eq_zero.1 (abs_eq_zero.1 (by linarith)), sub_eq_zero.1 (abs_eq_zero.1 (by linarith)),
    sub_eq_zero.1 (abs_eq_zero.1 (by linarith))⟩

/-- **C71.** The state equations determine the motion: two trajectories which agree at one time agree at
all later times. -/
theorem C71_unique (hf : r.fluid = (IdealGas.new n).toFluid) (hs : SaneRun r) (hT : Sound r.solver)
    (hd : ContinuousDrive r) {a b : ℝ} {y z : ℝ → Conditions ℝ} (hy : Trajectory r y a b)
    (hz : Trajectory r z a b) (h : y a = z a) : ∀ t ∈ Icc a b, y t = z t := by
  obtain ⟨L, hL⟩ := limits_exist hs hd hy.cont hz.cont hy.warm hz.warm
  obtain ⟨C, -, hC⟩ := C70_depends hf hs hT L
  intro t ht
  have := hC a b 0 0 y z le_rfl le_rfl hy.cont hz.cont hL
    (fun t ht => (hy.follows t ht).imp fun s h => nearlyFollows_of_follows h)
    (fun t ht => (hz.follows t ht).imp fun s h => nearlyFollows_of_follows h) t ht
  rw [h] at this
  have h0 : stateGap (z a) (z a) = 0 := by simp [stateGap]
  rw [h0] at this
  exact eq_of_stateGap (by simpa using this)

end depends

section shift

variable {r : Run ℝ} {n : GasName}

/-- Whatever the drive does again after a time `p`, a trajectory can do again. -/
theorem trajectory_shift {y : ℝ → Conditions ℝ} {a b p : ℝ} (hp : ∀ t, r.ws_vol_fn (t + p) = r.ws_vol_fn t)
    (hy : Trajectory r y (a + p) b) : Trajectory r (fun t => y (t + p)) a (b - p) := by
  have hm : MapsTo (fun t => t + p) (Icc a (b - p)) (Icc (a + p) b) :=
    fun t ht => ⟨by linarith [ht.1], by linarith [ht.2]⟩
  have hc : ContinuousOn (fun t : ℝ => t + p) (Icc a (b - p)) := by fun_prop
  refine ⟨⟨hy.cont.pres.comp hc hm, hy.cont.comp.comp hc hm, hy.cont.exp.comp hc hm⟩,
    fun t ht => hy.warm _ (hm ht), fun t ht => ?_⟩
  obtain ⟨s, ⟨hint, hs⟩, h1, h2, h3⟩ := hy.follows (t + p) ⟨by linarith [ht.1], by linarith [ht.2]⟩
  have hi : r.calculate_inputs (t + p) (y (t + p)) = r.calculate_inputs t (y (t + p)) := by
    unfold Run.calculate_inputs; rw [hp t]
  rw [hi] at hs
  have hd : HasDerivWithinAt (fun t : ℝ => t + p) 1 (Ici t) t :=
    ((hasDerivAt_id t).add_const p).hasDerivWithinAt
  have hm' : MapsTo (fun t => t + p) (Ici t) (Ici (t + p)) := fun u hu => by
    simp only [mem_Ici] at *; linarith
  refine ⟨s, ⟨⟨hint, hs⟩, ?_, ?_, ?_⟩⟩
  · simpa using! h1.scomp t hd hm'
  · simpa using! h2.scomp t hd hm'
  · simpa using! h3.scomp t hd hm'

/-- **C71**, steady state: if the state of the gas is the same at two times a whole number of turns apart,
the trajectory repeats itself from then on. -/
theorem C71_repeats (hf : r.fluid = (IdealGas.new n).toFluid) (hs : SaneRun r) (hT : Sound r.solver)
    (hd : ContinuousDrive r) {a b p : ℝ} {y : ℝ → Conditions ℝ} (hp0 : 0 ≤ p)
    (hp : ∀ t, r.ws_vol_fn (t + p) = r.ws_vol_fn t) (hy : Trajectory r y a b) (h : y (a + p) = y a) :
    ∀ t, a ≤ t → t + p ≤ b → y (t + p) = y t := by
  intro t ha hb
  have sub : ∀ {c d : ℝ}, a ≤ c → d ≤ b → Trajectory r y c d := fun hc hd' =>
    ⟨⟨hy.cont.pres.mono (Icc_subset_Icc hc hd'), hy.cont.comp.mono (Icc_subset_Icc hc hd'),
      hy.cont.exp.mono (Icc_subset_Icc hc hd')⟩, fun u hu => hy.warm u ⟨hc.trans hu.1, hu.2.trans hd'⟩,
      fun u hu => hy.follows u ⟨hc.trans hu.1, hu.2.trans_le hd'⟩⟩
  exact C71_unique hf hs hT hd (trajectory_shift hp (sub (by linarith) le_rfl) : Trajectory r _ a (b - p))
    (sub le_rfl (by linarith)) h t ⟨ha, by linarith⟩

/-- **C71**, near steady state: if after a whole number of turns the state has returned to within `δ`, it
stays within `3 δ exp(C T)` of what it was those turns before, for times `T` to come. -/
theorem C71_nearly_repeats (hf : r.fluid = (IdealGas.new n).toFluid) (hs : SaneRun r) (hT : Sound r.solver)
    (L : Limits) : ∃ C, 0 ≤ C ∧ ∀ (a b p δ : ℝ) (y : ℝ → Conditions ℝ), 0 ≤ p →
      (∀ t, r.ws_vol_fn (t + p) = r.ws_vol_fn t) → Trajectory r y a b →
      (∀ t ∈ Icc a b, WithinLimits r L t (y t)) → stateGap (y (a + p)) (y a) ≤ δ →
      ∀ t, a ≤ t → t + p ≤ b → stateGap (y (t + p)) (y t) ≤ 3 * (δ * Real.exp (C * (t - a))) := by
  obtain ⟨C, hC0, hC⟩ := C70_depends hf hs hT L
  refine ⟨C, hC0, ?_⟩
  intro a b p δ y hp0 hp hy hw h t ha hb
  have sub : ∀ {c d : ℝ}, a ≤ c → d ≤ b → Trajectory r y c d := fun hc hd' =>
    ⟨⟨hy.cont.pres.mono (Icc_subset_Icc hc hd'), hy.cont.comp.mono (Icc_subset_Icc hc hd'),
      hy.cont.exp.mono (Icc_subset_Icc hc hd')⟩, fun u hu => hy.warm u ⟨hc.trans hu.1, hu.2.trans hd'⟩,
      fun u hu => hy.follows u ⟨hc.trans hu.1, hu.2.trans_le hd'⟩⟩
  have h1 : Trajectory r (fun t => y (t + p)) a (b - p) := trajectory_shift hp (sub (by linarith) le_rfl)
  have h2 : Trajectory r y a (b - p) := sub le_rfl (by linarith)
  have hw' : ∀ t ∈ Icc a (b - p), WithinLimits r L t (y (t + p)) ∧ WithinLimits r L t (y t) := by
    intro u hu
    have k := hw (u + p) ⟨by linarith [hu.1], by linarith [hu.2]⟩
    refine ⟨⟨k.pres, k.comp_temp, k.exp_temp, ?_, ?_, ?_, ?_⟩, hw u ⟨hu.1, by linarith [hu.2]⟩⟩
    · have := k.comp_vol; rwa [hp u] at this
    · have := k.exp_vol; rwa [hp u] at this
    · have := k.comp_rate; rwa [hp u] at this
    · have := k.exp_rate; rwa [hp u] at this
  have := hC a (b - p) 0 0 (fun t => y (t + p)) y le_rfl le_rfl h1.cont h2.cont hw'
    (fun t ht => (h1.follows t ht).imp fun s h => nearlyFollows_of_follows h)
    (fun t ht => (h2.follows t ht).imp fun s h => nearlyFollows_of_follows h) t ⟨ha, by linarith⟩
  refine this.trans (mul_le_mul_of_nonneg_left ?_ (by norm_num))
  refine mul_le_mul_of_nonneg_right ?_ (Real.exp_pos _).le
  simpa using h

end shift

end Sett
