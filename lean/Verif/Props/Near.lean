import Verif.Props.Steps
import Verif.Props.Exists
import Verif.Proofs.StepError

/-! # C82: the computed cycle approximates the motion of the gas -/

namespace Sett

open Spec state_equations Set

section
variable {r : Run ℝ} {n : GasName}

/-- The rates of a run, at states within the limits. -/
def runRates (r : Run ℝ) (L : Limits) (t : ℝ) (y k : V3 ℝ) : Prop :=
  WithinLimits r L t (conditionsOf y) ∧ ∃ hint s,
    solve r.solver (r.calculate_inputs t (conditionsOf y)) hint = .ok s ∧ k = ⟨s.dP_dt, s.dTc_dt, s.dTe_dt⟩

theorem norm_vec_le {v : V3 ℝ} {M : ℝ} (h0 : |v.y0| ≤ M) (h1 : |v.y1| ≤ M) (h2 : |v.y2| ≤ M) : ‖vec v‖ ≤ M := by
  simp only [vec, Prod.norm_mk, Real.norm_eq_abs]
  exact max_le h0 (max_le h1 h2)

theorem runRates_tame (hf : r.fluid = (IdealGas.new n).toFluid) (hs : SaneRun r) (hT : Sound r.solver)
    (L : Limits) {K : ℝ} (hK : 0 ≤ K) (hd : SteadyDrive r K) :
    ∃ M C, 0 ≤ M ∧ 0 < C ∧ Tame (runRates r L) M C := by
  obtain ⟨M, hM, hb⟩ := C70_bounded hf hs hT L
  obtain ⟨C, hC, hl⟩ := C70_lipschitz hf hs hT L
  refine ⟨M, C * (3 + K) + 1, hM, by positivity, ?_, ?_⟩
  · rintro t y k ⟨w, hint, s, e, rfl⟩
    obtain ⟨-, -, -, -, -, -, -, b1, b2, b3⟩ := hb t _ hint s w e
    exact norm_vec_le b3 b1 b2
  · rintro t y k t' y' k' ⟨w, hint, s, e, rfl⟩ ⟨w', hint', s', e', rfl⟩
    have h := hl t t' _ _ hint hint' s s' w w' e e'
    have hg : stateGap (conditionsOf y) (conditionsOf y') ≤ 3 * ‖vec y - vec y'‖ := stateGap_le _ _
    have h1 : C * (stateGap (conditionsOf y) (conditionsOf y') + driveGap r t t')
        ≤ C * (3 * ‖vec y - vec y'‖ + K * |t - t'|) :=
      mul_le_mul_of_nonneg_left (add_le_add hg (hd t t')) hC
    have h2 : C * (3 * ‖vec y - vec y'‖ + K * |t - t'|)
        ≤ C * ((3 + K) * (‖vec y - vec y'‖ + |t - t'|)) := by
      refine mul_le_mul_of_nonneg_left ?_ hC
      have := norm_nonneg (vec y - vec y'); have := abs_nonneg (t - t')
      nlinarith
    have h3 : ‖vec ⟨s.dP_dt, s.dTc_dt, s.dTe_dt⟩ - vec ⟨s'.dP_dt, s'.dTc_dt, s'.dTe_dt⟩‖ ≤ solutionGap s s' := by
      have n0 := abs_nonneg (s.m_dot_ck - s'.m_dot_ck); have n1 := abs_nonneg (s.m_dot_kr - s'.m_dot_kr)
      have n2 := abs_nonneg (s.m_dot_rl - s'.m_dot_rl); have n3 := abs_nonneg (s.m_dot_le - s'.m_dot_le)
      have n4 := abs_nonneg (s.Q_dot_k - s'.Q_dot_k); have n5 := abs_nonneg (s.Q_dot_r - s'.Q_dot_r)
      have n6 := abs_nonneg (s.Q_dot_l - s'.Q_dot_l); have n7 := abs_nonneg (s.dTc_dt - s'.dTc_dt)
      have n8 := abs_nonneg (s.dTe_dt - s'.dTe_dt); have n9 := abs_nonneg (s.dP_dt - s'.dP_dt)
      simp only [vec, Prod.mk_sub_mk, Prod.norm_mk, Real.norm_eq_abs, solutionGap]
      refine max_le (by linarith) (max_le (by linarith) (by linarith))
    have := norm_nonneg (vec y - vec y'); have := abs_nonneg (t - t')
    have h4 : (C * (3 + K) + 1) * (‖vec y - vec y'‖ + |t - t'|)
        = C * ((3 + K) * (‖vec y - vec y'‖ + |t - t'|)) + (‖vec y - vec y'‖ + |t - t'|) := by ring
    linarith

theorem trajectory_exact {L : Limits} {Y : ℝ → Conditions ℝ} {b : ℝ} (hY : Trajectory r Y 0 b)
    (hw : ∀ t ∈ Icc 0 b, WithinLimits r L t (Y t)) : Exact (runRates r L) (fun t => stateVector (Y t)) b := by
  refine ⟨hY.cont.pres.prodMk (hY.cont.comp.prodMk hY.cont.exp), fun t ht => ?_⟩
  obtain ⟨s, ⟨hint, e⟩, h1, h2, h3⟩ := hY.follows t ht
  exact ⟨_, ⟨hw t ⟨ht.1, ht.2.le⟩, hint, s, e, rfl⟩, h1.prodMk (h2.prodMk h3)⟩

/-- **C82**, any chain of steps: within given limits there is a constant `C` such that, over a time `b`, every
state given by a chain of Dormand-Prince steps no longer than `H` lies within `C (1 + b) exp(C b)` times the sum
of the distance at the start and `H` of the gas's own motion. -/
theorem C82_chain (hf : r.fluid = (IdealGas.new n).toFluid) (hs : SaneRun r) (hT : Sound r.solver)
    (L : Limits) {K : ℝ} (hK : 0 ≤ K) (hd : SteadyDrive r K) : ∃ C, 0 ≤ C ∧
      ∀ (rtol atol b H : ℝ) (y : V3 ℝ) (l : List Step) (Y : ℝ → Conditions ℝ),
      Integrates (runRates r L) rtol atol y b l → (∀ s ∈ l, s.h ≤ H) → 0 ≤ H →
      Trajectory r Y 0 b → (∀ t ∈ Icc 0 b, WithinLimits r L t (Y t)) →
      ∀ x v, OnSteps l x v → stateGap (conditionsOf v) (Y x)
        ≤ C * ((stateGap (conditionsOf y) (Y 0) + H) * ((1 + b) * Real.exp (C * b))) := by
  obtain ⟨M, C, hM, hC, hA⟩ := runRates_tame hf hs hT L hK hd
  refine ⟨3 * (C + 1) * (325 * M + 13), by positivity, ?_⟩
  rintro rtol atol b H y l Y ⟨⟨y', hl⟩, hfw, hsl, -⟩ hH hH0 hY hw x v ⟨s, hs1, hx1, hx2, rfl⟩
  have hb0 := leads_le hl hfw
  have hxb := leads_mem hl hfw hs1
  have hst : ‖vec y - vec (stateVector (Y 0))‖ ≤ stateGap (conditionsOf y) (Y 0) :=
    norm_point (conditionsOf y) (Y 0)
  have key := chain_gap hC hA (trajectory_exact hY hw) (H := H) (δ := stateGap (conditionsOf y) (Y 0)) hfw hsl hH
    le_rfl hl (by rw [gronwallBound_x0]; exact hst) s hs1 x ⟨hx1, hx2⟩
  have g := gronwall_le (δ := stateGap (conditionsOf y) (Y 0)) (x := x) hC.le
    (show 0 ≤ C * ((325 * M + 13) * H) by positivity)
  have h3 : stateGap (conditionsOf (s.dense ((x - s.t) / s.h))) (Y x) ≤ 3 * ‖vec (s.dense ((x - s.t) / s.h))
      - vec (stateVector (Y x))‖ := stateGap_le _ _
  have hx0 : 0 ≤ x := hxb.2.trans hx1
  have hxb' : x ≤ b := hx2.trans hxb.1
  set δ := stateGap (conditionsOf y) (Y 0) with hδ
  have hδ0 : 0 ≤ δ := (norm_nonneg _).trans hst
  have e1 : Real.exp (C * x) ≤ Real.exp (3 * (C + 1) * (325 * M + 13) * b) := by
    apply Real.exp_le_exp.2
    have h1 : C * x ≤ C * b := mul_le_mul_of_nonneg_left hxb' hC.le
    have h2 : C ≤ 3 * (C + 1) * (325 * M + 13) := by nlinarith [mul_nonneg hC.le hM]
    exact h1.trans (mul_le_mul_of_nonneg_right h2 hb0)
  have e2 : δ + C * ((325 * M + 13) * H) * x ≤ (C + 1) * (325 * M + 13) * ((δ + H) * (1 + b)) := by
    have hB : 1 ≤ (C + 1) * (325 * M + 13) := by nlinarith [mul_nonneg hC.le hM]
    have h1 : δ ≤ (C + 1) * (325 * M + 13) * δ := le_mul_of_one_le_left hδ0 hB
    have h2 : C * ((325 * M + 13) * H) * x ≤ (C + 1) * (325 * M + 13) * (H * b) := by
      have : C * ((325 * M + 13) * H) * x ≤ (C + 1) * ((325 * M + 13) * H) * b := by
        refine mul_le_mul (mul_le_mul_of_nonneg_right (by linarith) (by positivity)) hxb' hx0 (by positivity)
      linarith
    have h3 : 0 ≤ (C + 1) * (325 * M + 13) * (δ * b + H) := by positivity
    nlinarith
  calc stateGap (conditionsOf (s.dense ((x - s.t) / s.h))) (Y x)
      ≤ 3 * ((δ + C * ((325 * M + 13) * H) * x) * Real.exp (C * x)) := by linarith [key.trans g]
    _ ≤ 3 * (((C + 1) * (325 * M + 13) * ((δ + H) * (1 + b))) * Real.exp (3 * (C + 1) * (325 * M + 13) * b)) := by
        refine mul_le_mul_of_nonneg_left (mul_le_mul e2 e1 (Real.exp_pos _).le (by positivity)) (by norm_num)
    _ = _ := by ring

/-- Steps whose slopes were answered in a conversation within the limits are steps of the run. -/
theorem integrates_rates {L : Limits} {log : List (Evaluation ℝ)} {first : FlowDirection} (hg : GoodLog r.toCycle first log)
    (hw : ∀ e ∈ log, WithinLimits r L e.time e.conditions) {rtol atol b : ℝ} {y : V3 ℝ} {l : List Step}
    (hl : Integrates (AnsweredIn log) rtol atol y b l) : Integrates (runRates r L) rtol atol y b l := by
  have hA : ∀ t y k, AnsweredIn log t y k → runRates r L t y k := by
    rintro t y k ⟨e, he, rfl, rfl, rfl⟩
    obtain ⟨j, hj, rfl⟩ := List.mem_iff_getElem.1 he
    obtain ⟨g, -⟩ := hg j _ (List.getElem?_eq_getElem hj)
    exact ⟨hw _ he, _, _, g.solved, g.deriv⟩
  exact ⟨hl.joined, hl.forward, fun s hs => by
    obtain ⟨g1, g2, g3, g4, g5, g6, g7⟩ := hl.slopes s hs
    exact ⟨hA _ _ _ g1, hA _ _ _ g2, hA _ _ _ g3, hA _ _ _ g4, hA _ _ _ g5, hA _ _ _ g6, hA _ _ _ g7⟩,
    hl.passes⟩

/-- **C82.** A successful integration of one cycle is a chain of Dormand-Prince steps which pass the error test at
the requested tolerances and whose slopes were answered in the conversation with the state equations.  If
everything that was asked about, and the gas's own motion `Y`, lie within given limits, every point reported lies
within `C` times the sum of the distance at the start and the longest step of where the gas itself would be at
that time; `C` depends only on the run, the limits and the drive, not on tolerances, points or start. -/
theorem C82_near (hf : r.fluid = (IdealGas.new n).toFluid) (hs : SaneRun r) (hT : Sound r.solver)
    (L : Limits) {K : ℝ} (hK : 0 ≤ K) (hd : SteadyDrive r K) (hp : 0 < r.period) : ∃ C, 0 ≤ C ∧
      ∀ (outs : Nat) (env : Env ℝ) (ic : Conditions ℝ) (num : UInt32) (tol : OdeTolerance ℝ)
        (pts : List (Point ℝ)), env.ode = dopri5.solve outs → 2 ≤ num.toNat →
      integrationTryFrom env r.toCycle ic num tol = .ok pts → ∃ log l,
        Conversation env r.toCycle ic num tol log ∧
        Integrates (AnsweredIn log) tol.rel tol.abs (stateVector ic) (r.period + 1e-14) l ∧
        (∀ p ∈ pts, OnSteps l p.time (stateVector p.conditions)) ∧
        ∀ (H : ℝ) (Y : ℝ → Conditions ℝ), (∀ s ∈ l, s.h ≤ H) →
          (∀ e ∈ log, WithinLimits r L e.time e.conditions) →
          Trajectory r Y 0 (r.period + 1e-14) →
          (∀ t ∈ Icc 0 (r.period + 1e-14), WithinLimits r L t (Y t)) →
          ∀ p ∈ pts, stateGap p.conditions (Y p.time) ≤ C * (stateGap ic (Y 0) + H) := by
  obtain ⟨C, hC, hchain⟩ := C82_chain hf hs hT L hK hd
  have hb : 0 < r.period + 1e-14 := add_pos hp (by norm_num)
  refine ⟨C * ((1 + (r.period + 1e-14)) * Real.exp (C * (r.period + 1e-14))), by positivity, ?_⟩
  intro outs env ic num tol pts ho hn hok
  obtain ⟨dx, log, xs, ys, h1, h2, h3, h4, h5⟩ := (C32_integration_ok_iff _ _ _ _ _ _).1 hok
  rw [ho] at h2
  have hn1 : (1 : ℝ) < num.toNat := by exact_mod_cast hn
  have hdx : 0 < dx := by
    rw [timeStep_eq hn h1]
    exact div_pos hp (by linarith)
  obtain ⟨l, hl, hlen, hon⟩ := C82_steps outs (r.period + 1e-14) dx tol.rel tol.abs (stateVector ic) hb hdx
    (AnsweredIn log) (log.map question) (by
      intro q hq
      obtain ⟨e, he, rfl⟩ := List.mem_map.1 hq
      exact ⟨e, he, rfl, rfl, rfl⟩) xs ys h2
  have hpts : ∀ p ∈ pts, OnSteps l p.time (stateVector p.conditions) := by
    intro p hp
    obtain ⟨j, hj, rfl⟩ := List.mem_iff_getElem.1 hp
    obtain ⟨a, b⟩ := h5 j _ (List.getElem?_eq_getElem hj)
    refine hon (pts[j].time, stateVector pts[j].conditions) ?_
    rw [List.mem_iff_getElem?]
    exact ⟨j, List.getElem?_zip_eq_some.2 ⟨a, b⟩⟩
  refine ⟨log, l, ⟨⟨dx, _, h1, ho ▸ h2⟩, h3⟩, hl, hpts, ?_⟩
  intro H Y hH hw hY hwY p hp
  have hl' := integrates_rates h3 hw hl
  have hH0 : 0 ≤ H := by
    obtain ⟨s, hs, -⟩ := hpts p hp
    exact (hl.forward s hs).le.trans (hH s hs)
  have := hchain tol.rel tol.abs _ H _ l Y hl' hH hH0 hY hwY _ _ (hpts p hp)
  calc stateGap p.conditions (Y p.time) ≤ _ := this
    _ = C * ((1 + (r.period + 1e-14)) * Real.exp (C * (r.period + 1e-14))) * (stateGap ic (Y 0) + H) := by
      show C * ((stateGap ic (Y 0) + H) * _) = _
      ring

/-- **C82**, the steady cycle.  The values returned by a successful search for the steady cycle all lie within
`C` times the longest step of the gas's own motion `Y` from the same start, and that motion itself nearly returns:
after one period both space temperatures are back to within the convergence tolerance plus the same error. -/
theorem C82_returns (hf : r.fluid = (IdealGas.new n).toFluid) (hs : SaneRun r) (hT : Sound r.solver)
    (L : Limits) {K : ℝ} (hK : 0 ≤ K) (hd : SteadyDrive r K) (hp : 0 < r.period) : ∃ C, 0 ≤ C ∧
      ∀ (outs : Nat) (env : Env ℝ) (i : SteadyStateInputs ℝ) (vs : List (state_equations.Values ℝ)),
      env.ode = dopri5.solve outs → 2 ≤ i.num_points.toNat →
      ((i.num_points.toNat : ℝ) - 1) * 1e-14 < r.period →
      findSteadyState env r.toCycle i = .ok vs → ∃ ic log l,
        vs.head?.map (·.conditions) = some ic ∧
        Conversation env r.toCycle ic i.num_points i.ode_tol log ∧
        Integrates (AnsweredIn log) i.ode_tol.rel i.ode_tol.abs (stateVector ic) (r.period + 1e-14) l ∧
        (∀ v ∈ vs, OnSteps l v.time (stateVector v.conditions)) ∧
        ∀ (H : ℝ) (Y : ℝ → Conditions ℝ), (∀ s ∈ l, s.h ≤ H) →
          (∀ e ∈ log, WithinLimits r L e.time e.conditions) →
          Y 0 = ic → Trajectory r Y 0 (r.period + 1e-14) →
          (∀ t ∈ Icc 0 (r.period + 1e-14), WithinLimits r L t (Y t)) →
          (∀ v ∈ vs, stateGap v.conditions (Y v.time) ≤ C * H) ∧
          |(Y r.period).T_c - (Y 0).T_c| ≤ i.conv_tol.abs + C * H ∧
          |(Y r.period).T_e - (Y 0).T_e| ≤ i.conv_tol.abs + C * H := by
  obtain ⟨C, hC, hnear⟩ := C82_near hf hs hT L hK hd hp
  refine ⟨C, hC, ?_⟩
  intro outs env i vs ho hn hres hok
  obtain ⟨-, ic, -, -, ⟨⟨first, last, ⟨pts, h1, h2, h3⟩, h4⟩, pts', h5, h6⟩⟩ :=
    (C33_ok_iff env r.toCycle i vs).1 hok
  have h2n : 2 ≤ (2 : UInt32).toNat := by decide
  have hres2 : (((2 : UInt32).toNat : ℝ) - 1) * 1e-14 < r.toCycle.period := by
    refine lt_of_le_of_lt ?_ (show ((i.num_points.toNat : ℝ) - 1) * 1e-14 < r.toCycle.period from hres)
    refine mul_le_mul_of_nonneg_right (sub_le_sub_right ?_ 1) (by norm_num)
    exact_mod_cast hn
  obtain ⟨-, g2, -⟩ := C72_integration outs env ho r.toCycle ic 2 i.ode_tol h2n hres2 pts h1
  obtain ⟨-, k2, k3⟩ := C72_integration outs env ho r.toCycle ic i.num_points i.ode_tol hn hres pts' h5
  obtain ⟨same, -⟩ := C73_same_cycle outs env ho r.toCycle ic 2 i.num_points i.ode_tol h2n hn hres2 hres pts pts' h1 h5
  obtain ⟨hv, -⟩ := C32_values_self_consistent r.toCycle pts' vs h6
  obtain ⟨log, l, a1, a2, a3, a4⟩ := hnear outs env ic i.num_points i.ode_tol pts' ho hn h5
  have hfirst : first = ic := by
    have : some first = some ic := h2.symm.trans g2
    injection this
  subst hfirst
  refine ⟨first, log, l, ?_, a1, a2, ?_, ?_⟩
  · rw [← hv] at k2
    simpa [List.head?_map, Function.comp_def] using k2
  · intro v hv'
    exact a3 ⟨v.time, v.conditions⟩ (hv ▸ List.mem_map.2 ⟨v, hv', rfl⟩)
  intro H Y hH hw hY0 hY hwY
  have key := a4 H Y hH hw hY hwY
  have h0 : stateGap first (Y 0) = 0 := by rw [hY0]; simp [stateGap]
  rw [h0, zero_add] at key
  rw [← hv] at key
  refine ⟨fun v hv' => key ⟨v.time, v.conditions⟩ (List.mem_map.2 ⟨v, hv', rfl⟩), ?_⟩
  rw [hv] at key
  obtain ⟨p, hp1, hp2, hp3⟩ : ∃ p ∈ pts', p.time = r.period ∧ p.conditions = last := by
    cases hl : pts'.getLast? with
    | none => rw [hl] at k3; cases k3
    | some p =>
      rw [hl] at k3 same
      rw [h3] at same
      refine ⟨p, List.mem_of_getLast? hl, ?_, ?_⟩
      · have : some p.time = some r.period := k3
        injection this
      · have : some last = some p.conditions := same
        injection this with this
        exact this.symm
  have gap := key p hp1
  rw [hp2, hp3] at gap
  obtain ⟨⟨c1, -⟩, ⟨c2, -⟩⟩ := h4
  rw [real_lt, real_abs] at c1 c2
  rw [hY0]
  unfold stateGap at gap
  have n1 := abs_nonneg (last.P - (Y r.period).P)
  have n2 := abs_nonneg (last.T_c - (Y r.period).T_c)
  have n3 := abs_nonneg (last.T_e - (Y r.period).T_e)
  constructor
  · have := abs_sub_le (Y r.period).T_c last.T_c first.T_c
    rw [abs_sub_comm (Y r.period).T_c last.T_c] at this
    linarith
  · have := abs_sub_le (Y r.period).T_e last.T_e first.T_e
    rw [abs_sub_comm (Y r.period).T_e last.T_e] at this
    linarith

end

end Sett
