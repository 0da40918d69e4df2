import Verif.Proofs.Shadow

/-! # C83: beside every computed cycle there is a motion of the gas -/

namespace Sett

open Spec state_equations Set

section
variable {r : Run ℝ} {n : GasName}

/-- **C83**, any chain of steps: beside a chain of Dormand-Prince steps over a time no longer than `B` that stays clear
enough of the limits there is a motion of the gas. -/
theorem C83_chain (hf : r.fluid = (IdealGas.new n).toFluid) (hs : SaneRun r) (hT : Sound r.solver)
    (hc : Complete r.solver) (L : Limits) {K : ℝ} (hK : 0 ≤ K) (hd : SteadyDrive r K) (hw : DriveWithin r L)
    {B : ℝ} (hB : 0 ≤ B) : ∃ D, 0 ≤ D ∧ ∀ (rtol atol b H : ℝ) (y : V3 ℝ) (l : List Step), 0 < b → b ≤ B →
      Integrates (runRates r L) rtol atol y b l → (∀ s ∈ l, s.h ≤ H) →
      (∀ s ∈ l, Inside L (D * H) (conditionsOf s.y)) →
      ∃ Y : ℝ → Conditions ℝ, stateVector (Y 0) = y ∧ Trajectory r Y 0 b ∧ (∀ t ∈ Icc 0 b, WithinLimits r L t (Y t)) ∧
        ∀ x v, OnSteps l x v → WithinLimits r L x (conditionsOf v) ∧ stateGap (conditionsOf v) (Y x) ≤ D * H := by
  obtain ⟨M, C, hM, hC, hA⟩ := runRates_tame hf hs hT L hK hd
  set E := C * (325 * M + 13) * B * Real.exp (C * B) with hE
  have hE0 : 0 ≤ E := by positivity
  refine ⟨3 * E + 25 * M, by positivity, ?_⟩
  rintro rtol atol b H y l hb hbB ⟨⟨y', hl⟩, hfw, hsl, -⟩ hH hin
  obtain ⟨s0, hs0, hs0'⟩ := leads_cover hl hfw hb 0 ⟨le_rfl, hb.le⟩
  have hH0 : 0 ≤ H := (hfw s0 hs0).le.trans (hH s0 hs0)
  have i0 : Inside L 0 (conditionsOf s0.y) := inside_mono (hin s0 hs0) (by positivity)
  have hPP : L.Pmin ≤ L.Pmax := by have := i0.pres; linarith
  have hTT : 100 ≤ L.Tmax := by have := i0.comp_temp; linarith
  -- the rates continued to all states
  let A : ℝ → V3 ℝ → V3 ℝ → Prop := fun t y k => runRates r L t (clamp L y) k
  have tame : Tame A M C := by
    refine ⟨fun t y k h => hA.bound _ _ _ h, fun t y k t' y' k' h h' => (hA.lip _ _ _ _ _ _ h h').trans ?_⟩
    exact mul_le_mul_of_nonneg_left (add_le_add (clamp_lip L y y') le_rfl) hC.le
  have all : ∀ t y, ∃ k, A t y k := by
    intro t y
    have w := clamp_within hw hPP hTT t y
    obtain ⟨s, h⟩ := C59_run_solve r n hf hT hc t _ (physical_of_within hs w)
    exact ⟨_, w, .default, s, h _, rfl⟩
  obtain ⟨Y, hY0, hY⟩ := exists_exact hM hC tame all y hb.le
  have sub : ∀ t y k, runRates r L t y k → A t y k := by
    intro t y k h
    show runRates r L t (clamp L y) k
    rwa [clamp_of_inside ⟨by simpa using h.1.pres, by simpa using h.1.comp_temp, by simpa using h.1.exp_temp⟩]
  have hsl' : ∀ s ∈ l, s.Slopes A := fun s hs => by
    obtain ⟨g1, g2, g3, g4, g5, g6, g7⟩ := hsl s hs
    exact ⟨sub _ _ _ g1, sub _ _ _ g2, sub _ _ _ g3, sub _ _ _ g4, sub _ _ _ g5, sub _ _ _ g6, sub _ _ _ g7⟩
  have gap : ∀ s ∈ l, ∀ u ∈ Icc 0 b, u ∈ Icc s.t (s.t + s.h) →
      ‖vec (s.dense ((u - s.t) / s.h)) - vec (Y u)‖ ≤ E * H := by
    intro s hs u hu hus
    have key := chain_gap hC tame hY (H := H) (δ := 0) hfw hsl' hH le_rfl hl
      (by rw [gronwallBound_x0, hY0]; simp) s hs u hus
    have g := gronwall_le (δ := 0) (x := u) hC.le (show 0 ≤ C * ((325 * M + 13) * H) by positivity)
    refine key.trans (g.trans ?_)
    rw [zero_add]
    calc C * ((325 * M + 13) * H) * u * Real.exp (C * u)
        ≤ C * ((325 * M + 13) * H) * B * Real.exp (C * B) := by
          refine mul_le_mul (mul_le_mul_of_nonneg_left (hu.2.trans hbB) (by positivity)) (Real.exp_le_exp.2 ?_)
            (Real.exp_pos _).le (by positivity)
          exact mul_le_mul_of_nonneg_left (hu.2.trans hbB) hC.le
      _ = E * H := by rw [hE]; ring
  have hdn : ∀ s ∈ l, ∀ u ∈ Icc s.t (s.t + s.h), ‖vec (s.dense ((u - s.t) / s.h)) - vec s.y‖ ≤ 25 * M * s.h := by
    intro s hs u hus
    have hsh := hfw s hs
    exact dense_near (small_slopes hA (hsl s hs)) hsh (θ := (u - s.t) / s.h)
      (div_nonneg (by linarith [hus.1]) hsh.le) ((div_le_one hsh).2 (by linarith [hus.2]))
  have inside : ∀ u ∈ Icc 0 b, Inside L 0 (conditionsOf (Y u)) := by
    intro u hu
    obtain ⟨s, hs, hus⟩ := leads_cover hl hfw hb u hu
    have g := gap s hs u hu hus
    have d := hdn s hs u hus
    refine inside_near (y := s.y) (inside_mono (hin s hs) (?_ : 0 + (E * H + 25 * M * s.h) ≤ _)) ?_
    · have := mul_le_mul_of_nonneg_left (hH s hs) (show 0 ≤ 25 * M by positivity)
      nlinarith [mul_nonneg hE0 hH0]
    · have := norm_sub_le_norm_sub_add_norm_sub (vec (Y u)) (vec (s.dense ((u - s.t) / s.h))) (vec s.y)
      rw [norm_sub_rev (vec (Y u)) (vec (s.dense _))] at this
      linarith
  refine ⟨fun t => conditionsOf (Y t), by simp only [hY0]; rfl, ⟨?_, ?_, ?_⟩, fun t ht => within_of_inside hw (inside t ht) t, ?_⟩
  · have := hY.cont
    exact ⟨continuous_fst.comp_continuousOn this, continuous_fst.comp_continuousOn (continuous_snd.comp_continuousOn this),
      continuous_snd.comp_continuousOn (continuous_snd.comp_continuousOn this)⟩
  · intro t ht
    have w := within_of_inside hw (inside t ht) t
    exact ⟨L.Pmin_pos.trans_le w.pres.1, w.comp_temp.1, w.exp_temp.1⟩
  · intro t ht
    obtain ⟨k, hk, hk'⟩ := hY.moves t ht
    obtain ⟨-, hint, s, e, rfl⟩ := hk
    rw [clamp_of_inside (inside t ⟨ht.1, ht.2.le⟩)] at e
    exact ⟨s, ⟨hint, e⟩, hk'.fst, hk'.snd.fst, hk'.snd.snd⟩
  · rintro x v ⟨s, hs, hx1, hx2, rfl⟩
    have hx : x ∈ Icc 0 b := by
      have := leads_mem hl hfw hs
      exact ⟨this.2.trans hx1, hx2.trans this.1⟩
    have g := gap s hs x hx ⟨hx1, hx2⟩
    have h3 : stateGap (conditionsOf (s.dense ((x - s.t) / s.h))) (conditionsOf (Y x)) ≤ 3 * ‖vec (s.dense ((x - s.t) / s.h))
        - vec (Y x)‖ := stateGap_le _ _
    refine ⟨within_of_inside hw (inside_near (y := s.y) (inside_mono (hin s hs) (?_ : 0 + 25 * M * s.h ≤ _))
      (hdn s hs x ⟨hx1, hx2⟩)) x, by nlinarith [mul_nonneg hM hH0]⟩
    have := mul_le_mul_of_nonneg_left (hH s hs) (show 0 ≤ 25 * M by positivity)
    nlinarith [mul_nonneg hE0 hH0]

/-- **C83.** A successful integration of one cycle with steps no longer than `H` whose questions all stay `C H` clear
of given limits proves that the gas has a motion from that start over the whole cycle, within the limits, and every
point reported lies within `C H` of it.  The constant `C` depends only on the run, the limits and the drive. -/
theorem C83_exists (hf : r.fluid = (IdealGas.new n).toFluid) (hs : SaneRun r) (hT : Sound r.solver)
    (hc : Complete r.solver) (L : Limits) {K : ℝ} (hK : 0 ≤ K) (hd : SteadyDrive r K) (hw : DriveWithin r L)
    (hp : 0 < r.period) : ∃ C, 0 ≤ C ∧
      ∀ (outs : Nat) (env : Env ℝ) (ic : Conditions ℝ) (num : UInt32) (tol : OdeTolerance ℝ)
        (pts : List (Point ℝ)), env.ode = dopri5.solve outs → 2 ≤ num.toNat →
      integrationTryFrom env r.toCycle ic num tol = .ok pts → ∃ log l,
        Conversation env r.toCycle ic num tol log ∧
        Integrates (AnsweredIn log) tol.rel tol.abs (stateVector ic) (r.period + 1e-14) l ∧
        ∀ H : ℝ, (∀ s ∈ l, s.h ≤ H) → (∀ e ∈ log, Inside L (C * H) e.conditions) →
          ∃ Y : ℝ → Conditions ℝ, Y 0 = ic ∧ Trajectory r Y 0 (r.period + 1e-14) ∧
            (∀ t ∈ Icc 0 (r.period + 1e-14), WithinLimits r L t (Y t)) ∧
            ∀ p ∈ pts, WithinLimits r L p.time p.conditions ∧ stateGap p.conditions (Y p.time) ≤ C * H := by
  have hb : 0 < r.period + 1e-14 := add_pos hp (by norm_num)
  obtain ⟨D, hD, hsh⟩ := C83_chain hf hs hT hc L hK hd hw hb.le
  obtain ⟨_, _, hnear⟩ := C82_near hf hs hT L hK hd hp
  refine ⟨D, hD, fun outs env ic num tol pts ho hn hok => ?_⟩
  obtain ⟨log, l, h1, h2, h3, -⟩ := hnear outs env ic num tol pts ho hn hok
  refine ⟨log, l, h1, h2, fun H hH hin => ?_⟩
  obtain ⟨y', hl⟩ := h2.joined
  obtain ⟨s0, hs0, -⟩ := leads_cover hl h2.forward hb 0 ⟨le_rfl, hb.le⟩
  have hH0 : 0 ≤ H := (h2.forward s0 hs0).le.trans (hH s0 hs0)
  have hlim : ∀ e ∈ log, WithinLimits r L e.time e.conditions := fun e he =>
    within_of_inside hw (inside_mono (hin e he) (by positivity)) _
  obtain ⟨Y, g1, g2, g3, g4⟩ := hsh _ _ _ H _ l hb le_rfl (integrates_rates h1.answered hlim h2) hH (fun s hs => by
    obtain ⟨e, he, -, e2, -⟩ := (h2.slopes s hs).k1
    rw [← e2]
    exact hin e he)
  refine ⟨Y, ?_, g2, g3, fun p hp => g4 _ _ (h3 p hp)⟩
  have := congrArg conditionsOf g1
  exact this

/-- **C83**, the steady cycle: if the search for the steady cycle succeeds with such an integration, the gas has a
motion over one period, near all reported values, which returns to its temperatures within the convergence tolerance
plus `C H`. -/
theorem C83_returns (hf : r.fluid = (IdealGas.new n).toFluid) (hs : SaneRun r) (hT : Sound r.solver)
    (hc : Complete r.solver) (L : Limits) {K : ℝ} (hK : 0 ≤ K) (hd : SteadyDrive r K) (hw : DriveWithin r L)
    (hp : 0 < r.period) : ∃ C, 0 ≤ C ∧
      ∀ (outs : Nat) (env : Env ℝ) (i : SteadyStateInputs ℝ) (vs : List (state_equations.Values ℝ)),
      env.ode = dopri5.solve outs → 2 ≤ i.num_points.toNat →
      ((i.num_points.toNat : ℝ) - 1) * 1e-14 < r.period →
      findSteadyState env r.toCycle i = .ok vs → ∃ ic log l,
        vs.head?.map (·.conditions) = some ic ∧
        Conversation env r.toCycle ic i.num_points i.ode_tol log ∧
        Integrates (AnsweredIn log) i.ode_tol.rel i.ode_tol.abs (stateVector ic) (r.period + 1e-14) l ∧
        ∀ H : ℝ, (∀ s ∈ l, s.h ≤ H) → (∀ e ∈ log, Inside L (C * H) e.conditions) →
          ∃ Y : ℝ → Conditions ℝ, Y 0 = ic ∧ Trajectory r Y 0 (r.period + 1e-14) ∧
            (∀ t ∈ Icc 0 (r.period + 1e-14), WithinLimits r L t (Y t)) ∧
            (∀ v ∈ vs, WithinLimits r L v.time v.conditions ∧ stateGap v.conditions (Y v.time) ≤ C * H) ∧
            |(Y r.period).T_c - (Y 0).T_c| ≤ i.conv_tol.abs + C * H ∧
            |(Y r.period).T_e - (Y 0).T_e| ≤ i.conv_tol.abs + C * H := by
  have hb : 0 < r.period + 1e-14 := add_pos hp (by norm_num)
  obtain ⟨D, hD, hsh⟩ := C83_chain hf hs hT hc L hK hd hw hb.le
  obtain ⟨D', hD', hret⟩ := C82_returns hf hs hT L hK hd hp
  refine ⟨D + D', by positivity, fun outs env i vs ho hn hres hok => ?_⟩
  obtain ⟨ic, log, l, h0, h1, h2, hon, h3⟩ := hret outs env i vs ho hn hres hok
  refine ⟨ic, log, l, h0, h1, h2, fun H hH hin => ?_⟩
  obtain ⟨y', hl⟩ := h2.joined
  obtain ⟨s0, hs0, -⟩ := leads_cover hl h2.forward hb 0 ⟨le_rfl, hb.le⟩
  have hH0 : 0 ≤ H := (h2.forward s0 hs0).le.trans (hH s0 hs0)
  have hle : D * H ≤ (D + D') * H := mul_le_mul_of_nonneg_right (by linarith) hH0
  have hle' : D' * H ≤ (D + D') * H := mul_le_mul_of_nonneg_right (by linarith) hH0
  have hlim : ∀ e ∈ log, WithinLimits r L e.time e.conditions := fun e he =>
    within_of_inside hw (inside_mono (hin e he) (by positivity)) _
  obtain ⟨Y, g1, g2, g3, g4⟩ := hsh _ _ _ H _ l hb le_rfl (integrates_rates h1.answered hlim h2) hH (fun s hs => by
    obtain ⟨e, he, -, e2, -⟩ := (h2.slopes s hs).k1
    rw [← e2]
    exact inside_mono (hin e he) hle)
  have g1' : Y 0 = ic := congrArg conditionsOf g1
  obtain ⟨k1, k2, k3⟩ := h3 H Y hH hlim g1' g2 g3
  exact ⟨Y, g1', g2, g3, fun v hv => ⟨(g4 _ _ (hon v hv)).1, (k1 v hv).trans hle'⟩, by linarith, by linarith⟩

end

end Sett
