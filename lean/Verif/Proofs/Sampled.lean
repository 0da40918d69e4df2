import Verif.Props.Near
import Verif.Props.Performance
import Verif.Spec.Figures
import Mathlib.MeasureTheory.Integral.IntervalIntegral.Basic
import Mathlib.Analysis.Calculus.MeanValue

/-! # The trapezoidal rule on samples near a Lipschitz signal -/

namespace Sett

open Spec state_equations Set

/-- `f` changes at no more than the rate `Λ` between `a` and `b`. -/
def RateOn (g : ℝ → ℝ) (Λ a b : ℝ) : Prop := ∀ t ∈ Icc a b, ∀ t' ∈ Icc a b, |g t - g t'| ≤ Λ * |t - t'|

theorem RateOn.cont {g : ℝ → ℝ} {Λ a b : ℝ} (h : RateOn g Λ a b) (hΛ : 0 ≤ Λ) : ContinuousOn g (Icc a b) := by
  have : LipschitzOnWith ⟨Λ, hΛ⟩ g (Icc a b) := LipschitzOnWith.of_dist_le_mul fun t ht t' ht' => by
    rw [Real.dist_eq, Real.dist_eq]; exact h t ht t' ht'
  exact this.continuousOn

/-- The trapezoid over one interval. -/
theorem trapezoid_one {g : ℝ → ℝ} {Λ a b Δ ε y y' : ℝ} (hg : RateOn g Λ a b) (hΛ : 0 ≤ Λ) (hab : a ≤ b)
    (hΔ : b - a ≤ Δ) (hy : |y - g a| ≤ ε) (hy' : |y' - g b| ≤ ε) :
    |(b - a) * ((y + y') / 2) - ∫ t in a..b, g t| ≤ (b - a) * (ε + Λ * Δ) := by
  have hi : IntervalIntegrable g MeasureTheory.volume a b :=
    ContinuousOn.intervalIntegrable (by rw [uIcc_of_le hab]; exact hg.cont hΛ)
  have e : (b - a) * ((y + y') / 2) - ∫ t in a..b, g t = ∫ t in a..b, ((y + y') / 2 - g t) := by
    rw [intervalIntegral.integral_sub (by simp) hi, intervalIntegral.integral_const, smul_eq_mul]
  have hb : ∀ t ∈ uIoc a b, ‖(y + y') / 2 - g t‖ ≤ ε + Λ * Δ := by
    intro t ht
    rw [uIoc_of_le hab] at ht
    have ht' : t ∈ Icc a b := ⟨ht.1.le, ht.2⟩
    have h1 := hg a ⟨le_rfl, hab⟩ t ht'
    have h2 := hg b ⟨hab, le_rfl⟩ t ht'
    rw [abs_of_nonpos (by linarith [ht'.1] : a - t ≤ 0)] at h1
    rw [abs_of_nonneg (by linarith [ht'.2] : 0 ≤ b - t)] at h2
    have k1 : Λ * -(a - t) ≤ Λ * Δ := mul_le_mul_of_nonneg_left (by linarith [ht'.2]) hΛ
    have k2 : Λ * (b - t) ≤ Λ * Δ := mul_le_mul_of_nonneg_left (by linarith [ht'.1]) hΛ
    rw [Real.norm_eq_abs, show (y + y') / 2 - g t = ((y - g a) + (g a - g t) + ((y' - g b) + (g b - g t))) / 2 by ring,
      abs_div, abs_two, div_le_iff₀ two_pos]
    have := abs_add_le ((y - g a) + (g a - g t)) ((y' - g b) + (g b - g t))
    have := abs_add_le (y - g a) (g a - g t)
    have := abs_add_le (y' - g b) (g b - g t)
    linarith
  rw [e]
  have := intervalIntegral.norm_integral_le_of_norm_le_const hb
  rw [Real.norm_eq_abs, abs_of_nonneg (by linarith : 0 ≤ b - a)] at this
  linarith [mul_comm (ε + Λ * Δ) (b - a)]

/-- The trapezoidal rule over samples within `ε` of a signal that changes at no more than the rate `Λ`, at intervals
of at most `Δ`, differs from its integral by at most `ε + Λ Δ` times the length. -/
theorem trapezoid_near {β : Type} (τ φ : β → ℝ) {g : ℝ → ℝ} {Λ Δ ε : ℝ} (hΛ : 0 ≤ Λ) :
    ∀ (v : β) (vs : List β) (a b : ℝ), τ v = a → (v :: vs).getLast?.map τ = some b →
      ((v :: vs).map τ).IsChain (fun x x' => x ≤ x' ∧ x' - x ≤ Δ) → RateOn g Λ a b →
      (∀ w ∈ v :: vs, |φ w - g (τ w)| ≤ ε) →
      a ≤ b ∧ |trapezoid ((v :: vs).map τ) ((v :: vs).map φ) - ∫ t in a..b, g t| ≤ (b - a) * (ε + Λ * Δ) := by
  intro v vs
  induction vs generalizing v with
  | nil =>
    intro a b ha hb _ _ _
    simp only [List.getLast?_singleton, Option.map_some, Option.some.injEq] at hb
    subst ha; subst hb
    simp [trapezoid]
  | cons w vs ih =>
    intro a b ha hb hc hg hn
    simp only [List.map_cons, List.isChain_cons_cons] at hc
    have hb' : (w :: vs).getLast?.map τ = some b := by simpa [List.getLast?_cons_cons] using hb
    have mono : ∀ (w : β) (vs : List β), ((w :: vs).map τ).IsChain (fun x x' => x ≤ x' ∧ x' - x ≤ Δ) →
        ∀ b, (w :: vs).getLast?.map τ = some b → τ w ≤ b := by
      intro w vs
      induction vs generalizing w with
      | nil => intro _ b hb; simp at hb; exact hb.le
      | cons u us ih =>
        intro hc b hb
        simp only [List.map_cons, List.isChain_cons_cons] at hc
        exact hc.1.1.trans (ih u (by simpa using hc.2) b (by simpa [List.getLast?_cons_cons] using hb))
    have hwb := mono w vs (by simpa using hc.2) b hb'
    have haw : a ≤ τ w := ha ▸ hc.1.1
    obtain ⟨-, h2⟩ := ih w (τ w) b rfl hb' (by simpa using hc.2)
      (fun t ht t' ht' => hg t ⟨haw.trans ht.1, ht.2⟩ t' ⟨haw.trans ht'.1, ht'.2⟩)
      (fun u hu => hn u (List.mem_cons_of_mem _ hu))
    have h1 := trapezoid_one (y := φ v) (y' := φ w)
      (fun t ht t' ht' => hg t ⟨ht.1, ht.2.trans hwb⟩ t' ⟨ht'.1, ht'.2.trans hwb⟩) hΛ haw (ha ▸ hc.1.2)
      (ha ▸ hn v (by simp)) (hn w (by simp))
    have hi : ∀ u ∈ Icc a b, ∀ u' ∈ Icc a b, IntervalIntegrable g MeasureTheory.volume u u' := fun u hu u' hu' =>
      ContinuousOn.intervalIntegrable ((hg.cont hΛ).mono (uIcc_subset_Icc hu hu'))
    refine ⟨haw.trans hwb, ?_⟩
    rw [← intervalIntegral.integral_add_adjacent_intervals (hi a ⟨le_rfl, haw.trans hwb⟩ (τ w) ⟨haw, hwb⟩)
      (hi (τ w) ⟨haw, hwb⟩ b ⟨haw.trans hwb, le_rfl⟩)]
    simp only [List.map_cons, trapezoid] at h2 ⊢
    rw [ha]
    rw [show (τ w - a) * ((φ v + φ w) / 2) + trapezoid (τ w :: vs.map τ) (φ w :: vs.map φ)
        - ((∫ t in a..τ w, g t) + ∫ t in τ w..b, g t)
      = ((τ w - a) * ((φ v + φ w) / 2) - ∫ t in a..τ w, g t)
        + (trapezoid (τ w :: vs.map τ) (φ w :: vs.map φ) - ∫ t in τ w..b, g t) by ring]
    refine (abs_add_le _ _).trans ((add_le_add h1 h2).trans (le_of_eq ?_))
    ring

section
variable {r : Run ℝ} {n : GasName} {L : Limits}

/-- A quantity read off a time, a state and a solution is bounded within the limits, and changes by at most a multiple of
the changes of state and drive. -/
def Smooth (r : Run ℝ) (L : Limits) (φ : state_equations.Values ℝ → ℝ) : Prop :=
  Near (ι := Duo r L) Duo.gap (fun i => φ ⟨i.t, i.y, i.s⟩) (fun i => φ ⟨i.t', i.y', i.s'⟩)

namespace Smooth

variable {φ ψ : state_equations.Values ℝ → ℝ}

theorem const (c : ℝ) : Smooth r L (fun _ => c) := Near.const (fun i => i.gap_nonneg) c
theorem add (h : Smooth r L φ) (h' : Smooth r L ψ) : Smooth r L (fun v => φ v + ψ v) := Near.add h h'
theorem sub (h : Smooth r L φ) (h' : Smooth r L ψ) : Smooth r L (fun v => φ v - ψ v) := Near.sub h h'
theorem mul (h : Smooth r L φ) (h' : Smooth r L ψ) : Smooth r L (fun v => φ v * ψ v) := Near.mul h h'
theorem div (h : Smooth r L φ) (c : ℝ) : Smooth r L (fun v => φ v / c) := by
  simpa only [div_eq_mul_inv] using h.mul (const c⁻¹)
theorem congr (h : Smooth r L φ) (e : ∀ v, ψ v = φ v) : Smooth r L ψ := by
  rwa [show ψ = φ from funext e]

theorem pres : Smooth r L (fun v => v.conditions.P) := by
  refine Near.of_bounds (fun i => i.gap_nonneg) (B := L.Pmax) (K := 1) ?_ ?_ ?_
  · intro i; have := i.w.pres; have := L.Pmin_pos; rw [abs_of_nonneg] <;> linarith
  · intro i; have := i.w'.pres; have := L.Pmin_pos; rw [abs_of_nonneg] <;> linarith
  · intro i
    have := driveGap_nonneg r i.t i.t'
    have h2 := abs_nonneg (i.y.T_c - i.y'.T_c); have h3 := abs_nonneg (i.y.T_e - i.y'.T_e)
    simp only [Duo.gap, stateGap]; linarith

theorem comp : Smooth r L (fun v => v.conditions.T_c) := by
  refine Near.of_bounds (fun i => i.gap_nonneg) (B := L.Tmax) (K := 1) ?_ ?_ ?_
  · intro i; have := i.w.comp_temp; rw [abs_of_nonneg] <;> linarith
  · intro i; have := i.w'.comp_temp; rw [abs_of_nonneg] <;> linarith
  · intro i
    have := driveGap_nonneg r i.t i.t'
    have h2 := abs_nonneg (i.y.P - i.y'.P); have h3 := abs_nonneg (i.y.T_e - i.y'.T_e)
    simp only [Duo.gap, stateGap]; linarith

theorem exp : Smooth r L (fun v => v.conditions.T_e) := by
  refine Near.of_bounds (fun i => i.gap_nonneg) (B := L.Tmax) (K := 1) ?_ ?_ ?_
  · intro i; have := i.w.exp_temp; rw [abs_of_nonneg] <;> linarith
  · intro i; have := i.w'.exp_temp; rw [abs_of_nonneg] <;> linarith
  · intro i
    have := driveGap_nonneg r i.t i.t'
    have h2 := abs_nonneg (i.y.P - i.y'.P); have h3 := abs_nonneg (i.y.T_c - i.y'.T_c)
    simp only [Duo.gap, stateGap]; linarith

theorem overPres : Smooth r L (fun v => 1 / v.conditions.P) := by
  refine Near.div (Near.const (fun i => i.gap_nonneg) 1) pres ⟨L.Pmin, L.Pmin_pos, fun i => ⟨i.w.pres.1, i.w'.pres.1⟩⟩

theorem rateC : Smooth r L (fun v => (r.ws_vol_fn v.time).1.deriv) := by
  refine Near.of_bounds (fun i => i.gap_nonneg) (B := L.Wmax) (K := 1) (fun i => i.w.comp_rate) (fun i => i.w'.comp_rate) ?_
  intro i
  have := stateGap_nonneg i.y i.y'
  simp only [Duo.gap, driveGap]
  have h1 := abs_nonneg ((r.ws_vol_fn i.t).1.value - (r.ws_vol_fn i.t').1.value)
  have h2 := abs_nonneg ((r.ws_vol_fn i.t).2.value - (r.ws_vol_fn i.t').2.value)
  have h3 := abs_nonneg ((r.ws_vol_fn i.t).2.deriv - (r.ws_vol_fn i.t').2.deriv)
  linarith

theorem rateE : Smooth r L (fun v => (r.ws_vol_fn v.time).2.deriv) := by
  refine Near.of_bounds (fun i => i.gap_nonneg) (B := L.Wmax) (K := 1) (fun i => i.w.exp_rate) (fun i => i.w'.exp_rate) ?_
  intro i
  have := stateGap_nonneg i.y i.y'
  simp only [Duo.gap, driveGap]
  have h1 := abs_nonneg ((r.ws_vol_fn i.t).1.value - (r.ws_vol_fn i.t').1.value)
  have h2 := abs_nonneg ((r.ws_vol_fn i.t).2.value - (r.ws_vol_fn i.t').2.value)
  have h3 := abs_nonneg ((r.ws_vol_fn i.t).1.deriv - (r.ws_vol_fn i.t').1.deriv)
  linarith

end Smooth

/-- What is known of samples taken near a motion. -/
structure Sampled (r : Run ℝ) (L : Limits) (V : ℝ → state_equations.Values ℝ) (vs : List (state_equations.Values ℝ))
    (Δ δ : ℝ) : Prop where
  motion : Motion r L V
  first : (vs.head?.map (·.time)) = some 0
  last : (vs.getLast?.map (·.time)) = some r.period
  grid : (vs.map (·.time)).IsChain (fun x x' => x ≤ x' ∧ x' - x ≤ Δ)
  within : ∀ v ∈ vs, WithinLimits r L v.time v.conditions
  solved : ∀ v ∈ vs, ∃ hint, solve r.solver (r.calculate_inputs v.time v.conditions) hint = .ok v.solution
  near : ∀ v ∈ vs, stateGap v.conditions (V v.time).conditions ≤ δ

theorem motion_rate {V : ℝ → state_equations.Values ℝ} (hV : Motion r L V) {M : ℝ}
    (hM : ∀ (t : ℝ) (y : Conditions ℝ) (hint : FlowDirection) (s : Solution ℝ),
      WithinLimits r L t y → solve r.solver (r.calculate_inputs t y) hint = .ok s →
      |s.m_dot_ck| ≤ M ∧ |s.m_dot_kr| ≤ M ∧ |s.m_dot_rl| ≤ M ∧ |s.m_dot_le| ≤ M ∧ |s.Q_dot_k| ≤ M ∧
      |s.Q_dot_r| ≤ M ∧ |s.Q_dot_l| ≤ M ∧ |s.dTc_dt| ≤ M ∧ |s.dTe_dt| ≤ M ∧ |s.dP_dt| ≤ M) :
    ∀ t ∈ Icc 0 r.period, ∀ t' ∈ Icc 0 r.period,
      stateGap (V t).conditions (V t').conditions ≤ 3 * M * |t - t'| := by
  have key : ∀ (g g' : ℝ → ℝ), ContinuousOn g (Icc 0 (r.period + 1e-14)) →
      (∀ t ∈ Icc 0 r.period, HasDerivWithinAt g (g' t) (Ici t) t) → (∀ t ∈ Icc 0 r.period, |g' t| ≤ M) →
      ∀ t ∈ Icc 0 r.period, ∀ t' ∈ Icc 0 r.period, |g t - g t'| ≤ M * |t - t'| := by
    intro g g' hc hd hb
    have le : ∀ t ∈ Icc 0 r.period, ∀ t' ∈ Icc 0 r.period, t ≤ t' → |g t' - g t| ≤ M * |t' - t| := by
      intro t ht t' ht' htt
      have := norm_image_sub_le_of_norm_deriv_right_le_segment (f := g) (f' := g') (C := M) (a := t) (b := t')
        (hc.mono fun u hu => ⟨ht.1.trans hu.1, hu.2.trans (ht'.2.trans (by norm_num))⟩)
        (fun u hu => hd u ⟨ht.1.trans hu.1, hu.2.le.trans ht'.2⟩)
        (fun u hu => hb u ⟨ht.1.trans hu.1, hu.2.le.trans ht'.2⟩) t' ⟨htt, le_rfl⟩
      rwa [Real.norm_eq_abs, ← abs_of_nonneg (by linarith : 0 ≤ t' - t)] at this
    intro t ht t' ht'
    rcases le_total t t' with h | h
    · rw [abs_sub_comm, abs_sub_comm t]; exact le t ht t' ht' h
    · exact le t' ht' t ht h
  have hb : ∀ t ∈ Icc 0 r.period, |(V t).solution.dTc_dt| ≤ M ∧ |(V t).solution.dTe_dt| ≤ M ∧
      |(V t).solution.dP_dt| ≤ M := fun t ht => by
    obtain ⟨hint, e⟩ := (hV.follows t ht).solved
    exact (hM t _ hint _ (hV.within t ht) e).2.2.2.2.2.2.2
  intro t ht t' ht'
  have h1 := key _ (fun t => (V t).solution.dP_dt) hV.moves.cont.pres (fun t ht => (hV.follows t ht).pres)
    (fun t ht => (hb t ht).2.2) t ht t' ht'
  have h2 := key _ (fun t => (V t).solution.dTc_dt) hV.moves.cont.comp (fun t ht => (hV.follows t ht).comp)
    (fun t ht => (hb t ht).1) t ht t' ht'
  have h3 := key _ (fun t => (V t).solution.dTe_dt) hV.moves.cont.exp (fun t ht => (hV.follows t ht).exp)
    (fun t ht => (hb t ht).2.1) t ht t' ht'
  unfold stateGap
  linarith

/-- The trapezoidal average of a smooth quantity over the samples is near its mean along the motion. -/
theorem smooth_mean (hf : r.fluid = (IdealGas.new n).toFluid) (hs : SaneRun r) (hT : Sound r.solver) {K : ℝ}
    (hK : 0 ≤ K) (hd : SteadyDrive r K) (hp : 0 < r.period) {φ : state_equations.Values ℝ → ℝ} (hφ : Smooth r L φ) :
    ∃ A, 0 ≤ A ∧ ∀ V vs Δ δ, 0 ≤ Δ → Sampled r L V vs Δ δ →
      |1 / r.period * trapezoid (times vs) (vs.map φ) - cycleMean r.period (fun t => φ (V t))| ≤ A * (δ + Δ) := by
  obtain ⟨M, hM, hb⟩ := C70_bounded hf hs hT L
  obtain ⟨C, hC, h⟩ := hφ
  refine ⟨C * (1 + 3 * M + K), by positivity, fun V vs Δ δ hΔ hS => ?_⟩
  have hV := hS.motion
  have duo : ∀ (v v' : state_equations.Values ℝ), WithinLimits r L v.time v.conditions →
      WithinLimits r L v'.time v'.conditions →
      (∃ hint, solve r.solver (r.calculate_inputs v.time v.conditions) hint = .ok v.solution) →
      (∃ hint, solve r.solver (r.calculate_inputs v'.time v'.conditions) hint = .ok v'.solution) →
      |φ v - φ v'| ≤ C * (stateGap v.conditions v'.conditions + driveGap r v.time v'.time) := by
    rintro v v' w w' ⟨hint, e⟩ ⟨hint', e'⟩
    exact (h ⟨v.time, v.conditions, v.solution, v'.time, v'.conditions, v'.solution, w, w',
      C07_upwind_balances _ hT _ hs.norm hint _ e, C07_upwind_balances _ hT _ hs.norm hint' _ e'⟩).2.2
  have wV : ∀ t ∈ Icc 0 r.period, WithinLimits r L (V t).time (V t).conditions := fun t ht => by
    rw [hV.time]; exact hV.within t ht
  have sV : ∀ t ∈ Icc 0 r.period,
      ∃ hint, solve r.solver (r.calculate_inputs (V t).time (V t).conditions) hint = .ok (V t).solution := fun t ht => by
    rw [hV.time]; exact (hV.follows t ht).solved
  have rate : RateOn (fun t => φ (V t)) (C * (3 * M + K)) 0 r.period := by
    intro t ht t' ht'
    refine (duo _ _ (wV t ht) (wV t' ht') (sV t ht) (sV t' ht')).trans ?_
    rw [hV.time, hV.time, mul_assoc]
    refine mul_le_mul_of_nonneg_left ?_ hC
    have := hd t t'
    have := motion_rate hV hb t ht t' ht'
    linarith
  obtain ⟨v, vs', rfl⟩ : ∃ v vs', vs = v :: vs' := by
    cases vs with
    | nil => have := hS.first; cases this
    | cons v vs' => exact ⟨v, vs', rfl⟩
  have times_mem : ∀ w ∈ v :: vs', w.time ∈ Icc 0 r.period := by
    have hch := hS.grid
    have first : v.time = 0 := by simpa using hS.first
    have : ∀ (v : state_equations.Values ℝ) vs', ((v :: vs').map (·.time)).IsChain (fun x x' => x ≤ x' ∧ x' - x ≤ Δ) →
        ∀ b, (v :: vs').getLast?.map (·.time) = some b → ∀ w ∈ v :: vs', v.time ≤ w.time ∧ w.time ≤ b := by
      intro v vs'
      induction vs' generalizing v with
      | nil =>
        intro _ b hb w hw
        simp at hb hw
        subst hw; exact ⟨le_rfl, hb.le⟩
      | cons u us ih =>
        intro hc b hb w hw
        simp only [List.map_cons, List.isChain_cons_cons] at hc
        have k := ih u (by simpa using hc.2) b (by simpa [List.getLast?_cons_cons] using hb)
        rcases List.mem_cons.1 hw with rfl | hw
        · exact ⟨le_rfl, hc.1.1.trans (k u (by simp)).2⟩
        · exact ⟨hc.1.1.trans (k w hw).1, (k w hw).2⟩
    intro w hw
    have k := this v vs' hch r.period hS.last w hw
    exact ⟨first ▸ k.1, k.2⟩
  have near : ∀ w ∈ v :: vs', |φ w - φ (V w.time)| ≤ C * δ := by
    intro w hw
    have ht := times_mem w hw
    refine (duo w _ (hS.within w hw) (wV _ ht) (hS.solved w hw) (sV _ ht)).trans ?_
    refine mul_le_mul_of_nonneg_left ?_ hC
    have : driveGap r w.time (V w.time).time = 0 := by rw [hV.time]; simp [driveGap]
    rw [this, add_zero]
    exact hS.near w hw
  obtain ⟨-, key⟩ := trapezoid_near (g := fun t => φ (V t)) (fun v : state_equations.Values ℝ => v.time) φ
    (by positivity) v vs' 0 r.period (by simpa using hS.first) hS.last hS.grid rate near
  have hδ : 0 ≤ δ := (stateGap_nonneg _ _).trans (hS.near v (by simp))
  have e : 1 / r.period * trapezoid (times (v :: vs')) ((v :: vs').map φ) - cycleMean r.period (fun t => φ (V t))
      = (trapezoid (times (v :: vs')) ((v :: vs').map φ) - ∫ t in (0 : ℝ)..r.period, φ (V t)) / r.period := by
    unfold cycleMean; ring
  rw [e, abs_div, abs_of_pos hp, div_le_iff₀ hp]
  refine key.trans ?_
  have : 0 ≤ C * (3 * M + K) * δ := by positivity
  have : 0 ≤ C * Δ := by positivity
  nlinarith

end

end Sett
