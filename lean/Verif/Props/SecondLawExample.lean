import Verif.Props.SecondLaw
import Verif.Props.TrajectoryExample

/-! # C85: a closed cycle that beats Carnot

Exchangers of no volume at 300 K and 600 K, and a drive that takes the gas through four phases: compression without
flow, transfer to the hot side at constant pressure, expansion without flow, transfer back.  The motion is written down
in closed form for a perfect gas whose zeros of enthalpy and internal energy differ by any `w`; the crate's helium has
`w = R * 250`, a gas has `w = 0`. -/

namespace Sett.SecondLawExample

open Spec state_equations BalanceExample TrajectoryExample Set

/-! ## A smooth ramp -/

noncomputable def clamp (u : ℝ) : ℝ := max 0 (min u 1)

theorem clamp_lo {u : ℝ} (h : u ≤ 0) : clamp u = 0 := max_eq_left ((min_le_left _ _).trans h)
theorem clamp_hi {u : ℝ} (h : 1 ≤ u) : clamp u = 1 := by
  unfold clamp; rw [min_eq_right h]; exact max_eq_right zero_le_one
theorem clamp_mid {u : ℝ} (h : 0 ≤ u) (h' : u ≤ 1) : clamp u = u := by
  unfold clamp; rw [min_eq_left h', max_eq_right h]
theorem clamp_bounds (u : ℝ) : 0 ≤ clamp u ∧ clamp u ≤ 1 :=
  ⟨le_max_left _ _, max_le zero_le_one (min_le_right _ _)⟩

/-- Speed of the ramp. -/
noncomputable def speed (u : ℝ) : ℝ := 6 * clamp u * (1 - clamp u)

theorem speed_continuous : Continuous speed := by unfold speed clamp; fun_prop
theorem speed_nonneg (u : ℝ) : 0 ≤ speed u := by
  obtain ⟨h, h'⟩ := clamp_bounds u
  exact mul_nonneg (by linarith) (by linarith)
theorem speed_lo {u : ℝ} (h : u ≤ 0) : speed u = 0 := by unfold speed; rw [clamp_lo h]; ring
theorem speed_hi {u : ℝ} (h : 1 ≤ u) : speed u = 0 := by unfold speed; rw [clamp_hi h]; ring

noncomputable def ramp (x : ℝ) : ℝ := ∫ u in (0 : ℝ)..x, speed u

theorem ramp_deriv (x : ℝ) : HasDerivAt ramp (speed x) x :=
  intervalIntegral.integral_hasDerivAt_right (speed_continuous.intervalIntegrable _ _)
    (speed_continuous.stronglyMeasurableAtFilter _ _) speed_continuous.continuousAt

theorem ramp_lo {x : ℝ} (h : x ≤ 0) : ramp x = 0 := by
  unfold ramp
  rw [intervalIntegral.integral_congr (g := fun _ => 0), intervalIntegral.integral_zero]
  intro u hu
  rw [uIcc_of_ge h] at hu
  exact speed_lo hu.2

theorem ramp_one : ramp 1 = 1 := by
  have h : ∀ u ∈ uIcc (0 : ℝ) 1, HasDerivAt (fun u : ℝ => 3 * u ^ 2 - 2 * u ^ 3) (speed u) u := by
    intro u hu
    rw [uIcc_of_le zero_le_one] at hu
    have h := ((hasDerivAt_pow 2 u).const_mul 3).sub ((hasDerivAt_pow 3 u).const_mul 2)
    refine h.congr_deriv ?_
    unfold speed
    rw [clamp_mid hu.1 hu.2]
    norm_num
    ring
  unfold ramp
  rw [intervalIntegral.integral_eq_sub_of_hasDerivAt h (speed_continuous.intervalIntegrable _ _)]
  norm_num

theorem ramp_hi {x : ℝ} (h : 1 ≤ x) : ramp x = 1 := by
  have e : ramp x = ramp 1 + ∫ u in (1 : ℝ)..x, speed u :=
    (intervalIntegral.integral_add_adjacent_intervals (speed_continuous.intervalIntegrable _ _)
      (speed_continuous.intervalIntegrable _ _)).symm
  rw [e, ramp_one, intervalIntegral.integral_congr (g := fun _ => 0), intervalIntegral.integral_zero, add_zero]
  intro u hu
  rw [uIcc_of_le h] at hu
  exact speed_hi hu.1

theorem ramp_mono : Monotone ramp :=
  monotone_of_deriv_nonneg (fun x => (ramp_deriv x).differentiableAt) fun x => by
    rw [(ramp_deriv x).deriv]; exact speed_nonneg x

theorem ramp_bounds (x : ℝ) : 0 ≤ ramp x ∧ ramp x ≤ 1 := by
  constructor
  · rw [← ramp_lo (min_le_right x 0)]; exact ramp_mono (min_le_left _ _)
  · rw [← ramp_hi (le_max_right x 1)]; exact ramp_mono (le_max_left _ _)

/-! ## Four phases -/

noncomputable def x1 (t : ℝ) : ℝ := ramp t
noncomputable def x2 (t : ℝ) : ℝ := ramp (t - 1)
noncomputable def x3 (t : ℝ) : ℝ := ramp (t - 2)
noncomputable def x4 (t : ℝ) : ℝ := ramp (t - 3)
noncomputable def d1 (t : ℝ) : ℝ := speed t
noncomputable def d2 (t : ℝ) : ℝ := speed (t - 1)
noncomputable def d3 (t : ℝ) : ℝ := speed (t - 2)
noncomputable def d4 (t : ℝ) : ℝ := speed (t - 3)

theorem x1_deriv (t : ℝ) : HasDerivAt x1 (d1 t) t := ramp_deriv t
theorem x2_deriv (t : ℝ) : HasDerivAt x2 (d2 t) t :=
  ((ramp_deriv (t - 1)).comp t ((hasDerivAt_id t).sub_const 1)).congr_deriv (mul_one _)
theorem x3_deriv (t : ℝ) : HasDerivAt x3 (d3 t) t :=
  ((ramp_deriv (t - 2)).comp t ((hasDerivAt_id t).sub_const 2)).congr_deriv (mul_one _)
theorem x4_deriv (t : ℝ) : HasDerivAt x4 (d4 t) t :=
  ((ramp_deriv (t - 3)).comp t ((hasDerivAt_id t).sub_const 3)).congr_deriv (mul_one _)

/-- In which phase the engine is at time `t`. -/
inductive Phase (t : ℝ) : Prop
  | compress (h2 : x2 t = 0) (h3 : x3 t = 0) (h4 : x4 t = 0) (e2 : d2 t = 0) (e3 : d3 t = 0) (e4 : d4 t = 0)
  | heat (h1 : x1 t = 1) (h3 : x3 t = 0) (h4 : x4 t = 0) (e1 : d1 t = 0) (e3 : d3 t = 0) (e4 : d4 t = 0)
  | expand (h1 : x1 t = 1) (h2 : x2 t = 1) (h4 : x4 t = 0) (e1 : d1 t = 0) (e2 : d2 t = 0) (e4 : d4 t = 0)
  | cool (h1 : x1 t = 1) (h2 : x2 t = 1) (h3 : x3 t = 1) (e1 : d1 t = 0) (e2 : d2 t = 0) (e3 : d3 t = 0)

theorem phase (t : ℝ) : Phase t := by
  rcases le_total t 1 with h | h
  · exact .compress (ramp_lo (by linarith)) (ramp_lo (by linarith)) (ramp_lo (by linarith)) (speed_lo (by linarith))
      (speed_lo (by linarith)) (speed_lo (by linarith))
  rcases le_total t 2 with h' | h'
  · exact .heat (ramp_hi h) (ramp_lo (by linarith)) (ramp_lo (by linarith)) (speed_hi h) (speed_lo (by linarith))
      (speed_lo (by linarith))
  rcases le_total t 3 with h'' | h''
  · exact .expand (ramp_hi h) (ramp_hi (by linarith)) (ramp_lo (by linarith)) (speed_hi h) (speed_hi (by linarith))
      (speed_lo (by linarith))
  · exact .cool (ramp_hi h) (ramp_hi (by linarith)) (ramp_hi (by linarith)) (speed_hi h) (speed_hi (by linarith))
      (speed_hi (by linarith))

theorem order (t : ℝ) : 0 ≤ x4 t ∧ x4 t ≤ x3 t ∧ x3 t ≤ x2 t ∧ x2 t ≤ x1 t ∧ x1 t ≤ 1 :=
  ⟨(ramp_bounds _).1, ramp_mono (by linarith), ramp_mono (by linarith), ramp_mono (by linarith), (ramp_bounds _).2⟩

/-! ## The motion -/

/-- Logarithm of the ratio of temperatures of the compression. -/
noncomputable def g : ℝ := Real.log 1.1

theorem exp_g : Real.exp g = 1.1 := Real.exp_log (by norm_num)
theorem g_nonneg : 0 ≤ g := Real.log_nonneg (by norm_num)

/-- `w / cp` -/
noncomputable def τ (w : ℝ) : ℝ := w / 5193.17

noncomputable def T0 (w : ℝ) : ℝ := 300 - τ w + τ w * Real.log 2 / 1.1
noncomputable def E0 (w : ℝ) : ℝ := (600 - τ w) / 1.1 + 2 * (τ w * Real.log 2)

noncomputable def pres (t : ℝ) : ℝ := 1000000 * Real.exp (g * (5193.17 / 2077.23) * (x1 t - x3 t))

noncomputable def Tc (w t : ℝ) : ℝ :=
  ((T0 w * Real.exp (g * x1 t) + τ w * (Real.log 2 - Real.log (2 - x2 t))) * Real.exp (-(g * x3 t))
    + x4 t * (300 - τ w)) / (1 + x4 t)

noncomputable def Te (w t : ℝ) : ℝ :=
  (E0 w * Real.exp (g * x1 t) + x2 t * (600 - τ w)) / (1 + x2 t) * Real.exp (-(g * x3 t))
    + τ w * (Real.log 2 - Real.log (2 - x4 t))

/-- Gas in the compression space and in the expansion space. -/
noncomputable def a (t : ℝ) : ℝ := 2 - x2 t + x4 t
noncomputable def b (t : ℝ) : ℝ := 1 + x2 t - x4 t

noncomputable def dP (t : ℝ) : ℝ := g * (5193.17 / 2077.23) * (d1 t - d3 t) * pres t
noncomputable def dTc (w t : ℝ) : ℝ :=
  g * (d1 t - d3 t) * Tc w t + τ w * d2 t / a t + d4 t * (300 - τ w - Tc w t) / a t
noncomputable def dTe (w t : ℝ) : ℝ :=
  g * (d1 t - d3 t) * Te w t + d2 t * (600 - τ w - Te w t) / b t + τ w * d4 t / b t

theorem a_pos (t : ℝ) : 0 < a t := by obtain ⟨h0, h1, h2, h3, h4⟩ := order t; unfold a; linarith
theorem b_pos (t : ℝ) : 0 < b t := by obtain ⟨h0, h1, h2, h3, h4⟩ := order t; unfold b; linarith
theorem pres_pos (t : ℝ) : 0 < pres t := by unfold pres; positivity

theorem a_deriv (t : ℝ) : HasDerivAt a (d4 t - d2 t) t :=
  (((x2_deriv t).const_sub 2).add (x4_deriv t)).congr_deriv (by ring)
theorem b_deriv (t : ℝ) : HasDerivAt b (d2 t - d4 t) t := ((x2_deriv t).const_add 1).sub (x4_deriv t)
theorem pres_deriv (t : ℝ) : HasDerivAt pres (dP t) t := by
  refine ((((x1_deriv t).sub (x3_deriv t)).const_mul (g * (5193.17 / 2077.23))).exp.const_mul 1000000).congr_deriv ?_
  simp only [dP, pres, Pi.sub_apply]
  ring

theorem Tc_deriv (w t : ℝ) : HasDerivAt (Tc w) (dTc w t) t := by
  obtain ⟨h0, h1, h2, h3, h4⟩ := order t
  have p : 2 - x2 t ≠ 0 := by linarith
  have q : 1 + x4 t ≠ 0 := by linarith
  have E1 := ((x1_deriv t).const_mul g).exp.const_mul (T0 w)
  have E2 := ((((x2_deriv t).const_sub 2).log p).const_sub (Real.log 2)).const_mul (τ w)
  have E3 := ((x3_deriv t).const_mul g).fun_neg.exp
  have D := (((E1.fun_add E2).fun_mul E3).fun_add ((x4_deriv t).mul_const (300 - τ w))).fun_div ((x4_deriv t).const_add 1) q
  refine D.congr_deriv ?_
  simp only [dTc, Tc, a]
  rcases phase t with ⟨h2, h3, h4, e2, e3, e4⟩ | ⟨h1, h3, h4, e1, e3, e4⟩ | ⟨h1, h2, h4, e1, e2, e4⟩ |
    ⟨h1, h2, h3, e1, e2, e3⟩
  · simp only [h2, h3, h4, e2, e3, e4]; simp; ring
  · simp only [h1, h3, h4, e1, e3, e4]; simp; field_simp
  · simp only [h1, h2, h4, e1, e2, e4]; simp; ring
  · simp only [h1, h2, h3, e1, e2, e3]
    have : (2 : ℝ) - 1 + x4 t ≠ 0 := by linarith
    norm_num
    rw [show (2 : ℝ) - 1 + x4 t = 1 + x4 t by ring] at *
    field_simp

theorem Te_deriv (w t : ℝ) : HasDerivAt (Te w) (dTe w t) t := by
  obtain ⟨h0, h1, h2, h3, h4⟩ := order t
  have p : 2 - x4 t ≠ 0 := by linarith
  have q : 1 + x2 t ≠ 0 := by linarith
  have E1 := ((x1_deriv t).const_mul g).exp.const_mul (E0 w)
  have E2 := ((((x4_deriv t).const_sub 2).log p).const_sub (Real.log 2)).const_mul (τ w)
  have E3 := ((x3_deriv t).const_mul g).fun_neg.exp
  have D := (((E1.fun_add ((x2_deriv t).mul_const (600 - τ w))).fun_div ((x2_deriv t).const_add 1) q).fun_mul E3).fun_add E2
  refine D.congr_deriv ?_
  simp only [dTe, Te, b]
  rcases phase t with ⟨h2, h3, h4, e2, e3, e4⟩ | ⟨h1, h3, h4, e1, e3, e4⟩ | ⟨h1, h2, h4, e1, e2, e4⟩ |
    ⟨h1, h2, h3, e1, e2, e3⟩
  · simp only [h2, h3, h4, e2, e3, e4]; simp; ring
  · simp only [h1, h3, h4, e1, e3, e4]; simp; field_simp
  · simp only [h1, h2, h4, e1, e2, e4]; simp; ring
  · simp only [h1, h2, h3, e1, e2, e3]
    have : (1 : ℝ) + 1 - x4 t ≠ 0 := by linarith
    norm_num
    rw [show (1 : ℝ) + 1 - x4 t = 2 - x4 t by ring] at *
    field_simp

/-! ## Bounds and closure -/

theorem τ_bounds {w : ℝ} (h : 0 ≤ w) (h' : w ≤ 2077.23 * 250) : 0 ≤ τ w ∧ τ w < 100 := by
  unfold τ
  exact ⟨by positivity, by rw [div_lt_iff₀ (by norm_num)]; norm_num at h' ⊢; linarith⟩

theorem log_bounds {x : ℝ} (h : 0 ≤ x) (h' : x ≤ 1) : 0 ≤ Real.log 2 - Real.log (2 - x) :=
  sub_nonneg.2 (Real.log_le_log (by linarith) (by linarith))

theorem log2_nonneg : 0 ≤ Real.log 2 := Real.log_nonneg (by norm_num)

theorem decay (t : ℝ) : 1 / 1.1 ≤ Real.exp (-(g * x3 t)) := by
  obtain ⟨h0, h1, h2, h3, h4⟩ := order t
  rw [Real.exp_neg, ← one_div]
  refine one_div_le_one_div_of_le (Real.exp_pos _) ?_
  rw [← exp_g]
  exact Real.exp_le_exp.2 (mul_le_of_le_one_right g_nonneg (by linarith))

theorem grow (t : ℝ) : 1 ≤ Real.exp (g * x1 t) := by
  obtain ⟨h0, h1, h2, h3, h4⟩ := order t
  exact Real.one_le_exp (mul_nonneg g_nonneg (by linarith))

variable {w : ℝ} (hw : 0 ≤ w) (hw' : w ≤ 2077.23 * 250)

include hw hw' in
theorem Tc_ge (t : ℝ) : 100 ≤ Tc w t := by
  obtain ⟨h0, h1, h2, h3, h4⟩ := order t
  obtain ⟨t0, t1⟩ := τ_bounds hw hw'
  have hT0 : 200 ≤ T0 w := by
    have := div_nonneg (mul_nonneg t0 log2_nonneg) (by norm_num : (0 : ℝ) ≤ 1.1)
    unfold T0; linarith
  have hl := mul_nonneg t0 (log_bounds (x := x2 t) (by linarith) (by linarith))
  have hA : 200 ≤ T0 w * Real.exp (g * x1 t) + τ w * (Real.log 2 - Real.log (2 - x2 t)) := by
    have := mul_le_mul hT0 (grow t) zero_le_one (by linarith)
    linarith
  have hB : 200 * (1 / 1.1) ≤ (T0 w * Real.exp (g * x1 t) + τ w * (Real.log 2 - Real.log (2 - x2 t)))
      * Real.exp (-(g * x3 t)) := mul_le_mul hA (decay t) (by norm_num) (by linarith)
  have hC := mul_nonneg h0 (by linarith : 0 ≤ 300 - τ w - 100)
  unfold Tc
  rw [le_div_iff₀ (by linarith)]
  norm_num at hB
  linarith

include hw hw' in
theorem Te_ge (t : ℝ) : 100 ≤ Te w t := by
  obtain ⟨h0, h1, h2, h3, h4⟩ := order t
  obtain ⟨t0, t1⟩ := τ_bounds hw hw'
  have hE0 : 400 ≤ E0 w := by
    have h1 : (400 : ℝ) ≤ (600 - τ w) / 1.1 := by rw [le_div_iff₀ (by norm_num)]; norm_num; linarith
    have := mul_nonneg t0 log2_nonneg
    unfold E0; linarith
  have hl := mul_nonneg t0 (log_bounds (x := x4 t) (by linarith) (by linarith))
  have hA : 400 ≤ (E0 w * Real.exp (g * x1 t) + x2 t * (600 - τ w)) / (1 + x2 t) := by
    have := mul_le_mul hE0 (grow t) zero_le_one (by linarith)
    have h5 := mul_nonneg (by linarith : 0 ≤ x2 t) (by linarith : 0 ≤ 600 - τ w - 400)
    rw [le_div_iff₀ (by linarith)]
    linarith
  have hB := mul_le_mul hA (decay t) (by norm_num) (by linarith)
  unfold Te
  norm_num at hB
  linarith

theorem start : x1 0 = 0 ∧ x2 0 = 0 ∧ x3 0 = 0 ∧ x4 0 = 0 :=
  ⟨ramp_lo (by norm_num), ramp_lo (by norm_num), ramp_lo (by norm_num), ramp_lo (by norm_num)⟩

theorem finish : x1 4 = 1 ∧ x2 4 = 1 ∧ x3 4 = 1 ∧ x4 4 = 1 :=
  ⟨ramp_hi (by norm_num), ramp_hi (by norm_num), ramp_hi (by norm_num), ramp_hi (by norm_num)⟩

theorem Tc_closed (w : ℝ) : Tc w 4 = Tc w 0 := by
  obtain ⟨a1, a2, a3, a4⟩ := start
  obtain ⟨b1, b2, b3, b4⟩ := finish
  simp only [Tc, a1, a2, a3, a4, b1, b2, b3, b4, mul_one, Real.exp_neg, exp_g, T0]
  norm_num
  ring

theorem Te_closed (w : ℝ) : Te w 4 = Te w 0 := by
  obtain ⟨a1, a2, a3, a4⟩ := start
  obtain ⟨b1, b2, b3, b4⟩ := finish
  simp only [Te, a1, a2, a3, a4, b1, b2, b3, b4, mul_one, Real.exp_neg, exp_g, E0]
  norm_num
  ring

/-! ## The engine -/

/-- Volumes that hold the gas of the motion. -/
noncomputable def volumes (w t : ℝ) : ws.CompVolume ℝ × ws.ExpVolume ℝ :=
  (⟨2077.23 * (a t * Tc w t) / pres t,
    2077.23 * ((d4 t - d2 t) * Tc w t + a t * dTc w t) / pres t
      - 2077.23 * (a t * Tc w t) / pres t * (g * (5193.17 / 2077.23) * (d1 t - d3 t))⟩,
   ⟨2077.23 * (b t * Te w t) / pres t,
    2077.23 * ((d2 t - d4 t) * Te w t + b t * dTe w t) / pres t
      - 2077.23 * (b t * Te w t) / pres t * (g * (5193.17 / 2077.23) * (d1 t - d3 t))⟩)

/-- Time since the start of the current cycle. -/
noncomputable def clock (t : ℝ) : ℝ := t - 4 * ⌊t / 4⌋

theorem clock_of {t : ℝ} (h : 0 ≤ t) (h' : t < 4) : clock t = t := by
  have : ⌊t / 4⌋ = 0 := Int.floor_eq_zero_iff.2 ⟨by positivity, by rw [div_lt_one (by norm_num)]; exact h'⟩
  unfold clock; rw [this]; norm_num

theorem clock_add (t : ℝ) : clock (t + 4) = clock t := by
  unfold clock
  rw [add_div, div_self (by norm_num), Int.floor_add_one]
  push_cast
  ring

/-- Repeating a function that rests outside one cycle. -/
theorem repeated {F : ℝ → ℝ} {c : ℝ} (lo : ∀ u ≤ 0, F u = c) (hi : ∀ u, 4 ≤ u → F u = c) (t : ℝ) :
    (fun u => F (clock u)) =ᶠ[nhds t] fun u => F (u - 4 * ⌊t / 4⌋) + F (u - 4 * ⌊t / 4⌋ + 4) - c := by
  set n := ⌊t / 4⌋ with hn
  have h1 : (n : ℝ) ≤ t / 4 := Int.floor_le _
  have h2 : t / 4 < n + 1 := Int.lt_floor_add_one _
  have h3 : Ioo (4 * (n : ℝ) - 4) (4 * n + 4) ∈ nhds t := Ioo_mem_nhds (by linarith) (by linarith)
  filter_upwards [h3] with u hu
  rcases le_or_gt (4 * (n : ℝ)) u with h | h
  · have : ⌊u / 4⌋ = n := Int.floor_eq_iff.2 ⟨by linarith, by linarith [hu.2]⟩
    rw [hi (u - 4 * n + 4) (by linarith)]
    simp only [clock, this]
    ring
  · have : ⌊u / 4⌋ = n - 1 := Int.floor_eq_iff.2 ⟨by push_cast; linarith [hu.1], by push_cast; linarith⟩
    rw [lo (u - 4 * n) (by linarith)]
    simp only [clock, this]
    push_cast
    ring_nf

theorem repeated_deriv {F F' : ℝ → ℝ} {c : ℝ} (lo : ∀ u ≤ 0, F u = c) (hi : ∀ u, 4 ≤ u → F u = c)
    (lo' : ∀ u ≤ 0, F' u = 0) (hi' : ∀ u, 4 ≤ u → F' u = 0) (hd : ∀ u, HasDerivAt F (F' u) u) (t : ℝ) :
    HasDerivAt (fun u => F (clock u)) (F' (clock t)) t := by
  refine HasDerivAt.congr_of_eventuallyEq ?_ (repeated lo hi t)
  have e := (repeated lo' hi' t).self_of_nhds
  simp only [sub_zero] at e
  rw [e]
  have k1 := (hd (t - 4 * ⌊t / 4⌋)).comp t ((hasDerivAt_id t).sub_const (4 * (⌊t / 4⌋ : ℝ)))
  have k2 := (hd (t - 4 * ⌊t / 4⌋ + 4)).comp t (((hasDerivAt_id t).sub_const (4 * (⌊t / 4⌋ : ℝ))).add_const 4)
  exact ((k1.add k2).sub_const c).congr_deriv (by rw [mul_one, mul_one])

theorem repeated_continuous {F : ℝ → ℝ} {c : ℝ} (lo : ∀ u ≤ 0, F u = c) (hi : ∀ u, 4 ≤ u → F u = c)
    (hc : Continuous F) : Continuous fun u => F (clock u) := by
  refine continuous_iff_continuousAt.2 fun t => ?_
  refine ContinuousAt.congr ?_ (repeated lo hi t).symm
  fun_prop

/-- A drive which repeats these volumes every 4 seconds. -/
noncomputable def drive (w : ℝ) : ws.WorkingSpaces ℝ where
  frequency := fun _ => 1 / 4
  volumes := fun _ t => volumes w (clock t)
  thermal_resistance := fun _ => { comp := 0, exp := 0 }
  parasitics := fun _ => { comp := ⟨0, 0, 0⟩, exp := ⟨0, 0, 0⟩ }

noncomputable def components (w : ℝ) : Components ℝ where
  ws := drive w
  chx := (chx.FixedApproach.new 0 0 0 ⟨0, 0, 0⟩).toColdHeatExchanger
  regen := (regen.FixedApproach.new 0 0 0 ⟨0, 0, 0⟩).toRegenerator
  hhx := (hhx.FixedApproach.new 0 0 0 ⟨0, 0, 0⟩).toHotHeatExchanger

noncomputable def state (f : Fluid ℝ) : State ℝ where
  fluid := f
  pres := Pressure.constant 1000000
  temp := { sink := 300, chx := 300, regen := { cold := 300, avg := 450, hot := 600 }, hhx := 600, source := 600 }
  mass_flow := { chx := 0, regen := 0, hhx := 0 }
  heat_flow := { chx := 0, regen := 0, hhx := 0 }
  regen_imbalance := ⟨0⟩

noncomputable def run (w : ℝ) (f : Fluid ℝ) : Run ℝ := Run.new exact (components w) (state f)

noncomputable def y (w t : ℝ) : Conditions ℝ := { P := pres t, T_c := Tc w t, T_e := Te w t }

noncomputable def sol (w t : ℝ) : Solution ℝ where
  m_dot_ck := d2 t - d4 t
  m_dot_kr := d2 t - d4 t
  m_dot_rl := d2 t - d4 t
  m_dot_le := d2 t - d4 t
  Q_dot_k := 5193.17 * ((Tc w t - 300) * d2 t)
  Q_dot_r := 5193.17 * (300 - 600) * (d2 t - d4 t)
  Q_dot_l := 5193.17 * ((600 - Te w t) * d4 t)
  dTc_dt := dTc w t
  dTe_dt := dTe w t
  dP_dt := dP t

variable {f : Fluid ℝ} (hg : PerfectGas f 2077.23 5193.17 (-(5193.17 * 250)) (-(5193.17 * 250) + w))

theorem one_way (t : ℝ) : d2 t = 0 ∨ d4 t = 0 := by
  rcases phase t with ⟨h2, h3, h4, e2, e3, e4⟩ | ⟨h1, h3, h4, e1, e3, e4⟩ | ⟨h1, h2, h4, e1, e2, e4⟩ |
    ⟨h1, h2, h3, e1, e2, e3⟩
  exacts [.inl e2, .inr e4, .inl e2, .inl e2]

include hg in
theorem norm_ne : (run w f).enth_norm ≠ 0 := by
  show 0.5 * (f.enth 300 1000000 + f.enth 600 1000000) ≠ 0
  rw [hg.enth, hg.enth]
  norm_num

include hg hw hw' in
theorem balanced (t : ℝ) (hc : clock t = t) : Balances ((run w f).calculate_inputs t (y w t))
    (upwind ((run w f).calculate_inputs t (y w t)) (sol w t)) (sol w t) := by
  have hP := (pres_pos t).ne'
  have ha := (a_pos t).ne'
  have hb := (b_pos t).ne'
  have hTc : Tc w t ≠ 0 := by linarith [Tc_ge hw hw' t]
  have hTe : Te w t ≠ 0 := by linarith [Te_ge hw hw' t]
  have n2 : 0 ≤ d2 t := speed_nonneg _
  have n4 : 0 ≤ d4 t := speed_nonneg _
  have hz : (run w f).vol_chx = 0 ∧ (run w f).vol_regen = 0 ∧ (run w f).vol_hhx = 0 := ⟨rfl, rfl, rfl⟩
  have hf : (run w f).fluid = f := rfl
  have ht : (run w f).temp = { sink := 300, chx := 300, regen := { cold := 300, avg := 450, hot := 600 }, hhx := 600, source := 600 } := rfl
  have hv : (run w f).ws_vol_fn = (drive w).volumes ⟨(state f).pres⟩ := rfl
  have hq : (run w f).ws_parasitics.comp.thermal = 0 ∧ (run w f).ws_parasitics.exp.thermal = 0 := ⟨rfl, rfl⟩
  have key : (0 ≤ d2 t - d4 t ∧ d4 t = 0) ∨ (¬ 0 ≤ d2 t - d4 t ∧ d2 t = 0) := by
    rcases one_way t with h | h
    · rcases n4.eq_or_lt with h' | h'
      · exact .inl ⟨by rw [h, ← h', sub_self], h'.symm⟩
      · exact .inr ⟨by rw [h]; linarith, h⟩
    · exact .inl ⟨by rw [h]; linarith, h⟩
  rcases key with ⟨hm, hd⟩ | ⟨hm, hd⟩ <;>
  constructor <;>
    simp only [compMass, compEnergy, chxMass, chxEnergy, regenMass, regenEnergy, hhxMass, hhxEnergy,
      expMass, expEnergy, massRate, energyRate, Run.calculate_inputs, Run.comp_inputs, Run.chx_inputs,
      Run.regen_inputs, Run.hhx_inputs, Run.exp_inputs, upwind, sol, y, hf, hz.1, hz.2.1, hz.2.2, ht, hv, hq.1, hq.2, drive, hc, volumes,
      hg.dens, hg.enth, hg.inte, hg.dd_dP_T, hg.dd_dT_P, hg.du_dP_T, hg.du_dT_P, hm, if_true, if_false] <;>
    simp only [hd, dP, dTc, dTe, τ] <;> field_simp <;> ring

include hg hw hw' in
theorem stable (t : ℝ) (hc : clock t = t) : Stable ((run w f).calculate_inputs t (y w t)) := by
  have hP := pres_pos t
  have ha := a_pos t
  have hb := b_pos t
  have gc := Tc_ge hw hw' t
  have ge := Te_ge hw hw' t
  have hTc : 0 < Tc w t := by linarith
  have hTe : 0 < Te w t := by linarith
  have hz : (run w f).vol_chx = 0 ∧ (run w f).vol_regen = 0 ∧ (run w f).vol_hhx = 0 := ⟨rfl, rfl, rfl⟩
  have hf : (run w f).fluid = f := rfl
  have ht : (run w f).temp = { sink := 300, chx := 300, regen := { cold := 300, avg := 450, hot := 600 }, hhx := 600, source := 600 } := rfl
  have hv : (run w f).ws_vol_fn = (drive w).volumes ⟨(state f).pres⟩ := rfl
  have coef : ∀ V T P Tf : ℝ, 0 < V → 0 < T → 0 < P → 100 ≤ Tf → 0 < V * (P / (2077.23 * T) * (5193.17 - 2077.23)
      + ((5193.17 - 2077.23) * T + (-(5193.17 * 250) + w) - (5193.17 * Tf + -(5193.17 * 250))) * (-P / (2077.23 * T ^ 2))) := by
    intro V T P Tf hV hT hP hTf
    have e : V * (P / (2077.23 * T) * (5193.17 - 2077.23)
      + ((5193.17 - 2077.23) * T + (-(5193.17 * 250) + w) - (5193.17 * Tf + -(5193.17 * 250))) * (-P / (2077.23 * T ^ 2)))
      = V * P / (2077.23 * T ^ 2) * (5193.17 * Tf - w) := by field_simp; ring
    rw [e]
    have : 0 < 5193.17 * Tf - w := by norm_num at hw' ⊢; linarith
    positivity
  have hVc : 0 < 2077.23 * (a t * Tc w t) / pres t := by positivity
  have hVe : 0 < 2077.23 * (b t * Te w t) / pres t := by positivity
  have nd : ∀ T : ℝ, 0 < T → -pres t / (2077.23 * T ^ 2) ≠ 0 := fun T hT =>
    div_ne_zero (neg_ne_zero.2 hP.ne') (by positivity)
  constructor <;>
    simp only [stability, exchangerCompliance, tempCoef, Run.calculate_inputs, Run.comp_inputs, Run.chx_inputs,
      Run.regen_inputs, Run.hhx_inputs, Run.exp_inputs, y, hf, hz.1, hz.2.1, hz.2.2, ht, hv, drive, hc, volumes,
      hg.dens, hg.enth, hg.inte, hg.dd_dP_T, hg.dd_dT_P, hg.du_dP_T, hg.du_dT_P]
  · exact mul_ne_zero hVc.ne' (nd _ hTc)
  · exact mul_ne_zero hVe.ne' (nd _ hTe)
  · norm_num; positivity
  · norm_num; positivity
  · norm_num
  · exact coef _ _ _ _ hVc hTc hP gc
  · exact coef _ _ _ _ hVc hTc hP (by norm_num)
  · exact coef _ _ _ _ hVe hTe hP (by norm_num)
  · exact coef _ _ _ _ hVe hTe hP ge

include hg hw hw' in
theorem follows (t : ℝ) (hc : clock t = t) : Follows (run w f) (y w) t (sol w t) where
  solved := ⟨_, congrArg Prod.fst (C58_some_hint_succeeds exact exact_sound exact_complete _ (norm_ne hg)
    (stable hw hw' hg t hc) (sol w t) (balanced hw hw' hg t hc))⟩
  pres := (pres_deriv t).hasDerivWithinAt
  comp := (Tc_deriv w t).hasDerivWithinAt
  exp := (Te_deriv w t).hasDerivWithinAt

theorem Tc_continuous (w : ℝ) : Continuous (Tc w) := continuous_iff_continuousAt.2 fun t => (Tc_deriv w t).continuousAt
theorem Te_continuous (w : ℝ) : Continuous (Te w) := continuous_iff_continuousAt.2 fun t => (Te_deriv w t).continuousAt
theorem pres_continuous : Continuous pres := continuous_iff_continuousAt.2 fun t => (pres_deriv t).continuousAt
theorem a_continuous : Continuous a := continuous_iff_continuousAt.2 fun t => (a_deriv t).continuousAt
theorem b_continuous : Continuous b := continuous_iff_continuousAt.2 fun t => (b_deriv t).continuousAt
theorem d1_continuous : Continuous d1 := speed_continuous
theorem d2_continuous : Continuous d2 := speed_continuous.comp (continuous_id.sub continuous_const)
theorem d3_continuous : Continuous d3 := speed_continuous.comp (continuous_id.sub continuous_const)
theorem d4_continuous : Continuous d4 := speed_continuous.comp (continuous_id.sub continuous_const)

theorem before {u : ℝ} (h : u ≤ 0) : x1 u = 0 ∧ x2 u = 0 ∧ x3 u = 0 ∧ x4 u = 0 ∧ d1 u = 0 ∧ d2 u = 0 ∧ d3 u = 0 ∧ d4 u = 0 :=
  ⟨ramp_lo h, ramp_lo (by linarith), ramp_lo (by linarith), ramp_lo (by linarith), speed_lo h, speed_lo (by linarith),
    speed_lo (by linarith), speed_lo (by linarith)⟩

theorem after {u : ℝ} (h : 4 ≤ u) : x1 u = 1 ∧ x2 u = 1 ∧ x3 u = 1 ∧ x4 u = 1 ∧ d1 u = 0 ∧ d2 u = 0 ∧ d3 u = 0 ∧ d4 u = 0 :=
  ⟨ramp_hi (by linarith), ramp_hi (by linarith), ramp_hi (by linarith), ramp_hi (by linarith), speed_hi (by linarith),
    speed_hi (by linarith), speed_hi (by linarith), speed_hi (by linarith)⟩

theorem volumes_before {u : ℝ} (h : u ≤ 0) : (volumes w u).1.value = (volumes w 0).1.value
    ∧ (volumes w u).2.value = (volumes w 0).2.value ∧ (volumes w u).1.deriv = 0 ∧ (volumes w u).2.deriv = 0 := by
  obtain ⟨a1, a2, a3, a4, -⟩ := before le_rfl
  obtain ⟨b1, b2, b3, b4, e1, e2, e3, e4⟩ := before h
  simp [volumes, a, b, Tc, Te, pres, dTc, dTe, a1, a2, a3, a4, b1, b2, b3, b4, e1, e2, e3, e4]

theorem volumes_after {u : ℝ} (h : 4 ≤ u) : (volumes w u).1.value = (volumes w 0).1.value
    ∧ (volumes w u).2.value = (volumes w 0).2.value ∧ (volumes w u).1.deriv = 0 ∧ (volumes w u).2.deriv = 0 := by
  obtain ⟨a1, a2, a3, a4, -⟩ := before le_rfl
  obtain ⟨b1, b2, b3, b4, e1, e2, e3, e4⟩ := after h
  have c := Tc_closed w
  have e := Te_closed w
  obtain ⟨f1, f2, f3, f4⟩ := finish
  simp only [Tc, Te, f1, f2, f3, f4, a1, a2, a3, a4] at c e
  refine ⟨?_, ?_, ?_, ?_⟩
  · simp only [volumes, a, Tc, pres, a1, a2, a3, a4, b1, b2, b3, b4, c]; norm_num
  · simp only [volumes, b, Te, pres, a1, a2, a3, a4, b1, b2, b3, b4, e]; norm_num
  · simp only [volumes, dTc, e1, e2, e3, e4]; simp
  · simp only [volumes, dTe, e1, e2, e3, e4]; simp

theorem exact_drive (w : ℝ) : ExactDrive (drive w) := by
  intro s t
  constructor
  · refine repeated_deriv (F := fun u => (volumes w u).1.value) (F' := fun u => (volumes w u).1.deriv)
      (fun u h => (volumes_before h).1) (fun u h => (volumes_after h).1) (fun u h => (volumes_before h).2.2.1)
      (fun u h => (volumes_after h).2.2.1) (fun u => ?_) t
    have hP := (pres_pos u).ne'
    refine ((((a_deriv u).mul (Tc_deriv w u)).const_mul 2077.23).div (pres_deriv u) hP).congr_deriv ?_
    simp only [volumes, dP, Pi.mul_apply]
    field_simp
  · refine repeated_deriv (F := fun u => (volumes w u).2.value) (F' := fun u => (volumes w u).2.deriv)
      (fun u h => (volumes_before h).2.1) (fun u h => (volumes_after h).2.1) (fun u h => (volumes_before h).2.2.2)
      (fun u h => (volumes_after h).2.2.2) (fun u => ?_) t
    have hP := (pres_pos u).ne'
    refine ((((b_deriv u).mul (Te_deriv w u)).const_mul 2077.23).div (pres_deriv u) hP).congr_deriv ?_
    simp only [volumes, dP, Pi.mul_apply]
    field_simp

theorem rates_continuous (w : ℝ) (s : ws.State ℝ) : Continuous (fun t => ((drive w).volumes s t).1.deriv) ∧
    Continuous fun t => ((drive w).volumes s t).2.deriv := by
  have hP : ∀ t, pres t ≠ 0 := fun t => (pres_pos t).ne'
  have ha : ∀ t, a t ≠ 0 := fun t => (a_pos t).ne'
  have hb : ∀ t, b t ≠ 0 := fun t => (b_pos t).ne'
  have c1 := d1_continuous
  have c2 := d2_continuous
  have c3 := d3_continuous
  have c4 := d4_continuous
  have c5 := a_continuous
  have c6 := b_continuous
  have c7 := pres_continuous
  have c8 := Tc_continuous w
  have c9 := Te_continuous w
  constructor
  · refine repeated_continuous (F := fun u => (volumes w u).1.deriv) (fun u h => (volumes_before h).2.2.1)
      (fun u h => (volumes_after h).2.2.1) ?_
    simp only [volumes, dTc]
    fun_prop (disch := assumption)
  · refine repeated_continuous (F := fun u => (volumes w u).2.deriv) (fun u h => (volumes_before h).2.2.2)
      (fun u h => (volumes_after h).2.2.2) ?_
    simp only [volumes, dTe]
    fun_prop (disch := assumption)

/-- The drive runs at the frequency it reports. -/
theorem drive_periodic (w : ℝ) (s : ws.State ℝ) (t : ℝ) :
    (drive w).volumes s (t + 1 / (drive w).frequency s) = (drive w).volumes s t := by
  show volumes w (clock (t + 1 / (1 / 4))) = _
  rw [show (1 : ℝ) / (1 / 4) = 4 by norm_num, clock_add]
  rfl

include hg hw hw' in
/-- The motion is a closed cycle of the engine. -/
theorem closed : ClosedCycle (run w f) (y w) (sol w) 0 4 where
  le := by norm_num
  regular :=
    { pres := pres_continuous.continuousOn
      comp := (Tc_continuous w).continuousOn
      exp := (Te_continuous w).continuousOn
      comp_pos := fun t _ => by have := Tc_ge hw hw' t; simp only [y]; linarith
      exp_pos := fun t _ => by have := Te_ge hw hw' t; simp only [y]; linarith }
  pres_pos := fun t _ => pres_pos t
  drive := exact_drive w ⟨(state f).pres⟩
  rates := rates_continuous w ⟨(state f).pres⟩
  follows := fun t ht => follows hw hw' hg t (clock_of ht.1 ht.2)
  ck := (d2_continuous.sub d4_continuous).continuousOn
  kr := (d2_continuous.sub d4_continuous).continuousOn
  rl := (d2_continuous.sub d4_continuous).continuousOn
  le' := (d2_continuous.sub d4_continuous).continuousOn
  Qk := (((Tc_continuous w).sub continuous_const).mul d2_continuous |>.const_mul _).continuousOn
  Qr := ((d2_continuous.sub d4_continuous).const_mul _).continuousOn
  Ql := ((continuous_const.sub (Te_continuous w)).mul d4_continuous |>.const_mul _).continuousOn
  closed := by
    obtain ⟨a1, a2, a3, a4⟩ := start
    obtain ⟨b1, b2, b3, b4⟩ := finish
    simp only [y, Tc_closed, Te_closed, pres, a1, a3, b1, b3, sub_self]
  volumes := by
    have h := drive_periodic w ⟨(state f).pres⟩ 0
    rw [show (0 : ℝ) + 1 / (drive w).frequency ⟨(state f).pres⟩ = 4 by show (0 : ℝ) + 1 / (1 / 4) = 4; norm_num] at h
    exact ⟨congrArg (fun v => v.1.value) h, congrArg (fun v => v.2.value) h⟩

/-- Heat received at 600 K. -/
theorem heat_in (w : ℝ) : ∫ t in (0 : ℝ)..4, (sol w t).Q_dot_l = 5193.17 * (600 - τ w) / 11 := by
  have hd : ∀ t ∈ uIcc (0 : ℝ) 4, HasDerivAt (fun t => 5193.17 * ((600 - E0 w) * x4 t
      - τ w * ((2 - x4 t) * Real.log (2 - x4 t) - (2 - x4 t)))) (sol w t).Q_dot_l t := by
    intro t _
    obtain ⟨h0, h1, h2, h3, h4⟩ := order t
    have p : 2 - x4 t ≠ 0 := by linarith
    have D := ((x4_deriv t).const_sub 2)
    refine ((((x4_deriv t).const_mul (600 - E0 w)).sub (((D.mul (D.log p)).sub D).const_mul (τ w))).const_mul
      5193.17).congr_deriv ?_
    simp only [sol, Te]
    rcases phase t with ⟨h2, h3, h4, e2, e3, e4⟩ | ⟨h1, h3, h4, e1, e3, e4⟩ | ⟨h1, h2, h4, e1, e2, e4⟩ |
      ⟨h1, h2, h3, e1, e2, e3⟩
    · rw [e4]; ring
    · rw [e4]; ring
    · rw [e4]; ring
    · rw [h1, h2, h3, mul_one, Real.exp_neg, exp_g]
      simp only [E0]
      field_simp
      ring
  rw [intervalIntegral.integral_eq_sub_of_hasDerivAt hd
    (((continuous_const.sub (Te_continuous w)).mul d4_continuous |>.const_mul _).intervalIntegrable _ _)]
  rw [start.2.2.2, finish.2.2.2]
  simp only [E0]
  norm_num
  ring

/-- Heat given up at 300 K. -/
theorem heat_out (w : ℝ) : ∫ t in (0 : ℝ)..4, (sol w t).Q_dot_k = 5193.17 * (300 - τ w) / 10 := by
  have hd : ∀ t ∈ uIcc (0 : ℝ) 4, HasDerivAt (fun t => 5193.17 * ((1.1 * T0 w + τ w * Real.log 2 - 300) * x2 t
      + τ w * ((2 - x2 t) * Real.log (2 - x2 t) - (2 - x2 t)))) (sol w t).Q_dot_k t := by
    intro t _
    obtain ⟨h0, h1, h2, h3, h4⟩ := order t
    have p : 2 - x2 t ≠ 0 := by linarith
    have D := ((x2_deriv t).const_sub 2)
    refine ((((x2_deriv t).const_mul (1.1 * T0 w + τ w * Real.log 2 - 300)).add
      (((D.mul (D.log p)).sub D).const_mul (τ w))).const_mul 5193.17).congr_deriv ?_
    simp only [sol, Tc]
    rcases phase t with ⟨h2, h3, h4, e2, e3, e4⟩ | ⟨h1, h3, h4, e1, e3, e4⟩ | ⟨h1, h2, h4, e1, e2, e4⟩ |
      ⟨h1, h2, h3, e1, e2, e3⟩
    · rw [e2]; ring
    · rw [h1, h3, h4, mul_one, mul_zero, neg_zero, Real.exp_zero, exp_g]
      field_simp
      ring
    · rw [e2]; ring
    · rw [e2]; ring
  rw [intervalIntegral.integral_eq_sub_of_hasDerivAt hd
    (((Tc_continuous w).sub continuous_const).mul d2_continuous |>.const_mul _ |>.intervalIntegrable _ _)]
  rw [start.2.1, finish.2.1]
  simp only [T0]
  norm_num
  ring

include hg hw hw' in
theorem regen_zero : ∫ t in (0 : ℝ)..4, (sol w t).Q_dot_r = 0 := by
  have h := regen_heat_cycle hg exact_sound (norm_ne hg) (closed hw hw' hg)
  have ht : (run w f).temp = { sink := 300, chx := 300, regen := { cold := 300, avg := 450, hot := 600 }, hhx := 600, source := 600 } := rfl
  rw [h, ht]
  ring

include hg hw hw' in
/-- Work of the cycle. -/
theorem work : workOf (run w f) (y w) 0 4 = 5193.17 * ((600 - τ w) / 11 - (300 - τ w) / 10) := by
  have h := C85_first_law hg exact_sound (norm_ne hg) (closed hw hw' hg)
  have q : (run w f).ws_parasitics.comp.thermal = 0 ∧ (run w f).ws_parasitics.exp.thermal = 0 := ⟨rfl, rfl⟩
  rw [h, heat_in, heat_out, regen_zero hw hw' hg, q.1, q.2]
  ring

/-- A gas with helium's constants and agreeing zeros of enthalpy and internal energy. -/
noncomputable def gas : Fluid ℝ where
  dens := fun T P => P / (2077.23 * T)
  inte := fun T _ => (5193.17 - 2077.23) * T + -(5193.17 * 250)
  enth := fun T _ => 5193.17 * T + -(5193.17 * 250)
  cp := fun _ _ => 5193.17
  dd_dP_T := fun T _ => 1 / (2077.23 * T)
  dd_dT_P := fun T P => -P / (2077.23 * T ^ 2)
  du_dP_T := fun _ _ => 0
  du_dT_P := fun _ _ => 5193.17 - 2077.23

theorem gas_perfect : PerfectGas gas 2077.23 5193.17 (-(5193.17 * 250)) (-(5193.17 * 250)) :=
  ⟨by norm_num, by norm_num, fun _ _ => rfl, fun _ _ => rfl, fun _ _ => rfl, fun _ _ => rfl, fun _ _ => rfl,
    fun _ _ => rfl, fun _ _ => rfl⟩

theorem helium_perfect' : PerfectGas (IdealGas.helium : IdealGas ℝ).toFluid 2077.23 5193.17 (-(5193.17 * 250))
    (-(5193.17 * 250) + 2077.23 * 250) := by
  have := helium_perfect
  rwa [show (-((5193.17 - 2077.23) * 250) : ℝ) = -(5193.17 * 250) + 2077.23 * 250 by norm_num] at this

/-- C85 applies to the cycle of the gas: Clausius and Carnot, with heat received and work done. -/
example : workOf (run 0 gas) (y 0) 0 4 ≤ (1 - 300 / 600) * ∫ t in (0 : ℝ)..4, (sol 0 t).Q_dot_l := by
  have hg := gas_perfect
  have hg' : PerfectGas gas 2077.23 5193.17 (-(5193.17 * 250)) (-(5193.17 * 250) + 0) := by rwa [add_zero]
  exact C85_carnot hg exact_sound (norm_ne hg') (closed le_rfl (by norm_num) hg') (by show (0 : ℝ) < 300; norm_num)
    (by show (300 : ℝ) ≤ 600; norm_num) (le_refl (300 : ℝ)) (regen_zero le_rfl (by norm_num) hg') ⟨rfl, rfl⟩

example : 0 < workOf (run 0 gas) (y 0) 0 4 ∧ 0 < ∫ t in (0 : ℝ)..4, (sol 0 t).Q_dot_l := by
  have hg' : PerfectGas gas 2077.23 5193.17 (-(5193.17 * 250)) (-(5193.17 * 250) + 0) := by rw [add_zero]; exact gas_perfect
  rw [heat_in, work le_rfl (by norm_num) hg']
  simp only [τ]
  norm_num

/-- Half way through the first transfer gas is pushed out at constant pressure. -/
example : 99 * ((sol (2077.23 * 250) (3 / 2)).m_dot_ck
    / compGas (run (2077.23 * 250) (IdealGas.helium : IdealGas ℝ).toFluid) (y (2077.23 * 250)) (3 / 2))
    < (sol (2077.23 * 250) (3 / 2)).dTc_dt := by
  have hw : (0 : ℝ) ≤ 2077.23 * 250 := by norm_num
  have hg := helium_perfect'
  have hc : clock (3 / 2) = 3 / 2 := clock_of (by norm_num) (by norm_num)
  have hT : 0 < Tc (2077.23 * 250) (3 / 2) := by linarith [Tc_ge hw le_rfl (3 / 2)]
  refine C85_expelled_helium rfl exact_sound (norm_ne hg) (follows hw le_rfl hg (3 / 2) hc) hT ?_ ?_ rfl ?_
  · have hv : (run (2077.23 * 250) (IdealGas.helium : IdealGas ℝ).toFluid).ws_vol_fn (3 / 2) = volumes (2077.23 * 250) (3 / 2) := by
      show volumes _ (clock (3 / 2)) = _
      rw [hc]
    have hf : (run (2077.23 * 250) (IdealGas.helium : IdealGas ℝ).toFluid).fluid = (IdealGas.helium : IdealGas ℝ).toFluid := rfl
    have h1 := pres_pos (3 / 2)
    have h2 := a_pos (3 / 2)
    simp only [compGas, hv, hf, hg.dens, volumes, y]
    positivity
  · have h1 : d1 (3 / 2) = 0 := speed_hi (by norm_num)
    have h3 : d3 (3 / 2) = 0 := speed_lo (by norm_num)
    simp only [sol, dP, h1, h3]
    ring
  · have h2 : d2 (3 / 2) = 3 / 2 := by
      unfold d2 speed
      rw [clamp_mid (by norm_num) (by norm_num)]
      norm_num
    have h4 : d4 (3 / 2) = 0 := speed_lo (by norm_num)
    simp only [sol, h2, h4]
    norm_num

end Sett.SecondLawExample

namespace Sett

open Spec state_equations SecondLawExample BalanceExample

/-- **C85**, the crate's helium: an engine with a periodic drive, a sink at 300 K and a source at 600 K, no losses of
heat and a regenerator that gives back what it takes up, and a closed motion of its gas over one period that turns more
of the heat received into work than Carnot's part. -/
theorem C85_carnot_false : ∃ (c : Components ℝ) (st : State ℝ) (U : MatrixDecomposition ℝ) (y : ℝ → Conditions ℝ)
    (s : ℝ → Solution ℝ),
    Sound U ∧ Complete U ∧ st.fluid = (IdealGas.helium : IdealGas ℝ).toFluid ∧ ExactDrive c.ws
    ∧ (∀ t, c.ws.volumes ⟨st.pres⟩ (t + 1 / c.ws.frequency ⟨st.pres⟩) = c.ws.volumes ⟨st.pres⟩ t)
    ∧ st.temp.sink = 300 ∧ st.temp.source = 600
    ∧ st.temp.chx = 300 ∧ st.temp.regen.cold = 300 ∧ st.temp.regen.hot = 600 ∧ st.temp.hhx = 600
    ∧ (c.ws.parasitics ⟨st.pres⟩).comp.thermal = 0 ∧ (c.ws.parasitics ⟨st.pres⟩).exp.thermal = 0
    ∧ ClosedCycle (Run.new U c st) y s 0 (1 / c.ws.frequency ⟨st.pres⟩)
    ∧ (∫ t in (0 : ℝ)..1 / c.ws.frequency ⟨st.pres⟩, (s t).Q_dot_r) = 0
    ∧ 0 < ∫ t in (0 : ℝ)..1 / c.ws.frequency ⟨st.pres⟩, (s t).Q_dot_l
    ∧ (1 - 300 / 600) * (∫ t in (0 : ℝ)..1 / c.ws.frequency ⟨st.pres⟩, (s t).Q_dot_l)
      < workOf (Run.new U c st) y 0 (1 / c.ws.frequency ⟨st.pres⟩) := by
  have hw : (0 : ℝ) ≤ 2077.23 * 250 := by norm_num
  have hg := helium_perfect'
  have e : (1 : ℝ) / (components (2077.23 * 250)).ws.frequency ⟨(state (IdealGas.helium : IdealGas ℝ).toFluid).pres⟩ = 4 := by
    show (1 : ℝ) / (1 / 4) = 4; norm_num
  refine ⟨components (2077.23 * 250), state (IdealGas.helium : IdealGas ℝ).toFluid, exact, y (2077.23 * 250), sol (2077.23 * 250), exact_sound,
    TrajectoryExample.exact_complete, rfl, exact_drive _, drive_periodic _ _, rfl, rfl, rfl, rfl, rfl, rfl, rfl, rfl, ?_⟩
  rw [e]
  refine ⟨closed hw le_rfl hg, regen_zero hw le_rfl hg, ?_, ?_⟩
  · rw [heat_in]; simp only [τ]; norm_num
  · have := work hw le_rfl hg
    unfold SecondLawExample.run at this
    rw [this, heat_in]
    simp only [τ]
    norm_num

end Sett
