import Verif.Props.SecondLawExample

/-! # C85: a closed cycle that does work although everything around it is at one temperature

The construction of `SecondLawExample` with eight phases.  Gas is pushed from one space to the other in two portions, the second at
a lower pressure than the first, and then back in the same way. -/

namespace Sett.Perpetual

open Spec state_equations BalanceExample TrajectoryExample Set
open SecondLawExample (clamp speed ramp speed_continuous speed_nonneg speed_lo speed_hi ramp_deriv ramp_lo ramp_hi ramp_bounds
  clock clock_of clock_add repeated_deriv repeated_continuous g exp_g g_nonneg helium_perfect')

theorem step_deriv (c t : ℝ) : HasDerivAt (fun t => ramp (2 * t - c)) (2 * speed (2 * t - c)) t :=
 by
  have h1 : HasDerivAt (fun t : ℝ => 2 * t - c) (2 * 1) t := ((hasDerivAt_id t).const_mul 2).sub_const c
  have h2 : HasDerivAt (ramp ∘ fun t => 2 * t - c) (speed (2 * t - c) * (2 * 1)) t := HasDerivAt.comp (h₂ := ramp) t (ramp_deriv (2 * t - c)) h1
  exact h2.congr_deriv (by ring)
theorem step_continuous (c : ℝ) : Continuous fun t => 2 * speed (2 * t - c) := by
  have := speed_continuous
  fun_prop
theorem e_lo {u : ℝ} (h : u ≤ 0) : 2 * speed u = 0 := by rw [speed_lo h, mul_zero]
theorem e_hi {u : ℝ} (h : 1 ≤ u) : 2 * speed u = 0 := by rw [speed_hi h, mul_zero]

noncomputable def x1 (t : ℝ) : ℝ := ramp (2 * t - 0)
noncomputable def d1 (t : ℝ) : ℝ := 2 * speed (2 * t - 0)
noncomputable def x2 (t : ℝ) : ℝ := ramp (2 * t - 1)
noncomputable def d2 (t : ℝ) : ℝ := 2 * speed (2 * t - 1)
noncomputable def x3 (t : ℝ) : ℝ := ramp (2 * t - 2)
noncomputable def d3 (t : ℝ) : ℝ := 2 * speed (2 * t - 2)
noncomputable def x4 (t : ℝ) : ℝ := ramp (2 * t - 3)
noncomputable def d4 (t : ℝ) : ℝ := 2 * speed (2 * t - 3)
noncomputable def x5 (t : ℝ) : ℝ := ramp (2 * t - 4)
noncomputable def d5 (t : ℝ) : ℝ := 2 * speed (2 * t - 4)
noncomputable def x6 (t : ℝ) : ℝ := ramp (2 * t - 5)
noncomputable def d6 (t : ℝ) : ℝ := 2 * speed (2 * t - 5)
noncomputable def x7 (t : ℝ) : ℝ := ramp (2 * t - 6)
noncomputable def d7 (t : ℝ) : ℝ := 2 * speed (2 * t - 6)
noncomputable def x8 (t : ℝ) : ℝ := ramp (2 * t - 7)
noncomputable def d8 (t : ℝ) : ℝ := 2 * speed (2 * t - 7)
theorem x1_deriv (t : ℝ) : HasDerivAt x1 (d1 t) t := step_deriv 0 t
theorem x2_deriv (t : ℝ) : HasDerivAt x2 (d2 t) t := step_deriv 1 t
theorem x3_deriv (t : ℝ) : HasDerivAt x3 (d3 t) t := step_deriv 2 t
theorem x4_deriv (t : ℝ) : HasDerivAt x4 (d4 t) t := step_deriv 3 t
theorem x5_deriv (t : ℝ) : HasDerivAt x5 (d5 t) t := step_deriv 4 t
theorem x6_deriv (t : ℝ) : HasDerivAt x6 (d6 t) t := step_deriv 5 t
theorem x7_deriv (t : ℝ) : HasDerivAt x7 (d7 t) t := step_deriv 6 t
theorem x8_deriv (t : ℝ) : HasDerivAt x8 (d8 t) t := step_deriv 7 t
theorem d1_continuous : Continuous d1 := step_continuous 0
theorem d2_continuous : Continuous d2 := step_continuous 1
theorem d3_continuous : Continuous d3 := step_continuous 2
theorem d4_continuous : Continuous d4 := step_continuous 3
theorem d5_continuous : Continuous d5 := step_continuous 4
theorem d6_continuous : Continuous d6 := step_continuous 5
theorem d7_continuous : Continuous d7 := step_continuous 6
theorem d8_continuous : Continuous d8 := step_continuous 7
theorem x1_mem (t : ℝ) : 0 ≤ x1 t ∧ x1 t ≤ 1 := ramp_bounds _
theorem x2_mem (t : ℝ) : 0 ≤ x2 t ∧ x2 t ≤ 1 := ramp_bounds _
theorem x3_mem (t : ℝ) : 0 ≤ x3 t ∧ x3 t ≤ 1 := ramp_bounds _
theorem x4_mem (t : ℝ) : 0 ≤ x4 t ∧ x4 t ≤ 1 := ramp_bounds _
theorem x5_mem (t : ℝ) : 0 ≤ x5 t ∧ x5 t ≤ 1 := ramp_bounds _
theorem x6_mem (t : ℝ) : 0 ≤ x6 t ∧ x6 t ≤ 1 := ramp_bounds _
theorem x7_mem (t : ℝ) : 0 ≤ x7 t ∧ x7 t ≤ 1 := ramp_bounds _
theorem x8_mem (t : ℝ) : 0 ≤ x8 t ∧ x8 t ≤ 1 := ramp_bounds _

/-- Only one phase is active at a time. -/
theorem phase (t : ℝ) :
    (x2 t = 0 ∧ d2 t = 0 ∧ x3 t = 0 ∧ d3 t = 0 ∧ x4 t = 0 ∧ d4 t = 0 ∧ x5 t = 0 ∧ d5 t = 0 ∧ x6 t = 0 ∧ d6 t = 0 ∧ x7 t = 0 ∧ d7 t = 0 ∧ x8 t = 0 ∧ d8 t = 0) ∨
    (x1 t = 1 ∧ d1 t = 0 ∧ x3 t = 0 ∧ d3 t = 0 ∧ x4 t = 0 ∧ d4 t = 0 ∧ x5 t = 0 ∧ d5 t = 0 ∧ x6 t = 0 ∧ d6 t = 0 ∧ x7 t = 0 ∧ d7 t = 0 ∧ x8 t = 0 ∧ d8 t = 0) ∨
    (x1 t = 1 ∧ d1 t = 0 ∧ x2 t = 1 ∧ d2 t = 0 ∧ x4 t = 0 ∧ d4 t = 0 ∧ x5 t = 0 ∧ d5 t = 0 ∧ x6 t = 0 ∧ d6 t = 0 ∧ x7 t = 0 ∧ d7 t = 0 ∧ x8 t = 0 ∧ d8 t = 0) ∨
    (x1 t = 1 ∧ d1 t = 0 ∧ x2 t = 1 ∧ d2 t = 0 ∧ x3 t = 1 ∧ d3 t = 0 ∧ x5 t = 0 ∧ d5 t = 0 ∧ x6 t = 0 ∧ d6 t = 0 ∧ x7 t = 0 ∧ d7 t = 0 ∧ x8 t = 0 ∧ d8 t = 0) ∨
    (x1 t = 1 ∧ d1 t = 0 ∧ x2 t = 1 ∧ d2 t = 0 ∧ x3 t = 1 ∧ d3 t = 0 ∧ x4 t = 1 ∧ d4 t = 0 ∧ x6 t = 0 ∧ d6 t = 0 ∧ x7 t = 0 ∧ d7 t = 0 ∧ x8 t = 0 ∧ d8 t = 0) ∨
    (x1 t = 1 ∧ d1 t = 0 ∧ x2 t = 1 ∧ d2 t = 0 ∧ x3 t = 1 ∧ d3 t = 0 ∧ x4 t = 1 ∧ d4 t = 0 ∧ x5 t = 1 ∧ d5 t = 0 ∧ x7 t = 0 ∧ d7 t = 0 ∧ x8 t = 0 ∧ d8 t = 0) ∨
    (x1 t = 1 ∧ d1 t = 0 ∧ x2 t = 1 ∧ d2 t = 0 ∧ x3 t = 1 ∧ d3 t = 0 ∧ x4 t = 1 ∧ d4 t = 0 ∧ x5 t = 1 ∧ d5 t = 0 ∧ x6 t = 1 ∧ d6 t = 0 ∧ x8 t = 0 ∧ d8 t = 0) ∨
    (x1 t = 1 ∧ d1 t = 0 ∧ x2 t = 1 ∧ d2 t = 0 ∧ x3 t = 1 ∧ d3 t = 0 ∧ x4 t = 1 ∧ d4 t = 0 ∧ x5 t = 1 ∧ d5 t = 0 ∧ x6 t = 1 ∧ d6 t = 0 ∧ x7 t = 1 ∧ d7 t = 0) := by
  rcases le_total t (1 / 2) with g1 | g1
  · exact .inl ⟨ramp_lo (by linarith), e_lo (by linarith), ramp_lo (by linarith), e_lo (by linarith), ramp_lo (by linarith), e_lo (by linarith), ramp_lo (by linarith), e_lo (by linarith), ramp_lo (by linarith), e_lo (by linarith), ramp_lo (by linarith), e_lo (by linarith), ramp_lo (by linarith), e_lo (by linarith)⟩
  rcases le_total t (2 / 2) with g2 | g2
  · exact .inr (.inl ⟨ramp_hi (by linarith), e_hi (by linarith), ramp_lo (by linarith), e_lo (by linarith), ramp_lo (by linarith), e_lo (by linarith), ramp_lo (by linarith), e_lo (by linarith), ramp_lo (by linarith), e_lo (by linarith), ramp_lo (by linarith), e_lo (by linarith), ramp_lo (by linarith), e_lo (by linarith)⟩)
  rcases le_total t (3 / 2) with g3 | g3
  · exact .inr (.inr (.inl ⟨ramp_hi (by linarith), e_hi (by linarith), ramp_hi (by linarith), e_hi (by linarith), ramp_lo (by linarith), e_lo (by linarith), ramp_lo (by linarith), e_lo (by linarith), ramp_lo (by linarith), e_lo (by linarith), ramp_lo (by linarith), e_lo (by linarith), ramp_lo (by linarith), e_lo (by linarith)⟩))
  rcases le_total t (4 / 2) with g4 | g4
  · exact .inr (.inr (.inr (.inl ⟨ramp_hi (by linarith), e_hi (by linarith), ramp_hi (by linarith), e_hi (by linarith), ramp_hi (by linarith), e_hi (by linarith), ramp_lo (by linarith), e_lo (by linarith), ramp_lo (by linarith), e_lo (by linarith), ramp_lo (by linarith), e_lo (by linarith), ramp_lo (by linarith), e_lo (by linarith)⟩)))
  rcases le_total t (5 / 2) with g5 | g5
  · exact .inr (.inr (.inr (.inr (.inl ⟨ramp_hi (by linarith), e_hi (by linarith), ramp_hi (by linarith), e_hi (by linarith), ramp_hi (by linarith), e_hi (by linarith), ramp_hi (by linarith), e_hi (by linarith), ramp_lo (by linarith), e_lo (by linarith), ramp_lo (by linarith), e_lo (by linarith), ramp_lo (by linarith), e_lo (by linarith)⟩))))
  rcases le_total t (6 / 2) with g6 | g6
  · exact .inr (.inr (.inr (.inr (.inr (.inl ⟨ramp_hi (by linarith), e_hi (by linarith), ramp_hi (by linarith), e_hi (by linarith), ramp_hi (by linarith), e_hi (by linarith), ramp_hi (by linarith), e_hi (by linarith), ramp_hi (by linarith), e_hi (by linarith), ramp_lo (by linarith), e_lo (by linarith), ramp_lo (by linarith), e_lo (by linarith)⟩)))))
  rcases le_total t (7 / 2) with g7 | g7
  · exact .inr (.inr (.inr (.inr (.inr (.inr (.inl ⟨ramp_hi (by linarith), e_hi (by linarith), ramp_hi (by linarith), e_hi (by linarith), ramp_hi (by linarith), e_hi (by linarith), ramp_hi (by linarith), e_hi (by linarith), ramp_hi (by linarith), e_hi (by linarith), ramp_hi (by linarith), e_hi (by linarith), ramp_lo (by linarith), e_lo (by linarith)⟩))))))
  exact .inr (.inr (.inr (.inr (.inr (.inr (.inr (⟨ramp_hi (by linarith), e_hi (by linarith), ramp_hi (by linarith), e_hi (by linarith), ramp_hi (by linarith), e_hi (by linarith), ramp_hi (by linarith), e_hi (by linarith), ramp_hi (by linarith), e_hi (by linarith), ramp_hi (by linarith), e_hi (by linarith), ramp_hi (by linarith), e_hi (by linarith)⟩)))))))

/-! ## The motion -/

/-- `w / cp` for helium. -/
noncomputable def τ : ℝ := 2077.23 * 250 / 5193.17
/-- The temperature as which gas enters from an exchanger at 300 K. -/
noncomputable def θ : ℝ := 300 - τ
noncomputable def l3 : ℝ := Real.log 3
noncomputable def l2 : ℝ := Real.log 2
noncomputable def L : ℝ := τ * (l3 - l2) + 1.1 * τ * l2
noncomputable def A : ℝ := (L + 2.1 * θ) / 2
noncomputable def B : ℝ := 1.05 * θ + 1.5 * L

/-- `T / P ^ (R / cp)` of the two spaces. -/
noncomputable def φc (t : ℝ) : ℝ :=
  (A + τ * (l3 - Real.log (3 - x1 t)) + 1.1 * τ * (l2 - Real.log (2 - x3 t)) + θ * x5 t + 1.1 * θ * x7 t) / (1 + x5 t + x7 t)
noncomputable def φe (t : ℝ) : ℝ :=
  (B + θ * x1 t + 1.1 * θ * x3 t) / (1 + x1 t + x3 t) + τ * (l3 - Real.log (3 - x5 t)) + 1.1 * τ * (l2 - Real.log (2 - x7 t))

noncomputable def fall (t : ℝ) : ℝ := x2 t - x4 t + x6 t - x8 t
noncomputable def dfall (t : ℝ) : ℝ := d2 t - d4 t + d6 t - d8 t
noncomputable def q (t : ℝ) : ℝ := Real.exp (-(g * fall t))
noncomputable def pres (t : ℝ) : ℝ := 1000000 * Real.exp (-(g * (5193.17 / 2077.23) * fall t))
noncomputable def Tc (t : ℝ) : ℝ := φc t * q t
noncomputable def Te (t : ℝ) : ℝ := φe t * q t

/-- Gas in the two spaces. -/
noncomputable def a (t : ℝ) : ℝ := 3 - x1 t - x3 t + x5 t + x7 t
noncomputable def b (t : ℝ) : ℝ := 1 + x1 t + x3 t - x5 t - x7 t

noncomputable def dP (t : ℝ) : ℝ := -(g * (5193.17 / 2077.23) * dfall t) * pres t
noncomputable def dTc (t : ℝ) : ℝ := -(g * dfall t) * Tc t + τ * (d1 t + d3 t) / a t + (d5 t + d7 t) * (θ - Tc t) / a t
noncomputable def dTe (t : ℝ) : ℝ := -(g * dfall t) * Te t + (d1 t + d3 t) * (θ - Te t) / b t + τ * (d5 t + d7 t) / b t

theorem fall_deriv (t : ℝ) : HasDerivAt fall (dfall t) t := (((x2_deriv t).sub (x4_deriv t)).add (x6_deriv t)).sub (x8_deriv t)
theorem q_deriv (t : ℝ) : HasDerivAt q (-(g * dfall t) * q t) t :=
  (((fall_deriv t).const_mul g).fun_neg.exp).congr_deriv (by unfold q; ring)
theorem pres_pos (t : ℝ) : 0 < pres t := by unfold pres; positivity
theorem q_pos (t : ℝ) : 0 < q t := Real.exp_pos _
theorem pres_deriv (t : ℝ) : HasDerivAt pres (dP t) t :=
  ((((fall_deriv t).const_mul (g * (5193.17 / 2077.23))).fun_neg.exp).const_mul 1000000).congr_deriv (by unfold dP pres; ring)
theorem a_deriv (t : ℝ) : HasDerivAt a (-(d1 t) - d3 t + d5 t + d7 t) t :=
  ((((x1_deriv t).const_sub 3).sub (x3_deriv t)).add (x5_deriv t)).add (x7_deriv t)
theorem b_deriv (t : ℝ) : HasDerivAt b (d1 t + d3 t - d5 t - d7 t) t :=
  ((((x1_deriv t).const_add 1).add (x3_deriv t)).sub (x5_deriv t)).sub (x7_deriv t)

theorem a_pos (t : ℝ) : 0 < a t := by
  have := x1_mem t; have := x3_mem t; have := x5_mem t; have := x7_mem t; unfold a; linarith
theorem b_pos (t : ℝ) : 0 < b t := by
  have m1 := x1_mem t; have m3 := x3_mem t; have m5 := x5_mem t; have m7 := x7_mem t
  unfold b
  rcases phase t with ⟨h2, e2, h3, e3, h4, e4, h5, e5, h6, e6, h7, e7, h8, e8⟩ | ⟨h1, e1, h3, e3, h4, e4, h5, e5, h6, e6, h7, e7, h8, e8⟩ | ⟨h1, e1, h2, e2, h4, e4, h5, e5, h6, e6, h7, e7, h8, e8⟩ | ⟨h1, e1, h2, e2, h3, e3, h5, e5, h6, e6, h7, e7, h8, e8⟩ | ⟨h1, e1, h2, e2, h3, e3, h4, e4, h6, e6, h7, e7, h8, e8⟩ | ⟨h1, e1, h2, e2, h3, e3, h4, e4, h5, e5, h7, e7, h8, e8⟩ | ⟨h1, e1, h2, e2, h3, e3, h4, e4, h5, e5, h6, e6, h8, e8⟩ | ⟨h1, e1, h2, e2, h3, e3, h4, e4, h5, e5, h6, e6, h7, e7⟩ <;>
    simp only [*] <;> linarith

theorem q_one {t : ℝ} (h : fall t = 0) : q t = 1 := by unfold q; rw [h]; simp
theorem q_low {t : ℝ} (h : fall t = 1) : q t = 1 / 1.1 := by
  unfold q; rw [h, mul_one, Real.exp_neg, exp_g, one_div]

theorem Tc_deriv (t : ℝ) : HasDerivAt Tc (dTc t) t := by
  have m1 := x1_mem t; have m3 := x3_mem t; have m5 := x5_mem t; have m7 := x7_mem t
  have p1 : 3 - x1 t ≠ 0 := by linarith
  have p3 : 2 - x3 t ≠ 0 := by linarith
  have pq : 1 + x5 t + x7 t ≠ 0 := by linarith
  have E1 := ((((x1_deriv t).const_sub 3).log p1).const_sub l3).const_mul τ
  have E3 := ((((x3_deriv t).const_sub 2).log p3).const_sub l2).const_mul (1.1 * τ)
  have D := (((((E1.const_add A).fun_add E3).fun_add ((x5_deriv t).const_mul θ)).fun_add ((x7_deriv t).const_mul (1.1 * θ))).fun_div
    (((x5_deriv t).const_add 1).fun_add (x7_deriv t)) pq).fun_mul (q_deriv t)
  refine D.congr_deriv ?_
  simp only [dTc, Tc, φc, a, dfall]
  rcases phase t with ⟨h2, e2, h3, e3, h4, e4, h5, e5, h6, e6, h7, e7, h8, e8⟩ | ⟨h1, e1, h3, e3, h4, e4, h5, e5, h6, e6, h7, e7, h8, e8⟩ | ⟨h1, e1, h2, e2, h4, e4, h5, e5, h6, e6, h7, e7, h8, e8⟩ | ⟨h1, e1, h2, e2, h3, e3, h5, e5, h6, e6, h7, e7, h8, e8⟩ | ⟨h1, e1, h2, e2, h3, e3, h4, e4, h6, e6, h7, e7, h8, e8⟩ | ⟨h1, e1, h2, e2, h3, e3, h4, e4, h5, e5, h7, e7, h8, e8⟩ | ⟨h1, e1, h2, e2, h3, e3, h4, e4, h5, e5, h6, e6, h8, e8⟩ | ⟨h1, e1, h2, e2, h3, e3, h4, e4, h5, e5, h6, e6, h7, e7⟩
  · have hden : a t ≠ 0 := (a_pos t).ne'
    have hq : q t = 1 := q_one (by unfold fall; simp only [h2, h4, h6, h8]; norm_num)
    simp only [a, h2, h3, h4, h5, h6, h7, h8] at hden
    try simp only [h2, h3, h4, h5, h6, h7, h8] at p1
    simp only [h2, e2, h3, e3, h4, e4, h5, e5, h6, e6, h7, e7, h8, e8, hq, l3, l2]
    norm_num at hden p1 ⊢
    try field_simp
    try ring
  · simp only [h1, e1, h3, e3, h4, e4, h5, e5, h6, e6, h7, e7, h8, e8]; ring
  · have hden : a t ≠ 0 := (a_pos t).ne'
    have hq : q t = 1 / 1.1 := q_low (by unfold fall; simp only [h2, h4, h6, h8]; norm_num)
    simp only [a, h1, h2, h4, h5, h6, h7, h8] at hden
    try simp only [h1, h2, h4, h5, h6, h7, h8] at p3
    simp only [h1, e1, h2, e2, h4, e4, h5, e5, h6, e6, h7, e7, h8, e8, hq, l3, l2]
    norm_num at hden p3 ⊢
    try field_simp
    try ring
  · simp only [h1, e1, h2, e2, h3, e3, h5, e5, h6, e6, h7, e7, h8, e8]; ring
  · have hden : a t ≠ 0 := (a_pos t).ne'
    have hq : q t = 1 := q_one (by unfold fall; simp only [h2, h4, h6, h8]; norm_num)
    simp only [a, h1, h2, h3, h4, h6, h7, h8] at hden
    try simp only [h1, h2, h3, h4, h6, h7, h8] at pq
    simp only [h1, e1, h2, e2, h3, e3, h4, e4, h6, e6, h7, e7, h8, e8, hq, l3, l2]
    norm_num at hden pq ⊢
    try field_simp
    try ring
  · simp only [h1, e1, h2, e2, h3, e3, h4, e4, h5, e5, h7, e7, h8, e8]; ring
  · have hden : a t ≠ 0 := (a_pos t).ne'
    have hq : q t = 1 / 1.1 := q_low (by unfold fall; simp only [h2, h4, h6, h8]; norm_num)
    simp only [a, h1, h2, h3, h4, h5, h6, h8] at hden
    try simp only [h1, h2, h3, h4, h5, h6, h8] at pq
    simp only [h1, e1, h2, e2, h3, e3, h4, e4, h5, e5, h6, e6, h8, e8, hq, l3, l2]
    norm_num at hden pq ⊢
    try field_simp
    try ring
  · simp only [h1, e1, h2, e2, h3, e3, h4, e4, h5, e5, h6, e6, h7, e7]; ring

theorem Te_deriv (t : ℝ) : HasDerivAt Te (dTe t) t := by
  have m1 := x1_mem t; have m3 := x3_mem t; have m5 := x5_mem t; have m7 := x7_mem t
  have p5 : 3 - x5 t ≠ 0 := by linarith
  have p7 : 2 - x7 t ≠ 0 := by linarith
  have pq : 1 + x1 t + x3 t ≠ 0 := by linarith
  have E5 := ((((x5_deriv t).const_sub 3).log p5).const_sub l3).const_mul τ
  have E7 := ((((x7_deriv t).const_sub 2).log p7).const_sub l2).const_mul (1.1 * τ)
  have D := (((((((x1_deriv t).const_mul θ).const_add B).fun_add ((x3_deriv t).const_mul (1.1 * θ))).fun_div
    (((x1_deriv t).const_add 1).fun_add (x3_deriv t)) pq).fun_add E5).fun_add E7).fun_mul (q_deriv t)
  refine D.congr_deriv ?_
  simp only [dTe, Te, φe, b, dfall]
  rcases phase t with ⟨h2, e2, h3, e3, h4, e4, h5, e5, h6, e6, h7, e7, h8, e8⟩ | ⟨h1, e1, h3, e3, h4, e4, h5, e5, h6, e6, h7, e7, h8, e8⟩ | ⟨h1, e1, h2, e2, h4, e4, h5, e5, h6, e6, h7, e7, h8, e8⟩ | ⟨h1, e1, h2, e2, h3, e3, h5, e5, h6, e6, h7, e7, h8, e8⟩ | ⟨h1, e1, h2, e2, h3, e3, h4, e4, h6, e6, h7, e7, h8, e8⟩ | ⟨h1, e1, h2, e2, h3, e3, h4, e4, h5, e5, h7, e7, h8, e8⟩ | ⟨h1, e1, h2, e2, h3, e3, h4, e4, h5, e5, h6, e6, h8, e8⟩ | ⟨h1, e1, h2, e2, h3, e3, h4, e4, h5, e5, h6, e6, h7, e7⟩
  · have hden : b t ≠ 0 := (b_pos t).ne'
    have hq : q t = 1 := q_one (by unfold fall; simp only [h2, h4, h6, h8]; norm_num)
    simp only [b, h2, h3, h4, h5, h6, h7, h8] at hden
    try simp only [h2, h3, h4, h5, h6, h7, h8] at pq
    simp only [h2, e2, h3, e3, h4, e4, h5, e5, h6, e6, h7, e7, h8, e8, hq, l3, l2]
    norm_num at hden pq ⊢
    try field_simp
    try ring
  · simp only [h1, e1, h3, e3, h4, e4, h5, e5, h6, e6, h7, e7, h8, e8]; ring
  · have hden : b t ≠ 0 := (b_pos t).ne'
    have hq : q t = 1 / 1.1 := q_low (by unfold fall; simp only [h2, h4, h6, h8]; norm_num)
    simp only [b, h1, h2, h4, h5, h6, h7, h8] at hden
    try simp only [h1, h2, h4, h5, h6, h7, h8] at pq
    simp only [h1, e1, h2, e2, h4, e4, h5, e5, h6, e6, h7, e7, h8, e8, hq, l3, l2]
    norm_num at hden pq ⊢
    try field_simp
    try ring
  · simp only [h1, e1, h2, e2, h3, e3, h5, e5, h6, e6, h7, e7, h8, e8]; ring
  · have hden : b t ≠ 0 := (b_pos t).ne'
    have hq : q t = 1 := q_one (by unfold fall; simp only [h2, h4, h6, h8]; norm_num)
    simp only [b, h1, h2, h3, h4, h6, h7, h8] at hden
    try simp only [h1, h2, h3, h4, h6, h7, h8] at p5
    simp only [h1, e1, h2, e2, h3, e3, h4, e4, h6, e6, h7, e7, h8, e8, hq, l3, l2]
    norm_num at hden p5 ⊢
    try field_simp
    try ring
  · simp only [h1, e1, h2, e2, h3, e3, h4, e4, h5, e5, h7, e7, h8, e8]; ring
  · have hden : b t ≠ 0 := (b_pos t).ne'
    have hq : q t = 1 / 1.1 := q_low (by unfold fall; simp only [h2, h4, h6, h8]; norm_num)
    simp only [b, h1, h2, h3, h4, h5, h6, h8] at hden
    try simp only [h1, h2, h3, h4, h5, h6, h8] at p7
    simp only [h1, e1, h2, e2, h3, e3, h4, e4, h5, e5, h6, e6, h8, e8, hq, l3, l2]
    norm_num at hden p7 ⊢
    try field_simp
    try ring
  · simp only [h1, e1, h2, e2, h3, e3, h4, e4, h5, e5, h6, e6, h7, e7]; ring

end Sett.Perpetual
