import Verif.Props.Perpetual
import Mathlib.Analysis.Complex.ExponentialBounds

/-! # C85: the cycle of `Perpetual` is one of the crate's helium, and it does work -/

namespace Sett.Perpetual

open Spec state_equations BalanceExample TrajectoryExample Set
open SecondLawExample (clamp speed ramp speed_continuous speed_nonneg speed_lo speed_hi ramp_deriv ramp_lo ramp_hi ramp_bounds
  clock clock_of clock_add repeated_deriv repeated_continuous g exp_g g_nonneg helium_perfect')

theorem τ_bounds : 0 ≤ τ ∧ τ ≤ 100 := by unfold τ; norm_num
theorem θ_ge : 200 ≤ θ := by unfold θ; linarith [τ_bounds.2]
theorem l2_nonneg : 0 ≤ l2 := Real.log_nonneg (by norm_num)
theorem l3_ge : l2 ≤ l3 := Real.log_le_log (by norm_num) (by norm_num)
theorem L_nonneg : 0 ≤ L := by
  have h1 := mul_nonneg τ_bounds.1 (sub_nonneg.2 l3_ge)
  have h2 := mul_nonneg τ_bounds.1 l2_nonneg
  unfold L; linarith

theorem out3 {x : ℝ} (h : 0 ≤ x ∧ x ≤ 1) : 0 ≤ τ * (l3 - Real.log (3 - x)) :=
  mul_nonneg τ_bounds.1 (sub_nonneg.2 (Real.log_le_log (by linarith) (by linarith)))
theorem out2 {x : ℝ} (h : 0 ≤ x ∧ x ≤ 1) : 0 ≤ 1.1 * τ * (l2 - Real.log (2 - x)) :=
  mul_nonneg (mul_nonneg (by norm_num) τ_bounds.1) (sub_nonneg.2 (Real.log_le_log (by linarith) (by linarith)))

theorem fall_le (t : ℝ) : fall t ≤ 1 := by
  have m2 := ramp_bounds (2 * t - 1); have m4 := ramp_bounds (2 * t - 3); have m6 := ramp_bounds (2 * t - 5); have m8 := ramp_bounds (2 * t - 7)
  change 0 ≤ x2 t ∧ x2 t ≤ 1 at m2; change 0 ≤ x4 t ∧ x4 t ≤ 1 at m4; change 0 ≤ x6 t ∧ x6 t ≤ 1 at m6; change 0 ≤ x8 t ∧ x8 t ≤ 1 at m8
  unfold fall
  rcases phase t with ⟨h2, e2, h3, e3, h4, e4, h5, e5, h6, e6, h7, e7, h8, e8⟩ | ⟨h1, e1, h3, e3, h4, e4, h5, e5, h6, e6, h7, e7, h8, e8⟩ | ⟨h1, e1, h2, e2, h4, e4, h5, e5, h6, e6, h7, e7, h8, e8⟩ | ⟨h1, e1, h2, e2, h3, e3, h5, e5, h6, e6, h7, e7, h8, e8⟩ | ⟨h1, e1, h2, e2, h3, e3, h4, e4, h6, e6, h7, e7, h8, e8⟩ | ⟨h1, e1, h2, e2, h3, e3, h4, e4, h5, e5, h7, e7, h8, e8⟩ | ⟨h1, e1, h2, e2, h3, e3, h4, e4, h5, e5, h6, e6, h8, e8⟩ | ⟨h1, e1, h2, e2, h3, e3, h4, e4, h5, e5, h6, e6, h7, e7⟩ <;>
    simp only [*] <;> linarith

theorem q_ge (t : ℝ) : 1 / 1.1 ≤ q t := by
  unfold q
  rw [Real.exp_neg, ← one_div]
  refine one_div_le_one_div_of_le (Real.exp_pos _) ?_
  rw [← exp_g]
  exact Real.exp_le_exp.2 (mul_le_of_le_one_right g_nonneg (fall_le t))

theorem φc_ge (t : ℝ) : θ ≤ φc t := by
  have m1 := x1_mem t; have m3 := x3_mem t; have m5 := x5_mem t; have m7 := x7_mem t
  have h1 := out3 m1; have h3 := out2 m3; have hθ := θ_ge; have hL := L_nonneg
  have h7 := mul_nonneg (by linarith : 0 ≤ θ) m7.1
  have hA : θ ≤ A := by unfold A; linarith
  unfold φc
  rw [le_div_iff₀ (by linarith)]
  linarith

theorem φe_ge (t : ℝ) : θ ≤ φe t := by
  have m1 := x1_mem t; have m3 := x3_mem t; have m5 := x5_mem t; have m7 := x7_mem t
  have h1 := out3 m5; have h3 := out2 m7; have hθ := θ_ge; have hL := L_nonneg
  have h7 := mul_nonneg (by linarith : 0 ≤ θ) m3.1
  have hB : θ ≤ B := by unfold B; linarith
  have : θ ≤ (B + θ * x1 t + 1.1 * θ * x3 t) / (1 + x1 t + x3 t) := by
    rw [le_div_iff₀ (by linarith)]
    linarith
  unfold φe
  linarith

theorem Tc_ge (t : ℝ) : 100 ≤ Tc t := by
  have := mul_le_mul (θ_ge.trans (φc_ge t)) (q_ge t) (by norm_num) (by linarith [θ_ge, φc_ge t])
  unfold Tc; norm_num at this ⊢; linarith
theorem Te_ge (t : ℝ) : 100 ≤ Te t := by
  have := mul_le_mul (θ_ge.trans (φe_ge t)) (q_ge t) (by norm_num) (by linarith [θ_ge, φe_ge t])
  unfold Te; norm_num at this ⊢; linarith

theorem before {u : ℝ} (h : u ≤ 0) : x1 u = 0 ∧ x2 u = 0 ∧ x3 u = 0 ∧ x4 u = 0 ∧ x5 u = 0 ∧ x6 u = 0 ∧ x7 u = 0 ∧ x8 u = 0 ∧
    d1 u = 0 ∧ d2 u = 0 ∧ d3 u = 0 ∧ d4 u = 0 ∧ d5 u = 0 ∧ d6 u = 0 ∧ d7 u = 0 ∧ d8 u = 0 :=
  ⟨ramp_lo (by linarith), ramp_lo (by linarith), ramp_lo (by linarith), ramp_lo (by linarith), ramp_lo (by linarith), ramp_lo (by linarith), ramp_lo (by linarith), ramp_lo (by linarith), e_lo (by linarith), e_lo (by linarith), e_lo (by linarith), e_lo (by linarith), e_lo (by linarith), e_lo (by linarith), e_lo (by linarith), e_lo (by linarith)⟩
theorem after {u : ℝ} (h : 4 ≤ u) : x1 u = 1 ∧ x2 u = 1 ∧ x3 u = 1 ∧ x4 u = 1 ∧ x5 u = 1 ∧ x6 u = 1 ∧ x7 u = 1 ∧ x8 u = 1 ∧
    d1 u = 0 ∧ d2 u = 0 ∧ d3 u = 0 ∧ d4 u = 0 ∧ d5 u = 0 ∧ d6 u = 0 ∧ d7 u = 0 ∧ d8 u = 0 :=
  ⟨ramp_hi (by linarith), ramp_hi (by linarith), ramp_hi (by linarith), ramp_hi (by linarith), ramp_hi (by linarith), ramp_hi (by linarith), ramp_hi (by linarith), ramp_hi (by linarith), e_hi (by linarith), e_hi (by linarith), e_hi (by linarith), e_hi (by linarith), e_hi (by linarith), e_hi (by linarith), e_hi (by linarith), e_hi (by linarith)⟩

/-! ## The engine -/

/-- Volumes that hold the gas of the motion. -/
noncomputable def volumes (t : ℝ) : ws.CompVolume ℝ × ws.ExpVolume ℝ :=
  (⟨2077.23 * (a t * Tc t) / pres t,
    2077.23 * ((-(d1 t) - d3 t + d5 t + d7 t) * Tc t + a t * dTc t) / pres t
      + 2077.23 * (a t * Tc t) / pres t * (g * (5193.17 / 2077.23) * dfall t)⟩,
   ⟨2077.23 * (b t * Te t) / pres t,
    2077.23 * ((d1 t + d3 t - d5 t - d7 t) * Te t + b t * dTe t) / pres t
      + 2077.23 * (b t * Te t) / pres t * (g * (5193.17 / 2077.23) * dfall t)⟩)

noncomputable def drive : ws.WorkingSpaces ℝ where
  frequency := fun _ => 1 / 4
  volumes := fun _ t => volumes (clock t)
  thermal_resistance := fun _ => { comp := 0, exp := 0 }
  parasitics := fun _ => { comp := ⟨0, 0, 0⟩, exp := ⟨0, 0, 0⟩ }

noncomputable def components : Components ℝ where
  ws := drive
  chx := (chx.FixedApproach.new 0 0 0 ⟨0, 0, 0⟩).toColdHeatExchanger
  regen := (regen.FixedApproach.new 0 0 0 ⟨0, 0, 0⟩).toRegenerator
  hhx := (hhx.FixedApproach.new 0 0 0 ⟨0, 0, 0⟩).toHotHeatExchanger

noncomputable def state : State ℝ where
  fluid := (IdealGas.helium : IdealGas ℝ).toFluid
  pres := Pressure.constant 1000000
  temp := { sink := 300, chx := 300, regen := { cold := 300, avg := 300, hot := 300 }, hhx := 300, source := 300 }
  mass_flow := { chx := 0, regen := 0, hhx := 0 }
  heat_flow := { chx := 0, regen := 0, hhx := 0 }
  regen_imbalance := ⟨0⟩

noncomputable def run : Run ℝ := Run.new exact components state

noncomputable def y (t : ℝ) : Conditions ℝ := { P := pres t, T_c := Tc t, T_e := Te t }

noncomputable def sol (t : ℝ) : Solution ℝ where
  m_dot_ck := d1 t + d3 t - d5 t - d7 t
  m_dot_kr := d1 t + d3 t - d5 t - d7 t
  m_dot_rl := d1 t + d3 t - d5 t - d7 t
  m_dot_le := d1 t + d3 t - d5 t - d7 t
  Q_dot_k := 5193.17 * ((Tc t - 300) * (d1 t + d3 t))
  Q_dot_r := 0
  Q_dot_l := 5193.17 * ((300 - Te t) * (d5 t + d7 t))
  dTc_dt := dTc t
  dTe_dt := dTe t
  dP_dt := dP t

theorem d_nonneg (c t : ℝ) : 0 ≤ 2 * speed (2 * t - c) := mul_nonneg (by norm_num) (speed_nonneg _)

theorem one_way (t : ℝ) : (d1 t = 0 ∧ d3 t = 0) ∨ (d5 t = 0 ∧ d7 t = 0) := by
  rcases phase t with ⟨h2, e2, h3, e3, h4, e4, h5, e5, h6, e6, h7, e7, h8, e8⟩ | ⟨h1, e1, h3, e3, h4, e4, h5, e5, h6, e6, h7, e7, h8, e8⟩ | ⟨h1, e1, h2, e2, h4, e4, h5, e5, h6, e6, h7, e7, h8, e8⟩ | ⟨h1, e1, h2, e2, h3, e3, h5, e5, h6, e6, h7, e7, h8, e8⟩ | ⟨h1, e1, h2, e2, h3, e3, h4, e4, h6, e6, h7, e7, h8, e8⟩ | ⟨h1, e1, h2, e2, h3, e3, h4, e4, h5, e5, h7, e7, h8, e8⟩ | ⟨h1, e1, h2, e2, h3, e3, h4, e4, h5, e5, h6, e6, h8, e8⟩ | ⟨h1, e1, h2, e2, h3, e3, h4, e4, h5, e5, h6, e6, h7, e7⟩
  exacts [.inr ⟨e5, e7⟩, .inr ⟨e5, e7⟩, .inr ⟨e5, e7⟩, .inr ⟨e5, e7⟩, .inl ⟨e1, e3⟩, .inl ⟨e1, e3⟩, .inl ⟨e1, e3⟩, .inl ⟨e1, e3⟩]

theorem hg : PerfectGas (IdealGas.helium : IdealGas ℝ).toFluid 2077.23 5193.17 (-(5193.17 * 250)) (-(5193.17 * 250) + 2077.23 * 250) :=
  helium_perfect'

theorem norm_ne : run.enth_norm ≠ 0 := by
  show 0.5 * ((IdealGas.helium : IdealGas ℝ).toFluid.enth 300 1000000 + (IdealGas.helium : IdealGas ℝ).toFluid.enth 300 1000000) ≠ 0
  rw [hg.enth]
  norm_num

theorem run_temp : run.temp = { sink := 300, chx := 300, regen := { cold := 300, avg := 300, hot := 300 }, hhx := 300, source := 300 } := rfl

theorem balanced (t : ℝ) (hc : clock t = t) : Balances (run.calculate_inputs t (y t))
    (upwind (run.calculate_inputs t (y t)) (sol t)) (sol t) := by
  have hP := (pres_pos t).ne'
  have ha := (a_pos t).ne'
  have hb := (b_pos t).ne'
  have hTc : Tc t ≠ 0 := by linarith [Tc_ge t]
  have hTe : Te t ≠ 0 := by linarith [Te_ge t]
  have n1 : 0 ≤ d1 t := d_nonneg _ _
  have n3 : 0 ≤ d3 t := d_nonneg _ _
  have n5 : 0 ≤ d5 t := d_nonneg _ _
  have n7 : 0 ≤ d7 t := d_nonneg _ _
  have hz : run.vol_chx = 0 ∧ run.vol_regen = 0 ∧ run.vol_hhx = 0 := ⟨rfl, rfl, rfl⟩
  have hf : run.fluid = (IdealGas.helium : IdealGas ℝ).toFluid := rfl
  have hv : run.ws_vol_fn = drive.volumes ⟨state.pres⟩ := rfl
  have hq : run.ws_parasitics.comp.thermal = 0 ∧ run.ws_parasitics.exp.thermal = 0 := ⟨rfl, rfl⟩
  have key : (0 ≤ d1 t + d3 t - d5 t - d7 t ∧ d5 t = 0 ∧ d7 t = 0) ∨ (¬ 0 ≤ d1 t + d3 t - d5 t - d7 t ∧ d1 t = 0 ∧ d3 t = 0) := by
    rcases one_way t with ⟨h, h'⟩ | ⟨h, h'⟩
    · by_cases hn : 0 ≤ d1 t + d3 t - d5 t - d7 t
      · rw [h, h'] at hn; exact .inl ⟨by rw [h, h']; linarith, by linarith, by linarith⟩
      · exact .inr ⟨hn, h, h'⟩
    · exact .inl ⟨by rw [h, h']; linarith, h, h'⟩
  rcases key with ⟨hm, hd, hd'⟩ | ⟨hm, hd, hd'⟩ <;>
  constructor <;>
    simp only [compMass, compEnergy, chxMass, chxEnergy, regenMass, regenEnergy, hhxMass, hhxEnergy,
      expMass, expEnergy, massRate, energyRate, Run.calculate_inputs, Run.comp_inputs, Run.chx_inputs,
      Run.regen_inputs, Run.hhx_inputs, Run.exp_inputs, upwind, sol, y, hf, hz.1, hz.2.1, hz.2.2, run_temp, hv, hq.1, hq.2, drive, hc, volumes,
      hg.dens, hg.enth, hg.inte, hg.dd_dP_T, hg.dd_dT_P, hg.du_dP_T, hg.du_dT_P, hm, if_true, if_false] <;>
    simp only [hd, hd', dP, dTc, dTe, θ, τ] <;> field_simp <;> ring

theorem stable (t : ℝ) (hc : clock t = t) : Stable (run.calculate_inputs t (y t)) := by
  have hP := pres_pos t
  have ha := a_pos t
  have hb := b_pos t
  have gc := Tc_ge t
  have ge := Te_ge t
  have hTc : 0 < Tc t := by linarith
  have hTe : 0 < Te t := by linarith
  have hz : run.vol_chx = 0 ∧ run.vol_regen = 0 ∧ run.vol_hhx = 0 := ⟨rfl, rfl, rfl⟩
  have hf : run.fluid = (IdealGas.helium : IdealGas ℝ).toFluid := rfl
  have hv : run.ws_vol_fn = drive.volumes ⟨state.pres⟩ := rfl
  have coef : ∀ V T P Tf : ℝ, 0 < V → 0 < T → 0 < P → 100 ≤ Tf → 0 < V * (P / (2077.23 * T) * (5193.17 - 2077.23)
      + ((5193.17 - 2077.23) * T + (-(5193.17 * 250) + 2077.23 * 250) - (5193.17 * Tf + -(5193.17 * 250))) * (-P / (2077.23 * T ^ 2))) := by
    intro V T P Tf hV hT hP hTf
    have e : V * (P / (2077.23 * T) * (5193.17 - 2077.23)
      + ((5193.17 - 2077.23) * T + (-(5193.17 * 250) + 2077.23 * 250) - (5193.17 * Tf + -(5193.17 * 250))) * (-P / (2077.23 * T ^ 2)))
      = V * P / (2077.23 * T ^ 2) * (5193.17 * Tf - 2077.23 * 250) := by field_simp; ring
    rw [e]
    have : 0 < 5193.17 * Tf - 2077.23 * 250 := by norm_num; linarith
    positivity
  have hVc : 0 < 2077.23 * (a t * Tc t) / pres t := by positivity
  have hVe : 0 < 2077.23 * (b t * Te t) / pres t := by positivity
  have nd : ∀ T : ℝ, 0 < T → -pres t / (2077.23 * T ^ 2) ≠ 0 := fun T hT =>
    div_ne_zero (neg_ne_zero.2 hP.ne') (by positivity)
  constructor <;>
    simp only [stability, exchangerCompliance, tempCoef, Run.calculate_inputs, Run.comp_inputs, Run.chx_inputs,
      Run.regen_inputs, Run.hhx_inputs, Run.exp_inputs, y, hf, hz.1, hz.2.1, hz.2.2, run_temp, hv, drive, hc, volumes,
      hg.dens, hg.enth, hg.inte, hg.dd_dP_T, hg.dd_dT_P, hg.du_dP_T, hg.du_dT_P]
  · exact mul_ne_zero hVc.ne' (nd _ hTc)
  · exact mul_ne_zero hVe.ne' (nd _ hTe)
  · norm_num; positivity
  · norm_num; positivity
  · norm_num
  · exact coef _ _ _ _ hVc hTc hP gc
  · exact coef _ _ _ _ hVc hTc hP (by norm_num)
  · exact coef _ _ _ _ hVe hTe hP (by norm_num)
  · exact coef _ _ _ _ hVe hTe hP ge

theorem follows (t : ℝ) (hc : clock t = t) : Follows run y t (sol t) where
  solved := ⟨_, congrArg Prod.fst (C58_some_hint_succeeds exact exact_sound exact_complete _ norm_ne
    (stable t hc) (sol t) (balanced t hc))⟩
  pres := (pres_deriv t).hasDerivWithinAt
  comp := (Tc_deriv t).hasDerivWithinAt
  exp := (Te_deriv t).hasDerivWithinAt

theorem Tc_continuous : Continuous Tc := continuous_iff_continuousAt.2 fun t => (Tc_deriv t).continuousAt
theorem Te_continuous : Continuous Te := continuous_iff_continuousAt.2 fun t => (Te_deriv t).continuousAt
theorem pres_continuous : Continuous pres := continuous_iff_continuousAt.2 fun t => (pres_deriv t).continuousAt
theorem a_continuous : Continuous a := continuous_iff_continuousAt.2 fun t => (a_deriv t).continuousAt
theorem b_continuous : Continuous b := continuous_iff_continuousAt.2 fun t => (b_deriv t).continuousAt

theorem rest {u : ℝ} (h : u ≤ 0 ∨ 4 ≤ u) : Tc u = A ∧ Te u = B ∧ pres u = 1000000 ∧ a u = 3 ∧ b u = 1 := by
  rcases h with h | h
  · obtain ⟨b1, b2, b3, b4, b5, b6, b7, b8, e1, e2, e3, e4, e5, e6, e7, e8⟩ := before h
    refine ⟨?_, ?_, ?_, ?_, ?_⟩ <;>
      simp [Tc, Te, φc, φe, q, fall, pres, a, b, l3, l2, b1, b2, b3, b4, b5, b6, b7, b8]
  · obtain ⟨b1, b2, b3, b4, b5, b6, b7, b8, e1, e2, e3, e4, e5, e6, e7, e8⟩ := after h
    refine ⟨?_, ?_, ?_, ?_, ?_⟩ <;>
      simp only [Tc, Te, φc, φe, q, fall, pres, a, b, b1, b2, b3, b4, b5, b6, b7, b8]
    · norm_num [A, L, l3, l2]; ring
    · norm_num [B, L, l3, l2]; ring
    · norm_num
    · norm_num
    · norm_num

theorem volumes_rest {u : ℝ} (h : u ≤ 0 ∨ 4 ≤ u) : (volumes u).1.value = (volumes 0).1.value
    ∧ (volumes u).2.value = (volumes 0).2.value ∧ (volumes u).1.deriv = 0 ∧ (volumes u).2.deriv = 0 := by
  obtain ⟨r1, r2, r3, r4, r5⟩ := rest h
  obtain ⟨s1, s2, s3, s4, s5⟩ := rest (.inl le_rfl)
  have hd : d1 u = 0 ∧ d2 u = 0 ∧ d3 u = 0 ∧ d4 u = 0 ∧ d5 u = 0 ∧ d6 u = 0 ∧ d7 u = 0 ∧ d8 u = 0 := by
    rcases h with h | h
    · obtain ⟨b1, b2, b3, b4, b5, b6, b7, b8, e1, e2, e3, e4, e5, e6, e7, e8⟩ := before h
      exact ⟨e1, e2, e3, e4, e5, e6, e7, e8⟩
    · obtain ⟨b1, b2, b3, b4, b5, b6, b7, b8, e1, e2, e3, e4, e5, e6, e7, e8⟩ := after h
      exact ⟨e1, e2, e3, e4, e5, e6, e7, e8⟩
  obtain ⟨e1, e2, e3, e4, e5, e6, e7, e8⟩ := hd
  refine ⟨?_, ?_, ?_, ?_⟩
  · simp only [volumes, r1, r3, r4, s1, s3, s4]
  · simp only [volumes, r2, r3, r5, s2, s3, s5]
  · simp [volumes, dTc, dfall, e1, e2, e3, e4, e5, e6, e7, e8]
  · simp [volumes, dTe, dfall, e1, e2, e3, e4, e5, e6, e7, e8]

theorem exact_drive : ExactDrive drive := by
  intro s t
  constructor
  · refine repeated_deriv (F := fun u => (volumes u).1.value) (F' := fun u => (volumes u).1.deriv)
      (fun u h => (volumes_rest (.inl h)).1) (fun u h => (volumes_rest (.inr h)).1) (fun u h => (volumes_rest (.inl h)).2.2.1)
      (fun u h => (volumes_rest (.inr h)).2.2.1) (fun u => ?_) t
    have hP := (pres_pos u).ne'
    refine ((((a_deriv u).mul (Tc_deriv u)).const_mul 2077.23).div (pres_deriv u) hP).congr_deriv ?_
    simp only [volumes, dP, Pi.mul_apply]
    field_simp
    try ring
  · refine repeated_deriv (F := fun u => (volumes u).2.value) (F' := fun u => (volumes u).2.deriv)
      (fun u h => (volumes_rest (.inl h)).2.1) (fun u h => (volumes_rest (.inr h)).2.1) (fun u h => (volumes_rest (.inl h)).2.2.2)
      (fun u h => (volumes_rest (.inr h)).2.2.2) (fun u => ?_) t
    have hP := (pres_pos u).ne'
    refine ((((b_deriv u).mul (Te_deriv u)).const_mul 2077.23).div (pres_deriv u) hP).congr_deriv ?_
    simp only [volumes, dP, Pi.mul_apply]
    field_simp
    try ring

theorem rates_continuous (s : ws.State ℝ) : Continuous (fun t => (drive.volumes s t).1.deriv) ∧
    Continuous fun t => (drive.volumes s t).2.deriv := by
  have hP : ∀ t, pres t ≠ 0 := fun t => (pres_pos t).ne'
  have ha : ∀ t, a t ≠ 0 := fun t => (a_pos t).ne'
  have hb : ∀ t, b t ≠ 0 := fun t => (b_pos t).ne'
  have c1 := d1_continuous
  have c2 := d2_continuous
  have c3 := d3_continuous
  have c4 := d4_continuous
  have k5 := d5_continuous
  have k6 := d6_continuous
  have k7 := d7_continuous
  have k8 := d8_continuous
  have c5 := a_continuous
  have c6 := b_continuous
  have c7 := pres_continuous
  have c8 := Tc_continuous
  have c9 := Te_continuous
  constructor
  · refine repeated_continuous (F := fun u => (volumes u).1.deriv) (fun u h => (volumes_rest (.inl h)).2.2.1)
      (fun u h => (volumes_rest (.inr h)).2.2.1) ?_
    simp only [volumes, dTc, dfall]
    fun_prop (disch := assumption)
  · refine repeated_continuous (F := fun u => (volumes u).2.deriv) (fun u h => (volumes_rest (.inl h)).2.2.2)
      (fun u h => (volumes_rest (.inr h)).2.2.2) ?_
    simp only [volumes, dTe, dfall]
    fun_prop (disch := assumption)

theorem drive_periodic (s : ws.State ℝ) (t : ℝ) : drive.volumes s (t + 1 / drive.frequency s) = drive.volumes s t := by
  show volumes (clock (t + 1 / (1 / 4))) = _
  rw [show (1 : ℝ) / (1 / 4) = 4 by norm_num, clock_add]
  rfl

theorem flow_continuous : Continuous fun t => d1 t + d3 t - d5 t - d7 t :=
  ((d1_continuous.add d3_continuous).sub d5_continuous).sub d7_continuous
theorem Qk_continuous : Continuous fun t => (sol t).Q_dot_k :=
  ((Tc_continuous.sub continuous_const).mul (d1_continuous.add d3_continuous)).const_mul _
theorem Ql_continuous : Continuous fun t => (sol t).Q_dot_l :=
  ((continuous_const.sub Te_continuous).mul (d5_continuous.add d7_continuous)).const_mul _

/-- The motion is a closed cycle of the engine. -/
theorem closed : ClosedCycle run y sol 0 4 where
  le := by norm_num
  regular :=
    { pres := pres_continuous.continuousOn
      comp := Tc_continuous.continuousOn
      exp := Te_continuous.continuousOn
      comp_pos := fun t _ => by have := Tc_ge t; simp only [y]; linarith
      exp_pos := fun t _ => by have := Te_ge t; simp only [y]; linarith }
  pres_pos := fun t _ => pres_pos t
  drive := exact_drive ⟨state.pres⟩
  rates := rates_continuous ⟨state.pres⟩
  follows := fun t ht => follows t (clock_of ht.1 ht.2)
  ck := flow_continuous.continuousOn
  kr := flow_continuous.continuousOn
  rl := flow_continuous.continuousOn
  le' := flow_continuous.continuousOn
  Qk := Qk_continuous.continuousOn
  Qr := continuousOn_const
  Ql := Ql_continuous.continuousOn
  closed := by
    obtain ⟨r1, r2, r3, -⟩ := rest (u := 4) (.inr le_rfl)
    obtain ⟨s1, s2, s3, -⟩ := rest (u := 0) (.inl le_rfl)
    simp only [y, r1, r2, r3, s1, s2, s3]
  volumes := by
    have h := drive_periodic ⟨state.pres⟩ 0
    rw [show (0 : ℝ) + 1 / drive.frequency ⟨state.pres⟩ = 4 by show (0 : ℝ) + 1 / (1 / 4) = 4; norm_num] at h
    exact ⟨congrArg (fun v => v.1.value) h, congrArg (fun v => v.2.value) h⟩

/-- Heat given up, per unit of heat capacity. -/
noncomputable def Hk : ℝ := A * (1 + 1 / 1.1) + τ * (2 - 2 * (l3 - l2) + (l3 - l2) / 1.1 - l2) - 600

theorem Hk_neg : Hk < 0 := by
  have h2 : (0.6931471803 : ℝ) < l2 := Real.log_two_gt_d9
  have h2' : l2 < (0.6931471808 : ℝ) := Real.log_two_lt_d9
  have h3 : 19 * l2 ≤ 12 * l3 := by
    have h : Real.log ((2 : ℝ) ^ 19) ≤ Real.log ((3 : ℝ) ^ 12) := Real.log_le_log (by norm_num) (by norm_num)
    rw [Real.log_pow, Real.log_pow] at h
    norm_num at h
    exact h
  have e : Hk = τ * (2 - 3 / 22 * l3 + 41 / 220 * l2) + 441 / 220 * θ - 600 := by
    unfold Hk A L
    ring
  rw [e]
  unfold θ τ
  norm_num
  linarith

theorem heat_out : ∫ t in (0 : ℝ)..4, (sol t).Q_dot_k = (5193.17 * Hk) := by
  have hd : ∀ t ∈ uIcc (0 : ℝ) 4, HasDerivAt (fun t => (5193.17 * ((A + τ * l3 - 300) * x1 t
      + τ * ((3 - x1 t) * Real.log (3 - x1 t) - (3 - x1 t)) + ((A + τ * (l3 - l2)) / 1.1 + τ * l2 - 300) * x3 t
      + τ * ((2 - x3 t) * Real.log (2 - x3 t) - (2 - x3 t))))) (sol t).Q_dot_k t := by
    intro t _
    have m1 := x1_mem t; have m3 := x3_mem t
    have p1 : 3 - x1 t ≠ 0 := by linarith
    have p3 : 2 - x3 t ≠ 0 := by linarith
    have D1 := (x1_deriv t).const_sub 3
    have D3 := (x3_deriv t).const_sub 2
    have D := ((((((x1_deriv t).const_mul (A + τ * l3 - 300)).fun_add (((D1.fun_mul (D1.log p1)).fun_sub D1).const_mul τ)).fun_add
      ((x3_deriv t).const_mul ((A + τ * (l3 - l2)) / 1.1 + τ * l2 - 300))).fun_add
      (((D3.fun_mul (D3.log p3)).fun_sub D3).const_mul τ)).const_mul 5193.17)
    refine D.congr_deriv ?_
    simp only [sol, Tc, φc]
    rcases phase t with ⟨h2, e2, h3, e3, h4, e4, h5, e5, h6, e6, h7, e7, h8, e8⟩ | ⟨h1, e1, h3, e3, h4, e4, h5, e5, h6, e6, h7, e7, h8, e8⟩ | ⟨h1, e1, h2, e2, h4, e4, h5, e5, h6, e6, h7, e7, h8, e8⟩ | ⟨h1, e1, h2, e2, h3, e3, h5, e5, h6, e6, h7, e7, h8, e8⟩ | ⟨h1, e1, h2, e2, h3, e3, h4, e4, h6, e6, h7, e7, h8, e8⟩ | ⟨h1, e1, h2, e2, h3, e3, h4, e4, h5, e5, h7, e7, h8, e8⟩ | ⟨h1, e1, h2, e2, h3, e3, h4, e4, h5, e5, h6, e6, h8, e8⟩ | ⟨h1, e1, h2, e2, h3, e3, h4, e4, h5, e5, h6, e6, h7, e7⟩
    · have hq : q t = 1 := q_one (by unfold fall; simp only [h2, h4, h6, h8]; norm_num)
      simp only [h2, e2, h3, e3, h4, e4, h5, e5, h6, e6, h7, e7, h8, e8, hq]
      norm_num [B, A, L, l3, l2]
      field_simp
      ring
    · rw [e1, e3]; ring
    · have hq : q t = 1 / 1.1 := q_low (by unfold fall; simp only [h2, h4, h6, h8]; norm_num)
      simp only [h1, e1, h2, e2, h4, e4, h5, e5, h6, e6, h7, e7, h8, e8, hq]
      norm_num [B, A, L, l3, l2]
      field_simp
      ring
    · rw [e1, e3]; ring
    · rw [e1, e3]; ring
    · rw [e1, e3]; ring
    · rw [e1, e3]; ring
    · rw [e1, e3]; ring
  rw [intervalIntegral.integral_eq_sub_of_hasDerivAt hd (Qk_continuous.intervalIntegrable _ _)]
  obtain ⟨b1, b2, b3, b4, b5, b6, b7, b8, e1, e2, e3, e4, e5, e6, e7, e8⟩ := before (u := 0) le_rfl
  obtain ⟨c1, c2, c3, c4, c5, c6, c7, c8, f1, f2, f3, f4, f5, f6, f7, f8⟩ := after (u := 4) le_rfl
  rw [b1, b3, c1, c3]
  norm_num [Hk, l3, l2]
  ring

theorem heat_in : ∫ t in (0 : ℝ)..4, (sol t).Q_dot_l = -(5193.17 * Hk) := by
  have hd : ∀ t ∈ uIcc (0 : ℝ) 4, HasDerivAt (fun t => -(5193.17 * ((A + τ * l3 - 300) * x5 t
      + τ * ((3 - x5 t) * Real.log (3 - x5 t) - (3 - x5 t)) + ((A + τ * (l3 - l2)) / 1.1 + τ * l2 - 300) * x7 t
      + τ * ((2 - x7 t) * Real.log (2 - x7 t) - (2 - x7 t))))) (sol t).Q_dot_l t := by
    intro t _
    have m1 := x5_mem t; have m3 := x7_mem t
    have p1 : 3 - x5 t ≠ 0 := by linarith
    have p3 : 2 - x7 t ≠ 0 := by linarith
    have D1 := (x5_deriv t).const_sub 3
    have D3 := (x7_deriv t).const_sub 2
    have D := ((((((x5_deriv t).const_mul (A + τ * l3 - 300)).fun_add (((D1.fun_mul (D1.log p1)).fun_sub D1).const_mul τ)).fun_add
      ((x7_deriv t).const_mul ((A + τ * (l3 - l2)) / 1.1 + τ * l2 - 300))).fun_add
      (((D3.fun_mul (D3.log p3)).fun_sub D3).const_mul τ)).const_mul 5193.17).fun_neg
    refine D.congr_deriv ?_
    simp only [sol, Te, φe]
    rcases phase t with ⟨h2, e2, h3, e3, h4, e4, h5, e5, h6, e6, h7, e7, h8, e8⟩ | ⟨h1, e1, h3, e3, h4, e4, h5, e5, h6, e6, h7, e7, h8, e8⟩ | ⟨h1, e1, h2, e2, h4, e4, h5, e5, h6, e6, h7, e7, h8, e8⟩ | ⟨h1, e1, h2, e2, h3, e3, h5, e5, h6, e6, h7, e7, h8, e8⟩ | ⟨h1, e1, h2, e2, h3, e3, h4, e4, h6, e6, h7, e7, h8, e8⟩ | ⟨h1, e1, h2, e2, h3, e3, h4, e4, h5, e5, h7, e7, h8, e8⟩ | ⟨h1, e1, h2, e2, h3, e3, h4, e4, h5, e5, h6, e6, h8, e8⟩ | ⟨h1, e1, h2, e2, h3, e3, h4, e4, h5, e5, h6, e6, h7, e7⟩
    · rw [e5, e7]; ring
    · rw [e5, e7]; ring
    · rw [e5, e7]; ring
    · rw [e5, e7]; ring
    · have hq : q t = 1 := q_one (by unfold fall; simp only [h2, h4, h6, h8]; norm_num)
      simp only [h1, e1, h2, e2, h3, e3, h4, e4, h6, e6, h7, e7, h8, e8, hq]
      norm_num [B, A, L, l3, l2]
      field_simp
      ring
    · rw [e5, e7]; ring
    · have hq : q t = 1 / 1.1 := q_low (by unfold fall; simp only [h2, h4, h6, h8]; norm_num)
      simp only [h1, e1, h2, e2, h3, e3, h4, e4, h5, e5, h6, e6, h8, e8, hq]
      norm_num [B, A, L, l3, l2]
      field_simp
      ring
    · rw [e5, e7]; ring
  rw [intervalIntegral.integral_eq_sub_of_hasDerivAt hd (Ql_continuous.intervalIntegrable _ _)]
  obtain ⟨b1, b2, b3, b4, b5, b6, b7, b8, e1, e2, e3, e4, e5, e6, e7, e8⟩ := before (u := 0) le_rfl
  obtain ⟨c1, c2, c3, c4, c5, c6, c7, c8, f1, f2, f3, f4, f5, f6, f7, f8⟩ := after (u := 4) le_rfl
  rw [b5, b7, c5, c7]
  norm_num [Hk, l3, l2]
  ring

/-- Work of the cycle. -/
theorem work : workOf run y 0 4 = -(2 * (5193.17 * Hk)) := by
  have h := C85_first_law hg exact_sound norm_ne closed
  have q : run.ws_parasitics.comp.thermal = 0 ∧ run.ws_parasitics.exp.thermal = 0 := ⟨rfl, rfl⟩
  have r : ∫ t in (0 : ℝ)..4, (sol t).Q_dot_r = 0 := by simp [sol]
  rw [h, heat_in, heat_out, r, q.1, q.2]
  ring

end Sett.Perpetual

namespace Sett

open Spec state_equations BalanceExample Perpetual

/-- **C85**, perpetual motion.  For the crate's helium there is an engine with a periodic drive and no losses of heat, whose sink,
source, exchangers and regenerator are all at 300 K, and a closed motion of its gas over one period in which it does work. -/
theorem C85_perpetual : ∃ (c : Components ℝ) (st : State ℝ) (U : MatrixDecomposition ℝ) (y : ℝ → Conditions ℝ) (s : ℝ → Solution ℝ),
    Sound U ∧ Complete U ∧ st.fluid = (IdealGas.helium : IdealGas ℝ).toFluid ∧ ExactDrive c.ws
    ∧ (∀ t, c.ws.volumes ⟨st.pres⟩ (t + 1 / c.ws.frequency ⟨st.pres⟩) = c.ws.volumes ⟨st.pres⟩ t)
    ∧ st.temp.sink = 300 ∧ st.temp.source = 300 ∧ st.temp.chx = 300 ∧ st.temp.regen = ⟨300, 300, 300⟩ ∧ st.temp.hhx = 300
    ∧ (c.ws.parasitics ⟨st.pres⟩).comp.thermal = 0 ∧ (c.ws.parasitics ⟨st.pres⟩).exp.thermal = 0
    ∧ ClosedCycle (Run.new U c st) y s 0 (1 / c.ws.frequency ⟨st.pres⟩)
    ∧ (∀ t, (s t).Q_dot_r = 0)
    ∧ 0 < workOf (Run.new U c st) y 0 (1 / c.ws.frequency ⟨st.pres⟩) := by
  have e : (1 : ℝ) / components.ws.frequency ⟨state.pres⟩ = 4 := by
    show (1 : ℝ) / (1 / 4) = 4; norm_num
  refine ⟨components, state, exact, y, sol, exact_sound,
    TrajectoryExample.exact_complete, rfl, exact_drive, drive_periodic _, rfl, rfl, rfl, rfl, rfl, rfl, rfl, ?_⟩
  rw [e]
  refine ⟨closed, fun _ => rfl, ?_⟩
  have := work
  unfold Perpetual.run at this
  rw [this]
  have := Hk_neg
  linarith

end Sett
