import Verif.Props.Exists
import Verif.Props.TrajectoryExample

/-! # C70 and C71: both drives are continuous; the worked trajectory is the only one from its start -/

namespace Sett

open Spec state_equations Set

/-- **C71**, drives: the volumes and rates of the sinusoidal drive are continuous in time. -/
theorem C71_sinusoidal_continuous (T : MatrixDecomposition ℝ) (c : Components ℝ) (s : State ℝ)
    (d : ws.SinusoidalDrive ℝ) (h : c.ws = d.toWorkingSpaces) : ContinuousDrive (Run.new T c s) := by
  have hv : (Run.new T c s).ws_vol_fn = d.volumes := by
    show c.ws.volumes s.ws = _
    rw [h]; rfl
  constructor <;> rw [hv] <;> simp only [ws.SinusoidalDrive.volumes] <;> scalars <;> fun_prop

/-- **C71**, drives: so are those of a rhombic drive that can turn. -/
theorem C71_rhombic_continuous (T : MatrixDecomposition ℝ) (c : Components ℝ) (s : State ℝ)
    (d : ws.RhombicDrive ℝ) (h : c.ws = d.toWorkingSpaces) (hg : ws.Feasible d.geometry) :
    ContinuousDrive (Run.new T c s) := by
  have hv : (Run.new T c s).ws_vol_fn = d.volumes := by
    show c.ws.volumes s.ws = _
    rw [h]; rfl
  have hb : ∀ t, √(d.geometry.L_conn ^ 2 - (d.geometry.eccentricity
      + d.geometry.r_crank * Real.cos (2 * Real.pi * d.frequency * t)) ^ 2) ≠ 0 := fun t =>
    (Real.sqrt_pos.2 (hg.radicand_pos _)).ne'
  constructor <;> rw [hv]
  · simp only [fun t => (ws.rhombic_volumes d t).1]; fun_prop
  · simp only [fun t => (ws.rhombic_volumes d t).2.2.1]; fun_prop
  · simp only [fun t => (ws.rhombic_volumes d t).2.1]; fun_prop (disch := assumption)
  · simp only [fun t => (ws.rhombic_volumes d t).2.2.2]; fun_prop (disch := assumption)

namespace TrajectoryExample

open BalanceExample

theorem saneRun : SaneRun run := by
  have h := physical
  exact ⟨(h 0).norm, fun t => (h t).comp_vol, fun t => (h t).exp_vol, (h 0).chx_vol, (h 0).regen_vol,
    (h 0).hhx_vol, (h 0).regen_temp, (h 0).chx_temp, (h 0).hhx_temp⟩

theorem continuousDrive : ContinuousDrive run := C71_sinusoidal_continuous exact components state drive rfl

theorem trajectory (a b : ℝ) : Trajectory run y a b :=
  ⟨⟨(regular a b).pres, (regular a b).comp, (regular a b).exp⟩,
    fun t _ => ⟨(physical t).pres, (physical t).comp_temp, (physical t).exp_temp⟩,
    fun t _ => ⟨sol t, follows t⟩⟩

/-- The adiabatic motion is the only one from its start. -/
example (z : ℝ → Conditions ℝ) (b : ℝ) (hz : Trajectory run z 0 b) (h : z 0 = y 0) :
    ∀ t ∈ Icc 0 b, z t = y t :=
  C71_unique rfl saneRun exact_sound continuousDrive hz (trajectory 0 b) h

theorem turns (t : ℝ) : run.ws_vol_fn (t + 1) = run.ws_vol_fn t := by
  have := ws.C12_sinusoidal_periodic drive (by norm_num [drive]) t
  rwa [show (1 : ℝ) / drive.frequency = 1 by norm_num [drive]] at this

theorem returns (t : ℝ) : y (t + 1) = y t := by
  have h : V (t + 1) = V t := congrArg (fun v => v.1.value) (turns t)
  simp only [y, T, h]

/-- C71 applies: it repeats itself turn after turn. -/
example (b t : ℝ) (h0 : 0 ≤ t) (hb : t + 1 ≤ b) : y (t + 1) = y t :=
  C71_repeats rfl saneRun exact_sound continuousDrive zero_le_one turns (trajectory 0 b) (returns 0) t h0 hb

/-- From the temperatures alone. -/
example (b t : ℝ) (h1 : 1 ≤ b) (h0 : 0 ≤ t) (hb : t + 1 ≤ b) : y (t + 1) = y t :=
  C71_steady_state exact exact_sound components state .Helium rfl saneRun (exactDrive_sinusoidal drive)
    continuousDrive zero_le_one turns (trajectory 0 b) (by linarith) (by rw [returns 0]) (by rw [returns 0]) t h0 hb

/-- C71, existence, applies at a state where gas does flow. -/
example : ∃ b z, 0 < b ∧ z 0 = ⟨1000, 300, 800⟩ ∧ Trajectory run z 0 b :=
  C71_exists rfl saneRun exact_sound exact_complete continuousDrive 0 _ (by norm_num) (by norm_num) (by norm_num)

/-- Limits the example lies in. -/
noncomputable def limits : Limits := ⟨1, 2000, 2000, 1, 2, 4, by norm_num, by norm_num⟩

theorem T_le (t : ℝ) : T t ≤ 1000 := by
  have : V t ^ (-κ) ≤ 1 :=
    Real.rpow_le_one_of_one_le_of_nonpos (V_bounds t).1 (by linarith [κ_bounds.1])
  unfold T; linarith

theorem within (t : ℝ) : WithinLimits run limits t (y t) := by
  obtain ⟨h1, h2⟩ := V_bounds t
  have hT := T_ge t
  have hT' : T t ≤ 2000 := by linarith [T_le t]
  have hd : |dV t| ≤ 4 := by
    have hs := Real.abs_sin_le_one (2 * Real.pi * 1 * t)
    have hpi := Real.pi_le_four
    have hpos := Real.pi_pos
    have : dV t = -(Real.pi * Real.sin (2 * Real.pi * 1 * t)) := by
      simp only [dV, drive, ws.SinusoidalDrive.volumes]; scalars; ring
    rw [this, abs_neg, abs_mul, abs_of_pos hpos]
    nlinarith [abs_nonneg (Real.sin (2 * Real.pi * 1 * t))]
  have hV : 0 < V t := by linarith
  refine ⟨⟨?_, ?_⟩, ⟨by show (100 : ℝ) ≤ T t; linarith, hT'⟩, ⟨by show (100 : ℝ) ≤ T t; linarith, hT'⟩, ⟨h1, h2⟩,
    ?_, hd, ?_⟩
  · show (1 : ℝ) ≤ T t / V t
    rw [le_div_iff₀ hV]; linarith
  · show T t / V t ≤ 2000
    rw [div_le_iff₀ hV]; nlinarith [T_le t]
  · show _ ≤ (drive.volumes t).2.value ∧ (drive.volumes t).2.value ≤ _
    rw [(V_exp t).1]; exact ⟨h1, h2⟩
  · show |(drive.volumes t).2.deriv| ≤ _
    rw [(V_exp t).2]; exact hd

/-- C70 applies: the rates at any two times of the trajectory. -/
example : ∃ C, 0 ≤ C ∧ ∀ t t', solutionGap (sol t) (sol t') ≤ C * (stateGap (y t) (y t') + driveGap run t t') := by
  obtain ⟨C, h0, h⟩ := C70_lipschitz (r := run) rfl saneRun exact_sound limits
  refine ⟨C, h0, fun t t' => ?_⟩
  obtain ⟨hint, e⟩ := (follows t).solved
  obtain ⟨hint', e'⟩ := (follows t').solved
  exact h t t' _ _ hint hint' _ _ (within t) (within t') e e'

/-- A curve that errs: the trajectory with the compression space a millikelvin warmer than it should be. -/
noncomputable def warmer (t : ℝ) : Conditions ℝ := { y t with T_c := T t + 1 / 1000 }

theorem gap_warmer (t : ℝ) : stateGap (y t) (warmer t) = 1 / 1000 := by
  simp only [stateGap, y, warmer, sub_self, abs_zero, zero_add, add_zero, sub_add_cancel_left, abs_neg]
  norm_num

theorem within_warmer (t : ℝ) : WithinLimits run limits t (warmer t) := by
  have h := within t
  refine ⟨h.pres, ⟨?_, ?_⟩, h.exp_temp, h.comp_vol, h.exp_vol, h.comp_rate, h.exp_rate⟩
  · show (100 : ℝ) ≤ T t + 1 / 1000
    linarith [T_ge t]
  · show T t + 1 / 1000 ≤ 2000
    linarith [T_le t]

/-- C70, dependence, applies to the trajectory and the warmer curve. -/
example : ∃ C e, 0 ≤ C ∧ 0 ≤ e ∧ ∀ b, ∀ t ∈ Icc (0 : ℝ) b, stateGap (y t) (warmer t)
    ≤ 3 * ((1 / 1000 + (0 + e) * (t - 0)) * Real.exp (C * (t - 0))) := by
  obtain ⟨C, h0, h⟩ := C70_depends (r := run) rfl saneRun exact_sound limits
  obtain ⟨K, k0, hk⟩ := C70_lipschitz (r := run) rfl saneRun exact_sound limits
  refine ⟨C, K * (1 / 1000), h0, by positivity, fun b t ht => ?_⟩
  have hw : ∀ t ∈ Ico (0 : ℝ) b, ∃ s, NearlyFollows run warmer t s (K * (1 / 1000)) := by
    intro t _
    obtain ⟨s, hs⟩ := C59_run_solve run .Helium rfl exact_sound exact_complete t (warmer t)
      (physical_of_within saneRun (within_warmer t))
    obtain ⟨hint, e⟩ := (follows t).solved
    have g := hk t t _ _ hint hint _ s (within t) (within_warmer t) e (hs hint)
    rw [gap_warmer, driveGap_self, add_zero] at g
    refine ⟨s, ⟨hint, hs hint⟩, (sol t).dP_dt, (sol t).dTc_dt, (sol t).dTe_dt, (follows t).pres,
      (follows t).comp.add_const _, (follows t).exp, le_trans ?_ g⟩
    unfold solutionGap
    have n0 := abs_nonneg ((sol t).m_dot_ck - s.m_dot_ck); have n1 := abs_nonneg ((sol t).m_dot_kr - s.m_dot_kr)
    have n2 := abs_nonneg ((sol t).m_dot_rl - s.m_dot_rl); have n3 := abs_nonneg ((sol t).m_dot_le - s.m_dot_le)
    have n4 := abs_nonneg ((sol t).Q_dot_k - s.Q_dot_k); have n5 := abs_nonneg ((sol t).Q_dot_r - s.Q_dot_r)
    have n6 := abs_nonneg ((sol t).Q_dot_l - s.Q_dot_l)
    linarith
  have cont := (trajectory 0 b).cont
  have := h 0 b 0 (K * (1 / 1000)) y warmer le_rfl (by positivity) cont
    ⟨cont.pres, cont.comp.add continuousOn_const, cont.exp⟩
    (fun t _ => ⟨within t, within_warmer t⟩) (fun t _ => ⟨_, nearlyFollows_of_follows (follows t)⟩) hw t ht
  rwa [gap_warmer 0] at this

end TrajectoryExample

end Sett
