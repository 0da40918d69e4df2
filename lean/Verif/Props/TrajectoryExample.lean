import Verif.Props.Trajectory
import Verif.Props.Autonomous
import Mathlib.Analysis.SpecialFunctions.Pow.Deriv

/-! # A worked trajectory for C55–C60

Helium, both spaces moving in phase with equal geometry, exchangers of zero volume: nothing flows and the
gas is compressed and expanded adiabatically, `T ∝ V^(-R/cv)`.  This is an exact trajectory of the equations
the run sets up, with pressure and temperatures that vary. -/

namespace Sett.TrajectoryExample

open Spec state_equations BalanceExample

theorem exact_complete : Complete exact := by
  intro a b h
  unfold exact
  rw [dif_pos h.exists]
  rfl

noncomputable def drive : ws.SinusoidalDrive ℝ where
  frequency := 1
  phase_angle := 0
  comp_geometry := { clearance_volume := 1, swept_volume := 1 }
  exp_geometry := { clearance_volume := 1, swept_volume := 1 }
  thermal_resistance := { comp := 0, exp := 0 }
  parasitics := { comp := ⟨0, 0, 0⟩, exp := ⟨0, 0, 0⟩ }

noncomputable def components : Components ℝ where
  ws := drive.toWorkingSpaces
  chx := (chx.FixedApproach.new 0 0 40 ⟨0, 0, 0⟩).toColdHeatExchanger
  regen := (regen.FixedApproach.new 0 0 40 ⟨0, 0, 0⟩).toRegenerator
  hhx := (hhx.FixedApproach.new 0 0 40 ⟨0, 0, 0⟩).toHotHeatExchanger

noncomputable def state : State ℝ where
  fluid := (IdealGas.helium : IdealGas ℝ).toFluid
  pres := Pressure.constant 500
  temp := { sink := 300, chx := 340, regen := { cold := 380, avg := 600, hot := 820 }
            hhx := 860, source := 900 }
  mass_flow := { chx := 0, regen := 0, hhx := 0 }
  heat_flow := { chx := 0, regen := 0, hhx := 0 }
  regen_imbalance := ⟨0⟩

noncomputable def run : Run ℝ := Run.new exact components state

noncomputable def V (t : ℝ) : ℝ := (drive.volumes t).1.value
noncomputable def dV (t : ℝ) : ℝ := (drive.volumes t).1.deriv

theorem V_exp (t : ℝ) : (drive.volumes t).2.value = V t ∧ (drive.volumes t).2.deriv = dV t := by
  constructor <;> simp [V, dV, ws.SinusoidalDrive.volumes, drive]

theorem V_bounds (t : ℝ) : 1 ≤ V t ∧ V t ≤ 2 := by
  obtain ⟨a, b, -⟩ := ws.C12_sinusoidal_bounds drive (by norm_num [drive]) (by norm_num [drive]) t
  simp only [drive] at a b
  exact ⟨a, by unfold V; norm_num at b; exact b⟩

theorem V_deriv (t : ℝ) : HasDerivAt V (dV t) t := (ws.C11_sinusoidal_deriv drive t).1

/-- `R / cv` of the code's helium. -/
noncomputable def κ : ℝ := 2077.23 / (5193.17 - 2077.23)

theorem κ_bounds : 0 < κ ∧ κ ≤ 1 := by unfold κ; constructor <;> norm_num

noncomputable def T (t : ℝ) : ℝ := 1000 * V t ^ (-κ)

noncomputable def y (t : ℝ) : Conditions ℝ := { P := T t / V t, T_c := T t, T_e := T t }

theorem T_ge (t : ℝ) : 500 ≤ T t := by
  obtain ⟨h1, h2⟩ := V_bounds t
  have h3 : V t ^ (-1 : ℝ) ≤ V t ^ (-κ) :=
    Real.rpow_le_rpow_of_exponent_le h1 (by linarith [κ_bounds.2])
  rw [Real.rpow_neg_one] at h3
  have h4 : (2 : ℝ)⁻¹ ≤ (V t)⁻¹ := inv_anti₀ (by linarith) h2
  unfold T
  norm_num at h4
  linarith

theorem T_deriv (t : ℝ) : HasDerivAt T (-κ * T t * dV t / V t) t := by
  have hV : 0 < V t := by linarith [(V_bounds t).1]
  have h := ((V_deriv t).rpow_const (p := -κ) (.inl hV.ne')).const_mul 1000
  refine h.congr_deriv ?_
  have hp : V t ^ (-κ - 1) = V t ^ (-κ) / V t := by
    rw [Real.rpow_sub hV, Real.rpow_one]
  unfold T
  rw [hp]
  ring

theorem P_deriv (t : ℝ) :
    HasDerivAt (fun t => (y t).P) (-(κ + 1) * T t * dV t / V t ^ 2) t := by
  have hV : 0 < V t := by linarith [(V_bounds t).1]
  refine ((T_deriv t).div (V_deriv t) hV.ne').congr_deriv ?_
  field_simp
  ring

/-- The solution along the trajectory: no flow, no heat. -/
noncomputable def sol (t : ℝ) : Solution ℝ where
  m_dot_ck := 0
  m_dot_kr := 0
  m_dot_rl := 0
  m_dot_le := 0
  Q_dot_k := 0
  Q_dot_r := 0
  Q_dot_l := 0
  dTc_dt := -κ * T t * dV t / V t
  dTe_dt := -κ * T t * dV t / V t
  dP_dt := -(κ + 1) * T t * dV t / V t ^ 2

theorem norm_ne : run.enth_norm ≠ 0 := by
  show 0.5 * ((IdealGas.helium : IdealGas ℝ).enth 300 500
    + (IdealGas.helium : IdealGas ℝ).enth 900 500) ≠ 0
  rw [IdealGas.helium_enth, IdealGas.helium_enth]
  norm_num

/-- Every state of the trajectory is physical. -/
theorem physical (t : ℝ) : Physical run t (y t) 100 := by
  have hV : 0 < V t := by linarith [(V_bounds t).1]
  have hT := T_ge t
  have hT0 : 0 < T t := by linarith
  exact
    { norm := norm_ne
      pres := div_pos hT0 hV
      comp_vol := hV
      exp_vol := by
        show 0 < (drive.volumes t).2.value
        rw [(V_exp t).1]; exact hV
      chx_vol := le_refl (0 : ℝ)
      regen_vol := le_refl (0 : ℝ)
      hhx_vol := le_refl (0 : ℝ)
      regen_temp := by show (0 : ℝ) < 600; norm_num
      comp_temp := by show 100 ≤ T t; linarith
      chx_temp := by show (100 : ℝ) ≤ 340; norm_num
      hhx_temp := by show (100 : ℝ) ≤ 860; norm_num
      exp_temp := by show 100 ≤ T t; linarith }

theorem balanced (t : ℝ) (h : Faces) : Balances (run.calculate_inputs t (y t)) h (sol t) := by
  have hV : 0 < V t := by linarith [(V_bounds t).1]
  have hT0 : 0 < T t := by linarith [T_ge t]
  have hz : (0 : ℝ) = run.vol_chx ∧ (0 : ℝ) = run.vol_regen ∧ (0 : ℝ) = run.vol_hhx := ⟨rfl, rfl, rfl⟩
  have hR : (IdealGas.new .Helium : IdealGas ℝ).gas_constant = 2077.23 := by
    simp only [IdealGas.new, IdealGas.parameters]
  have hcp : ∀ T P, (IdealGas.new .Helium : IdealGas ℝ).cp T P = 5193.17 := IdealGas.helium_cp
  have hf : run.fluid = (IdealGas.new .Helium : IdealGas ℝ).toFluid := rfl
  have hP : (y t).P = T t / V t := rfl
  have hTc : (y t).T_c = T t := rfl
  have hTe : (y t).T_e = T t := rfl
  have hv : (run.ws_vol_fn t).1.value = V t ∧ (run.ws_vol_fn t).1.deriv = dV t ∧
      (run.ws_vol_fn t).2.value = V t ∧ (run.ws_vol_fn t).2.deriv = dV t :=
    ⟨rfl, rfl, V_exp t⟩
  have hq : run.ws_parasitics.comp.thermal = 0 ∧ run.ws_parasitics.exp.thermal = 0 := ⟨rfl, rfl⟩
  constructor <;>
    simp only [compMass, compEnergy, chxMass, chxEnergy, regenMass, regenEnergy, hhxMass, hhxEnergy,
      expMass, expEnergy, massRate, energyRate, Run.calculate_inputs, Run.comp_inputs, Run.chx_inputs,
      Run.regen_inputs, Run.hhx_inputs, Run.exp_inputs, sol, hf, IdealGas.toFluid, IdealGas.dens,
      IdealGas.dd_dP_T, IdealGas.dd_dT_P, IdealGas.du_dP_T, IdealGas.du_dT_P, ← hz.1, ← hz.2.1,
      ← hz.2.2, hP, hTc, hTe, hv.1, hv.2.1, hv.2.2.1, hv.2.2.2, hq.1, hq.2, hR, hcp, κ] <;>
    scalars <;> field_simp <;> ring

/-- The trajectory follows the equations of the run at every time. -/
theorem follows (t : ℝ) : Follows run y t (sol t) where
  solved := ⟨_, congrArg Prod.fst (C58_some_hint_succeeds exact exact_sound exact_complete _
    (physical t).norm (C58_ideal_gas_stable run .Helium rfl t _ (physical t)) (sol t) (balanced t _))⟩
  pres := (P_deriv t).hasDerivWithinAt
  comp := (T_deriv t).hasDerivWithinAt
  exp := (T_deriv t).hasDerivWithinAt

theorem regular (a b : ℝ) : Regular y a b where
  pres := fun t _ => (P_deriv t).continuousAt.continuousWithinAt
  comp := fun t _ => (T_deriv t).continuousAt.continuousWithinAt
  exp := fun t _ => (T_deriv t).continuousAt.continuousWithinAt
  comp_pos := fun t _ => by show 0 < T t; linarith [T_ge t]
  exp_pos := fun t _ => by show 0 < T t; linarith [T_ge t]

/-- C55 applies to it. -/
example (t : ℝ) (ht : t ∈ Set.Icc 0 10) : gasMass run y t = gasMass run y 0 :=
  C55_total_mass_constant exact exact_sound components (exactDrive_sinusoidal drive) state .Helium rfl y
    0 10 (regular 0 10) (fun t _ => ⟨sol t, follows t⟩) t ht

/-- C56 applies to it over one period: the work of the adiabatic cycle is zero. -/
theorem work_zero : ∫ t in (0 : ℝ)..1, (y t).P * ((drive.volumes t).1.deriv + (drive.volumes t).2.deriv) = 0 := by
  have hper : drive.volumes 1 = drive.volumes 0 := by
    have := ws.C12_sinusoidal_periodic drive (by norm_num [drive]) 0
    simpa [drive] using this
  have hc : Continuous fun t => (drive.volumes t).1.deriv + (drive.volumes t).2.deriv := by
    simp only [ws.SinusoidalDrive.volumes]
    scalars
    fun_prop
  have h := C56_helium_cycle exact exact_sound components (exactDrive_sinusoidal drive) state rfl norm_ne
    y 0 1 zero_le_one (regular 0 1) sol (fun t _ => follows t) continuousOn_const continuousOn_const
    continuousOn_const hc
    (by simp only [y, T, V, hper]) ⟨congrArg (fun v => v.1.value) hper, congrArg (fun v => v.2.value) hper⟩
  have hq : (components.ws.parasitics state.ws).comp.thermal = 0
    ∧ (components.ws.parasitics state.ws).exp.thermal = 0 := ⟨rfl, rfl⟩
  rw [hq.1, hq.2] at h
  simp only [sol, intervalIntegral.integral_zero, sub_zero, add_zero, mul_zero] at h
  exact h

/-- C57 and C59 apply at every time of it. -/
example (t : ℝ) (d : FlowDirection) :
    0 < reducedDet (run.calculate_inputs t (y t)) (facesFor (run.calculate_inputs t (y t)) d) :=
  C57_det_pos run .Helium rfl t (y t) (physical t) d

example (t : ℝ) : ∃ s, ∀ hint, solve exact (run.calculate_inputs t (y t)) hint = .ok s :=
  C59_run_solve run .Helium rfl exact_sound exact_complete t (y t) (physical t)

/-- The singular case of C57: the same engine with all gas at `R Tref / cp`. -/
example (t P : ℝ) (d : FlowDirection) :
    let Ts : ℝ := 2077.23 * 250 / 5193.17
    let r : Run ℝ := { run with temp := { run.temp with chx := Ts, hhx := Ts } }
    let i := r.calculate_inputs t { P := P, T_c := Ts, T_e := Ts }
    ¬ ∃! x, Solves ((System.new i).stencil.create_matrix d) (System.new i).b x := by
  intro Ts r i
  exact C57_helium_singular r rfl t { P := P, T_c := Ts, T_e := Ts } norm_ne
    (by show (5193.17 : ℝ) * (2077.23 * 250 / 5193.17) = _; norm_num) rfl rfl rfl d

/-- C60: an integrator that asks for the derivative at two points of the trajectory, the second after
having seen the first, answered by a function that is right there. -/
noncomputable def vec (t : ℝ) : V3 ℝ := { y0 := (y t).P, y1 := (y t).T_c, y2 := (y t).T_e }

noncomputable def rates (t : ℝ) (_ : V3 ℝ) : V3 ℝ :=
  { y0 := (sol t).dP_dt, y1 := (sol t).dTc_dt, y2 := (sol t).dTe_dt }

noncomputable def stepper : Stepper ℝ :=
  .eval 0 (vec 0) fun dy => .eval (1 / 2) (vec (1 / 2)) fun dy' =>
    .done (some ([0, 1], [dy, dy']))

example (dir : FlowDirection) : ∃ log, stepper.run run.toCycle dir
    = .ok (some ([0, 1], [rates 0 (vec 0), rates (1 / 2) (vec (1 / 2))]), log) :=
  C60_memory_unobservable run .Helium rfl exact_sound exact_complete rates stepper (by
    have hk : ∀ t, Physical run t (conditionsOf (vec t)) 100 ∧ IsRate run t (vec t) (rates t (vec t)) :=
      fun t => ⟨physical t, sol t, balanced t _, rfl⟩
    rintro t v (⟨rfl, rfl⟩ | ⟨rfl, rfl⟩ | h)
    · exact hk _
    · exact hk _
    · exact h.elim) dir

end Sett.TrajectoryExample
