import Verif.Props.SecondLawGas
import Verif.Props.SecondLawExample

/-! # C85 for gases whose heat capacity depends on the temperature: examples -/

namespace Sett.SecondLawGasExample

open Spec state_equations BalanceExample TrajectoryExample Set

/-- A perfect gas is one of the gases of the theorems. -/
theorem perfect_caloric {f : Fluid ℝ} {R cp h0 u0 : ℝ} (hg : PerfectGas f R cp h0 u0) :
    CaloricGas f R (u0 - h0) (fun _ => cp) (fun T => cp * T) (fun T => cp * Real.log T) fun _ => h0 where
  R_pos := hg.R_pos
  cp_pos := fun _ _ => hg.cp_pos
  heat := fun T _ => by simpa using (hasDerivAt_id T).const_mul cp
  entropy := fun T hT => by
    rw [div_eq_mul_inv]
    exact (Real.hasDerivAt_log hT.ne').const_mul cp
  error := continuousOn_const
  dens := hg.dens
  enth := hg.enth
  inte := fun T P => by rw [hg.inte]; ring
  dd_dP_T := hg.dd_dP_T
  dd_dT_P := hg.dd_dT_P
  du_dP_T := hg.du_dP_T
  du_dT_P := hg.du_dT_P

/-- Carnot's bound for a cycle with heat received and work done, seen as one of a gas of the general kind. -/
example : workOf (SecondLawExample.run 0 SecondLawExample.gas) (SecondLawExample.y 0) 0 4
    ≤ (1 - 300 / 600) * ∫ t in (0 : ℝ)..4, (SecondLawExample.sol 0 t).Q_dot_l := by
  have hg' : PerfectGas SecondLawExample.gas 2077.23 5193.17 (-(5193.17 * 250)) (-(5193.17 * 250) + 0) := by
    rw [add_zero]; exact SecondLawExample.gas_perfect
  have hg := perfect_caloric SecondLawExample.gas_perfect
  rw [sub_self] at hg
  exact C85_gas_carnot (r := SecondLawExample.run 0 SecondLawExample.gas) hg exact_sound (SecondLawExample.norm_ne hg')
    (SecondLawExample.closed le_rfl (by norm_num) hg') (by show (0 : ℝ) < 300; norm_num)
    (by show (300 : ℝ) ≤ 600; norm_num) (le_refl (300 : ℝ)) (SecondLawExample.regen_zero le_rfl (by norm_num) hg') ⟨rfl, rfl⟩

/-- The cycle of the crate's helium that beats Carnot's bound meets the one of `C85_crate_partial`. -/
example : workOf (SecondLawExample.run (2077.23 * 250) (IdealGas.helium : IdealGas ℝ).toFluid)
      (SecondLawExample.y (2077.23 * 250)) 0 4
    ≤ (1 - 300 / 600) * (∫ t in (0 : ℝ)..4, (SecondLawExample.sol (2077.23 * 250) t).Q_dot_l)
      - 300 * ((IdealGas.new .Helium : IdealGas ℝ).gas_constant * 250
          * (∫ t in (0 : ℝ)..4, ((SecondLawExample.sol (2077.23 * 250) t).m_dot_ck / (SecondLawExample.y (2077.23 * 250) t).T_c
            - (SecondLawExample.sol (2077.23 * 250) t).m_dot_le / (SecondLawExample.y (2077.23 * 250) t).T_e))
        + ∫ t in (0 : ℝ)..4, errorMade (SecondLawExample.run (2077.23 * 250) (IdealGas.helium : IdealGas ℝ).toFluid)
            (fun T => -(250 * heatAverage .Helium T)) (SecondLawExample.y (2077.23 * 250) t) (SecondLawExample.sol (2077.23 * 250) t))
      + ∫ t in (0 : ℝ)..4, errorEnergy (fun T => -(250 * heatAverage .Helium T)) (SecondLawExample.y (2077.23 * 250) t)
          (SecondLawExample.sol (2077.23 * 250) t) := by
  have hw : (0 : ℝ) ≤ 2077.23 * 250 := by norm_num
  have hg := SecondLawExample.helium_perfect'
  exact C85_crate_partial (r := SecondLawExample.run (2077.23 * 250) (IdealGas.helium : IdealGas ℝ).toFluid) .Helium rfl
    exact_sound (SecondLawExample.norm_ne hg) (SecondLawExample.closed hw le_rfl hg) (by show (0 : ℝ) < 300; norm_num)
    (by show (300 : ℝ) ≤ 600; norm_num) (fun _ => le_rfl) (SecondLawExample.regen_zero hw le_rfl hg) ⟨rfl, rfl⟩

/-! ## A cycle of hydrogen

Both spaces compress and expand their gas without flow; the temperature swings between 250 K and 350 K. -/

noncomputable def θ (t : ℝ) : ℝ := 300 + 50 * Real.sin t
noncomputable def dθ (t : ℝ) : ℝ := 50 * Real.cos t

theorem θ_deriv (t : ℝ) : HasDerivAt θ (dθ t) t := ((Real.hasDerivAt_sin t).const_mul 50).const_add 300

theorem θ_ge (t : ℝ) : 250 ≤ θ t := by have := Real.neg_one_le_sin t; unfold θ; linarith

theorem θ_pos (t : ℝ) : 0 < θ t := by linarith [θ_ge t]

variable (n : GasName)

noncomputable def R : ℝ := (IdealGas.new n : IdealGas ℝ).gas_constant
noncomputable def heat (T : ℝ) : ℝ := (IdealGas.new n : IdealGas ℝ).cp T 0

theorem R_pos : 0 < R n := IdealGas.gas_constant_pos n

noncomputable def pres (t : ℝ) : ℝ := 1000000 * Real.exp ((heatEntropy n (θ t) - heatEntropy n 300) / R n)
noncomputable def dP (t : ℝ) : ℝ := pres n t * (heat n (θ t) / θ t * dθ t / R n)

theorem pres_pos (t : ℝ) : 0 < pres n t := by unfold pres; positivity

theorem pres_deriv (t : ℝ) : HasDerivAt (pres n) (dP n t) t := by
  have h := (((crate_caloric n).entropy (θ t) (θ_pos t)).comp t (θ_deriv t)).sub_const (heatEntropy n 300)
  refine ((h.div_const (R n)).exp.const_mul 1000000).congr_deriv ?_
  simp only [dP, pres, heat, Function.comp_apply]
  ring

noncomputable def vol (t : ℝ) : ℝ := R n * θ t / pres n t
noncomputable def dV (t : ℝ) : ℝ := vol n t * (dθ t / θ t - dP n t / pres n t)

theorem vol_pos (t : ℝ) : 0 < vol n t := div_pos (mul_pos (R_pos n) (θ_pos t)) (pres_pos n t)

theorem vol_deriv (t : ℝ) : HasDerivAt (vol n) (dV n t) t := by
  have hP := (pres_pos n t).ne'
  have hθ := (θ_pos t).ne'
  refine (((θ_deriv t).const_mul (R n)).div (pres_deriv n t) hP).congr_deriv ?_
  simp only [dV, vol]
  field_simp

noncomputable def components : Components ℝ where
  ws :=
    { frequency := fun _ => 1 / (2 * Real.pi)
      volumes := fun _ t => (⟨vol n t, dV n t⟩, ⟨vol n t, dV n t⟩)
      thermal_resistance := fun _ => { comp := 0, exp := 0 }
      parasitics := fun _ => { comp := ⟨0, 0, 0⟩, exp := ⟨0, 0, 0⟩ } }
  chx := (chx.FixedApproach.new 0 0 0 ⟨0, 0, 0⟩).toColdHeatExchanger
  regen := (regen.FixedApproach.new 0 0 0 ⟨0, 0, 0⟩).toRegenerator
  hhx := (hhx.FixedApproach.new 0 0 0 ⟨0, 0, 0⟩).toHotHeatExchanger

noncomputable def run : Run ℝ := Run.new exact (components n) (SecondLawExample.state (IdealGas.new n : IdealGas ℝ).toFluid)

noncomputable def y (t : ℝ) : Conditions ℝ := { P := pres n t, T_c := θ t, T_e := θ t }

noncomputable def sol (t : ℝ) : Solution ℝ where
  m_dot_ck := 0
  m_dot_kr := 0
  m_dot_rl := 0
  m_dot_le := 0
  Q_dot_k := 0
  Q_dot_r := 0
  Q_dot_l := 0
  dTc_dt := dθ t
  dTe_dt := dθ t
  dP_dt := dP n t

theorem norm_ne : (run n).enth_norm ≠ 0 := by
  show 0.5 * ((IdealGas.new n : IdealGas ℝ).enth 300 1000000 + (IdealGas.new n : IdealGas ℝ).enth 600 1000000) ≠ 0
  rw [IdealGas.enth_eq, IdealGas.enth_eq, IdealGas.ref_temp_eq]
  cases n <;> simp only [IdealGas.new, IdealGas.parameters] <;> norm_num

theorem balanced (t : ℝ) : Balances ((run n).calculate_inputs t (y n t))
    (upwind ((run n).calculate_inputs t (y n t)) (sol n t)) (sol n t) := by
  have hg := crate_caloric n
  have hP := (pres_pos n t).ne'
  have hθ := (θ_pos t).ne'
  have hR := (R_pos n).ne'
  have hz : (run n).vol_chx = 0 ∧ (run n).vol_regen = 0 ∧ (run n).vol_hhx = 0 := ⟨rfl, rfl, rfl⟩
  have hf : (run n).fluid = (IdealGas.new n : IdealGas ℝ).toFluid := rfl
  have hv : (run n).ws_vol_fn t = (⟨vol n t, dV n t⟩, ⟨vol n t, dV n t⟩) := rfl
  have hq : (run n).ws_parasitics.comp.thermal = 0 ∧ (run n).ws_parasitics.exp.thermal = 0 := ⟨rfl, rfl⟩
  have hR' : (IdealGas.new n : IdealGas ℝ).gas_constant = R n := rfl
  have hh : (IdealGas.new n : IdealGas ℝ).cp (θ t) 0 = heat n (θ t) := rfl
  constructor <;>
    simp only [compMass, compEnergy, chxMass, chxEnergy, regenMass, regenEnergy, hhxMass, hhxEnergy,
      expMass, expEnergy, massRate, energyRate, Run.calculate_inputs, Run.comp_inputs, Run.chx_inputs,
      Run.regen_inputs, Run.hhx_inputs, Run.exp_inputs, sol, y, hf, hz.1, hz.2.1, hz.2.2, hv, hq.1, hq.2,
      hg.dens, hg.inte, hg.dd_dP_T, hg.dd_dT_P, hg.du_dP_T, hg.du_dT_P, hR', hh, zero_mul, mul_zero, add_zero, sub_zero, neg_zero] <;>
    simp only [dV, vol, dP] <;> field_simp <;> ring

theorem physical (t : ℝ) : Physical (run n) t (y n t) 100 where
  pres := pres_pos n t
  comp_vol := vol_pos n t
  exp_vol := vol_pos n t
  chx_vol := le_refl (0 : ℝ)
  regen_vol := le_refl (0 : ℝ)
  hhx_vol := le_refl (0 : ℝ)
  regen_temp := by show (0 : ℝ) < 450; norm_num
  comp_temp := by have := θ_ge t; simp only [y]; linarith
  chx_temp := by show (100 : ℝ) ≤ 300; norm_num
  hhx_temp := by show (100 : ℝ) ≤ 600; norm_num
  exp_temp := by have := θ_ge t; simp only [y]; linarith
  norm := norm_ne n

theorem follows (t : ℝ) : Follows (run n) (y n) t (sol n t) where
  solved := ⟨_, congrArg Prod.fst (C58_some_hint_succeeds exact exact_sound exact_complete _ (norm_ne n)
    (C58_ideal_gas_stable _ n rfl t _ (physical n t)) (sol n t) (balanced n t))⟩
  pres := (pres_deriv n t).hasDerivWithinAt
  comp := (θ_deriv t).hasDerivWithinAt
  exp := (θ_deriv t).hasDerivWithinAt

theorem θ_continuous : Continuous θ := continuous_iff_continuousAt.2 fun t => (θ_deriv t).continuousAt
theorem pres_continuous : Continuous (pres n) := continuous_iff_continuousAt.2 fun t => (pres_deriv n t).continuousAt
theorem vol_continuous : Continuous (vol n) := continuous_iff_continuousAt.2 fun t => (vol_deriv n t).continuousAt

theorem dV_continuous : Continuous (dV n) := by
  have h1 : ∀ t, θ t ≠ 0 := fun t => (θ_pos t).ne'
  have h2 : ∀ t, pres n t ≠ 0 := fun t => (pres_pos n t).ne'
  have h3 := θ_continuous
  have h4 := pres_continuous n
  have h5 := vol_continuous n
  have h6 : Continuous (heat n) := by unfold heat IdealGas.cp poly; fun_prop
  have h7 : Continuous dθ := by unfold dθ; fun_prop
  unfold dV dP
  fun_prop (disch := assumption)

theorem closed : ClosedCycle (run n) (y n) (sol n) 0 (2 * Real.pi) where
  le := by positivity
  regular :=
    { pres := (pres_continuous n).continuousOn
      comp := θ_continuous.continuousOn
      exp := θ_continuous.continuousOn
      comp_pos := fun t _ => θ_pos t
      exp_pos := fun t _ => θ_pos t }
  pres_pos := fun t _ => pres_pos n t
  drive := fun t => ⟨vol_deriv n t, vol_deriv n t⟩
  rates := ⟨dV_continuous n, dV_continuous n⟩
  follows := fun t _ => follows n t
  ck := continuousOn_const
  kr := continuousOn_const
  rl := continuousOn_const
  le' := continuousOn_const
  Qk := continuousOn_const
  Qr := continuousOn_const
  Ql := continuousOn_const
  closed := by simp [y, pres, θ]
  volumes := by
    show vol n (2 * Real.pi) = vol n 0 ∧ vol n (2 * Real.pi) = vol n 0
    simp [vol, pres, θ]

/-- The bound of C85 for hydrogen, whose heat capacity depends on the temperature. -/
example : workOf (run .Hydrogen) (y .Hydrogen) 0 (2 * Real.pi)
    ≤ (1 - 300 / 600) * (∫ t in (0 : ℝ)..2 * Real.pi, (sol .Hydrogen t).Q_dot_l)
      - 300 * ((IdealGas.new .Hydrogen : IdealGas ℝ).gas_constant * 250
          * (∫ t in (0 : ℝ)..2 * Real.pi, ((sol .Hydrogen t).m_dot_ck / (y .Hydrogen t).T_c
            - (sol .Hydrogen t).m_dot_le / (y .Hydrogen t).T_e))
        + ∫ t in (0 : ℝ)..2 * Real.pi, errorMade (run .Hydrogen) (fun T => -(250 * heatAverage .Hydrogen T)) (y .Hydrogen t)
            (sol .Hydrogen t))
      + ∫ t in (0 : ℝ)..2 * Real.pi, errorEnergy (fun T => -(250 * heatAverage .Hydrogen T)) (y .Hydrogen t) (sol .Hydrogen t) :=
  C85_crate_partial (r := run .Hydrogen) .Hydrogen rfl exact_sound (norm_ne _) (closed _) (by show (0 : ℝ) < 300; norm_num)
    (by show (300 : ℝ) ≤ 600; norm_num) (fun _ => le_rfl) (by simp [sol]) ⟨rfl, rfl⟩

/-- The first law for it. -/
example : workOf (run .Hydrogen) (y .Hydrogen) 0 (2 * Real.pi) = 0 := by
  have h := C85_gas_first_law (r := run .Hydrogen) (crate_caloric .Hydrogen) exact_sound (norm_ne _) (closed _)
  rw [h]
  have q : (run .Hydrogen).ws_parasitics.comp.thermal = 0 ∧ (run .Hydrogen).ws_parasitics.exp.thermal = 0 := ⟨rfl, rfl⟩
  simp [sol, errorEnergy, q.1, q.2]

/-- Its temperature swings, and with it its heat capacity. -/
example : heat .Hydrogen (θ 0) ≠ heat .Hydrogen (θ (Real.pi / 2)) := by
  simp only [heat, θ, Real.sin_zero, Real.sin_pi_div_two, IdealGas.cp, poly, IdealGas.new, IdealGas.parameters]
  norm_num

end Sett.SecondLawGasExample
