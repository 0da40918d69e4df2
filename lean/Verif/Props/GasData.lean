import Verif.Props.Fluid
import Mathlib.Analysis.Calculus.Deriv.MeanValue

/-! # C66: the gas data are those of helium and hydrogen

The coded numbers are compared with the universal gas constant, the molar masses and kinetic theory, none of
which appear in the code. -/

namespace Sett

open IdealGas

/-- Universal gas constant, J/kmol-K. -/
noncomputable def Spec.universalGasConstant : ℝ := 8314.462618
/-- Molar masses, kg/kmol. -/
noncomputable def Spec.molarMass : GasName → ℝ
  | .Helium => 4.002602
  | .Hydrogen => 2.01588

/-- **C66.** The specific gas constants are the universal one over the molar mass, to 0.01 %. -/
theorem C66_gas_constant (n : GasName) :
    |(IdealGas.new n : IdealGas ℝ).gas_constant * Spec.molarMass n - Spec.universalGasConstant|
      ≤ 1 / 10000 * Spec.universalGasConstant := by
  cases n <;> simp only [IdealGas.new, IdealGas.parameters, Spec.molarMass, Spec.universalGasConstant] <;>
    rw [abs_le] <;> norm_num

/-- **C66**, density: `P M = ρ Ru T` to 0.01 %, at every state. -/
theorem C66_density (n : GasName) (T P : ℝ) (hT : 0 < T) (hP : 0 < P) :
    |(IdealGas.new n : IdealGas ℝ).dens T P * (Spec.universalGasConstant * T) - P * Spec.molarMass n|
      ≤ 2 / 10000 * (P * Spec.molarMass n) := by
  have hR : 0 < (IdealGas.new n : IdealGas ℝ).gas_constant := gas_constant_pos n
  have h := C66_gas_constant n
  have hM : 0 < Spec.molarMass n := by cases n <;> norm_num [Spec.molarMass]
  set R := (IdealGas.new n : IdealGas ℝ).gas_constant
  have e : (IdealGas.new n : IdealGas ℝ).dens T P * (Spec.universalGasConstant * T)
      = P * (Spec.universalGasConstant / R) := by
    show P / (R * T) * _ = _
    field_simp
  have hu : (0 : ℝ) < Spec.universalGasConstant := by norm_num [Spec.universalGasConstant]
  rw [e]
  rw [abs_le] at h ⊢
  have l1 : Spec.universalGasConstant / R ≤ Spec.molarMass n * (1 + 2 / 10000) := by
    rw [div_le_iff₀ hR]; nlinarith
  have l2 : Spec.molarMass n * (1 - 2 / 10000) ≤ Spec.universalGasConstant / R := by
    rw [le_div_iff₀ hR]; nlinarith
  constructor <;> nlinarith

/-- **C66**, helium is monatomic: `cp` is 5/2 `R` and the ratio of heat capacities 5/3, to 0.01 %, at every
state. -/
theorem C66_helium_monatomic (T P : ℝ) :
    let g : IdealGas ℝ := IdealGas.helium
    |g.cp T P - 5 / 2 * g.gas_constant| ≤ 1 / 10000 * (5 / 2 * g.gas_constant) ∧
      |g.cp T P / g.du_dT_P T P - 5 / 3| ≤ 1 / 10000 * (5 / 3) := by
  intro g
  have h1 : g.cp T P = 5193.17 := helium_cp T P
  have h2 : g.gas_constant = 2077.23 := rfl
  have h3 : g.du_dT_P T P = 5193.17 - 2077.23 := by
    show g.cp T P - g.gas_constant = _; rw [h1, h2]
  rw [h3, h1, h2, abs_le, abs_le]
  norm_num

/-- The slope of hydrogen's `cp`. -/
noncomputable def hydrogenSlope (T : ℝ) : ℝ := 13.3194432 - 2 * 3.47782806e-2 * T
  + 3 * 4.31784838e-5 * T ^ 2 - 4 * 2.42883335e-8 * T ^ 3 + 5 * 5.14289838e-12 * T ^ 4

theorem hydrogenSlope_nonneg {T : ℝ} (h1 : 100 ≤ T) (h2 : T ≤ 1500) : 0 ≤ hydrogenSlope T := by
  unfold hydrogenSlope
  rcases le_total T 450 with h | h
  · have a : 0 ≤ T - 100 := by linarith
    have b : 0 ≤ 450 - T := by linarith
    have e : 13.3194432 - 2 * 3.47782806e-2 * T + 3 * 4.31784838e-5 * T ^ 2
        - 4 * 2.42883335e-8 * T ^ 3 + 5 * 5.14289838e-12 * T ^ 4
      = 756455970919/1500625000000000000000 * (450-T)^4
        + 699840714821/750312500000000000000 * ((T-100)*(450-T)^3)
        + 1817958784317/3001250000000000000000 * ((T-100)^2*(450-T)^2)
        + 544587626301/3001250000000000000000 * ((T-100)^3*(450-T))
        + 722043025959/24010000000000000000000 * (T-100)^4 := by norm_num; ring
    rw [e]; positivity
  rcases le_total T 800 with h' | h'
  · have a : 0 ≤ T - 450 := by linarith
    have b : 0 ≤ 800 - T := by linarith
    have e : 13.3194432 - 2 * 3.47782806e-2 * T + 3 * 4.31784838e-5 * T ^ 2
        - 4 * 2.42883335e-8 * T ^ 3 + 5 * 5.14289838e-12 * T ^ 4
      = 722043025959/24010000000000000000000 * (800-T)^4
        + 88727699829/1500625000000000000000 * ((T-450)*(800-T)^3)
        + 179140526097/750312500000000000000 * ((T-450)^2*(800-T)^2)
        + 25799777069/93789062500000000000 * ((T-450)^3*(800-T))
        + 533996879/5861816406250000000 * (T-450)^4 := by norm_num; ring
    rw [e]; positivity
  · have a : 0 ≤ T - 800 := by linarith
    have b : 0 ≤ 1500 - T := by linarith
    have e : 13.3194432 - 2 * 3.47782806e-2 * T + 3 * 4.31784838e-5 * T ^ 2
        - 4 * 2.42883335e-8 * T ^ 3 + 5 * 5.14289838e-12 * T ^ 4
      = 533996879/93789062500000000000 * (1500-T)^4
        + 5092784663/150062500000000000000 * ((T-800)*(1500-T)^3)
        + 6923806341/120050000000000000000 * ((T-800)^2*(1500-T)^2)
        + 361861977/24010000000000000000 * ((T-800)^3*(1500-T))
        + 436236807/38416000000000000000 * (T-800)^4 := by norm_num; ring
    rw [e]; positivity

theorem hydrogen_cp (T P : ℝ) : (IdealGas.hydrogen : IdealGas ℝ).cp T P
    = 12471.4839 + 13.3194432 * T - 3.47782806e-2 * T ^ 2 + 4.31784838e-5 * T ^ 3
      - 2.42883335e-8 * T ^ 4 + 5.14289838e-12 * T ^ 5 := by
  simp only [IdealGas.hydrogen, IdealGas.new, IdealGas.parameters, cp, poly]
  norm_num
  ring

theorem hydrogen_cp_deriv (T P : ℝ) :
    HasDerivAt (fun T => (IdealGas.hydrogen : IdealGas ℝ).cp T P) (hydrogenSlope T) T := by
  have : (fun T => (IdealGas.hydrogen : IdealGas ℝ).cp T P) = _ := funext fun T => hydrogen_cp T P
  rw [this]
  have hp : ∀ k : ℕ, HasDerivAt (fun T : ℝ => T ^ k) (k * T ^ (k - 1)) T := fun k =>
    hasDerivAt_pow k T
  refine ((((((hasDerivAt_id T).const_mul (13.3194432 : ℝ)).const_add (12471.4839 : ℝ)).sub
    ((hp 2).const_mul (3.47782806e-2 : ℝ))).add ((hp 3).const_mul (4.31784838e-5 : ℝ))).sub
    ((hp 4).const_mul (2.42883335e-8 : ℝ))).add ((hp 5).const_mul (5.14289838e-12 : ℝ))
    |>.congr_deriv ?_
  unfold hydrogenSlope
  push_cast
  norm_num
  ring

/-- **C66**, hydrogen is diatomic: between 100 and 1500 K `cp` grows with temperature, from 3.27 `R` where
rotation is not yet fully excited to 3.89 `R` where vibration sets in, and the ratio of heat capacities lies
between 1.34 and 1.45. -/
theorem C66_hydrogen_diatomic (P P' : ℝ) :
    let g : IdealGas ℝ := IdealGas.hydrogen
    (∀ T T', 100 ≤ T → T ≤ T' → T' ≤ 1500 → g.cp T P ≤ g.cp T' P') ∧
    ∀ T, 100 ≤ T → T ≤ 1500 →
      (3.27 * g.gas_constant ≤ g.cp T P ∧ g.cp T P ≤ 3.89 * g.gas_constant) ∧
      1.34 ≤ g.cp T P / g.du_dT_P T P ∧ g.cp T P / g.du_dT_P T P ≤ 1.45 := by
  intro g
  have hmono : ∀ T T', 100 ≤ T → T ≤ T' → T' ≤ 1500 → g.cp T P ≤ g.cp T' P := by
    intro T T' h1 h2 h3
    have hm : MonotoneOn (fun T => g.cp T P) (Set.Icc 100 1500) := by
      apply monotoneOn_of_deriv_nonneg (convex_Icc _ _)
      · exact fun T _ => (hydrogen_cp_deriv T P).continuousAt.continuousWithinAt
      · exact fun T _ => (hydrogen_cp_deriv T P).differentiableAt.differentiableWithinAt
      · intro T hT
        rw [interior_Icc] at hT
        rw [(hydrogen_cp_deriv T P).deriv]
        exact hydrogenSlope_nonneg hT.1.le hT.2.le
    exact hm ⟨h1, h2.trans h3⟩ ⟨h1.trans h2, h3⟩ h2
  refine ⟨fun T T' h1 h2 h3 => hmono T T' h1 h2 h3, fun T h1 h2 => ?_⟩
  have hlo := hmono 100 T (le_refl _) h1 h2
  have hhi := hmono T 1500 h1 h2 (le_refl _)
  have e1 : g.cp 100 P = _ := hydrogen_cp 100 P
  have e2 : g.cp 1500 P = _ := hydrogen_cp 1500 P
  rw [e1] at hlo
  rw [e2] at hhi
  have hR : g.gas_constant = 4124.2 := rfl
  have hd : g.du_dT_P T P = g.cp T P - 4124.2 := rfl
  rw [hR, hd]
  norm_num at hlo hhi
  have hpos : 0 < g.cp T P - 4124.2 := by linarith
  refine ⟨⟨by norm_num; linarith, by norm_num; linarith⟩, ?_, ?_⟩
  · rw [le_div_iff₀ hpos]; linarith
  · rw [div_le_iff₀ hpos]; linarith

/-- C66 at room temperature. -/
example : 3.27 * 4124.2 ≤ (IdealGas.hydrogen : IdealGas ℝ).cp 300 1e6 :=
  ((C66_hydrogen_diatomic 1e6 1e6).2 300 (by norm_num) (by norm_num)).1.1
/-- C66 tells the two gases apart: helium's `cp` is not that of a diatomic gas. -/
example : ¬(3.27 * (IdealGas.helium : IdealGas ℝ).gas_constant ≤ (IdealGas.helium : IdealGas ℝ).cp 300 1) := by
  have h := (C66_helium_monatomic 300 1).1
  have hR : (IdealGas.helium : IdealGas ℝ).gas_constant = 2077.23 := rfl
  simp only [hR, abs_le] at h ⊢
  norm_num at h ⊢
  linarith [h.2]

end Sett
