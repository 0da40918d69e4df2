import Verif.Props.SecondLawGas

/-! # C17: how far hydrogen's enthalpy is from the integral of its heat capacity -/

namespace Sett

open IdealGas MeasureTheory

/-- The integral of the coded heat capacity, for both gases: the difference of the coded enthalpies plus `250` times the difference of
the polynomials the code multiplies by `T - Tref`. -/
theorem cp_integral (n : GasName) (P : ℝ) {T₁ T₂ : ℝ} (h₁ : 0 < T₁) (h : T₁ ≤ T₂) :
    ∫ T in T₁..T₂, (IdealGas.new n : IdealGas ℝ).cp T P = (IdealGas.new n : IdealGas ℝ).enth T₂ P
      - (IdealGas.new n : IdealGas ℝ).enth T₁ P + 250 * (heatAverage n T₂ - heatAverage n T₁) := by
  have hg := crate_caloric n
  have e2 := hg.enth T₂ P
  have e1 := hg.enth T₁ P
  simp only [IdealGas.toFluid] at e1 e2
  rw [e1, e2, intervalIntegral.integral_eq_sub_of_hasDerivAt (f := fun T => T * heatAverage n T)]
  · ring
  · intro T hT
    rw [Set.uIcc_of_le h] at hT
    exact hg.heat T (h₁.trans_le hT.1)
  · apply Continuous.intervalIntegrable
    unfold cp poly
    fun_prop

/-- Rate at which the error of hydrogen's enthalpy grows with temperature, over `250`. -/
noncomputable def shortfall (T : ℝ) : ℝ :=
  13.3194432 / 2 + 2 * (-3.47782806e-2) / 3 * T + 3 * 4.31784838e-5 / 4 * T ^ 2
        + 4 * (-2.42883335e-8) / 5 * T ^ 3 + 5 * 5.14289838e-12 / 6 * T ^ 4

theorem shortfall_pos {T : ℝ} (hT : 0 < T) : 0 < 250 * shortfall T := by
  obtain ⟨x, rfl⟩ : ∃ x, T = 1000 * x := ⟨T / 1000, by ring⟩
  unfold shortfall
  have : 0 < 13.3194432 / 2 - 2 * 34.7782806 / 3 * x + 3 * 43.1784838 / 4 * x ^ 2 - 4 * 24.2883335 / 5 * x ^ 3
      + 5 * 5.14289838 / 6 * x ^ 4 := by
    nlinarith [sq_nonneg (x ^ 2 - 2.2668 * x + 1.15), sq_nonneg (x - 0.85)]
  nlinarith

theorem shortfall_le {T : ℝ} (hT : 0 < T) : 250 * shortfall T ≤ 0.14 * (IdealGas.new .Hydrogen : IdealGas ℝ).cp T 0 := by
  rw [hydrogen_cp]
  obtain ⟨x, rfl⟩ : ∃ x, T = 1000 * x := ⟨T / 1000, by ring⟩
  have hx : 0 < x := by linarith
  unfold shortfall
  have q : 0 < 7661 - 12966 * x + 10902 * x ^ 2 - 4472 * x ^ 3 + 720 * x ^ 4 := by
    nlinarith [sq_nonneg (x ^ 2 - 3.105 * x + 2.6), sq_nonneg (x - 3.08)]
  have := mul_pos hx q
  have := pow_pos hx 2
  have := pow_pos hx 3
  have := pow_pos hx 4
  have := pow_pos hx 5
  norm_num
  nlinarith

/-- **C17**, how far hydrogen is off over any range of temperatures: the difference of the coded enthalpies falls short of the integral
of the coded heat capacity, by no more than 14 percent of it; so does the difference of the coded internal energies fall short of the
integral of the coded `du_dT_P`, by the same amount. -/
theorem C17_hydrogen_integral (P : ℝ) {T₁ T₂ : ℝ} (h₁ : 0 < T₁) (h : T₁ < T₂) :
    let g : IdealGas ℝ := IdealGas.hydrogen
    let short := (∫ T in T₁..T₂, g.cp T P) - (g.enth T₂ P - g.enth T₁ P)
    0 < short ∧ short ≤ 0.14 * (∫ T in T₁..T₂, g.cp T P)
      ∧ (∫ T in T₁..T₂, g.du_dT_P T P) - (g.inte T₂ P - g.inte T₁ P) = short := by
  intro g short
  have cont : Continuous fun T => g.cp T P := by unfold cp poly; fun_prop
  have cont' : Continuous fun T => 250 * shortfall T := by unfold shortfall; fun_prop
  have e : short = ∫ T in T₁..T₂, 250 * shortfall T := by
    have d : ∀ T ∈ Set.uIcc T₁ T₂, HasDerivAt (fun T => g.enth T P) (g.cp T P - 250 * shortfall T) T := fun T _ =>
      C17_hydrogen_discrepancy T P
    have i := intervalIntegral.integral_eq_sub_of_hasDerivAt d ((cont.sub cont').intervalIntegrable _ _)
    rw [intervalIntegral.integral_sub (cont.intervalIntegrable _ _) (cont'.intervalIntegrable _ _)] at i
    simp only [short]
    linarith
  refine ⟨?_, ?_, ?_⟩
  · rw [e]
    exact intervalIntegral.intervalIntegral_pos_of_pos_on (cont'.intervalIntegrable _ _)
      (fun T hT => shortfall_pos (h₁.trans hT.1)) h
  · rw [e, ← intervalIntegral.integral_const_mul]
    exact intervalIntegral.integral_mono_on h.le (cont'.intervalIntegrable _ _) ((cont.const_mul _).intervalIntegrable _ _)
      fun T hT => shortfall_le (h₁.trans_le hT.1)
  · have c : (∫ T in T₁..T₂, g.du_dT_P T P) = (∫ T in T₁..T₂, g.cp T P) - g.gas_constant * (T₂ - T₁) := by
      simp only [du_dT_P]
      rw [intervalIntegral.integral_sub (cont.intervalIntegrable _ _) intervalIntegrable_const, intervalIntegral.integral_const,
        smul_eq_mul, mul_comm]
    rw [c]
    simp only [inte, short]
    ring

/-- From 300 K to 600 K. -/
example : let g : IdealGas ℝ := IdealGas.hydrogen
    g.enth 600 1e6 - g.enth 300 1e6 < ∫ T in (300 : ℝ)..600, g.cp T 1e6 := by
  have h := (C17_hydrogen_integral 1e6 (T₁ := 300) (T₂ := 600) (by norm_num) (by norm_num)).1
  simp only at h ⊢
  linarith

end Sett
