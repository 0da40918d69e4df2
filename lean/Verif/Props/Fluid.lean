import Verif.Model.Fluid
import Verif.Proofs.Lits
import Mathlib.Analysis.Calculus.Deriv.Inv
import Mathlib.Analysis.Calculus.Deriv.Add
import Mathlib.Analysis.Calculus.Deriv.Mul
import Mathlib.Analysis.Calculus.Deriv.Pow
import Mathlib.Tactic.Linarith
import Mathlib.Tactic.FieldSimp
import Mathlib.Tactic.LinearCombination

/-! # C16–C19: the ideal-gas fluid model in exact arithmetic -/

namespace Sett.IdealGas

theorem gas_constant_pos (n : GasName) : 0 < (IdealGas.new n : IdealGas ℝ).gas_constant := by
  cases n <;> simp only [IdealGas.new, IdealGas.parameters] <;> norm_num

theorem ref_temp_eq (n : GasName) : (IdealGas.new n : IdealGas ℝ).ref_temp = 250 := by
  cases n <;> simp only [IdealGas.new, IdealGas.parameters] <;> norm_num

/-- **C16.** The density derivatives are the partial derivatives of the density. -/
theorem C16_density_derivatives (n : GasName) (T P : ℝ) (hT : T ≠ 0) :
    let g : IdealGas ℝ := IdealGas.new n
    HasDerivAt (fun P => g.dens T P) (g.dd_dP_T T P) P ∧
      HasDerivAt (fun T => g.dens T P) (g.dd_dT_P T P) T := by
  intro g
  have hR : g.gas_constant ≠ 0 := (gas_constant_pos n).ne'
  constructor
  · refine ((hasDerivAt_id P).div_const (g.gas_constant * T)).congr_deriv ?_
    simp only [dd_dP_T]; scalars
  · have h := (hasDerivAt_const T P).div ((hasDerivAt_id T).const_mul g.gas_constant)
      (mul_ne_zero hR hT)
    refine h.congr_deriv ?_
    simp only [dd_dT_P]; scalars
    simp only [id]
    field_simp
    ring

/-- **C16**, positivity. -/
theorem C16_density_positive (n : GasName) (T P : ℝ) (hT : 0 < T) (hP : 0 < P) :
    0 < (IdealGas.new n : IdealGas ℝ).dens T P :=
  div_pos hP (mul_pos (gas_constant_pos n) hT)

example : 0 < (IdealGas.new .Hydrogen : IdealGas ℝ).dens 300 1e6 :=
  C16_density_positive _ _ _ (by norm_num) (by norm_num)

/-! ## C17 -/

theorem helium_enth (T P : ℝ) :
    (IdealGas.helium : IdealGas ℝ).enth T P = 5193.17 * (T - 250) := by
  simp only [IdealGas.helium, IdealGas.new, IdealGas.parameters, enth, Coefs.map, poly]
  norm_num

theorem helium_cp (T P : ℝ) : (IdealGas.helium : IdealGas ℝ).cp T P = 5193.17 := by
  simp only [IdealGas.helium, IdealGas.new, IdealGas.parameters, cp, poly]
  norm_num

/-- **C17**, the part that holds: for helium `cp` is the temperature derivative of the enthalpy and
`du_dT_P` that of the internal energy, at every temperature and pressure. Missing: hydrogen, for which
it is false, see `C17_hydrogen_false`. -/
theorem C17_helium_partial (T P : ℝ) :
    let g : IdealGas ℝ := IdealGas.helium
    HasDerivAt (fun T => g.enth T P) (g.cp T P) T ∧
      HasDerivAt (fun T => g.inte T P) (g.du_dT_P T P) T := by
  intro g
  have h : HasDerivAt (fun T => g.enth T P) (g.cp T P) T := by
    have : (fun T => g.enth T P) = fun T => 5193.17 * (T - 250) := by
      funext T; exact helium_enth T P
    rw [this, show g.cp T P = 5193.17 from helium_cp T P]
    simpa using ((hasDerivAt_id T).sub_const 250).const_mul (5193.17 : ℝ)
  refine ⟨h, ?_⟩
  simp only [inte, du_dT_P]
  exact (h.sub (((hasDerivAt_id T).sub_const g.ref_temp).const_mul g.gas_constant)).congr_deriv
    (by simp)

/-- The enthalpy polynomial as the code evaluates it: `(T - Tref) Σ cᵢ/(i+1) Tⁱ`. -/
theorem enth_eq (n : GasName) (T P : ℝ) :
    let g : IdealGas ℝ := IdealGas.new n
    g.enth T P = (T - g.ref_temp) * (g.cp_coefs.c0 + g.cp_coefs.c1 / 2 * T
      + g.cp_coefs.c2 / 3 * T ^ 2 + g.cp_coefs.c3 / 4 * T ^ 3 + g.cp_coefs.c4 / 5 * T ^ 4
      + g.cp_coefs.c5 / 6 * T ^ 5) := by
  intro g
  simp only [g, enth, IdealGas.new, Coefs.map, poly]
  scalars
  ring

/-- The derivative of the enthalpy differs from `cp` by `-Tref Σ i cᵢ/(i+1) Tⁱ⁻¹`: exactly the error of
multiplying by `T - Tref` instead of subtracting the integral at `Tref`. -/
theorem enth_deriv (n : GasName) (T P : ℝ) :
    let g : IdealGas ℝ := IdealGas.new n
    HasDerivAt (fun T => g.enth T P) (g.cp T P - g.ref_temp * (g.cp_coefs.c1 / 2
      + 2 * g.cp_coefs.c2 / 3 * T + 3 * g.cp_coefs.c3 / 4 * T ^ 2 + 4 * g.cp_coefs.c4 / 5 * T ^ 3
      + 5 * g.cp_coefs.c5 / 6 * T ^ 4)) T := by
  intro g
  have : (fun T => g.enth T P) = _ := funext fun T => enth_eq n T P
  rw [this]
  have hid := hasDerivAt_id T
  have h1 := hid.sub_const g.ref_temp
  have hp : ∀ k : ℕ, HasDerivAt (fun T : ℝ => T ^ k) (k * T ^ (k - 1)) T := fun k =>
    hasDerivAt_pow k T
  have h2 := ((((((hid.const_mul (g.cp_coefs.c1 / 2)).const_add g.cp_coefs.c0).add
    ((hp 2).const_mul (g.cp_coefs.c2 / 3))).add ((hp 3).const_mul (g.cp_coefs.c3 / 4))).add
    ((hp 4).const_mul (g.cp_coefs.c4 / 5))).add ((hp 5).const_mul (g.cp_coefs.c5 / 6)))
  refine (h1.mul h2).congr_deriv ?_
  simp only [cp, poly, id, Pi.add_apply]
  push_cast
  ring

/-- **C17 is false for hydrogen**: at 300 K the derivative of the coded enthalpy exists and is not the
coded `cp`. -/
theorem C17_hydrogen_false (P : ℝ) :
    ¬ HasDerivAt (fun T => (IdealGas.hydrogen : IdealGas ℝ).enth T P)
      ((IdealGas.hydrogen : IdealGas ℝ).cp 300 P) 300 := by
  intro h
  have := h.unique (enth_deriv .Hydrogen 300 P)
  change (IdealGas.hydrogen : IdealGas ℝ).cp 300 P = (IdealGas.hydrogen : IdealGas ℝ).cp 300 P - _
    at this
  rw [eq_comm, sub_eq_self] at this
  revert this
  simp only [IdealGas.new, IdealGas.parameters]
  norm_num

/-- **C17**, how far hydrogen is off: `∂h/∂T - cp`, for every temperature. -/
theorem C17_hydrogen_discrepancy (T P : ℝ) :
    HasDerivAt (fun T => (IdealGas.hydrogen : IdealGas ℝ).enth T P)
      ((IdealGas.hydrogen : IdealGas ℝ).cp T P - 250 * (13.3194432 / 2
        + 2 * (-3.47782806e-2) / 3 * T + 3 * 4.31784838e-5 / 4 * T ^ 2
        + 4 * (-2.42883335e-8) / 5 * T ^ 3 + 5 * 5.14289838e-12 / 6 * T ^ 4)) T := by
  refine (enth_deriv .Hydrogen T P).congr_deriv ?_
  rw [ref_temp_eq]
  rfl

/-! ## C18 -/

/-- **C18 is false of the code**: `h - u` is `R (T - Tref)`, short of `P/ρ = R T` by exactly `R Tref`, for
both fluids and at every state. -/
theorem C18_discrepancy (n : GasName) (T P : ℝ) (_hT : T ≠ 0) (hP : P ≠ 0) :
    let g : IdealGas ℝ := IdealGas.new n
    g.enth T P - (g.inte T P + P / g.dens T P) = -(g.gas_constant * g.ref_temp) := by
  intro g
  have hR : g.gas_constant ≠ 0 := (gas_constant_pos n).ne'
  simp only [inte, dens]
  field_simp
  ring

/-- **C18 is false of the code**, as a negation: at no state does the identity hold. -/
theorem C18_false (n : GasName) (T P : ℝ) (hT : T ≠ 0) (hP : P ≠ 0) :
    let g : IdealGas ℝ := IdealGas.new n
    g.enth T P ≠ g.inte T P + P / g.dens T P := by
  intro g h
  have h2 := C18_discrepancy n T P hT hP
  have hR : 0 < g.gas_constant := gas_constant_pos n
  have hr : g.ref_temp = 250 := ref_temp_eq n
  simp only at h2
  have : g.gas_constant * g.ref_temp = 0 := by
    have h3 : g.enth T P - (g.inte T P + P / g.dens T P) = -(g.gas_constant * g.ref_temp) := h2
    linarith
  rw [hr] at this
  linarith

/-- **C18**, what holds instead: `h - u = P/ρ - R Tref`, so enthalpy and internal energy satisfy the
definition up to one constant per fluid, and differences between states satisfy it exactly. -/
theorem C18_differences_partial (n : GasName) (T P T' P' : ℝ) (hT : T ≠ 0) (hP : P ≠ 0)
    (hT' : T' ≠ 0) (hP' : P' ≠ 0) :
    let g : IdealGas ℝ := IdealGas.new n
    g.enth T P - g.enth T' P' = (g.inte T P - g.inte T' P') + (P / g.dens T P - P' / g.dens T' P') := by
  intro g
  have h1 := C18_discrepancy n T P hT hP
  have h2 := C18_discrepancy n T' P' hT' hP'
  simp only at h1 h2
  linear_combination h1 - h2

/-! ## C19 -/

/-- **C19.** Zero at the reference temperature; independent of pressure. -/
theorem C19_reference_and_pressure (n : GasName) (T P P' : ℝ) :
    let g : IdealGas ℝ := IdealGas.new n
    g.enth g.ref_temp P = 0 ∧ g.inte g.ref_temp P = 0 ∧ g.enth T P = g.enth T P' ∧
      g.inte T P = g.inte T P' ∧ g.cp T P = g.cp T P' ∧ g.du_dT_P T P = g.du_dT_P T P' ∧
      g.du_dP_T T P = 0 := by
  intro g
  have h : ∀ P, g.enth g.ref_temp P = 0 := fun P => by
    rw [show g.enth g.ref_temp P = _ from enth_eq n g.ref_temp P]; simp [g]
  refine ⟨h P, ?_, rfl, rfl, rfl, rfl, ?_⟩
  · simp [inte, h]
  · simp only [du_dP_T]; scalars

end Sett.IdealGas
