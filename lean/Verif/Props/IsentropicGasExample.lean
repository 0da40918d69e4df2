import Verif.Props.IsentropicGas
import Verif.Props.ForeverExample
import Verif.Props.SecondLawGasExample

/-! # Examples for C108: hydrogen, and a gas with heat capacity -/

namespace Sett.TrajectoryExample

open Spec state_equations BalanceExample Set

/-- The engine filled with hydrogen. -/
noncomputable def hydrogenRun (x : ℝ) : Run ℝ :=
  Run.new exact (otherParts x 0 0) { state with fluid := (IdealGas.hydrogen : IdealGas ℝ).toFluid }

theorem saneRun_hydrogen {x : ℝ} (hx : 0 ≤ x) : SaneRun (hydrogenRun x) := by
  have s := saneRun_other (f := 0) 0 hx (by norm_num)
  refine ⟨?_, s.comp_vol, s.exp_vol, s.chx_vol, s.regen_vol, s.hhx_vol, s.regen_temp, s.chx_temp, s.hhx_temp⟩
  show 0.5 * ((IdealGas.new .Hydrogen : IdealGas ℝ).enth 300 500 + (IdealGas.new .Hydrogen : IdealGas ℝ).enth 900 500) ≠ 0
  rw [IdealGas.hydrogen_enth, IdealGas.hydrogen_enth]
  norm_num

/-- C108 applies to the engine filled with hydrogen. -/
example {x : ℝ} (hx : 0 < x) (y₀ : Conditions ℝ) (hP : 0 < y₀.P) (hTc : 0 < y₀.T_c) (hTe : 0 < y₀.T_e) :
    ∃ Pmin Pmax Tmin, 0 < Pmin ∧ 0 < Tmin ∧ ∀ a b y, y a = y₀ → GasMotion (hydrogenRun x) y a b → ∀ t ∈ Icc a b,
      Pmin ≤ (y t).P ∧ (y t).P ≤ Pmax ∧ Tmin ≤ (y t).T_c ∧ Tmin ≤ (y t).T_e := by
  have v := vessel (f := 0) 0 hx (by norm_num)
  exact C108_hydrogen rfl (saneRun_hydrogen hx.le) exact_sound ⟨rfl, rfl⟩ (Vmax := limits.Vmax)
    ⟨v.drive, v.comp, v.exp, v.chx, v.regen, v.hhx, v.chx_temp, v.regen_temp, v.hhx_temp⟩ hx y₀ hP hTc hTe

end Sett.TrajectoryExample

namespace Sett.SecondLawExample

open Spec state_equations BalanceExample TrajectoryExample Set

/-- C108 applies to the cycle of the gas, seen as one of the general kind. -/
example {Pmax : ℝ} (h : ∀ t ∈ Icc 0 4, (y 0 t).P ≤ Pmax) {t : ℝ} (ht : t ∈ Icc 0 4) :
    isentropic (2077.23 / 5193.17) (min (y 0 0).T_e 600) Pmax (y 0 t).P ≤ (y 0 t).T_e := by
  have hg := SecondLawGasExample.perfect_caloric gas_perfect
  rw [sub_self] at hg
  refine (C108_gas_not_colder (r := run 0 gas) hg exact_sound (norm_ne (w := 0) (by rw [add_zero]; exact gas_perfect)) ⟨rfl, rfl⟩ vessel
    motion le_rfl (by norm_num) (fun _ _ => le_rfl) (Tk := 300) (Tl := 600) (by norm_num) (by norm_num) ?_ ?_ h ht).2
  · intro T P _ hT
    show (5193.17 * T + -(5193.17 * 250)) + 0 ≤ (5193.17 * 300 + -(5193.17 * 250) : ℝ)
    linarith
  · intro T P _ hT
    show (5193.17 * T + -(5193.17 * 250)) + 0 ≤ (5193.17 * 600 + -(5193.17 * 250) : ℝ)
    linarith

end Sett.SecondLawExample
