import Verif.Props.SecondLawExample

/-! # Concrete cases for C85: Clausius' inequality, the first law and what holds of helium -/

namespace Sett.SecondLawExample

open Spec state_equations BalanceExample TrajectoryExample Set

/-- C85, first law, for helium: the work of the cycle is the heat received less the heat given up. -/
example : workOf (run (2077.23 * 250) (IdealGas.helium : IdealGas ℝ).toFluid) (y (2077.23 * 250)) 0 4
    = 5193.17 * (600 - τ (2077.23 * 250)) / 11 - 5193.17 * (300 - τ (2077.23 * 250)) / 10 := by
  have hw : (0 : ℝ) ≤ 2077.23 * 250 := by norm_num
  have hg := helium_perfect'
  have q : (run (2077.23 * 250) (IdealGas.helium : IdealGas ℝ).toFluid).ws_parasitics.comp.thermal = 0 ∧
    (run (2077.23 * 250) (IdealGas.helium : IdealGas ℝ).toFluid).ws_parasitics.exp.thermal = 0 := ⟨rfl, rfl⟩
  rw [C85_first_law hg exact_sound (norm_ne hg) (closed hw le_rfl hg), heat_in, heat_out, regen_zero hw le_rfl hg, q.1, q.2]
  ring

/-- C85, Clausius, for a gas whose zeros agree. -/
example : ∫ t in (0 : ℝ)..4, heatOverTemp (run 0 gas) (y 0 t) (sol 0 t) ≤ 0 := by
  have hg := gas_perfect
  have hg' : PerfectGas gas 2077.23 5193.17 (-(5193.17 * 250)) (-(5193.17 * 250) + 0) := by rwa [add_zero]
  have h := C85_clausius hg exact_sound (norm_ne hg') (closed le_rfl (by norm_num) hg') (by show (0 : ℝ) < 300; norm_num)
    (by show (0 : ℝ) < 600; norm_num)
  have ht : (run 0 gas).temp = { sink := 300, chx := 300, regen := { cold := 300, avg := 450, hot := 600 }, hhx := 600, source := 600 } := rfl
  rw [ht] at h
  simpa using h

/-- C85, what holds of the crate's helium, in the cycle that beats Carnot. -/
example : workOf (run (2077.23 * 250) (IdealGas.helium : IdealGas ℝ).toFluid) (y (2077.23 * 250)) 0 4
    ≤ (1 - 300 / 600) * (∫ t in (0 : ℝ)..4, (sol (2077.23 * 250) t).Q_dot_l)
      - 300 * (2077.23 * 250 * ∫ t in (0 : ℝ)..4, ((sol (2077.23 * 250) t).m_dot_ck / (y (2077.23 * 250) t).T_c
        - (sol (2077.23 * 250) t).m_dot_le / (y (2077.23 * 250) t).T_e)) := by
  have hw : (0 : ℝ) ≤ 2077.23 * 250 := by norm_num
  have hg := helium_perfect'
  exact C85_helium_partial rfl exact_sound (norm_ne hg) (closed hw le_rfl hg) (by show (0 : ℝ) < 300; norm_num)
    (by show (300 : ℝ) ≤ 600; norm_num) (le_refl (300 : ℝ)) (regen_zero hw le_rfl hg) ⟨rfl, rfl⟩

end Sett.SecondLawExample
