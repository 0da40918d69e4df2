import Verif.Props.Solver
import Verif.Props.Fluid
import Verif.Props.HeatExchangers
import Verif.Props.Config

/-! # Concrete cases for claims about single functions (C06 to C09, C18 to C20, C53) -/

namespace Sett.BalanceExample

open Spec

/-- C06: gas pushed from one end to the other at constant volume; the heat given off by the exchangers changes nothing in sum. -/
example : totalEnergyRate inputs (Solution.ofVec vec) = 0 := by
  rw [C06_total_energy_balance exact exact_sound inputs (by norm_num [inputs]) forward _ solve_ok]
  simp [inputs, Solution.ofVec, vec]
  norm_num

/-- C07: the balances hold with each flow carrying the enthalpy of the side it comes from. -/
example : Balances inputs (upwind inputs (Solution.ofVec vec)) (Solution.ofVec vec) :=
  C07_upwind_balances exact exact_sound inputs (by norm_num [inputs]) forward _ solve_ok

/-- C08: asked again with the directions it found, the search ends after one solve. -/
example : solveLogged exact inputs forward = (.ok (Solution.ofVec vec), [forward]) := by
  have h := C08_idempotent exact inputs forward _ solve_ok
  rwa [forward_dir] at h

/-- C08: a decomposition that always answers "flow forwards" is asked twice when nothing is known. -/
example : solve (α := ℝ) (fun _ _ => some vec) inputs ⟨.Unknown, .Unknown, .Unknown, .Unknown⟩ = .ok (Solution.ofVec vec) ∧
    2 ≤ (solveLogged (α := ℝ) (fun _ _ => some vec) inputs ⟨.Unknown, .Unknown, .Unknown, .Unknown⟩).2.length := by
  have h : solve (α := ℝ) (fun _ _ => some vec) inputs ⟨.Unknown, .Unknown, .Unknown, .Unknown⟩ = .ok (Solution.ofVec vec) := by
    refine (C08_ok_iff _ _ _ _).2 ⟨[⟨.Unknown, .Unknown, .Unknown, .Unknown⟩, forward], forward, by simp, ?_, rfl, forward_dir⟩
    exact .step ⟨by simp [forward], Solution.ofVec vec, rfl, forward_dir⟩ (.here _)
  exact ⟨h, C08_unknown_costs_two _ _ _ _ h (.inl rfl)⟩

/-- C09: the same solution with the normalisation 7 in place of 2. -/
example : Solves ((System.new { inputs with enth_norm := 7 }).stencil.create_matrix forward)
    (System.new { inputs with enth_norm := 7 }).b vec :=
  (C09_norm_irrelevant inputs 7 (by norm_num [inputs]) (by norm_num) forward vec).1 vec_solves

end Sett.BalanceExample

namespace Sett

/-- C18: hydrogen at room temperature and one bar. -/
example : (IdealGas.new .Hydrogen : IdealGas ℝ).enth 300 1e5 ≠
    (IdealGas.new .Hydrogen : IdealGas ℝ).inte 300 1e5 + 1e5 / (IdealGas.new .Hydrogen : IdealGas ℝ).dens 300 1e5 :=
  IdealGas.C18_false .Hydrogen 300 1e5 (by norm_num) (by norm_num)

/-- C19: helium has the same enthalpy at one bar and at a hundred. -/
example : (IdealGas.new .Helium : IdealGas ℝ).enth 400 1e5 = (IdealGas.new .Helium : IdealGas ℝ).enth 400 1e7 :=
  (IdealGas.C19_reference_and_pressure .Helium 400 1e5 1e7).2.2.1

/-- C20: an approach of 10 K on the better side, the worse one 5 K more. -/
example : min ((RegenImbalance.regen_temp (⟨5⟩ : RegenImbalance ℝ) 340 400 10).cold - 340)
      (400 - (RegenImbalance.regen_temp (⟨5⟩ : RegenImbalance ℝ) 340 400 10).hot) = 10 ∧
    400 - (RegenImbalance.regen_temp (⟨5⟩ : RegenImbalance ℝ) 340 400 10).hot
      - ((RegenImbalance.regen_temp (⟨5⟩ : RegenImbalance ℝ) 340 400 10).cold - 340) = 5 :=
  C20_side_temperatures ⟨5⟩ 340 400 10

/-- C53: the tag of a variant of the crate, and back. -/
example : String.ofList (serde.snakeVariant "FixedApproach".toList) = "fixed_approach" ∧
    Spec.undo "fixed_approach".toList = "FixedApproach".toList := by
  have h : serde.snakeVariant "FixedApproach".toList = "fixed_approach".toList := by decide
  refine ⟨by rw [h]; rfl, ?_⟩
  rw [← h]
  exact C53_undo _ ⟨'F', "ixedApproach".toList, rfl, by decide, by decide⟩

end Sett
