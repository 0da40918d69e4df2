import Verif.Props.Warmer

/-! # C105: gas of one temperature, pushed from one space into the other -/

namespace Sett.WarmerExample

open Spec state_equations

/-- A gas as it should be. -/
noncomputable def gas (h0 : ℝ) : Fluid ℝ where
  dens T P := P / (2077.23 * T)
  enth T _ := 5193.17 * T + h0
  inte T _ := (5193.17 - 2077.23) * T + h0
  cp _ _ := 5193.17
  dd_dP_T T _ := 1 / (2077.23 * T)
  dd_dT_P T P := -P / (2077.23 * T ^ 2)
  du_dP_T _ _ := 0
  du_dT_P _ _ := 5193.17 - 2077.23

theorem gas_perfect (h0 : ℝ) : PerfectGas (gas h0) 2077.23 5193.17 h0 h0 :=
  ⟨by norm_num, by norm_num, fun _ _ => rfl, fun _ _ => rfl, fun _ _ => rfl, fun _ _ => rfl, fun _ _ => rfl, fun _ _ => rfl, fun _ _ => rfl⟩

/-- Everything at the temperature `T`; the pistons move together. -/
noncomputable def engine (f : Fluid ℝ) (T : ℝ) : Run ℝ where
  enth_norm := 1
  fluid := f
  period := 1
  pres := ⟨623169, 623169, 623169, 623169⟩
  solver := fun _ _ => none
  temp := ⟨T, T, ⟨T, T, T⟩, T, T⟩
  vol_chx := 1
  vol_hhx := 1
  vol_regen := 1
  ws_parasitics := ⟨⟨0, 0, 0⟩, ⟨0, 0, 0⟩⟩
  ws_vol_fn := fun t => (⟨2 - t, -1⟩, ⟨1 + t, 1⟩)

theorem warmer_engine (f f' : Fluid ℝ) (k T : ℝ) : WarmerRun k (engine f T) (engine f' (k * T)) :=
  ⟨rfl, rfl, rfl, rfl, rfl, rfl, rfl, rfl, rfl, rfl, rfl⟩

/-- What should happen: nothing but a flow of one kilogram per second. -/
noncomputable def steady : Solution ℝ := ⟨1, 1, 1, 1, 0, 0, 0, 0, 0, 0⟩

theorem steady_obeys (h0 t : ℝ) : Obeys (engine (gas h0) 300) t ⟨623169, 300, 300⟩ steady := by
  constructor <;>
    simp only [compMass, compEnergy, chxMass, chxEnergy, regenMass, regenEnergy, hhxMass, hhxEnergy,
      expMass, expEnergy, massRate, energyRate, upwind, steady, engine, gas, Run.calculate_inputs,
      Run.comp_inputs, Run.chx_inputs, Run.regen_inputs, Run.hhx_inputs, Run.exp_inputs] <;> norm_num
  all_goals ring

/-- C105 applies: the motion of a gas at 300 K, and that at 600 K with another zero of its enthalpy. -/
example : MotionOf (engine (gas 7) (2 * 300)) (fun _ => warmer 2 ⟨623169, 300, 300⟩) (fun _ => warmerSolution 2 steady) 0 1 ∧
    (warmerSolution 2 steady).m_dot_ck = 1 / 2 := by
  refine ⟨(C105_motion (r := engine (gas 0) 300) two_pos (gas_perfect 0) (gas_perfect 7) (by ring) (warmer_engine _ _ 2 300)
    (y := fun _ => ⟨623169, 300, 300⟩) (s := fun _ => steady) (a := 0) (b := 1) fun t _ => ?_).1, rfl⟩
  exact ⟨steady_obeys 0 t, hasDerivWithinAt_const _ _ _, hasDerivWithinAt_const _ _ _, hasDerivWithinAt_const _ _ _⟩

/-- What happens in the crate at time zero. -/
noncomputable def actual : Solution ℝ :=
  let m : ℝ := 1557951 / 1038643.5
  ⟨m, m, m, m, 0, 0, 0, 150 * (m - 1), -(300 * (m - 1)), 0⟩

theorem actual_obeys : Obeys (engine (IdealGas.helium : IdealGas ℝ).toFluid 300) 0 ⟨623169, 300, 300⟩ actual := by
  have hg := helium_perfect
  constructor <;>
    simp only [compMass, compEnergy, chxMass, chxEnergy, regenMass, regenEnergy, hhxMass, hhxEnergy,
      expMass, expEnergy, massRate, energyRate, upwind, actual, engine, hg.dens, hg.enth, hg.inte, hg.dd_dP_T, hg.dd_dT_P,
      hg.du_dP_T, hg.du_dT_P, Run.calculate_inputs,
      Run.comp_inputs, Run.chx_inputs, Run.regen_inputs, Run.hhx_inputs, Run.exp_inputs] <;> norm_num

/-- At that instant the corresponding solution would do for helium counted from 500 K. -/
example : Obeys (engine (heliumFrom (2 * 250)).toFluid (2 * 300)) 0 (warmer 2 ⟨623169, 300, 300⟩) (warmerSolution 2 actual) :=
  C105_similar two_pos helium_perfect (heliumFrom_perfect _) (by ring) (warmer_engine _ _ 2 300) _ _ _ actual_obeys

/-- C105 is false of the crate's helium: twice as warm, the corresponding solution is none. -/
example : ¬Obeys (engine (IdealGas.helium : IdealGas ℝ).toFluid (2 * 300)) 0 (warmer 2 ⟨623169, 300, 300⟩) (warmerSolution 2 actual) :=
  C105_helium_false two_pos (by norm_num) rfl rfl (warmer_engine _ _ 2 300) (by norm_num) (by norm_num) actual_obeys
    (.inl (by norm_num [actual]))

/-- The crate's helium warms up where it is pushed out, although neither pressure nor temperatures give it a reason. -/
example : 0 < actual.dTc_dt ∧ actual.dTe_dt < 0 := by
  obtain ⟨-, h1, h2, -⟩ := C105_helium_pushed (r := engine (IdealGas.helium : IdealGas ℝ).toFluid 300) rfl actual_obeys (T := 300) (q := 1)
    (by norm_num) one_pos (by norm_num) rfl rfl rfl rfl rfl (by norm_num [engine]) (by norm_num [engine]) (by norm_num [engine])
    (by norm_num [engine]) (by norm_num [engine]) rfl rfl rfl rfl
  exact ⟨h1, h2⟩

end Sett.WarmerExample
