import Verif.Props.SettleConfig
import Verif.Props.WholeRunExample
import Verif.Props.UniqueExample

/-! # A concrete configuration for C101

The engine of C88 with the conductances of the default components instead of fixed approaches. -/

namespace Sett.SettleExample

open Spec state_equations

noncomputable def config : Config ℝ :=
  { WholeRunExample.config with
    engine :=
      { fluid := .Helium .IdealGas
        components :=
          { ws := .Sinusoidal ⟨70, 90, 5e-4, 2e-5, 1, 0, 5e-4, 2e-5, 1, 0, 0⟩
            chx := .FixedConductance ⟨4e-5, 400, 0, 0⟩
            regen := .FixedConductance ⟨1e-4, 70000, 0, 0⟩
            hhx := .FixedConductance ⟨1e-4, 100, 0, 0, 0⟩ } } }

theorem first : WarmApproach (inputsOf config) ⟨10, 10, 10⟩ := by
  refine ⟨?_, ?_, ?_, ?_, ?_, ?_, ?_⟩ <;> norm_num [inputsOf, config, WholeRunExample.config]

theorem rest : WarmApproach (inputsOf config) ⟨0, 0, 0⟩ := by
  refine ⟨?_, ?_, ?_, ?_, ?_, ?_, ?_⟩ <;> norm_num [inputsOf, config, WholeRunExample.config]

/-- C101: with short enough strokes the engine with conductances runs, unless no gas passes an exchanger. -/
example : ∃ v, 0 < v ∧ ∀ a b, 0 ≤ a → a ≤ v → 0 ≤ b → b ≤ v → ∀ build,
    (∃ res, run_engine ⟨dopri5.solve 40, build⟩ lu.LU
      (withStroke config ⟨70, 90, 5e-4, 2e-5, 1, 0, 5e-4, 2e-5, 1, 0, 0⟩ a b) = .ok res) ∨
    ∃ x g, Asked (withStroke config ⟨70, 90, 5e-4, 2e-5, 1, 0, 5e-4, 2e-5, 1, 0, 0⟩ a b) x g ∧
      StandsStill ⟨dopri5.solve 40, build⟩ lu.LU x (settingsOf config) (State.new_hint x g.toFluid (inputsOf config)) := by
  have h30 : (30 : UInt32).toNat = 30 := by decide
  have h20 : (20 : UInt32).toNat = 20 := by decide
  obtain ⟨v, hv, h⟩ := C101_run_engine config _ rfl rfl (.conductance _ (by norm_num) (by norm_num))
    (.conductance _ (by norm_num) (by norm_num)) (.conductance _ (by norm_num) (by norm_num)) first rest (by
      show (IdealGas.helium : IdealGas ℝ).enth 300 10e6 + (IdealGas.helium : IdealGas ℝ).enth 500 10e6 ≠ 0
      rw [IdealGas.helium_enth, IdealGas.helium_enth]
      norm_num) (by norm_num) (by norm_num) rfl (by norm_num [config, WholeRunExample.config]) (by norm_num) (by norm_num)
    (by simp [config, WholeRunExample.config, h30]) (by simp [config, WholeRunExample.config, h30]; norm_num)
    (by norm_num [config, WholeRunExample.config]) (by norm_num [config, WholeRunExample.config])
    (by norm_num [config, WholeRunExample.config]) (by norm_num [config, WholeRunExample.config])
    (by simp [config, WholeRunExample.config, h20]) (by norm_num [config, WholeRunExample.config])
    (by norm_num [config, WholeRunExample.config]) (by simp [config, WholeRunExample.config, h20])
  exact ⟨v, hv, fun a b ha ha' hb hb' build =>
    h a b ha ha' hb hb' 40 _ rfl (by simp [config, WholeRunExample.config, h30])⟩

/-- C70 with different exchanger temperatures: the engine of the worked trajectory, and the same one with a cold exchanger
10 K warmer; both are runs of one engine, and both can be solved. -/
noncomputable def warmer : Run ℝ :=
  { TrajectoryExample.run with temp := { TrajectoryExample.run.temp with chx := 350 } }

example : Kin TrajectoryExample.run 600 900 TrajectoryExample.run ∧ Kin TrajectoryExample.run 600 900 warmer ∧ SaneRun warmer ∧
    ∃ s s', (∀ hint, solve TrajectoryExample.run.solver (TrajectoryExample.run.calculate_inputs 0 (TrajectoryExample.y 0)) hint = .ok s) ∧
      ∀ hint, solve warmer.solver (warmer.calculate_inputs 0 (TrajectoryExample.y 0)) hint = .ok s' := by
  have h := TrajectoryExample.saneRun
  have hw : SaneRun warmer := ⟨h.norm, h.comp_vol, h.exp_vol, h.chx_vol, h.regen_vol, h.hhx_vol, h.regen_temp, by
    show (100 : ℝ) ≤ 350
    norm_num, h.hhx_temp⟩
  refine ⟨⟨rfl, rfl, rfl, rfl, rfl, rfl, ?_, ?_, ?_, ?_, ?_⟩, ⟨rfl, rfl, rfl, rfl, rfl, rfl, ?_, ?_, ?_, ?_, ?_⟩, hw, ?_⟩
  · show (100 : ℝ) ≤ 340 ∧ (340 : ℝ) ≤ 900; norm_num
  · show (100 : ℝ) ≤ 860 ∧ (860 : ℝ) ≤ 900; norm_num
  · show (600 : ℝ) ≤ 600 ∧ (600 : ℝ) ≤ 900; norm_num
  · show |(380 : ℝ)| ≤ 900; norm_num
  · show |(820 : ℝ)| ≤ 900; norm_num
  · show (100 : ℝ) ≤ 350 ∧ (350 : ℝ) ≤ 900; norm_num
  · show (100 : ℝ) ≤ 860 ∧ (860 : ℝ) ≤ 900; norm_num
  · show (600 : ℝ) ≤ 600 ∧ (600 : ℝ) ≤ 900; norm_num
  · show |(380 : ℝ)| ≤ 900; norm_num
  · show |(820 : ℝ)| ≤ 900; norm_num
  · have hy : Warm (TrajectoryExample.y 0) := (TrajectoryExample.trajectory 0 0).warm 0 ⟨le_rfl, le_rfl⟩
    obtain ⟨s, hs⟩ := C59_run_solve TrajectoryExample.run .Helium rfl BalanceExample.exact_sound TrajectoryExample.exact_complete 0 _
      (SaneRun.physical h 0 hy)
    obtain ⟨s', hs'⟩ := C59_run_solve warmer .Helium rfl BalanceExample.exact_sound TrajectoryExample.exact_complete 0 _
      (SaneRun.physical hw 0 hy)
    exact ⟨s, s', hs, hs'⟩

end Sett.SettleExample
