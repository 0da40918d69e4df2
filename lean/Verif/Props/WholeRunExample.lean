import Verif.Props.WholeRun

/-! # A concrete configuration for C88

The numbers of `examples/run_simple_engine.rs`, for helium and through the configuration file. -/

namespace Sett.WholeRunExample

open Spec

noncomputable def config : Config ℝ :=
  { engine :=
      { fluid := .Helium .IdealGas
        components :=
          { ws := .Sinusoidal ⟨70, 90, 5e-4, 2e-5, 1, 0, 5e-4, 2e-5, 1, 0, 0⟩
            chx := .FixedApproach ⟨4e-5, 40, 0, 0⟩
            regen := .FixedApproach ⟨1e-4, 10, 0, 0⟩
            hhx := .FixedApproach ⟨1e-4, 100, 0, 0, 0⟩ } }
    solver :=
      { inner_loop := ⟨⟨1e-2, 1e-4⟩, 20⟩, outer_loop := ⟨⟨1e-2, 1e-4⟩, 20⟩, ode := ⟨⟨1e-6, 1e-6⟩, 30⟩ }
    conditions := ⟨300, 500, 10e6⟩ }

theorem sane : SaneConfig config ⟨4e-5, 40, 0, 0⟩ ⟨1e-4, 10, 0, 0⟩ ⟨1e-4, 100, 0, 0, 0⟩ := by
  refine ⟨rfl, .sinusoidal _ ?_ ?_ ?_ ?_, rfl, rfl, rfl, ?_, ?_, ?_, ?_, ?_, ?_, ?_, ?_, ?_⟩
  any_goals (norm_num [config]; done)
  · show (IdealGas.helium : IdealGas ℝ).enth 300 10e6 + (IdealGas.helium : IdealGas ℝ).enth 500 10e6 ≠ 0
    rw [IdealGas.helium_enth, IdealGas.helium_enth]
    norm_num
  · show (20 : UInt32).toNat ≠ 0; decide

/-- C88: with short enough strokes the engine of the example always runs. -/
example : ∃ v, 0 < v ∧ ∀ a b, 0 ≤ a → a ≤ v → 0 ≤ b → b ≤ v → ∀ build,
    ∃ res, run_engine ⟨dopri5.solve 40, build⟩ lu.LU
      (withStroke config ⟨70, 90, 5e-4, 2e-5, 1, 0, 5e-4, 2e-5, 1, 0, 0⟩ a b) = .ok res := by
  have h30 : (30 : UInt32).toNat = 30 := by decide
  have h20 : (20 : UInt32).toNat = 20 := by decide
  obtain ⟨v, hv, h⟩ := C88_run_engine config _ _ _ sane _ rfl rfl (by norm_num [config]) (by norm_num [config])
    (by norm_num [config]) (by norm_num) (by norm_num) (by simp [config, h30]) (by simp [config, h30]; norm_num)
    (by norm_num [config]) (by norm_num [config]) (by norm_num [config]) (by norm_num [config]) (by simp [config, h20])
  exact ⟨v, hv, fun a b ha ha' hb hb' build => h a b ha ha' hb hb' 40 _ rfl (by simp [config, h30])⟩

end Sett.WholeRunExample
