import Verif.Props.Config
import Verif.Props.PerformanceExample

/-! # Concrete configurations for C48–C52 -/

namespace Sett
open api performance

namespace SoundRun

/-- The configuration file of the worked example. -/
noncomputable def config : Config ℝ :=
  { engine :=
      { fluid := .Helium .IdealGas
        components :=
          { ws := .Sinusoidal ⟨1, 180, 300 + 50 * r, 1, 10, 1, 600 + 350 * r, 1, 10, 2, 0⟩
            chx := .FixedApproach ⟨1, 40, 1, 3⟩
            regen := .FixedApproach ⟨1, 0, 2, 5⟩
            hhx := .FixedApproach ⟨1, 100, 3, 4, 6⟩ } }
    solver :=
      { inner_loop := ⟨⟨1, 1⟩, 3⟩, outer_loop := ⟨⟨1, 1⟩, 2⟩, ode := ⟨⟨1, 1⟩, 5⟩ }
    conditions := ⟨260, 700, 5⟩ }

theorem config_supported : Spec.Supported config := by
  constructor <;> simp [config, Spec.gasModel]

theorem config_builds : config.engine.components.build = .ok components := by
  show Except.ok _ = _
  refine congrArg Except.ok ?_
  unfold components fixedApproachEngine drive cold mid hot
  simp only [ws.SinusoidalDrive.ofConfig, chx.FixedApproach.ofConfig,
    regen.FixedApproach.ofConfig, hhx.FixedApproach.ofConfig, ParasiticPower.default, lit_0]

/-- C49, C50: `run_engine` on that configuration succeeds. -/
theorem config_runs : ∃ r, run_engine env pick config = .ok r := by
  obtain ⟨r, hr⟩ := results
  refine ⟨r, ?_⟩
  show (do
    let k ← (config.engine.components.build).lift
    let e ← Engine.run env pick k fluid runInputs settings
    (RunResults.ofEngine e).lift) = _
  rw [config_builds]
  show (do
    let e ← Engine.run env pick components fluid runInputs settings
    (RunResults.ofEngine e).lift) = _
  rw [run_ok]
  show (RunResults.ofEngine engine).lift = _
  rw [hr]; rfl

/-- The same engine in the legacy format; its conversion differs only in the iteration limits. -/
noncomputable def legacy : Legacy ℝ :=
  { fluid := .IdealGas .Helium
    ws := .Sinusoidal ⟨1, 180, 300 + 50 * r, 1, 10, 1, 600 + 350 * r, 1, 10, 2, 0⟩
    chx := .FixedApproach ⟨1, 40, 1, 3⟩
    regen := .FixedApproach ⟨1, 0, 2, 5⟩
    hhx := .FixedApproach ⟨1, 100, 3, 4, 6⟩
    conditions := ⟨260, 700, 5⟩
    solver := ⟨⟨1, 1⟩, ⟨1, 1⟩, ⟨1, 1⟩, .Ode45, 5⟩ }

/-- C48 -/
example : Spec.SameMeaning legacy legacy.toConfig :=
  (C48_same_meaning legacy _).1 rfl
/-- C48 is not vacuous: the conversion distinguishes files. -/
example : ¬Spec.SameMeaning { legacy with fluid := .Hydrogen } legacy.toConfig := by
  intro h
  have := h.fluid
  cases this
/-- C48, C50 -/
example : Spec.Supported legacy.toConfig := by
  constructor <;> simp [legacy, Legacy.toConfig, Spec.gasModel, fluid.LegacyConfig.into,
    ws.LegacyConfig.into, chx.LegacyConfig.into, regen.LegacyConfig.into, hhx.LegacyConfig.into]

/-- C49: the same engine with RefProp helium panics. -/
example : ∃ s, run_engine env pick
    { config with engine := { config.engine with fluid := .Helium .RefProp } } = .error (.panic s) :=
  C49_unsupported_panics env pick _ fun h => by cases h.fluid

end SoundRun

/-- C52 on the reals. -/
example : (regen.FixedApproach.ofConfig (α := ℝ) regen.FixedApproach.Config.default)
    = regen.FixedApproach.default := (C52_exchangers real_exactLiterals).2.2.1
/-- C52 fails for the rhombic drive on the reals, whatever stands for infinity. -/
example [HasInfinity ℝ] : ws.RhombicDrive.ofConfig (α := ℝ) ws.RhombicDrive.Config.default
    ≠ ws.RhombicDrive.default := C52_rhombic_false (by norm_num)

end Sett
