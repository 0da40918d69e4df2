import Verif.Props.Beale
import Verif.Props.FiguresExample

/-! # Concrete case for C90: the adiabatic engine under twenty times the pressure, three times as fast -/

namespace Sett.BealeExample

open Spec state_equations BalanceExample TrajectoryExample api

/-- The configuration of the adiabatic engine. -/
noncomputable def config : Config ℝ :=
  { engine :=
      { fluid := .Helium .IdealGas
        components :=
          { ws := .Sinusoidal ⟨1, 0, 1, 1, 0, 0, 1, 1, 0, 0, 0⟩
            chx := .FixedApproach ⟨0, 40, 0, 0⟩
            regen := .FixedApproach ⟨0, 40, 0, 0⟩
            hhx := .FixedApproach ⟨0, 40, 0, 0, 0⟩ } }
    solver := { inner_loop := ⟨⟨1, 1⟩, 3⟩, outer_loop := ⟨⟨1, 1⟩, 2⟩, ode := ⟨⟨1, 1⟩, 5⟩ }
    conditions := ⟨300, 900, 500⟩ }

theorem built : config.engine.components.build = .ok components := by
  show Except.ok _ = _
  refine congrArg Except.ok ?_
  simp only [components, drive, ws.SinusoidalDrive.ofConfig, chx.FixedApproach.ofConfig, regen.FixedApproach.ofConfig,
    hhx.FixedApproach.ofConfig, ParasiticPower.default, lit_0, chx.FixedApproach.new, regen.FixedApproach.new,
    hhx.FixedApproach.new]

/-- C90 applies to the adiabatic cycle, whose pressure and temperatures vary. -/
example : ∃ x', (pressedConfig 20 3 config).engine.components.build = .ok x' ∧
    (∀ t ∈ Set.Icc 0 (Run.new exact x' (pressedState 20 3 state)).period,
      Follows (Run.new exact x' (pressedState 20 3 state)) (fun t => (pressedMotion 20 3 motionAt t).conditions) t
        (pressedMotion 20 3 motionAt t).solution) := by
  obtain ⟨x', e, -⟩ := C90_components (k := 20) (w := 3) (by norm_num) (by norm_num) config built
  have v : Sett.Values ℝ := Values.ofStateValues []
  have h := C90_beale (by norm_num) (by norm_num) config built e exact_sound exact_complete state (n := .Helium) rfl
    saneRun motionAt (fun t _ => ⟨(trajectory t t).warm t ⟨le_rfl, le_rfl⟩, follows t⟩) v v
  exact ⟨x', e, fun t ht => (h.1 t ht).2⟩

/-- The pressure of that cycle really varies. -/
example : (pressedMotion 20 3 motionAt 0).conditions.P < (pressedMotion 20 3 motionAt (1 / 12)).conditions.P := by
  have h0 : V (3 * 0) = 2 := by
    simp only [V, ws.SinusoidalDrive.volumes, drive]
    scalars
    rw [show 2 * Real.pi * 1 * (3 * 0) = 0 by ring, Real.cos_zero]
    norm_num
  have h1 : V (3 * (1 / 12)) = 3 / 2 := by
    simp only [V, ws.SinusoidalDrive.volumes, drive]
    scalars
    rw [show 2 * Real.pi * 1 * (3 * (1 / 12)) = Real.pi / 2 by ring, Real.cos_pi_div_two]
    norm_num
  have h2 : (2 : ℝ) ^ (-κ) ≤ (3 / 2 : ℝ) ^ (-κ) :=
    Real.rpow_le_rpow_of_nonpos (by norm_num) (by norm_num) (by linarith [κ_bounds.1])
  have h3 : (0 : ℝ) < 2 ^ (-κ) := by positivity
  show 20 * (1000 * V (3 * 0) ^ (-κ) / V (3 * 0)) < 20 * (1000 * V (3 * (1 / 12)) ^ (-κ) / V (3 * (1 / 12)))
  rw [h0, h1]
  linarith

end Sett.BealeExample
