import Verif.Props.Lib
import Verif.Props.ConfigExample

/-! # Concrete cases for C67 and C68 -/

namespace Sett
open Spec

/-- C67: an engine that converges, and its printed report. -/
example : ∃ r, run_engine SoundRun.env SoundRun.pick SoundRun.config = .ok r ∧
    lib.run_from_config SoundRun.env SoundRun.pick SoundRun.config = (printout r, .ok ()) := by
  obtain ⟨r, hr⟩ := SoundRun.config_runs
  rcases C67_run_from_config SoundRun.env SoundRun.pick SoundRun.config with
    ⟨r', h, h'⟩ | ⟨x, h, -⟩ | ⟨s, s', h, -⟩
  · exact ⟨r', h, h'⟩
  · rw [hr] at h; cases h
  · rw [hr] at h; cases h

/-- C67: a configuration whose run does not converge (no outer iterations allowed) panics at the `expect`
and writes nothing. -/
example : lib.run_from_config SoundRun.env SoundRun.pick
    { SoundRun.config with solver := { SoundRun.config.solver with outer_loop := ⟨⟨1, 1⟩, 0⟩ } }
    = ([], .error (.panic "lib.rs:52")) := rfl

/-- C68: the converging engine under a thousand times tighter outer tolerance and another outer limit. -/
example : ∃ r, run_engine SoundRun.env SoundRun.pick SoundRun.config = .ok r ∧
    run_engine SoundRun.env SoundRun.pick
      { SoundRun.config with
        solver := { SoundRun.config.solver with outer_loop := ⟨⟨1 / 1000, 1 / 1000⟩, 7⟩ } } = .ok r := by
  obtain ⟨r, hr⟩ := SoundRun.config_runs
  refine ⟨r, hr, (C68_run_engine SoundRun.env SoundRun.pick SoundRun.config
    { SoundRun.config with
      solver := { SoundRun.config.solver with outer_loop := ⟨⟨1 / 1000, 1 / 1000⟩, 7⟩ } }
    _ _ _ rfl rfl rfl rfl rfl rfl rfl (show (2 : UInt32).toNat ≠ 0 by decide) (show (7 : UInt32).toNat ≠ 0 by decide) ?_ ?_ ?_ ?_).trans
    hr⟩ <;> norm_num [SoundRun.config]

end Sett
