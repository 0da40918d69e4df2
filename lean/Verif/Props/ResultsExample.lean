import Verif.Props.Results
import Verif.Props.ConfigExample

/-! # Concrete case for C65 -/

namespace Sett
open Spec api

/-- C65: the worked example (sink 260 K, source 700 K, approaches 40, 0 and 100 K, losses 1 + 2 and 3 + 4 W)
returns a report, with these temperatures and power differences. -/
example : ∃ r, run_engine SoundRun.env SoundRun.pick SoundRun.config = .ok r ∧
    r.temperature.chx = 300 ∧ r.temperature.regen_cold = 300 ∧ r.temperature.regen_hot = 600 ∧
    r.temperature.hhx = 600 ∧ r.power.indicated - r.power.shaft = 3 ∧
    r.power.shaft - r.power.net = 7 := by
  obtain ⟨r, hr⟩ := SoundRun.config_runs
  obtain ⟨hL, -⟩ := C65_ladder _ _ _ r hr
  obtain ⟨x, g, -, hR⟩ := C65_recomputes _ _ _ r hr
  have h1 := hL.sink; have h2 := hL.source
  have h3 := hL.chx 40 rfl; have h4 := hL.cold 0 rfl; have h5 := hL.hhx 100 rfl; have h6 := hL.same
  have h7 := hR.shaft; have h8 := hR.net
  simp only [SoundRun.config, driveNumbers, chxNumbers, hhxNumbers] at h1 h2 h7 h8
  refine ⟨r, hr, ?_, ?_, ?_, ?_, ?_, ?_⟩ <;> linarith

end Sett
