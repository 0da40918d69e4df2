import Verif.Props.Losses
import Verif.Props.Walls
import Verif.Props.Unmeasured
import Verif.Props.ConfigExample

/-! # Concrete cases for C95, C96, C97 and C98 -/

namespace Sett
open Spec

/-- C95: the worked example without any losses, and with losses a thousand times its own. -/
example : ∃ r ideal heavy, run_engine SoundRun.env SoundRun.pick SoundRun.config = .ok r ∧
    run_engine SoundRun.env SoundRun.pick (charge ⟨0, 0, 0, 0, 0, 0, 0, 0, 0⟩ SoundRun.config) = .ok ideal ∧
    run_engine SoundRun.env SoundRun.pick
      (charge ⟨1000, 2000, 3000, 1000, 2000, 3000, 4000, 5000, 6000⟩ SoundRun.config) = .ok heavy ∧
    SameCycle r ideal ∧ SameCycle r heavy ∧ ideal.power.net = r.power.ideal_indicated ∧
    heavy.power.net = heavy.power.indicated - 10000 ∧
    heavy.heat_flow.input = ideal.heat_flow.input + 11000 := by
  obtain ⟨r, hr⟩ := SoundRun.config_runs
  obtain ⟨a, b, d, i, j, h⟩ := C95_prices _ _ _ r hr
  obtain ⟨r1, h1, s1, p1, p2, p3, p4, -⟩ := h ⟨0, 0, 0, 0, 0, 0, 0, 0, 0⟩
  obtain ⟨r2, h2, s2, q1, q2, q3, q4, -⟩ := h ⟨1000, 2000, 3000, 1000, 2000, 3000, 4000, 5000, 6000⟩
  simp only at p1 p2 p3 p4 q1 q2 q3 q4
  refine ⟨r, r1, r2, hr, h1, h2, s1, s2, ?_, ?_, ?_⟩ <;> linarith

/-- C95: the losses are not without effect, so the claim that they leave the cycle alone says something. -/
example : ∃ L L' : Losses ℝ, ∃ r r',
    run_engine SoundRun.env SoundRun.pick (charge L SoundRun.config) = .ok r ∧
    run_engine SoundRun.env SoundRun.pick (charge L' SoundRun.config) = .ok r' ∧
    SameCycle r r' ∧ r'.power.net ≠ r.power.net ∧ r'.heat_flow.input ≠ r.heat_flow.input := by
  obtain ⟨r, hr⟩ := SoundRun.config_runs
  obtain ⟨a, b, d, i, j, h⟩ := C95_prices _ _ _ r hr
  obtain ⟨r1, h1, s1, p1, p2, p3, p4, -⟩ := h ⟨0, 0, 0, 0, 0, 0, 0, 0, 0⟩
  obtain ⟨r2, h2, s2, q1, q2, q3, q4, -⟩ := h ⟨0, 0, 0, 0, 0, 0, 1, 0, 1⟩
  simp only at p1 p2 p3 p4 q1 q2 q3 q4
  rcases C95_run_engine SoundRun.env SoundRun.pick (charge ⟨0, 0, 0, 0, 0, 0, 0, 0, 0⟩ SoundRun.config)
    ⟨0, 0, 0, 0, 0, 0, 1, 0, 1⟩ with ⟨x, g1, -⟩ | ⟨r3, r4, g1, g2, g3⟩
  · rw [h1] at g1; cases g1
  · rw [h1] at g1; cases g1
    have : run_engine SoundRun.env SoundRun.pick (charge ⟨0, 0, 0, 0, 0, 0, 1, 0, 1⟩ SoundRun.config)
        = .ok r4 := g2
    rw [h2] at this; cases this
    refine ⟨_, _, _, _, h1, h2, g3, ?_, ?_⟩
    · intro e; linarith
    · intro e; linarith

/-- The components of the worked example with a thousand watts of electrical losses in every component. -/
noncomputable def SoundRun.wired : Components ℝ :=
  { SoundRun.components with
    ws := { SoundRun.components.ws with parasitics := fun q =>
      let p := SoundRun.components.ws.parasitics q
      ⟨{ p.comp with electrical := 1000 }, { p.exp with electrical := 1000 }⟩ }
    chx := { SoundRun.components.chx with parasitics := fun q =>
      { SoundRun.components.chx.parasitics q with electrical := 1000 } }
    hhx := { SoundRun.components.hhx with parasitics := fun q =>
      { SoundRun.components.hhx.parasitics q with electrical := 1000 } } }

/-- C96: they change nothing. -/
example : (Engine.run SoundRun.env SoundRun.pick SoundRun.wired SoundRun.fluid SoundRun.runInputs
      SoundRun.settings >>= fun e => (RunResults.ofEngine e).lift)
    = Engine.run SoundRun.env SoundRun.pick SoundRun.components SoundRun.fluid SoundRun.runInputs
      SoundRun.settings >>= fun e => (RunResults.ofEngine e).lift := by
  refine C96_electrical_ignored ?_ _ _ _ _ _
  constructor <;> first | rfl | (intro q; rfl) | (constructor <;> first | rfl | (intro q; rfl))

/-- C96: a report of a running engine. -/
example : ∃ r, run_engine SoundRun.env SoundRun.pick SoundRun.config = .ok r ∧
    r.efficiency.overall = 0.0 := by
  obtain ⟨r, hr⟩ := SoundRun.config_runs
  exact ⟨r, hr, C96_overall_zero _ _ _ r hr⟩

/-- C97: the worked example (walls of 10 K/W) with walls that conduct a thousand times better. -/
example : ∃ r r', run_engine SoundRun.env SoundRun.pick SoundRun.config = .ok r ∧
    run_engine SoundRun.env SoundRun.pick (rewall (1 / 100) (1 / 100) SoundRun.config) = .ok r' ∧
    SameButHeat r r' := by
  obtain ⟨r, hr⟩ := SoundRun.config_runs
  rcases C97_run_engine SoundRun.env SoundRun.pick SoundRun.config
    ⟨⟨_, rfl⟩, ⟨_, rfl⟩, ⟨_, rfl⟩⟩ (1 / 100) (1 / 100) with ⟨x, h, -⟩ | ⟨r1, r2, h⟩
  · rw [hr] at h; cases h
  · exact ⟨r1, r2, h⟩

/-- C98: the worked example, started at 5 Pa. -/
example : ∃ r, run_engine SoundRun.env SoundRun.pick SoundRun.config = .ok r ∧
    r.mass_flow = ⟨0.0, 0.0, 0.0⟩ ∧ r.heat_flow.hhx = 0.0 ∧ r.pressure = ⟨5, 5, 5, 5⟩ := by
  obtain ⟨r, hr⟩ := SoundRun.config_runs
  obtain ⟨h1, -, -, h2, h3⟩ := C98_run_engine SoundRun.env SoundRun.pick SoundRun.config
    ⟨⟨_, rfl⟩, ⟨_, rfl⟩, ⟨_, rfl⟩⟩ r hr
  exact ⟨r, hr, h1, h2, h3⟩

end Sett
