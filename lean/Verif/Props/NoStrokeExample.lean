import Verif.Props.NoStroke
import Verif.Props.WholeRunExample

/-! # Concrete configurations for C100 -/

namespace Sett.NoStrokeExample

open Spec

/-- The engine of `WholeRunExample` with losses and with another drive. -/
noncomputable def config (d : ws.Config ℝ) : Config ℝ :=
  { WholeRunExample.config with engine :=
      { WholeRunExample.config.engine with components :=
          { ws := d
            chx := .FixedApproach ⟨4e-5, 40, 3, 7⟩
            regen := .FixedApproach ⟨1e-4, 10, 4, 5⟩
            hhx := .FixedApproach ⟨1e-4, 100, 5, 8, 6⟩ } } }

theorem sane {d : ws.Config ℝ} (hd : SaneDrive d) :
    SaneConfig (config d) ⟨4e-5, 40, 3, 7⟩ ⟨1e-4, 10, 4, 5⟩ ⟨1e-4, 100, 5, 8, 6⟩ := by
  have := WholeRunExample.sane
  refine ⟨rfl, hd, rfl, rfl, rfl, by norm_num, ?_, ?_, ?_, ?_, ?_, this.norm, this.tol, this.outer⟩
  all_goals norm_num [config, WholeRunExample.config]

/-- C100: a sinusoidal drive without swept volumes, and a rhombic one without crank radius. -/
example (d : ws.Config ℝ) (hd : d = .Sinusoidal ⟨70, 90, 0, 2e-5, 1, 11, 0, 2e-5, 1, 12, 0⟩ ∨
    d = .Rhombic ⟨70, 2e-5, 1, 11, 2e-5, 1, 12, 0, 0, 0.05, 0.02, 0.07, 0.06⟩) (build : Build) :
    ∃ res, run_engine ⟨dopri5.solve 40, build⟩ lu.LU (config d) = .ok res ∧ Idle (config d) res := by
  have h30 : (30 : UInt32).toNat = 30 := by decide
  have h20 : (20 : UInt32).toNat = 20 := by decide
  have s1 : SaneDrive d ∧ NoStroke d ∧ (driveNumbers d).heatExp = 0 ∧ (driveNumbers d).frequency = 70 := by
    rcases hd with rfl | rfl
    · exact ⟨.sinusoidal _ (by norm_num) (by norm_num) le_rfl le_rfl, .sinusoidal _ rfl rfl, rfl, rfl⟩
    · exact ⟨.rhombic _ (by norm_num) (by norm_num) (by norm_num) (by norm_num) (by norm_num), .rhombic _ rfl, rfl, rfl⟩
  obtain ⟨s1, s2, s3, s4⟩ := s1
  have s5 : (driveNumbers (config d).engine.components.ws).frequency = 70 := s4
  exact C100_run_engine (config d) _ _ _ (sane s1) s2 s3 (by norm_num [config, WholeRunExample.config])
    (by norm_num [config, WholeRunExample.config]) (by norm_num [config, WholeRunExample.config])
    (by rw [s5]; norm_num) (by rw [s5]; norm_num) (by simp [config, WholeRunExample.config, h30])
    (by rw [s5]; simp [config, WholeRunExample.config, h30]; norm_num) (by norm_num [config, WholeRunExample.config])
    (by norm_num [config, WholeRunExample.config]) (by norm_num [config, WholeRunExample.config])
    (by norm_num [config, WholeRunExample.config]) (by simp [config, WholeRunExample.config, h20]) 40 _ rfl
    (by simp [config, WholeRunExample.config, h30])

end Sett.NoStrokeExample
