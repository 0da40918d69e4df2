import Verif.Props.Scaling
import Verif.Props.NoPanicExample

/-! # Concrete case for C64: an engine eight times the size -/

namespace Sett.ScalingExample

open Spec BalanceExample TrajectoryExample NoPanicExample api

section
variable {env : Env ℝ} {U : MatrixDecomposition ℝ} {c : Components ℝ} {n : GasName}
  {inputs : RunInputs ℝ} {settings : RunSettings ℝ}

/-- With fixed approaches the outer loop only ever sees its starting state. -/
theorem visited_start (hs : SaneEngine c n inputs)
    (ha : 0 < settings.loop_tol.outer.abs) (hr : 0 < settings.loop_tol.outer.rel) {j : ℕ} {s : State ℝ}
    (h : Visited env U c settings (State.new_hint c (IdealGas.new n).toFluid inputs) j s) :
    s = State.new_hint c (IdealGas.new n).toFluid inputs := by
  induction h with
  | start => rfl
  | @next j s t vs _ _ g2 g3 ih =>
    subst ih
    have ht : t.temp = (State.new_hint c (IdealGas.new n).toFluid inputs).temp := by
      have e1 := g2.chx; have e2 := g2.hhx; have e3 := g2.regen
      have e4 := g2.sink; have e5 := g2.source
      rw [hs.chx_fixed] at e1; rw [hs.hhx_fixed] at e2; rw [hs.regen_fixed] at e3
      obtain ⟨_, _, ⟨t1, t2, t3, t4, t5⟩, _, _, _⟩ := t
      simp only at e1 e2 e3 e4 e5
      subst e1 e2 e3 e4 e5
      rfl
    have hw := fun x => within_self settings.loop_tol.outer ha hr x
    rw [ht] at g3
    exact absurd ⟨hw _, hw _, hw _, hw _, hw _⟩ g3
end

/-- C64: the helium engine of the worked example and the one with eight times its volumes. -/
theorem eight_times : run_engine env exact (scaleConfig 8 SoundRun.config)
    = (run_engine env exact SoundRun.config).map (scaleResults 8) := by
  refine C64_run_engine (by norm_num) env exact SoundRun.config SoundRun.config_supported
    exact_sound exact_complete (.inl (by simp [SoundRun.config])) fun x g hx j s hv => ?_
  obtain rfl := hx.fluid
  have hse := saneEngine_of_config sane hx
  have := visited_start hse (by norm_num [SoundRun.config, settingsOf])
    (by norm_num [SoundRun.config, settingsOf]) hv
  subst this
  have hs := saneRun_start hse exact
  obtain ⟨f, hf⟩ := (ratesOf_exists _ _ rfl hs).1
  refine ⟨hs, f, hf, keepsWarm _ _ _ _ _ ?_⟩
  show (0 : ℝ) < 5
  norm_num

/-- C64 is about different configurations: the scaled one really is another engine. -/
example : scaleConfig 8 SoundRun.config ≠ SoundRun.config := by
  intro h
  have h' := congrArg (fun c : Config ℝ => c.engine.components.regen) h
  simp only [scaleConfig, SoundRun.config, scaleRegen, regen.Config.FixedApproach.injEq,
    regen.FixedApproach.Config.mk.injEq] at h'
  norm_num at h'

end Sett.ScalingExample
