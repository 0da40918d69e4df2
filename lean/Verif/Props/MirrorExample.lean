import Verif.Props.Mirror
import Verif.Props.ScalingExample

/-! # Concrete case for C89: the helium engine of the worked example in the mirror -/

namespace Sett.MirrorExample

open Spec BalanceExample TrajectoryExample NoPanicExample api

/-- The Euler step of the example does not prefer one temperature. -/
theorem euler_evenhanded : Evenhanded euler := fun _ _ _ _ _ _ => rfl

/-- C89: sink at 700 K, source at 260 K, exchangers and spaces exchanged. -/
theorem in_the_mirror {x : Components ℝ} {g : IdealGas ℝ} (hx : Asked SoundRun.config x g) :
    Engine.run env exact (mirrorComponents x) g.toFluid (mirrorInputs (inputsOf SoundRun.config))
        (settingsOf SoundRun.config)
      = (Engine.run env exact x g.toFluid (inputsOf SoundRun.config) (settingsOf SoundRun.config)).map mirrorEngine := by
  obtain rfl := hx.fluid
  refine C89_engine euler_evenhanded exact_sound exact_complete (.inl (by simp [SoundRun.config, settingsOf]))
    fun j s hv => ?_
  have hse := saneEngine_of_config sane hx
  have := ScalingExample.visited_start hse (by norm_num [SoundRun.config, settingsOf])
    (by norm_num [SoundRun.config, settingsOf]) hv
  subst this
  have hs := saneRun_start hse exact
  obtain ⟨f, hf⟩ := (ratesOf_exists _ _ rfl hs).1
  refine ⟨hs, f, hf, keepsWarm _ _ _ _ _ ?_⟩
  show (0 : ℝ) < 5
  norm_num

/-- The mirrored inputs are other inputs. -/
example : mirrorInputs (inputsOf SoundRun.config) ≠ inputsOf SoundRun.config := by
  intro h
  have h' := congrArg RunInputs.temp_sink h
  simp only [mirrorInputs, inputsOf, SoundRun.config] at h'
  norm_num at h'

/-- An integrator with a preference: one that moves only the first of the two temperatures. -/
noncomputable def lopsided : Ode ℝ := fun x xend _ y _ _ =>
  .eval x y fun dy => .done (some ([x, xend], [y, ⟨y.y0, y.y1 + (xend - x) * dy.y1, y.y2⟩]))

/-- C89 needs its hypothesis: not every integrator is evenhanded. -/
example : ¬ Evenhanded lopsided := by
  intro h
  have h' := congrArg (Integrated fun _ _ => (⟨0, 1, 1⟩ : V3 ℝ)) (h 0 1 1 ⟨0, 0, 0⟩ 1 1)
  simp [lopsided, Integrated, swapStepper, swap3] at h'

end Sett.MirrorExample
