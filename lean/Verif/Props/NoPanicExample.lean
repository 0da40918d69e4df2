import Verif.Props.NoPanic
import Verif.Props.ConfigExample
import Verif.Props.TrajectoryExample

/-! # A run that cannot panic: concrete case for C62

One Euler step per cycle, kept above 100 K and 1 Pa; the exact decomposition; a helium configuration. -/

namespace Sett.NoPanicExample

open Spec state_equations BalanceExample TrajectoryExample api

/-- One Euler step over the whole interval, with pressure and temperatures kept positive. -/
noncomputable def euler : Ode ℝ := fun x xend _ y _ _ =>
  .eval x y fun dy => .done (some ([x, xend],
    [y, ⟨max 1 (y.y0 + (xend - x) * dy.y0), max 100 (y.y1 + (xend - x) * dy.y1),
      max 100 (y.y2 + (xend - x) * dy.y2)⟩]))

noncomputable def env : Env ℝ := ⟨euler, .checked⟩

theorem keepsWarm (r : Run ℝ) (f : ℝ → V3 ℝ → V3 ℝ) (tol : OdeTolerance ℝ) (m : UInt32) (P : ℝ)
    (hP : 0 < P) : KeepsWarm env r f tol m P := by
  intro T_c T_e dx h1 h2 _
  constructor
  · rintro t y (⟨rfl, rfl⟩ | h)
    · exact ⟨hP, h1, h2⟩
    · exact h.elim
  · intro xs ys h
    cases h
    refine ⟨by simp, by simp, ?_⟩
    intro y hy
    simp only [List.mem_cons, List.not_mem_nil, or_false] at hy
    rcases hy with rfl | rfl
    · exact ⟨hP, h1, h2⟩
    · exact ⟨lt_of_lt_of_le one_pos (le_max_left _ _), le_max_left _ _, le_max_left _ _⟩

theorem sane : SaneConfig SoundRun.config ⟨1, 40, 1, 3⟩ ⟨1, 0, 2, 5⟩ ⟨1, 100, 3, 4, 6⟩ := by
  have hr := SoundRun.r_pos
  refine ⟨rfl, .sinusoidal _ ?_ ?_ ?_ ?_, rfl, rfl, rfl, ?_, ?_, ?_, ?_, ?_, ?_, ?_, ?_, ?_⟩
  any_goals (norm_num [SoundRun.config]; done)
  · show (0 : ℝ) ≤ 300 + 50 * SoundRun.r; linarith
  · show (0 : ℝ) ≤ 600 + 350 * SoundRun.r; linarith
  · show (IdealGas.helium : IdealGas ℝ).enth 260 5 + (IdealGas.helium : IdealGas ℝ).enth 700 5 ≠ 0
    rw [IdealGas.helium_enth, IdealGas.helium_enth]
    norm_num
  · show (2 : UInt32).toNat ≠ 0; decide

/-- C62: that configuration gives results or `InnerLoop`, never a panic. -/
theorem run_orderly : (∃ res, run_engine env exact SoundRun.config = .ok res) ∨
    run_engine env exact SoundRun.config = .error (.err .InnerLoop) := by
  refine C62_run_engine env exact SoundRun.config _ _ _ sane exact_sound exact_complete
    (.inl (by simp [SoundRun.config])) fun x g hx => ?_
  obtain rfl := hx.fluid
  have hs := saneRun_start (saneEngine_of_config sane hx) exact
  obtain ⟨f, hf⟩ := (ratesOf_exists _ _ rfl hs).1
  exact ⟨f, hf, keepsWarm _ _ _ _ _ (by norm_num [SoundRun.config])⟩

/-- C62 is not true without the decomposition's contract: one that always fails panics on the same file. -/
example : ∃ msg, run_engine env (fun _ _ => none) SoundRun.config = .error (.panic msg) := by
  obtain ⟨x, g, hx, -, -, h3⟩ := C50_ok_iff env (fun _ _ => none) SoundRun.config
    SoundRun.config_supported
  refine ⟨"integrator.rs:135", (h3 _).2 ?_⟩
  rfl

end Sett.NoPanicExample
