import Verif.Props.Repeats
import Verif.Props.ConfigExample

/-! # Concrete cases for C99 -/

namespace Sett
namespace RepeatsExample

open Spec state_equations CycleExample BalanceExample

/-- An integrator under which the cold gas swings between `T` and `900 - T`. -/
noncomputable def swing : Env ℝ :=
  { ode := fun x xend _ y _ _ => .done (some ([x, xend], [y, ⟨y.y0, 900 - y.y1, y.y2⟩])), build := .checked }

theorem swing_cycle (cy : Cycle ℝ) (ic : Conditions ℝ) (i : SteadyStateInputs ℝ) :
    OneCycle swing cy i ic ic ⟨ic.P, 900 - ic.T_c, ic.T_e⟩ := by
  refine ⟨[⟨0, ic⟩, ⟨cy.period + 1e-14, ⟨ic.P, 900 - ic.T_c, ic.T_e⟩⟩], ?_, rfl, rfl⟩
  have h0 : (0.0 : ℝ) = 0 := by norm_num
  simp [integrationTryFrom, timeStep, pointsMinusOne, swing, startStepper, Stepper.run, toPoints, h0]

/-- C99: 290 K, 610 K, 290 K, …: not converged, however long one waits. -/
example (m : Nat) : findSteadyState swing (cycle constant) { CycleExample.inputs with max_iters := m }
    = .error (.err .not_converged) := by
  have h1 : Substituted swing (cycle constant) CycleExample.inputs 1 ⟨5, 610, 590⟩ := by
    have := Substituted.next (.hints (env := swing) (cycle := cycle constant) (i := CycleExample.inputs))
      (swing_cycle _ _ _) (by
        rintro ⟨⟨h, -⟩, -⟩
        rw [real_lt] at h
        norm_num [CycleExample.inputs, abs_of_neg] at h)
    norm_num [CycleExample.inputs] at this
    exact this
  have h2 : Substituted swing (cycle constant) CycleExample.inputs 2 ⟨5, 290, 590⟩ := by
    have := Substituted.next h1 (swing_cycle _ _ _) (by
        rintro ⟨⟨h, -⟩, -⟩
        rw [real_lt] at h
        norm_num [CycleExample.inputs, abs_of_pos] at h)
    norm_num [CycleExample.inputs] at this
    exact this
  exact C99_inner swing (cycle constant) CycleExample.inputs (by norm_num) .hints h2 m

/-- An integrator that reports the start twice. -/
noncomputable def still : Env ℝ :=
  { ode := fun x xend _ y _ _ => .done (some ([x, xend], [y, y])), build := .checked }

/-- A cold exchanger that overreacts: its approach is 80 K less the present one. -/
noncomputable def components : Components ℝ :=
  { EngineExample.components with chx := { EngineExample.components.chx with
      approach := fun q => 80 - (q.hxr.temp - q.sink_temp), initial_approach := 30 } }

noncomputable def settings : RunSettings ℝ :=
  { EngineExample.settings with loop_tol := ⟨⟨1, 1⟩, ⟨1, 1e-3⟩⟩ }

theorem still_inner (s : State ℝ) : Engine.inner still constant components settings s = .ok
    [⟨0, ⟨s.pres.t_zero, s.temp.chx, s.temp.hhx⟩, Solution.ofVec vec⟩,
     ⟨1.0 / 1 + 1e-14, ⟨s.pres.t_zero, s.temp.chx, s.temp.hhx⟩, Solution.ofVec vec⟩] := by
  have h0 : (0.0 : ℝ) = 0 := by norm_num
  have hi : ∀ (cy : Cycle ℝ) ic tol, integrationTryFrom still cy ic 2 tol = .ok [⟨0, ic⟩, ⟨cy.period + 1e-14, ic⟩] := by
    intro cy ic tol
    simp [integrationTryFrom, timeStep, pointsMinusOne, still, startStepper, Stepper.run, toPoints, h0]
  unfold Engine.inner
  rw [C33_ok_iff]
  refine ⟨0, ⟨s.pres.t_zero, s.temp.chx, s.temp.hhx⟩, ?_, .hints, ⟨_, _, ⟨_, hi _ _ _, rfl, rfl⟩, ?_⟩, _, hi _ _ _, ?_⟩
  · show 0 < 3; norm_num
  · simp [Closed, Within, Engine.steadyInputs, settings]
  · simp [intoStateValues, stateValuesFrom, Run.toCycle, Run.new, constant_solve]
    show (1.0 : ℝ) / 1 = 1.0
    norm_num

theorem step {n : Nat} {s : State ℝ}
    (h : Visited still constant components settings (State.new_hint components EngineExample.fluid EngineExample.runInputs) n s)
    (h1 : s.temp.chx = 290 ∨ s.temp.chx = 310) (h2 : s.pres.t_zero = 5) :
    ∃ s', Visited still constant components settings
        (State.new_hint components EngineExample.fluid EngineExample.runInputs) (n + 1) s' ∧
      s'.temp.chx = 600 - s.temp.chx ∧ s'.temp.hhx = 600 ∧ s'.pres.t_zero = 5 ∧
      s'.temp.sink = 260 ∧ s'.temp.source = 700 ∧
      s'.temp.regen = (⟨0.0⟩ : RegenImbalance ℝ).regen_temp (600 - s.temp.chx) 600 10 := by
  obtain ⟨-, i1, i2, i3⟩ := visited_invariant _ _ _ _ _ _ h
  replace i1 : s.temp.sink = 260 := i1
  replace i2 : s.temp.source = 700 := i2
  obtain ⟨s', r⟩ := recomputed_exists components s _ (List.cons_ne_nil
    (⟨0, ⟨s.pres.t_zero, s.temp.chx, s.temp.hhx⟩, Solution.ofVec vec⟩ : state_equations.Values ℝ)
    [⟨1.0 / 1 + 1e-14, ⟨s.pres.t_zero, s.temp.chx, s.temp.hhx⟩, Solution.ofVec vec⟩])
  have e1 : s'.temp.chx = 600 - s.temp.chx := by
    rw [r.chx, i1]
    show 260 + (80 - (s.temp.chx - s.temp.sink)) = _
    rw [i1]; ring
  have e2 : s'.temp.hhx = 600 := by
    rw [r.hhx, i2]
    show (700 : ℝ) - 100 = _
    norm_num
  refine ⟨s', .next h (still_inner s) r ?_, e1, e2, ?_, r.sink.trans i1, r.source.trans i2, ?_⟩
  · rintro ⟨hc, -⟩
    obtain ⟨hc, -⟩ := hc
    rw [real_lt, e1] at hc
    rcases h1 with h1 | h1 <;> rw [h1] at hc <;> norm_num [settings, abs_of_pos, abs_of_neg] at hc
  · have := pressure_t_zero r.pres
    rw [ofStateValues_eq] at this
    simp only [List.map_cons, List.head?_cons, Option.some.injEq] at this
    rw [← this, h2]
  · rw [r.regen, e1, e2]
    cases e : s.regen_imbalance
    rw [e] at i3
    simp only at i3
    rw [i3]
    rfl

/-- C99: the cold exchanger is at 290 K, 310 K, 290 K, …; the error is the same for every limit. -/
example (m : Nat) : Engine.run still constant components EngineExample.fluid EngineExample.runInputs
    { settings with max_iters := { settings.max_iters with outer := m } } = .error (.err .OuterLoop) := by
  have h0 : Visited still constant components settings
    (State.new_hint components EngineExample.fluid EngineExample.runInputs) 0 _ := .start
  have c0 : (State.new_hint components EngineExample.fluid EngineExample.runInputs).temp.chx = 290 := by
    show (260 : ℝ) + 30 = 290; norm_num
  obtain ⟨s1, h1, a1, -, a3, -⟩ := step h0 (.inl c0) rfl
  obtain ⟨s2, h2, b1, b2, b3, b4, b5, b6⟩ := step h1 (.inr (by rw [a1, c0]; norm_num)) a3
  refine C99_outer .Helium rfl ⟨fun _ _ => rfl, fun _ _ => rfl, fun _ _ => rfl, fun _ _ => rfl⟩ (by norm_num) h0 h2 ?_ b3 m
  rw [a1, c0] at b1 b6
  have q : (700 : ℝ) - 100 = 600 := by norm_num
  cases e : s2.temp
  rw [e] at b1 b2 b4 b5 b6
  simp only at b1 b2 b4 b5 b6
  rw [b1, b2, b4, b5, b6]
  show _ = Temperatures.from_approach (260 : ℝ) 700 ⟨30, 10, 100⟩ ⟨0.0⟩
  norm_num [Temperatures.from_approach]

/-- C99: the worked example is a configuration the theorem speaks of. -/
example := C99_run_engine SoundRun.env SoundRun.pick SoundRun.config SoundRun.config_supported

end RepeatsExample
end Sett
