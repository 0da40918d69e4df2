import Verif.Props.Engine
import Verif.Proofs.Lits

/-! # C39 (general part): fixed-approach engines need one outer iteration

The statement here holds for any arithmetic in which the five temperatures pass the convergence test
against themselves; `ℝ` is treated here and IEEE doubles in `Verif/Props/Ieee.lean`. -/

namespace Sett

open state_equations Spec

section
variable {α : Type} [Scalar α]

/-- An engine all of whose exchangers have a fixed approach. -/
def fixedApproachEngine (w : ws.WorkingSpaces α) (k : chx.FixedApproach α) (r : regen.FixedApproach α)
    (l : hhx.FixedApproach α) : Components α :=
  { ws := w, chx := k.toColdHeatExchanger, regen := r.toRegenerator, hhx := l.toHotHeatExchanger }

/-- Each of the five temperatures is within tolerance of itself. -/
def Spec.SelfClose (tol : ConvergenceTolerance α) (t : Temperatures α) : Prop :=
  Within tol t.chx t.chx ∧ Within tol t.hhx t.hhx ∧ Within tol t.regen.cold t.regen.cold ∧
    Within tol t.regen.avg t.regen.avg ∧ Within tol t.regen.hot t.regen.hot

theorem maxBy_isSome (l : List α) (h : l ≠ []) : ∃ a, maxBy l = some a := by
  cases l with
  | nil => exact absurd rfl h
  | cons a l => exact ⟨_, rfl⟩

theorem minBy_isSome (l : List α) (h : l ≠ []) : ∃ a, minBy l = some a := by
  cases l with
  | nil => exact absurd rfl h
  | cons a l => exact ⟨_, rfl⟩

/-- The summaries exist for every non-empty series. -/
theorem recomputed_exists (c : Components α) (s : State α) (vs : List (state_equations.Values α))
    (h : vs ≠ []) : ∃ s', Recomputed c s (Values.ofStateValues vs) s' := by
  have ht : ∃ t, (Values.ofStateValues vs).final_time = .ok t := by
    have hm : vs.map (fun v => v.time) ≠ [] := by simpa using h
    rw [ofStateValues_eq]
    unfold Values.final_time
    simp only
    cases hl : (vs.map fun v => v.time).getLast? with
    | none => exact absurd (List.getLast?_eq_none_iff.1 hl) hm
    | some t => exact ⟨t, rfl⟩
  obtain ⟨t, ht⟩ := ht
  have hP : (Values.ofStateValues vs).P ≠ [] := by rw [ofStateValues_eq]; simpa using h
  have h1 : ∃ p, Pressure.from_values (Values.ofStateValues vs) = .ok p := by
    unfold Pressure.from_values
    obtain ⟨a, ha⟩ := maxBy_isSome _ hP
    obtain ⟨b, hb⟩ := minBy_isSome _ hP
    have hh : ∃ p, (Values.ofStateValues vs).P.head? = some p := by
      cases hl : (Values.ofStateValues vs).P with
      | nil => exact absurd hl hP
      | cons a l => exact ⟨a, rfl⟩
    obtain ⟨p, hp⟩ := hh
    rw [ht, ha, hb, hp]
    exact ⟨_, rfl⟩
  have h2 : ∃ m, MassFlows.from_values (Values.ofStateValues vs) = .ok m := by
    unfold MassFlows.from_values Values.m_dot_avg
    rw [ht]
    exact ⟨_, rfl⟩
  have h3 : ∃ q, HeatFlows.from_values (Values.ofStateValues vs) s.temp.chx s.temp.hhx
      (c.ws.thermal_resistance ⟨s.pres⟩) = .ok q := by
    unfold HeatFlows.from_values
    rw [ht]
    exact ⟨_, rfl⟩
  obtain ⟨p, h1⟩ := h1
  obtain ⟨m, h2⟩ := h2
  obtain ⟨q, h3⟩ := h3
  exact ⟨{ s with
            pres := p, mass_flow := m, heat_flow := q
            temp := Temperatures.from_approach s.temp.sink s.temp.source
              { chx := c.chx.approach
                  (State.chx { s with pres := p, mass_flow := m, heat_flow := q })
                regen := c.regen.approach
                  (State.regen { s with pres := p, mass_flow := m, heat_flow := q })
                hhx := c.hhx.approach
                  (State.hhx { s with pres := p, mass_flow := m, heat_flow := q }) }
              s.regen_imbalance },
          ⟨rfl, rfl, rfl, rfl, h1, h2, h3, rfl, rfl, rfl⟩⟩

/-- **C39**, any arithmetic.  If the first inner solve succeeds with a non-empty series, a fixed-approach
engine whose five temperatures pass the test against themselves is returned after exactly one outer
iteration, in its initial state. -/
theorem C39_one_iteration (env : Env α) (U : MatrixDecomposition α) (w : ws.WorkingSpaces α)
    (k : chx.FixedApproach α) (r : regen.FixedApproach α) (l : hhx.FixedApproach α)
    (fluid : Fluid α) (inputs : RunInputs α) (settings : RunSettings α)
    (vs : List (state_equations.Values α)) (hm : 1 ≤ settings.max_iters.outer)
    (hi : Engine.inner env U (fixedApproachEngine w k r l) settings
      (State.new_hint (fixedApproachEngine w k r l) fluid inputs) = .ok vs) (hv : vs ≠ [])
    (hc : SelfClose settings.loop_tol.outer
      (State.new_hint (fixedApproachEngine w k r l) fluid inputs).temp) :
    Engine.runLogged env U (fixedApproachEngine w k r l) fluid inputs settings
      = (.ok ⟨fixedApproachEngine w k r l,
            State.new_hint (fixedApproachEngine w k r l) fluid inputs, Values.ofStateValues vs⟩,
          [State.new_hint (fixedApproachEngine w k r l) fluid inputs]) := by
  obtain ⟨n, hn⟩ : ∃ n, settings.max_iters.outer = n + 1 :=
    ⟨settings.max_iters.outer - 1, by omega⟩
  unfold Engine.runLogged
  rw [hn]
  generalize hs : State.new_hint (fixedApproachEngine w k r l) fluid inputs = s at *
  obtain ⟨s', h'⟩ := recomputed_exists (fixedApproachEngine w k r l) s vs hv
  have htemp : s'.temp = s.temp := by
    have e1 := h'.chx; have e2 := h'.hhx; have e3 := h'.regen
    have e4 := h'.sink; have e5 := h'.source
    subst hs
    obtain ⟨f, p, ⟨t1, t2, t3, t4, t5⟩, m, q, i⟩ := s'
    simp only at e1 e2 e3 e4 e5
    subst e1 e2 e3 e4 e5
    rfl
  have hcl : Close settings.loop_tol.outer s.temp s'.temp := by
    rw [htemp]; exact ⟨hc.1, hc.2.1, hc.2.2.1, hc.2.2.2.1, hc.2.2.2.2⟩
  rcases runLoop_succ env U (fixedApproachEngine w k r l) settings n s with
    ⟨vs', t, g1, g2, g3, g4⟩ | ⟨vs', t, g1, g2, g3, g4⟩ | ⟨e, g1, g4⟩ | ⟨p, g1, g4⟩ |
    ⟨vs', p, g1, g2, g4⟩
  all_goals rw [hi] at g1; cases g1
  · exact g4
  · obtain rfl := recomputed_unique h' g2; exact absurd hcl g3
  · exact absurd h' (g2 _)

/-- **C39**, the temperatures: sink and source shifted by the fixed approaches; regenerator ends shifted
inwards by the regenerator approach. -/
theorem C39_temperatures (w : ws.WorkingSpaces α) (k : chx.FixedApproach α)
    (r : regen.FixedApproach α) (l : hhx.FixedApproach α) (fluid : Fluid α) (inputs : RunInputs α)
    (hz : Scalar.le (0.0 : α) 0.0 = true) :
    let t := (State.new_hint (fixedApproachEngine w k r l) fluid inputs).temp
    t.sink = inputs.temp_sink ∧ t.source = inputs.temp_source ∧
      t.chx = inputs.temp_sink + k.approach ∧ t.hhx = inputs.temp_source - l.approach ∧
      t.regen.cold = inputs.temp_sink + k.approach + r.approach ∧
      t.regen.hot = inputs.temp_source - l.approach - (r.approach + 0.0) := by
  simp only [State.new_hint, Temperatures.from_approach, RegenImbalance.regen_temp, hz, if_true,
    fixedApproachEngine, chx.FixedApproach.toColdHeatExchanger, hhx.FixedApproach.toHotHeatExchanger,
    regen.FixedApproach.toRegenerator, and_self]

end

/-- In exact arithmetic a non-zero value is within any positive tolerance of itself. -/
theorem within_self (tol : ConvergenceTolerance ℝ) (ha : 0 < tol.abs) (hr : 0 < tol.rel) (x : ℝ) :
    Within tol x x := by
  simp [Within, ha, hr]

/-- **C39** in exact arithmetic, with an integrator that reports its starting point: a fixed-approach
engine with positive outer tolerances succeeds as soon as its first inner solve does, in one outer
iteration, at the stated temperatures. -/
theorem C39_real (env : Env ℝ) (U : MatrixDecomposition ℝ) (w : ws.WorkingSpaces ℝ)
    (k : chx.FixedApproach ℝ) (r : regen.FixedApproach ℝ) (l : hhx.FixedApproach ℝ)
    (fluid : Fluid ℝ) (inputs : RunInputs ℝ) (settings : RunSettings ℝ) (ho : ReportsStart env.ode)
    (vs : List (state_equations.Values ℝ)) (hm : 1 ≤ settings.max_iters.outer)
    (hi : Engine.inner env U (fixedApproachEngine w k r l) settings
      (State.new_hint (fixedApproachEngine w k r l) fluid inputs) = .ok vs)
    (ha : 0 < settings.loop_tol.outer.abs) (hr : 0 < settings.loop_tol.outer.rel) :
    ∃ e, Engine.runLogged env U (fixedApproachEngine w k r l) fluid inputs settings
        = (.ok e, [e.state]) ∧ e.values = Values.ofStateValues vs ∧
      e.state.temp.chx = inputs.temp_sink + k.approach ∧
      e.state.temp.hhx = inputs.temp_source - l.approach ∧
      e.state.temp.regen.cold = inputs.temp_sink + k.approach + r.approach ∧
      e.state.temp.regen.hot = inputs.temp_source - l.approach - r.approach := by
  have hv : vs ≠ [] := by
    obtain ⟨v, h, -⟩ := inner_head env U _ settings ho hi
    rintro rfl; simp at h
  have hs := fun x => within_self settings.loop_tol.outer ha hr x
  refine ⟨_, C39_one_iteration env U w k r l fluid inputs settings vs hm hi hv
    ⟨hs _, hs _, hs _, hs _, hs _⟩, rfl, ?_⟩
  obtain ⟨-, -, h1, h2, h3, h4⟩ := C39_temperatures w k r l fluid inputs (by rw [real_le])
  refine ⟨h1, h2, h3, ?_⟩
  rw [h4]
  norm_num

/-! ## A complete run -/

namespace EngineExample

open CycleExample BalanceExample

noncomputable def drive : ws.SinusoidalDrive ℝ :=
  { frequency := 1, phase_angle := 90, comp_geometry := ⟨1, 1⟩, exp_geometry := ⟨1, 1⟩
    thermal_resistance := ⟨10, 10⟩
    parasitics := { comp := ⟨0, 0, 0⟩, exp := ⟨0, 0, 0⟩ } }

noncomputable def cold : chx.FixedApproach ℝ :=
  { R_hyd := 0, volume := 1, approach := 40, parasitics := ⟨0, 0, 0⟩ }
noncomputable def mid : regen.FixedApproach ℝ :=
  { R_hyd := 0, volume := 1, approach := 10, parasitics := ⟨0, 0, 0⟩ }
noncomputable def hot : hhx.FixedApproach ℝ :=
  { R_hyd := 0, volume := 1, approach := 100, parasitics := ⟨0, 0, 0⟩ }

noncomputable def components : Components ℝ := fixedApproachEngine drive.toWorkingSpaces cold mid hot

noncomputable def runInputs : RunInputs ℝ := { pres_zero := 5, temp_sink := 260, temp_source := 700 }

noncomputable def settings : RunSettings ℝ :=
  { resolution := 2, loop_tol := ⟨⟨1, 1⟩, ⟨1, 1⟩⟩, ode_tol := ⟨1, 1⟩, max_iters := ⟨3, 2⟩ }

noncomputable def fluid : Fluid ℝ := IdealGas.helium.toFluid

theorem reportsStart : ReportsStart env.ode := by
  intro x xend dx y r a qs xs ys h
  simp only [env, ode] at h
  cases h with
  | step h => cases h with
    | step h => cases h; exact ⟨rfl, rfl⟩

theorem integration' (cy : Cycle ℝ) (hc : cy.Solver = constant) (i : SteadyStateInputs ℝ)
    (hn : i.num_points = 2) (h1 : i.temp_comp_hint = 300) (h2 : i.temp_exp_hint = 600)
    (hm : i.max_iters = 3) (ha : i.conv_tol = ⟨1, 1⟩) :
    findSteadyState env cy i = .ok
      [⟨0, ⟨i.pres_zero, 300, 600⟩, Solution.ofVec vec⟩,
       ⟨cy.period + 1e-14, ⟨i.pres_zero, 300, 600⟩, Solution.ofVec vec⟩] := by
  rw [C33_ok_iff]
  refine ⟨0, ⟨i.pres_zero, i.temp_comp_hint, i.temp_exp_hint⟩, by omega, .hints, ?_, ?_⟩
  · refine ⟨_, _, ⟨_, integration cy hc _ _, rfl, rfl⟩, ?_⟩
    simp [Closed, Within, h1, h2, ha]
  · rw [hn, h1, h2]
    refine ⟨_, integration cy hc _ _, ?_⟩
    simp [intoStateValues, stateValuesFrom, hc, constant_solve]

theorem inner_ok : Engine.inner env constant components settings
    (State.new_hint components fluid runInputs) = .ok
      [⟨0, ⟨5, 300, 600⟩, Solution.ofVec vec⟩,
       ⟨1.0 / 1 + 1e-14, ⟨5, 300, 600⟩, Solution.ofVec vec⟩] := by
  unfold Engine.inner
  rw [integration' (Run.new constant components (State.new_hint components fluid runInputs)).toCycle
    rfl _ rfl ?_ ?_ rfl rfl]
  · rfl
  · show (260 : ℝ) + 40 = 300; norm_num
  · show (700 : ℝ) - 100 = 600; norm_num

/-- C36–C39: a complete run that succeeds, with non-trivial flows in its values. -/
theorem run_ok : ∃ e, Engine.runLogged env constant components fluid runInputs settings
      = (.ok e, [e.state]) ∧ e.values.m_dot_ck = [1, 1] ∧ e.state.temp.chx = 300 := by
  obtain ⟨e, h1, h2, h3, -⟩ := C39_real env constant drive.toWorkingSpaces cold mid hot fluid
    runInputs settings reportsStart _ (by simp [settings]) inner_ok (by simp [settings])
    (by simp [settings])
  refine ⟨e, h1, ?_, ?_⟩
  · rw [h2]; rfl
  · rw [h3]; norm_num [runInputs, cold]

example : ∃ e, Engine.run env constant components fluid runInputs settings = .ok e ∧
    e.values.P.head? = some 5 := by
  obtain ⟨e, h, -⟩ := run_ok
  have h' : Engine.run env constant components fluid runInputs settings = .ok e :=
    congrArg Prod.fst h
  exact ⟨e, h', ((C37_returned_engine _ _ _ _ _ _ e h').2.2.2.2.2 reportsStart).2.1⟩

/-- C38: a failing decomposition panics, a failing integrator gives `InnerLoop`, a zero limit
`OuterLoop`. -/
example : Engine.run { env with ode := fun _ _ _ _ _ _ => .done none } constant components fluid
    runInputs settings = .error (.err .InnerLoop) := by
  rw [C38_inner_loop_iff]
  refine ⟨0, _, .integration, by simp [settings], .start, ?_⟩
  simp [Engine.inner, findSteadyState, findSteadyStateLogged, Engine.steadyInputs, settings,
    steadyLoop, integrationTryFrom, timeStep, pointsMinusOne, env, startStepper, Stepper.run]

example : Engine.run env constant components fluid runInputs
    { settings with max_iters := ⟨3, 0⟩ } = .error (.err .OuterLoop) :=
  (C38_outer_loop_iff _ _ _ _ _ _).2 ⟨_, .start⟩

end EngineExample
end Sett
