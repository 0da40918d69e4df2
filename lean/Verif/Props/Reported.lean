import Verif.Props.FixedApproach
import Verif.Props.Averages
import Verif.Model.Api

/-! # C40: do the reported averages describe the reported cycle?

They do not: on convergence `State::update` returns the state it was given, whose pressures and flows
summarise the *previous* outer iteration (or are the initial guesses).  Proved: the negation, and what
the reported numbers are instead. -/

namespace Sett

open state_equations Spec

/-- What C40 asks of a result. -/
structure Spec.Describes {α : Type} [Scalar α] (r : api.RunResults α) (v : Values α)
    (R : ws.ThermalResistance α) : Prop where
  pressure : Pressure.from_values v = .ok r.pressure
  mass_flow : MassFlows.from_values v = .ok ⟨r.mass_flow.chx, r.mass_flow.regen, r.mass_flow.hhx⟩
  heat_flow : HeatFlows.from_values v r.temperature.chx r.temperature.hhx R
    = .ok ⟨r.heat_flow.chx, r.heat_flow.regen, r.heat_flow.hhx⟩

section
variable {α : Type} [Scalar α]

theorem results_state {e : Engine α} {r : api.RunResults α} (h : RunResults.ofEngine e = .ok r) :
    r.pressure = e.state.pres ∧ r.mass_flow = ⟨e.state.mass_flow.chx, e.state.mass_flow.regen,
      e.state.mass_flow.hhx⟩ ∧ r.heat_flow.chx = e.state.heat_flow.chx ∧
      r.heat_flow.regen = e.state.heat_flow.regen ∧ r.heat_flow.hhx = e.state.heat_flow.hhx ∧
      r.temperature = ⟨e.state.temp.sink, e.state.temp.chx, e.state.temp.regen.cold,
        e.state.temp.regen.avg, e.state.temp.regen.hot, e.state.temp.hhx, e.state.temp.source⟩ ∧
      r.regen_imbalance = e.state.regen_imbalance.val := by
  unfold RunResults.ofEngine at h
  cases hp : performance.Performance.ofEngine e with
  | error f => rw [hp] at h; cases h
  | ok p => rw [hp] at h; cases h; exact ⟨rfl, rfl, rfl, rfl, rfl, rfl, rfl⟩

/-- **C40**, what is true (partial): the reported pressures, mass and heat flows are either the initial
guesses (pressure constant at `pres_zero`, all flows literally zero), when the run converged in its first
outer iteration, or the summaries of the values of the *previous* outer iteration.  Missing from the full
statement: they are in general not the summaries of the returned values (`C40_false`). -/
theorem C40_previous_iteration_partial (env : Env α) (U : MatrixDecomposition α) (c : Components α)
    (fluid : Fluid α) (inputs : RunInputs α) (settings : RunSettings α) (e : Engine α)
    (h : Engine.run env U c fluid inputs settings = .ok e) (r : api.RunResults α)
    (hr : RunResults.ofEngine e = .ok r) :
    (r.pressure = Pressure.constant inputs.pres_zero ∧ r.mass_flow = ⟨0.0, 0.0, 0.0⟩ ∧
      r.heat_flow.chx = 0.0 ∧ r.heat_flow.regen = 0.0 ∧ r.heat_flow.hhx = 0.0) ∨
    ∃ n s vs, Visited env U c settings (State.new_hint c fluid inputs) n s ∧
      Engine.inner env U c settings s = .ok vs ∧
      Pressure.from_values (Values.ofStateValues vs) = .ok r.pressure ∧
      MassFlows.from_values (Values.ofStateValues vs)
        = .ok ⟨r.mass_flow.chx, r.mass_flow.regen, r.mass_flow.hhx⟩ ∧
      HeatFlows.from_values (Values.ofStateValues vs) s.temp.chx s.temp.hhx
          (c.ws.thermal_resistance ⟨s.pres⟩)
        = .ok ⟨r.heat_flow.chx, r.heat_flow.regen, r.heat_flow.hhx⟩ := by
  obtain ⟨n, vs, s', -, hv, -, -, -, -⟩ := (C36_ok_iff env U c fluid inputs settings e).1 h
  obtain ⟨e1, e2, e3, e4, e5, -⟩ := results_state hr
  rw [e1, e2, e3, e4, e5]
  cases hs : e.state with
  | mk f p t m q i =>
    rw [hs] at hv
    cases hv with
    | start => exact .inl ⟨rfl, rfl, rfl, rfl, rfl⟩
    | next g1 g2 g3 g4 =>
      refine .inr ⟨_, _, _, g1, g2, g3.pres, ?_, ?_⟩
      · exact g3.mass_flow
      · exact g3.heat_flow

end

namespace EngineExample

open CycleExample BalanceExample

/-- **C40 is false.** A successful run whose results report zero average mass flow although the returned
series has flow 1 at every sample. -/
theorem C40_false : ∃ e r, Engine.run env constant components fluid runInputs settings = .ok e ∧
    RunResults.ofEngine e = .ok r ∧ r.mass_flow.chx = 0 ∧ r.values.m_dot_ck = [1, 1] ∧
    r.values.m_dot_kr = [1, 1] ∧ ¬Describes r e.values ⟨10, 10⟩ := by
  obtain ⟨e, h, -⟩ := run_ok
  have hrun : Engine.run env constant components fluid runInputs settings = .ok e :=
    congrArg Prod.fst h
  have hone := C39_one_iteration env constant drive.toWorkingSpaces cold mid hot fluid
    runInputs settings _ (by simp [settings]) inner_ok (by simp)
    ⟨within_self _ (by simp [settings]) (by simp [settings]) _,
     within_self _ (by simp [settings]) (by simp [settings]) _,
     within_self _ (by simp [settings]) (by simp [settings]) _,
     within_self _ (by simp [settings]) (by simp [settings]) _,
     within_self _ (by simp [settings]) (by simp [settings]) _⟩
  have he : e = ⟨components, State.new_hint components fluid runInputs, Values.ofStateValues
      [⟨0, ⟨5, 300, 600⟩, Solution.ofVec vec⟩,
       ⟨1.0 / 1 + 1e-14, ⟨5, 300, 600⟩, Solution.ofVec vec⟩]⟩ := by
    have := congrArg Prod.fst (h.symm.trans hone)
    exact Except.ok.inj this
  have hres : ∃ r, RunResults.ofEngine e = .ok r ∧ r.values.m_dot_ck = [1, 1] ∧
      r.values.m_dot_kr = [1, 1] := by
    rw [he]
    exact ⟨_, rfl, rfl, rfl⟩
  obtain ⟨r, hr, h1, h2⟩ := hres
  have hm : r.mass_flow.chx = 0 := by
    rw [(results_state hr).2.1, he]
    show (0.0 : ℝ) = 0
    norm_num
  refine ⟨e, r, hrun, hr, hm, h1, h2, fun hd => ?_⟩
  have h3 := (massflows_ok hd.mass_flow).1
  obtain ⟨t, ht, h4⟩ := m_dot_ok h3
  rw [hm] at h4
  subst he
  rw [ofStateValues_eq] at h4 ht
  simp [Spec.trapezoid, Solution.ofVec, vec] at h4 ht
  norm_num at h4 ht
  subst ht
  norm_num at h4

end EngineExample
end Sett
