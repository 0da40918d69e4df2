import Verif.Model.Api
import Verif.Proofs.Integrate

/-! # Closed forms of the performance calculations on an index-aligned series -/

namespace Sett

open state_equations performance

section
variable {α : Type}

theorem zipWith_map {β : Type} (f : α → α → α) (vs : List β) (g h : β → α) :
    DVector.zipWith f (vs.map g) (vs.map h) = .ok (vs.map fun v => f (g v) (h v)) := by
  unfold DVector.zipWith
  rw [if_pos (by simp), List.zipWith_map, List.zipWith_self]

variable [Scalar α]

theorem add_map {β : Type} (vs : List β) (g h : β → α) :
    DVector.add (vs.map g) (vs.map h) = .ok (vs.map fun v => g v + h v) := zipWith_map _ _ _ _
theorem sub_map {β : Type} (vs : List β) (g h : β → α) :
    DVector.sub (vs.map g) (vs.map h) = .ok (vs.map fun v => g v - h v) := zipWith_map _ _ _ _
theorem mul_map {β : Type} (vs : List β) (g h : β → α) :
    DVector.component_mul (vs.map g) (vs.map h) = .ok (vs.map fun v => g v * h v) :=
  zipWith_map _ _ _ _
theorem div_map {β : Type} (vs : List β) (g h : β → α) :
    DVector.component_div (vs.map g) (vs.map h) = .ok (vs.map fun v => g v / h v) :=
  zipWith_map _ _ _ _
theorem smul_map {β : Type} (s : α) (vs : List β) (g : β → α) :
    DVector.smul s (vs.map g) = vs.map fun v => s * g v := by
  simp [DVector.smul]

theorem drop_map {β : Type} (vs : List β) (m0 m1 d : β → α) (R : α) :
    calculate_hx_pressure_drop (vs.map m0) (vs.map m1) (vs.map d) R
      = .ok (vs.map fun v => R * (0.5 * (m0 v + m1 v) / d v)) := by
  unfold calculate_hx_pressure_drop
  rw [add_map]
  simp only [bind, Except.bind]
  rw [smul_map, div_map]
  simp only [pure, Except.pure]
  rw [smul_map]

/-- Total pressure drop at one sample, as the code computes it. -/
def sampleDrop (e : Engine α) (v : state_equations.Values α) : α :=
  e.components.chx.hydraulic_resistance e.state.chx
      * (0.5 * (v.solution.m_dot_ck + v.solution.m_dot_kr)
        / e.state.fluid.dens e.state.temp.chx v.conditions.P)
    + e.components.hhx.hydraulic_resistance e.state.hhx
      * (0.5 * (v.solution.m_dot_rl + v.solution.m_dot_le)
        / e.state.fluid.dens e.state.temp.hhx v.conditions.P)
    + e.components.regen.hydraulic_resistance e.state.regen
      * (0.5 * (v.solution.m_dot_kr + v.solution.m_dot_rl)
        / e.state.fluid.dens e.state.temp.regen.avg v.conditions.P)

theorem pressures_eq (e : Engine α) (vs : List (state_equations.Values α))
    (h : e.values = Values.ofStateValues vs) :
    PressuresWithDrops.new e = .ok
      { P_c := vs.map fun v => v.conditions.P + 0.5 * sampleDrop e v
        P_e := vs.map fun v => v.conditions.P - 0.5 * sampleDrop e v } := by
  unfold PressuresWithDrops.new
  rw [h, ofStateValues_eq]
  simp only [List.map_map, Function.comp_def, drop_map]
  simp only [bind, Except.bind]
  rw [add_map]
  simp only
  rw [add_map]
  simp only [smul_map]
  rw [add_map, sub_map]
  rfl

/-- Volume rates at one sample. -/
def sampleVol (e : Engine α) (v : state_equations.Values α) : ws.CompVolume α × ws.ExpVolume α :=
  e.components.ws.volumes e.state.ws v.time

theorem powers_eq (e : Engine α) (vs : List (state_equations.Values α))
    (h : e.values = Values.ofStateValues vs) (pc pe : state_equations.Values α → α) :
    Powers.new ⟨vs.map pc, vs.map pe⟩ e = .ok
      (let f := e.components.ws.frequency e.state.ws
       let time := vs.map fun v => v.time
       let ind := f * integrate time
        (vs.map fun v => pc v * (sampleVol e v).1.deriv + pe v * (sampleVol e v).2.deriv)
       let shaft := ind - (e.components.ws.parasitics e.state.ws).comp.mechanical
        - (e.components.ws.parasitics e.state.ws).exp.mechanical
       { indicated := ind
         indicated_zero_dP := f * integrate time
          (vs.map fun v => v.conditions.P * ((sampleVol e v).1.deriv + (sampleVol e v).2.deriv))
         shaft
         net := shaft - (e.components.chx.parasitics e.state.chx).mechanical
          - (e.components.hhx.parasitics e.state.hhx).mechanical }) := by
  unfold Powers.new dV_dts
  rw [h, ofStateValues_eq]
  simp only [List.map_map, Function.comp_def, mul_map, add_map, bind, Except.bind]
  rfl

end

section
variable {α : Type} [Scalar α]

/-- No step of the performance calculation can panic on an index-aligned series. -/
theorem performance_ok (e : Engine α) (vs : List (state_equations.Values α))
    (h : e.values = Values.ofStateValues vs) :
    ∃ p, Performance.ofEngine e = .ok p ∧
      p.pressures_with_drops.P_c = vs.map (fun v => v.conditions.P + 0.5 * sampleDrop e v) ∧
      p.pressures_with_drops.P_e = vs.map (fun v => v.conditions.P - 0.5 * sampleDrop e v) ∧
      Powers.new p.pressures_with_drops e = .ok p.power ∧ p.heat = Heats.new p.power e ∧
      p.shaft_torque = p.power.shaft / (2.0 * Scalar.pi * e.components.ws.frequency e.state.ws) ∧
      p.efficiency = p.power.net / p.heat.input := by
  unfold Performance.ofEngine
  rw [pressures_eq e vs h]
  simp only [bind, Except.bind]
  rw [powers_eq e vs h]
  exact ⟨_, rfl, rfl, rfl, powers_eq e vs h _ _, rfl, rfl, rfl⟩

theorem results_ok (e : Engine α) (vs : List (state_equations.Values α))
    (h : e.values = Values.ofStateValues vs) : ∃ r, RunResults.ofEngine e = .ok r := by
  obtain ⟨p, hp, -⟩ := performance_ok e vs h
  unfold RunResults.ofEngine
  rw [hp]
  exact ⟨_, rfl⟩

theorem results_performance {e : Engine α} {r : api.RunResults α}
    (h : RunResults.ofEngine e = .ok r) :
    ∃ p, Performance.ofEngine e = .ok p ∧
      r.efficiency = ⟨p.efficiency, 0.0⟩ ∧ r.heat_flow.input = p.heat.input ∧
      r.heat_flow.rejection = p.heat.rejected ∧
      r.power = ⟨p.power.indicated_zero_dP, p.power.indicated, p.power.shaft, p.power.net⟩ ∧
      r.shaft_torque = p.shaft_torque ∧
      r.values = ⟨e.values.time, e.values.P, p.pressures_with_drops.P_c,
        p.pressures_with_drops.P_e, e.values.T_c, e.values.T_e, e.values.m_dot_ck,
        e.values.m_dot_kr, e.values.m_dot_rl, e.values.m_dot_le, e.values.Q_dot_k,
        e.values.Q_dot_r, e.values.Q_dot_l⟩ := by
  unfold RunResults.ofEngine at h
  cases hp : Performance.ofEngine e with
  | error f => rw [hp] at h; cases h
  | ok p => rw [hp] at h; cases h; exact ⟨p, rfl, rfl, rfl, rfl, rfl, rfl, rfl⟩

end

/-- The trapezoid of a combination of two sample functions. -/
theorem trapezoid_comb {β : Type} (x : List ℝ) (vs : List β) (a b : ℝ) (g h : β → ℝ) :
    Spec.trapezoid x (vs.map fun v => a * g v + b * h v)
      = a * Spec.trapezoid x (vs.map g) + b * Spec.trapezoid x (vs.map h) := by
  rw [← trapezoid_linear a b x (vs.map g) (vs.map h) (by simp), List.zipWith_map, List.zipWith_self]

theorem trapezoid_add {β : Type} (x : List ℝ) (vs : List β) (g h : β → ℝ) :
    Spec.trapezoid x (vs.map fun v => g v + h v)
      = Spec.trapezoid x (vs.map g) + Spec.trapezoid x (vs.map h) := by
  have := trapezoid_comb x vs 1 1 g h
  simpa using this

theorem trapezoid_sub {β : Type} (x : List ℝ) (vs : List β) (g h : β → ℝ) :
    Spec.trapezoid x (vs.map fun v => g v - h v)
      = Spec.trapezoid x (vs.map g) - Spec.trapezoid x (vs.map h) := by
  have := trapezoid_comb x vs 1 (-1) g h
  simp only [one_mul, neg_one_mul] at this
  simpa [sub_eq_add_neg] using this

theorem trapezoid_neg {β : Type} (x : List ℝ) (vs : List β) (g : β → ℝ) :
    Spec.trapezoid x (vs.map fun v => -g v) = -Spec.trapezoid x (vs.map g) := by
  have := trapezoid_comb x vs (-1) 0 g g
  simp only [neg_one_mul, zero_mul, add_zero] at this
  simpa using this

end Sett
