import Verif.Spec.Walls
import Verif.Props.Results

/-! # C97: the gas does not feel the cylinder walls -/

namespace Sett

open Spec state_equations api performance

section engine
variable {α : Type} [Scalar α]

/-- Exchangers that do the same whatever the state they are shown. -/
structure Indifferent (c : Components α) : Prop where
  chx_approach : ∀ q q', c.chx.approach q = c.chx.approach q'
  chx_flow : ∀ q q', c.chx.hydraulic_resistance q = c.chx.hydraulic_resistance q'
  chx_loss : ∀ q q', c.chx.parasitics q = c.chx.parasitics q'
  regen_approach : ∀ q q', c.regen.approach q = c.regen.approach q'
  regen_flow : ∀ q q', c.regen.hydraulic_resistance q = c.regen.hydraulic_resistance q'
  regen_loss : ∀ q q', c.regen.parasitics q = c.regen.parasitics q'
  hhx_approach : ∀ q q', c.hhx.approach q = c.hhx.approach q'
  hhx_flow : ∀ q q', c.hhx.hydraulic_resistance q = c.hhx.hydraulic_resistance q'
  hhx_loss : ∀ q q', c.hhx.parasitics q = c.hhx.parasitics q'

/-- The same components with other walls. -/
def withWalls (R : ws.State α → ws.ThermalResistance α) (c : Components α) : Components α :=
  { c with ws := { c.ws with thermal_resistance := R } }

variable {c : Components α} {U : MatrixDecomposition α} {env : Env α} {settings : RunSettings α}

theorem walls_update (hc : Indifferent c) (R : ws.State α → ws.ThermalResistance α) (s : State α)
    (h : HeatFlows α) (v : Values α) (tol : ConvergenceTolerance α) :
    match s.update c v tol with
    | .error x => ({ s with heat_flow := h } : State α).update (withWalls R c) v tol = .error x
    | .ok (.changed t) => ∃ h', ({ s with heat_flow := h } : State α).update (withWalls R c) v tol
        = .ok (.changed { t with heat_flow := h' })
    | .ok (.converged t) => ∃ h', ({ s with heat_flow := h } : State α).update (withWalls R c) v tol
        = .ok (.converged { t with heat_flow := h' }) := by
  unfold State.update
  cases h1 : Pressure.from_values v with
  | error x => rfl
  | ok p =>
    cases h2 : MassFlows.from_values v with
    | error x => rfl
    | ok m =>
      cases h3 : v.final_time with
      | error x => simp only [bind, Except.bind, HeatFlows.from_values, h3]
      | ok t =>
        simp only [bind, Except.bind, HeatFlows.from_values, h3, pure, Except.pure, withWalls]
        have e1 : ∀ q, c.chx.approach q = c.chx.approach s.chx := fun q => hc.chx_approach q _
        have e2 : ∀ q, c.regen.approach q = c.regen.approach s.regen := fun q => hc.regen_approach q _
        have e3 : ∀ q, c.hhx.approach q = c.hhx.approach s.hhx := fun q => hc.hhx_approach q _
        simp only [e1, e2, e3]
        by_cases hif : s.temp.is_converged (Temperatures.from_approach s.temp.sink s.temp.source
            { chx := c.chx.approach s.chx, regen := c.regen.approach s.regen
              hhx := c.hhx.approach s.hhx } s.regen_imbalance) tol = true
        · simp only [if_pos hif]; exact ⟨_, rfl⟩
        · simp only [if_neg hif]; exact ⟨_, rfl⟩

/-- **C97**, engine: with exchangers whose approaches are fixed, other walls of the working spaces give the
same run: the same error or panic, or the same state up to its heat flows and the same series.  Any
arithmetic, any solver, any integrator. -/
theorem C97_engine (hc : Indifferent c) (R : ws.State α → ws.ThermalResistance α) (fluid : Fluid α)
    (inputs : RunInputs α) :
    match Engine.run env U c fluid inputs settings with
    | .error x => Engine.run env U (withWalls R c) fluid inputs settings = .error x
    | .ok e => ∃ h, Engine.run env U (withWalls R c) fluid inputs settings
        = .ok ⟨withWalls R c, { e.state with heat_flow := h }, e.values⟩ := by
  have key : ∀ n s h, match (Engine.runLoop env U c settings n s).1 with
      | .error x => (Engine.runLoop env U (withWalls R c) settings n { s with heat_flow := h }).1
          = .error x
      | .ok e => ∃ h', (Engine.runLoop env U (withWalls R c) settings n { s with heat_flow := h }).1
          = .ok ⟨withWalls R c, { e.state with heat_flow := h' }, e.values⟩ := by
    intro n
    induction n with
    | zero => intro s h; rfl
    | succ n ih =>
      intro s h
      have hI : Engine.inner env U (withWalls R c) settings { s with heat_flow := h }
          = Engine.inner env U c settings s := rfl
      simp only [Engine.runLoop]
      rw [hI]
      cases Engine.inner env U c settings s with
      | error x => cases x <;> rfl
      | ok vs =>
        have hu := walls_update hc R s h (Values.ofStateValues vs) settings.loop_tol.outer
        simp only
        cases hq : s.update c (Values.ofStateValues vs) settings.loop_tol.outer with
        | error x =>
          rw [hq] at hu
          cases x with
          | panic p => simp only at hu; rw [hu]
          | err x => exact x.elim
        | ok u =>
          rw [hq] at hu
          cases u with
          | converged t =>
            obtain ⟨h', hu⟩ := hu
            rw [hu]; exact ⟨h', rfl⟩
          | changed t =>
            obtain ⟨h', hu⟩ := hu
            rw [hu]; exact ih t h'
  have := key settings.max_iters.outer (State.new_hint c fluid inputs)
    (State.new_hint c fluid inputs).heat_flow
  exact this

/-- Reports of two engines that differ in their walls and their heat flows only. -/
theorem walls_report (hc : Indifferent c) (R : ws.State α → ws.ThermalResistance α) (s : State α)
    (h : HeatFlows α) (vs : List (state_equations.Values α)) :
    ∃ r r', RunResults.ofEngine ⟨c, s, Values.ofStateValues vs⟩ = .ok r ∧
      RunResults.ofEngine ⟨withWalls R c, { s with heat_flow := h }, Values.ofStateValues vs⟩ = .ok r' ∧
      SameButHeat r r' := by
  have e1 : ∀ q, c.chx.hydraulic_resistance q = c.chx.hydraulic_resistance s.chx :=
    fun q => hc.chx_flow q _
  have e2 : ∀ q, c.regen.hydraulic_resistance q = c.regen.hydraulic_resistance s.regen :=
    fun q => hc.regen_flow q _
  have e3 : ∀ q, c.hhx.hydraulic_resistance q = c.hhx.hydraulic_resistance s.hhx :=
    fun q => hc.hhx_flow q _
  have e4 : ∀ q, c.chx.parasitics q = c.chx.parasitics s.chx := fun q => hc.chx_loss q _
  have e5 : ∀ q, c.hhx.parasitics q = c.hhx.parasitics s.hhx := fun q => hc.hhx_loss q _
  unfold RunResults.ofEngine Performance.ofEngine
  rw [pressures_eq (⟨c, s, Values.ofStateValues vs⟩ : Engine α) vs rfl,
    pressures_eq (⟨withWalls R c, { s with heat_flow := h }, Values.ofStateValues vs⟩ : Engine α) vs rfl]
  simp only [bind, Except.bind]
  rw [powers_eq (⟨c, s, Values.ofStateValues vs⟩ : Engine α) vs rfl,
    powers_eq (⟨withWalls R c, { s with heat_flow := h }, Values.ofStateValues vs⟩ : Engine α) vs rfl]
  refine ⟨_, _, rfl, rfl, ?_⟩
  have hd : ∀ v, sampleDrop (⟨withWalls R c, { s with heat_flow := h }, Values.ofStateValues vs⟩ : Engine α) v
      = sampleDrop ⟨c, s, Values.ofStateValues vs⟩ v := by
    intro v
    simp only [sampleDrop, withWalls, e1, e2, e3]
  constructor <;> try rfl
  · simp only [hd]; simp only [withWalls, e4, e5]; rfl
  · simp only [hd]; rfl
  · simp only [hd]
end engine

section config
variable {α : Type} [Scalar α]

/-- **C97.** An engine whose exchangers are given by their approaches turns the same way whatever the
thermal resistances of its cylinder walls: the same error or panic, or the same series, pressures,
temperatures, mass flows and powers. -/
theorem C97_run_engine (env : Env α) (lu : MatrixDecomposition α) (c : Config α) (hc : FixedApproaches c)
    (Rc Re : α) :
    (∃ x, run_engine env lu c = .error x ∧ run_engine env lu (rewall Rc Re c) = .error x) ∨
    ∃ r r', run_engine env lu c = .ok r ∧ run_engine env lu (rewall Rc Re c) = .ok r' ∧
      SameButHeat r r' := by
  obtain ⟨⟨p1, h1⟩, ⟨p2, h2⟩, ⟨p3, h3⟩⟩ := hc
  have hb : (∃ s, c.engine.components.build = .error (.panic s) ∧
        (rewall Rc Re c).engine.components.build = .error (.panic s)) ∨
      ∃ x R, c.engine.components.build = .ok x ∧
        (rewall Rc Re c).engine.components.build = .ok (withWalls R x) ∧ Indifferent x := by
    obtain ⟨⟨fl, ⟨cx, cl, cr, cw⟩⟩, so, co⟩ := c
    simp only at h1 h2 h3
    subst h1 h2 h3
    cases cw with
    | Sinusoidal p =>
      refine .inr ⟨_, fun _ => ⟨Rc, Re⟩, rfl, rfl, ?_⟩
      constructor <;> (intro q q'; rfl)
    | Rhombic p =>
      refine .inr ⟨_, fun _ => ⟨Rc, Re⟩, rfl, rfl, ?_⟩
      constructor <;> (intro q q'; rfl)
    | GPU3 p => exact .inl ⟨_, rfl, rfl⟩
    | Mod2 p => exact .inl ⟨_, rfl, rfl⟩
  unfold run_engine
  rw [show (rewall Rc Re c).engine.fluid = c.engine.fluid from rfl,
    show (rewall Rc Re c).conditions = c.conditions from rfl,
    show (rewall Rc Re c).solver = c.solver from rfl]
  cases selectFluid (α := α) c.engine.fluid with
  | error x => cases x with
    | panic p => exact .inl ⟨_, rfl, rfl⟩
    | err x => exact x.elim
  | ok g =>
    rcases hb with ⟨s, q1, q2⟩ | ⟨x, R, q1, q2, q3⟩
    · rw [q1, q2]; exact .inl ⟨_, rfl, rfl⟩
    · rw [q1, q2]
      simp only [Panics.lift, bind, Except.bind]
      have key := C97_engine (env := env) (U := lu) (settings := c.solver.toRunSettings) q3 R g.toFluid
        c.conditions.toRunInputs
      cases hr : Engine.run env lu x g.toFluid c.conditions.toRunInputs c.solver.toRunSettings with
      | error y =>
        rw [hr] at key
        simp only at key
        rw [key]; exact .inl ⟨_, rfl, rfl⟩
      | ok e =>
        rw [hr] at key
        obtain ⟨h, key⟩ := key
        have hc := (C37_returned_engine env lu x g.toFluid _ _ e hr).1
        obtain ⟨-, -, vs, -, -, -, hv, -⟩ := C36_values_are_steady env lu x g.toFluid _ _ e hr
        rw [key]
        obtain ⟨a, s, v⟩ := e
        simp only at hc hv
        subst hc hv
        obtain ⟨r, r', g1, g2, g3⟩ := walls_report q3 R s h vs
        refine .inr ⟨r, r', ?_, ?_, g3⟩
        · simp only [g1]
        · simp only [g2]
end config

/-- **C97**, the heat: what the walls of the hot space are said to conduct is simply added to the heat input
of the unchanged cycle, and what the walls of the cold space conduct to the rejected heat. -/
theorem C97_heat (env : Env ℝ) (lu : MatrixDecomposition ℝ) (c : Config ℝ) (hc : FixedApproaches c)
    (Rc Re : ℝ) (r : RunResults ℝ) (h : run_engine env lu c = .ok r) :
    ∃ r', run_engine env lu (rewall Rc Re c) = .ok r' ∧ r'.power = r.power ∧
      r'.heat_flow.input - r.heat_flow.input = (driveNumbers c.engine.components.ws).frequency
        * trapezoid r.values.time (r.values.T_e.map fun T => (r.temperature.hhx - T)
          * (1 / Re - 1 / (driveNumbers c.engine.components.ws).wallExp)) ∧
      r'.heat_flow.rejection - r.heat_flow.rejection = (driveNumbers c.engine.components.ws).frequency
        * trapezoid r.values.time (r.values.T_c.map fun T => (T - r.temperature.chx)
          * (1 / Rc - 1 / (driveNumbers c.engine.components.ws).wallComp)) := by
  rcases C97_run_engine env lu c hc Rc Re with ⟨x, h1, -⟩ | ⟨r0, r', h1, h2, h3⟩
  · rw [h] at h1; cases h1
  rw [h] at h1; cases h1
  refine ⟨r', h2, h3.power, ?_⟩
  obtain ⟨x, g, hx, hR⟩ := C65_recomputes env lu c r h
  obtain ⟨x', g', hx', hR'⟩ := C65_recomputes env lu _ r' h2
  have hd : driveNumbers (rewall Rc Re c).engine.components.ws
      = { driveNumbers c.engine.components.ws with wallComp := Rc, wallExp := Re } := by
    have := hx.ws
    obtain ⟨⟨fl, ⟨cx, cl, cr, cw⟩⟩, so, co⟩ := c
    simp only at this
    cases cw with
    | Sinusoidal p => rfl
    | Rhombic p => rfl
    | GPU3 p => cases this
    | Mod2 p => cases this
  have i1 := hR.input
  have i2 := hR'.input
  have j1 := hR.rejection
  have j2 := hR'.rejection
  rw [hd, h3.values, h3.temperature] at i2
  rw [hd, h3.values, h3.temperature, h3.power] at j2
  simp only [rewall] at i2 j2
  have split : ∀ (l : List ℝ) (u : ℝ → ℝ) (a b : ℝ), trapezoid r.values.time (l.map fun T => u T * (1 / a - 1 / b))
      = trapezoid r.values.time (l.map fun T => u T / a) - trapezoid r.values.time (l.map fun T => u T / b) := by
    intro l u a b
    rw [← trapezoid_sub]
    congr 2
    funext T; ring
  constructor
  · rw [i1, i2, split]; ring
  · rw [j1, j2, split]; ring
end Sett
