import Verif.Spec.Losses
import Verif.Props.Results

/-! # C95: losses around the gas are book-keeping; C96: electrical losses are not even that -/

namespace Sett

open Spec state_equations api performance

section engine
variable {α : Type} [Scalar α]

/-- Two sets of components that the gas cannot tell apart: same volumes, same approaches, same drive, same
walls, same heat entering the working spaces.  Nothing is said about flow resistances and other losses. -/
structure SameGas (c c' : Components α) : Prop where
  chx_volume : c'.chx.volume = c.chx.volume
  chx_approach : c'.chx.approach = c.chx.approach
  chx_initial : c'.chx.initial_approach = c.chx.initial_approach
  regen_volume : c'.regen.volume = c.regen.volume
  regen_approach : c'.regen.approach = c.regen.approach
  regen_initial : c'.regen.initial_approach = c.regen.initial_approach
  hhx_volume : c'.hhx.volume = c.hhx.volume
  hhx_approach : c'.hhx.approach = c.hhx.approach
  hhx_initial : c'.hhx.initial_approach = c.hhx.initial_approach
  frequency : c'.ws.frequency = c.ws.frequency
  volumes : c'.ws.volumes = c.ws.volumes
  walls : c'.ws.thermal_resistance = c.ws.thermal_resistance
  comp_heat : ∀ q, (c'.ws.parasitics q).comp.thermal = (c.ws.parasitics q).comp.thermal
  exp_heat : ∀ q, (c'.ws.parasitics q).exp.thermal = (c.ws.parasitics q).exp.thermal

variable {c c' : Components α} {U : MatrixDecomposition α} {env : Env α} {settings : RunSettings α}

theorem sameGas_cycle (h : SameGas c c') (s : State α) :
    (Run.new U c' s).toCycle = (Run.new U c s).toCycle := by
  unfold Run.toCycle
  congr 1
  · funext t q
    simp only [Run.calculate_inputs, Run.comp_inputs, Run.chx_inputs, Run.regen_inputs, Run.hhx_inputs,
      Run.exp_inputs, Run.new, h.volumes, h.chx_volume, h.regen_volume, h.hhx_volume, h.comp_heat,
      h.exp_heat]
  · simp only [Run.new, h.frequency]

theorem sameGas_update (h : SameGas c c') (s : State α) (v : Values α) (tol : ConvergenceTolerance α) :
    s.update c' v tol = s.update c v tol := by
  simp only [State.update, h.walls, h.chx_approach, h.regen_approach, h.hhx_approach]

/-- **C95**, engine: components that the gas cannot tell apart give the same run: the same error or panic,
or the same state and the same series; in particular the same outer iterations.  Any arithmetic, any
solver, any integrator. -/
theorem C95_engine (h : SameGas c c') (fluid : Fluid α) (inputs : RunInputs α) :
    Engine.run env U c' fluid inputs settings
      = (Engine.run env U c fluid inputs settings).map (fun e => { e with components := c' }) ∧
    (Engine.runLogged env U c' fluid inputs settings).2
      = (Engine.runLogged env U c fluid inputs settings).2 := by
  have hs : State.new_hint c' fluid inputs = State.new_hint c fluid inputs := by
    simp only [State.new_hint, h.chx_initial, h.regen_initial, h.hhx_initial]
  have key : ∀ n s, Engine.runLoop env U c' settings n s
      = ((Engine.runLoop env U c settings n s).1.map (fun e => { e with components := c' }),
        (Engine.runLoop env U c settings n s).2) := by
    intro n
    induction n with
    | zero => intro s; rfl
    | succ n ih =>
      intro s
      have hI : Engine.inner env U c' settings s = Engine.inner env U c settings s := by
        unfold Engine.inner; rw [sameGas_cycle h]
      simp only [Engine.runLoop]
      rw [hI]
      cases Engine.inner env U c settings s with
      | error x => cases x <;> rfl
      | ok vs =>
        simp only [sameGas_update h]
        cases s.update c (Values.ofStateValues vs) settings.loop_tol.outer with
        | error x => cases x with
          | panic p => rfl
          | err x => exact x.elim
        | ok u => cases u with
          | converged t => rfl
          | changed t => simp only [ih]
  unfold Engine.run Engine.runLogged
  rw [hs, key]
  exact ⟨rfl, rfl⟩

/-- Reports of two engines in the same state with the same series, whose gas is the same. -/
theorem sameGas_report (h : SameGas c c') (s : State α) (vs : List (state_equations.Values α)) :
    ∃ r r', RunResults.ofEngine ⟨c, s, Values.ofStateValues vs⟩ = .ok r ∧
      RunResults.ofEngine ⟨c', s, Values.ofStateValues vs⟩ = .ok r' ∧ SameCycle r r' := by
  unfold RunResults.ofEngine Performance.ofEngine
  rw [pressures_eq (⟨c, s, Values.ofStateValues vs⟩ : Engine α) vs rfl,
    pressures_eq (⟨c', s, Values.ofStateValues vs⟩ : Engine α) vs rfl]
  simp only [bind, Except.bind]
  rw [powers_eq (⟨c, s, Values.ofStateValues vs⟩ : Engine α) vs rfl,
    powers_eq (⟨c', s, Values.ofStateValues vs⟩ : Engine α) vs rfl]
  refine ⟨_, _, rfl, rfl, ?_⟩
  constructor <;> try rfl
  · simp only [sampleVol, h.frequency, h.volumes]
  · intro Pc Pe; rfl

end engine

section electrical
variable {α : Type} [Scalar α]

/-- Components that differ only in the losses of a kind the crate declares but never asks for: electrical
losses anywhere, thermal losses of the cold exchanger, mechanical losses of the regenerator. -/
structure SameAsked (c c' : Components α) : Prop where
  gas : SameGas c c'
  chx_flow : c'.chx.hydraulic_resistance = c.chx.hydraulic_resistance
  regen_flow : c'.regen.hydraulic_resistance = c.regen.hydraulic_resistance
  hhx_flow : c'.hhx.hydraulic_resistance = c.hhx.hydraulic_resistance
  comp_work : ∀ q, (c'.ws.parasitics q).comp.mechanical = (c.ws.parasitics q).comp.mechanical
  exp_work : ∀ q, (c'.ws.parasitics q).exp.mechanical = (c.ws.parasitics q).exp.mechanical
  chx_work : ∀ q, (c'.chx.parasitics q).mechanical = (c.chx.parasitics q).mechanical
  hhx_work : ∀ q, (c'.hhx.parasitics q).mechanical = (c.hhx.parasitics q).mechanical
  hhx_heat : ∀ q, (c'.hhx.parasitics q).thermal = (c.hhx.parasitics q).thermal
  regen_heat : ∀ q, (c'.regen.parasitics q).thermal = (c.regen.parasitics q).thermal

/-- **C96.** Electrical losses (and thermal losses of the cold exchanger, and mechanical losses of the
regenerator) reported by a component change nothing at all: the run and the complete report are the same. -/
theorem C96_electrical_ignored {c c' : Components α} (h : SameAsked c c') (env : Env α)
    (U : MatrixDecomposition α) (fluid : Fluid α) (inputs : RunInputs α) (settings : RunSettings α) :
    (Engine.run env U c' fluid inputs settings >>= fun e => (RunResults.ofEngine e).lift)
      = Engine.run env U c fluid inputs settings >>= fun e => (RunResults.ofEngine e).lift := by
  rw [(C95_engine h.gas fluid inputs).1]
  cases hr : Engine.run env U c fluid inputs settings with
  | error x => rfl
  | ok e =>
    have hc : e.components = c := (C37_returned_engine env U c fluid inputs settings e hr).1
    obtain ⟨a, s, v⟩ := e
    simp only at hc
    subst hc
    show (RunResults.ofEngine ⟨c', s, v⟩).lift = (RunResults.ofEngine ⟨a, s, v⟩).lift
    congr 1
    unfold RunResults.ofEngine Performance.ofEngine PressuresWithDrops.new Powers.new Heats.new dV_dts
    simp only [h.gas.frequency, h.gas.volumes, h.gas.walls, h.gas.exp_heat, h.chx_flow, h.regen_flow,
      h.hhx_flow, h.comp_work, h.exp_work, h.chx_work, h.hhx_work, h.hhx_heat, h.regen_heat]

/-- **C96**, the report: the overall efficiency, documented as including electrical losses, is zero in every
report, whatever the engine. -/
theorem C96_overall_zero (env : Env α) (lu : MatrixDecomposition α) (c : Config α) (r : RunResults α)
    (h : run_engine env lu c = .ok r) : r.efficiency.overall = 0.0 := by
  obtain ⟨-, x, g, e, -, -, hr⟩ := C50_ok_only_if_run_ok env lu c r h
  obtain ⟨p, -, h1, -⟩ := results_performance hr
  rw [h1]

end electrical

section config
variable {α : Type} [Scalar α]

/-- Components with the losses `L`. -/
structure Charged (L : Losses α) (x : Components α) : Prop where
  flowChx : ∀ q, x.chx.hydraulic_resistance q = L.flowChx
  flowRegen : ∀ q, x.regen.hydraulic_resistance q = L.flowRegen
  flowHhx : ∀ q, x.hhx.hydraulic_resistance q = L.flowHhx
  workComp : ∀ q, (x.ws.parasitics q).comp.mechanical = L.workComp
  workExp : ∀ q, (x.ws.parasitics q).exp.mechanical = L.workExp
  workChx : ∀ q, (x.chx.parasitics q).mechanical = L.workChx
  workHhx : ∀ q, (x.hhx.parasitics q).mechanical = L.workHhx
  heatRegen : ∀ q, (x.regen.parasitics q).thermal = L.heatRegen
  heatHhx : ∀ q, (x.hhx.parasitics q).thermal = L.heatHhx

theorem charge_build (L : Losses α) (c : Config α) :
    (∃ s, c.engine.components.build = .error s ∧ (charge L c).engine.components.build = .error s) ∨
    ∃ x x', c.engine.components.build = .ok x ∧ (charge L c).engine.components.build = .ok x' ∧
      SameGas x x' ∧ Charged L x' := by
  obtain ⟨⟨fl, ⟨cx, cl, cr, cw⟩⟩, so, co⟩ := c
  cases cw <;> cases cx <;> cases cr <;> cases cl <;>
    first
    | exact .inl ⟨_, rfl, rfl⟩
    | (refine .inr ⟨_, _, rfl, rfl, ?_, ?_⟩ <;>
       constructor <;> first | rfl | (intro q; rfl))

/-- The two runs side by side: the same error, or two engines in the same state with the same series. -/
theorem charge_run (env : Env α) (lu : MatrixDecomposition α) (c : Config α) :
    (∃ x, ∀ L, run_engine env lu c = .error x ∧ run_engine env lu (charge L c) = .error x) ∨
    ∃ x s vs, run_engine env lu c = (RunResults.ofEngine ⟨x, s, Values.ofStateValues vs⟩).lift ∧
      ∀ L, ∃ x', SameGas x x' ∧ Charged L x' ∧
        run_engine env lu (charge L c) = (RunResults.ofEngine ⟨x', s, Values.ofStateValues vs⟩).lift := by
  unfold run_engine
  have e : ∀ L, (charge L c).engine.fluid = c.engine.fluid ∧ (charge L c).conditions = c.conditions ∧
    (charge L c).solver = c.solver := fun _ => ⟨rfl, rfl, rfl⟩
  simp only [e]
  cases selectFluid (α := α) c.engine.fluid with
  | error x => cases x with
    | panic p => exact .inl ⟨_, fun L => ⟨rfl, rfl⟩⟩
    | err x => exact x.elim
  | ok g =>
    cases hb : c.engine.components.build with
    | error s =>
      have h2 : ∀ L, (charge L c).engine.components.build = .error s := by
        intro L
        rcases charge_build L c with ⟨s', h1, h2⟩ | ⟨x, x', h1, h2, h3⟩
        · rw [hb] at h1; cases h1; exact h2
        · rw [hb] at h1; cases h1
      simp only [h2]
      cases s with
      | panic p => exact .inl ⟨_, fun L => ⟨rfl, rfl⟩⟩
      | err x => exact x.elim
    | ok x =>
      have h2 : ∀ L, ∃ x', (charge L c).engine.components.build = .ok x' ∧ SameGas x x' ∧ Charged L x' := by
        intro L
        rcases charge_build L c with ⟨s', h1, h2⟩ | ⟨y, x', h1, h2, h3⟩
        · rw [hb] at h1; cases h1
        · rw [hb] at h1; cases h1; exact ⟨x', h2, h3⟩
      simp only [Panics.lift, bind, Except.bind]
      cases hr : Engine.run env lu x g.toFluid c.conditions.toRunInputs c.solver.toRunSettings with
      | error y =>
        refine .inl ⟨y, fun L => ⟨rfl, ?_⟩⟩
        obtain ⟨x', q1, q2, q3⟩ := h2 L
        simp only [q1]
        rw [(C95_engine q2 _ _).1, hr]; rfl
      | ok e =>
        have hc := (C37_returned_engine env lu x g.toFluid _ _ e hr).1
        obtain ⟨-, -, vs, -, -, -, hv, -⟩ := C36_values_are_steady env lu x g.toFluid _ _ e hr
        obtain ⟨a, s, v⟩ := e
        simp only at hc hv
        subst hc hv
        refine .inr ⟨a, s, vs, rfl, fun L => ?_⟩
        obtain ⟨x', q1, q2, q3⟩ := h2 L
        refine ⟨x', q2, q3, ?_⟩
        simp only [q1]
        rw [(C95_engine q2 _ _).1, hr]; rfl

/-- **C95.** Entering other flow resistances, friction and pump powers or heat leaks never changes the
motion of the gas.  The run ends in the same error or panic, or both runs succeed with the same series,
pressures, temperatures, mass flows, exchanger heats and ideal power — digit by digit, since the arithmetic
is arbitrary. -/
theorem C95_run_engine (env : Env α) (lu : MatrixDecomposition α) (c : Config α) (L : Losses α) :
    (∃ x, run_engine env lu c = .error x ∧ run_engine env lu (charge L c) = .error x) ∨
    ∃ r r', run_engine env lu c = .ok r ∧ run_engine env lu (charge L c) = .ok r' ∧ SameCycle r r' := by
  rcases charge_run env lu c with ⟨x, h⟩ | ⟨x, s, vs, h1, h2⟩
  · exact .inl ⟨x, h L⟩
  · obtain ⟨x', h3, -, h4⟩ := h2 L
    obtain ⟨r, r', q1, q2, q3⟩ := sameGas_report h3 s vs
    exact .inr ⟨r, r', by rw [h1, q1]; rfl, by rw [h4, q2]; rfl, q3⟩
end config

section prices

/-- **C95**, what the losses cost: they are charged one by one, at prices set by the gas alone.  Whenever
an engine runs there are three flow prices and two heats such that with any losses whatsoever the same
engine runs too, and its report is the same cycle with

* the indicated power below the ideal one by each flow resistance times its price,
* the shaft power below that by the mechanical losses in the working spaces,
* the net power below that by the powers drawn by the two exchangers,
* the heat input raised by the two heat leaks, and the rejected heat by the heat leaks, the flow losses and
  the mechanical losses in the working spaces (not by the powers drawn by the exchangers). -/
theorem C95_prices (env : Env ℝ) (lu : MatrixDecomposition ℝ) (c : Config ℝ) (r : RunResults ℝ)
    (h : run_engine env lu c = .ok r) :
    ∃ priceChx priceRegen priceHhx input rejection : ℝ, ∀ L : Losses ℝ, ∃ r',
      run_engine env lu (charge L c) = .ok r' ∧ SameCycle r r' ∧
      r'.power.indicated = r.power.ideal_indicated
        - (L.flowChx * priceChx + L.flowRegen * priceRegen + L.flowHhx * priceHhx) ∧
      r'.power.shaft = r'.power.indicated - (L.workComp + L.workExp) ∧
      r'.power.net = r'.power.shaft - (L.workChx + L.workHhx) ∧
      r'.heat_flow.input = input + (L.heatRegen + L.heatHhx) ∧
      r'.heat_flow.rejection = rejection + (L.heatRegen + L.heatHhx)
        + (r'.power.ideal_indicated - r'.power.indicated) + (L.workComp + L.workExp) := by
  rcases charge_run env lu c with ⟨x, h'⟩ | ⟨x, s, vs, h1, h2⟩
  · rw [(h' ⟨0, 0, 0, 0, 0, 0, 0, 0, 0⟩).1] at h; cases h
  rw [h1] at h
  let vC : state_equations.Values ℝ → ℝ := fun v => (x.ws.volumes s.ws v.time).1.deriv
  let vE : state_equations.Values ℝ → ℝ := fun v => (x.ws.volumes s.ws v.time).2.deriv
  let p : (state_equations.Values ℝ → ℝ) → ℝ := fun m => -(x.ws.frequency s.ws
    * trapezoid (times vs) (vs.map fun v => m v / 2 * (vC v - vE v)))
  refine ⟨p fun v => drop 1 v.solution.m_dot_ck v.solution.m_dot_kr (s.fluid.dens s.temp.chx v.conditions.P),
    p fun v => drop 1 v.solution.m_dot_kr v.solution.m_dot_rl
      (s.fluid.dens s.temp.regen.avg v.conditions.P),
    p fun v => drop 1 v.solution.m_dot_rl v.solution.m_dot_le (s.fluid.dens s.temp.hhx v.conditions.P),
    x.ws.frequency s.ws * trapezoid (times vs) (vs.map fun v => v.solution.Q_dot_l)
      - x.ws.frequency s.ws * trapezoid (times vs) (vs.map fun v => (v.conditions.T_e - s.temp.hhx)
        / (x.ws.thermal_resistance s.ws).exp) + (x.ws.parasitics s.ws).exp.thermal,
    x.ws.frequency s.ws * trapezoid (times vs) (vs.map fun v => (v.conditions.T_c - s.temp.chx)
        / (x.ws.thermal_resistance s.ws).comp)
      + x.ws.frequency s.ws * trapezoid (times vs) (vs.map fun v => v.solution.Q_dot_k)
      + (x.ws.parasitics s.ws).exp.thermal, fun L => ?_⟩
  obtain ⟨x', hg, hL, h3⟩ := h2 L
  obtain ⟨r0, r', q1, q2, q3⟩ := sameGas_report hg s vs
  rw [q1] at h
  cases h
  have hp := results_powers (e := ⟨x', s, Values.ofStateValues vs⟩) rfl q2
  have hh := results_heats (e := ⟨x', s, Values.ofStateValues vs⟩) rfl q2
  have hd := C42_pressure_drop_loss ⟨x', s, Values.ofStateValues vs⟩ vs rfl r' q2
  simp only [hL.workComp, hL.workExp, hL.workChx, hL.workHhx, hL.heatRegen, hL.heatHhx, hg.frequency,
    hg.walls, hg.exp_heat, dropChx, dropRegen, dropHhx, dVc, dVe, hL.flowChx, hL.flowRegen, hL.flowHhx,
    hg.volumes] at hp hh hd
  obtain ⟨-, -, p3, p4⟩ := hp
  obtain ⟨u1, u2⟩ := hh
  refine ⟨r', by rw [h3, q2]; rfl, q3, ?_, by rw [p3]; ring, by rw [p4]; ring, by rw [u1]; ring, by rw [u2]; ring⟩
  have key : ∀ g1 g2 g3 : state_equations.Values ℝ → ℝ, ∀ a b d : ℝ,
      trapezoid (times vs) (vs.map fun v => a * g1 v + 1 * (b * g2 v + d * g3 v))
        = a * trapezoid (times vs) (vs.map g1) + (b * trapezoid (times vs) (vs.map g2)
          + d * trapezoid (times vs) (vs.map g3)) := by
    intro g1 g2 g3 a b d
    rw [trapezoid_comb, trapezoid_comb, one_mul]
  have split := key (fun v => drop 1 v.solution.m_dot_ck v.solution.m_dot_kr
      (s.fluid.dens s.temp.chx v.conditions.P) / 2 * (vC v - vE v))
    (fun v => drop 1 v.solution.m_dot_kr v.solution.m_dot_rl
      (s.fluid.dens s.temp.regen.avg v.conditions.P) / 2 * (vC v - vE v))
    (fun v => drop 1 v.solution.m_dot_rl v.solution.m_dot_le
      (s.fluid.dens s.temp.hhx v.conditions.P) / 2 * (vC v - vE v)) L.flowChx L.flowRegen L.flowHhx
  have scale : ∀ R a b d : ℝ, drop R a b d = R * drop 1 a b d := by
    intro R a b d; simp only [Spec.drop]; ring
  have same : ∀ v : state_equations.Values ℝ,
      (drop L.flowChx v.solution.m_dot_ck v.solution.m_dot_kr (s.fluid.dens s.temp.chx v.conditions.P)
        + drop L.flowRegen v.solution.m_dot_kr v.solution.m_dot_rl
          (s.fluid.dens s.temp.regen.avg v.conditions.P)
        + drop L.flowHhx v.solution.m_dot_rl v.solution.m_dot_le
          (s.fluid.dens s.temp.hhx v.conditions.P)) / 2 * (vC v - vE v)
      = L.flowChx * (drop 1 v.solution.m_dot_ck v.solution.m_dot_kr
          (s.fluid.dens s.temp.chx v.conditions.P) / 2 * (vC v - vE v))
        + 1 * (L.flowRegen * (drop 1 v.solution.m_dot_kr v.solution.m_dot_rl
          (s.fluid.dens s.temp.regen.avg v.conditions.P) / 2 * (vC v - vE v))
        + L.flowHhx * (drop 1 v.solution.m_dot_rl v.solution.m_dot_le
          (s.fluid.dens s.temp.hhx v.conditions.P) / 2 * (vC v - vE v))) := by
    intro v
    rw [scale L.flowChx, scale L.flowRegen, scale L.flowHhx]; ring
  have e := (congrArg (trapezoid (times vs)) (List.map_congr_left (l := vs) fun v _ => same v)).trans split
  have hd := hd.trans (congrArg (x.ws.frequency s.ws * ·) e)
  simp only [q3.ideal] at hd
  have hd' := sub_eq_iff_eq_add.1 hd
  rw [hd']
  show x.ws.frequency s.ws * _ + _ = _
  ring
end prices
end Sett
