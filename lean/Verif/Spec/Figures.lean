import Verif.Spec.Shadow
import Verif.Model.Api
import Mathlib.MeasureTheory.Integral.IntervalIntegral.Basic

/-! # Specification: the performance figures of a motion

What an engine whose gas moves continuously delivers and takes up, as averages over one cycle of the motion:
integrals over time, with no samples, no steps and no trapezoids. -/

namespace Sett.Spec

open state_equations api

/-- The motion of the gas over one cycle, with the flows and heats at every instant. -/
structure Motion (r : Run ℝ) (L : Limits) (V : ℝ → state_equations.Values ℝ) : Prop where
  time : ∀ t, (V t).time = t
  moves : Trajectory r (fun t => (V t).conditions) 0 (r.period + 1e-14)
  follows : ∀ t ∈ Set.Icc 0 r.period, Follows r (fun t => (V t).conditions) t (V t).solution
  within : ∀ t ∈ Set.Icc 0 r.period, WithinLimits r L t (V t).conditions

/-- The mean of a quantity over one cycle. -/
noncomputable def cycleMean (T : ℝ) (g : ℝ → ℝ) : ℝ := (∫ t in (0 : ℝ)..T, g t) / T

/-- Pressure difference between the two spaces: resistance times mean volume flow, over the three exchangers. -/
noncomputable def pressureDrop (e : Engine ℝ) (v : state_equations.Values ℝ) : ℝ :=
  let drop (R m m' T : ℝ) : ℝ := R * (((m + m') / 2) / e.state.fluid.dens T v.conditions.P)
  drop (e.components.chx.hydraulic_resistance e.state.chx) v.solution.m_dot_ck v.solution.m_dot_kr e.state.temp.chx
    + drop (e.components.regen.hydraulic_resistance e.state.regen) v.solution.m_dot_kr v.solution.m_dot_rl
      e.state.temp.regen.avg
    + drop (e.components.hhx.hydraulic_resistance e.state.hhx) v.solution.m_dot_rl v.solution.m_dot_le e.state.temp.hhx

/-- What a motion delivers and takes up. -/
structure MotionFigures where
  ideal : ℝ
  indicated : ℝ
  shaft : ℝ
  net : ℝ
  torque : ℝ
  input : ℝ
  rejection : ℝ

/-- The figures of the motion `V` in the engine `e`. -/
noncomputable def figuresOf (e : Engine ℝ) (V : ℝ → state_equations.Values ℝ) : MotionFigures :=
  let f := e.components.ws.frequency e.state.ws
  let mean := cycleMean (1 / f)
  let rateC (t : ℝ) := (e.components.ws.volumes e.state.ws t).1.deriv
  let rateE (t : ℝ) := (e.components.ws.volumes e.state.ws t).2.deriv
  let wall := e.components.ws.thermal_resistance e.state.ws
  let loss := e.components.ws.parasitics e.state.ws
  let heatLoss := (e.components.hhx.parasitics e.state.hhx).thermal
    + (e.components.regen.parasitics e.state.regen).thermal + loss.exp.thermal
  let ideal := mean fun t => (V t).conditions.P * (rateC t + rateE t)
  let indicated := mean fun t => ((V t).conditions.P + pressureDrop e (V t) / 2) * rateC t
    + ((V t).conditions.P - pressureDrop e (V t) / 2) * rateE t
  let shaft := indicated - loss.comp.mechanical - loss.exp.mechanical
  { ideal, indicated, shaft
    net := shaft - (e.components.chx.parasitics e.state.chx).mechanical
      - (e.components.hhx.parasitics e.state.hhx).mechanical
    torque := shaft / (2 * Real.pi * f)
    input := (mean fun t => (V t).solution.Q_dot_l)
      + (mean fun t => (e.state.temp.hhx - (V t).conditions.T_e) / wall.exp) + heatLoss
    rejection := (mean fun t => (V t).solution.Q_dot_k)
      + (mean fun t => ((V t).conditions.T_c - e.state.temp.chx) / wall.comp) + (ideal - indicated)
      + (indicated - shaft) + heatLoss }

/-- The reported figures are those of the motion, to within `δ`. -/
structure FiguresWithin (δ : ℝ) (m : MotionFigures) (res : RunResults ℝ) : Prop where
  ideal : |res.power.ideal_indicated - m.ideal| ≤ δ
  indicated : |res.power.indicated - m.indicated| ≤ δ
  shaft : |res.power.shaft - m.shaft| ≤ δ
  net : |res.power.net - m.net| ≤ δ
  torque : |res.shaft_torque - m.torque| ≤ δ
  input : |res.heat_flow.input - m.input| ≤ δ
  rejection : |res.heat_flow.rejection - m.rejection| ≤ δ

end Sett.Spec
