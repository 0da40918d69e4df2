import Verif.Spec.Cycle
import Verif.Model.Engine

/-! # Specification of the outer loop -/

namespace Sett.Spec

open state_equations

variable {α : Type} [Scalar α]

/-- What the cold exchanger is to be shown: its gas temperature `t.chx`, the average pressure, the gas
properties at that temperature and pressure, its own mass and heat flow, the sink temperature. -/
def coldView (fluid : Fluid α) (t : Temperatures α) (p : Pressure α) (m : MassFlows α)
    (q : HeatFlows α) : chx.State α where
  hxr := { temp := t.chx, pres := p.avg, dens := fluid.dens t.chx p.avg, cp := fluid.cp t.chx p.avg
           m_dot := m.chx, Q_dot := q.chx }
  sink_temp := t.sink

/-- The same for the regenerator: gas properties at its average temperature, its own flows, and the
temperatures of both exchangers. -/
def regenView (fluid : Fluid α) (t : Temperatures α) (p : Pressure α) (m : MassFlows α)
    (q : HeatFlows α) : regen.State α where
  hxr := { temp := t.regen.avg, pres := p.avg, dens := fluid.dens t.regen.avg p.avg
           cp := fluid.cp t.regen.avg p.avg, m_dot := m.regen, Q_dot := q.regen }
  temp_chx := t.chx
  temp_hhx := t.hhx

/-- The same for the hot exchanger, with the source temperature. -/
def hotView (fluid : Fluid α) (t : Temperatures α) (p : Pressure α) (m : MassFlows α)
    (q : HeatFlows α) : hhx.State α where
  hxr := { temp := t.hhx, pres := p.avg, dens := fluid.dens t.hhx p.avg, cp := fluid.cp t.hhx p.avg
           m_dot := m.hhx, Q_dot := q.hhx }
  source_temp := t.source

/-- `s'` is the state recomputed from the cycle `v` that was run in state `s`: fluid, sink, source and
imbalance are those of `s`; pressures and flows summarise `v`; the exchanger temperatures are sink and
source shifted by the approaches the components report for these summaries (fluid properties still at
the temperatures of `s`), and the regenerator temperatures follow from them. -/
structure Recomputed (c : Components α) (s : State α) (v : Values α) (s' : State α) : Prop where
  fluid : s'.fluid = s.fluid
  sink : s'.temp.sink = s.temp.sink
  source : s'.temp.source = s.temp.source
  imbalance : s'.regen_imbalance = s.regen_imbalance
  pres : Pressure.from_values v = .ok s'.pres
  mass_flow : MassFlows.from_values v = .ok s'.mass_flow
  heat_flow : HeatFlows.from_values v s.temp.chx s.temp.hhx (c.ws.thermal_resistance ⟨s.pres⟩)
    = .ok s'.heat_flow
  chx : s'.temp.chx = s.temp.sink + c.chx.approach
    (coldView s.fluid s.temp s'.pres s'.mass_flow s'.heat_flow)
  hhx : s'.temp.hhx = s.temp.source - c.hhx.approach
    (hotView s.fluid s.temp s'.pres s'.mass_flow s'.heat_flow)
  regen : s'.temp.regen = s.regen_imbalance.regen_temp s'.temp.chx s'.temp.hhx
    (c.regen.approach (regenView s.fluid s.temp s'.pres s'.mass_flow s'.heat_flow))

/-- All five temperatures of `t'` are within tolerance of those of `t`. -/
structure Close (tol : ConvergenceTolerance α) (t t' : Temperatures α) : Prop where
  chx : Within tol t.chx t'.chx
  hhx : Within tol t.hhx t'.hhx
  cold : Within tol t.regen.cold t'.regen.cold
  avg : Within tol t.regen.avg t'.regen.avg
  hot : Within tol t.regen.hot t'.regen.hot

/-- The outer sequence: `Visited n s` says that outer iteration number `n` starts in state `s`. -/
inductive Visited (env : Env α) (U : MatrixDecomposition α) (c : Components α)
    (settings : RunSettings α) (start : State α) : Nat → State α → Prop
  | start : Visited env U c settings start 0 start
  | next {n s s' vs} : Visited env U c settings start n s →
      Engine.inner env U c settings s = .ok vs → Recomputed c s (Values.ofStateValues vs) s' →
      ¬Close settings.loop_tol.outer s.temp s'.temp → Visited env U c settings start (n + 1) s'

/-- What the inner solve of one outer iteration has to be asked for: the pressure at time zero and the
exchanger temperatures of the state as starting point, the requested resolution, the ODE tolerance, and the
tolerance and iteration limit of the *inner* loop. -/
def innerRequest (settings : RunSettings α) (s : State α) : SteadyStateInputs α where
  pres_zero := s.pres.t_zero
  temp_comp_hint := s.temp.chx
  temp_exp_hint := s.temp.hhx
  num_points := settings.resolution
  ode_tol := settings.ode_tol
  conv_tol := settings.loop_tol.inner
  max_iters := settings.max_iters.inner

/-- The integrator reports its starting point first. -/
def ReportsStart (ode : Ode α) : Prop :=
  ∀ x xend dx y rtol atol qs xs ys,
    Reaches (ode x xend dx y rtol atol) qs (.done (some (xs, ys))) →
      xs.head? = some x ∧ ys.head? = some y

end Sett.Spec
