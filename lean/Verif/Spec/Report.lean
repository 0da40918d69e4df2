import Verif.Model.Api
import Verif.Spec.Run
import Verif.Proofs.Integrate
import Verif.Props.HeatExchangers

/-! # Specification: what a report says

The numbers of a configuration that enter the report directly, and the relations between the reported
scalars and the reported series.  Nothing here refers to an engine, a state or a run. -/

namespace Sett.Spec

open api

/-- Specific gas constant of the configured gas, J/kg-K. -/
noncomputable def gasConstant : fluid.Config → ℝ
  | .Helium _ => 2077.23
  | .Hydrogen _ => 4124.2

/-- The configured numbers of a drive. -/
structure DriveNumbers where
  frequency : ℝ
  wallComp : ℝ
  wallExp : ℝ
  workComp : ℝ
  workExp : ℝ
  heatExp : ℝ

/-- The numbers of a drive configuration (zero for the drives the crate cannot build). -/
noncomputable def driveNumbers : ws.Config ℝ → DriveNumbers
  | .Sinusoidal p => ⟨p.frequency, p.R_c, p.R_e, p.W_parasitic_c, p.W_parasitic_e, p.Q_parasitic_e⟩
  | .Rhombic p => ⟨p.frequency, p.R_c, p.R_e, p.W_parasitic_c, p.W_parasitic_e, p.Q_parasitic_e⟩
  | _ => ⟨0, 0, 0, 0, 0, 0⟩

/-- The configured numbers of an exchanger: flow resistance, mechanical and thermal losses, and the
approach where it is fixed. -/
structure ExchangerNumbers where
  resistance : ℝ
  work : ℝ
  heat : ℝ
  fixed : Option ℝ

/-- The numbers of an exchanger configuration (zero for those the crate cannot build). -/
noncomputable def chxNumbers : chx.Config ℝ → ExchangerNumbers
  | .FixedApproach p => ⟨p.R_hyd, p.W_parasitic, 0, some p.DT⟩
  | .FixedConductance p => ⟨p.R_hyd, p.W_parasitic, 0, none⟩
  | _ => ⟨0, 0, 0, none⟩
@[inherit_doc chxNumbers]
noncomputable def regenNumbers : regen.Config ℝ → ExchangerNumbers
  | .FixedApproach p => ⟨p.R_hyd, 0, p.Q_parasitic, some p.DT⟩
  | .FixedConductance p => ⟨p.R_hyd, 0, p.Q_parasitic, none⟩
  | _ => ⟨0, 0, 0, none⟩
@[inherit_doc chxNumbers]
noncomputable def hhxNumbers : hhx.Config ℝ → ExchangerNumbers
  | .FixedApproach p => ⟨p.R_hyd, p.W_parasitic, p.Q_parasitic, some p.DT⟩
  | .FixedConductance p => ⟨p.R_hyd, p.W_parasitic, p.Q_parasitic, none⟩
  | _ => ⟨0, 0, 0, none⟩

/-- Work per cycle of a sampled pressure against a sampled volume rate. -/
noncomputable def pvWork (time P : List ℝ) (rate : ℝ → ℝ) : ℝ :=
  trapezoid time (List.zipWith (fun t p => p * rate t) time P)

/-- The reported scalars recomputed from the reported series and the configuration. `rateC` and `rateE` are
the rates of change of the two working-space volumes. -/
structure Recomputes (c : Config ℝ) (rateC rateE : ℝ → ℝ) (r : RunResults ℝ) : Prop where
  /-- power is pressure-volume work of the spaces, at the space pressures or at the cycle pressure -/
  indicated : r.power.indicated = (driveNumbers c.engine.components.ws).frequency
    * (pvWork r.values.time r.values.P_c rateC + pvWork r.values.time r.values.P_e rateE)
  ideal : r.power.ideal_indicated = (driveNumbers c.engine.components.ws).frequency
    * (pvWork r.values.time r.values.P rateC + pvWork r.values.time r.values.P rateE)
  shaft : r.power.shaft = r.power.indicated - (driveNumbers c.engine.components.ws).workComp
    - (driveNumbers c.engine.components.ws).workExp
  net : r.power.net = r.power.shaft - (chxNumbers c.engine.components.chx).work
    - (hhxNumbers c.engine.components.hhx).work
  torque : (driveNumbers c.engine.components.ws).frequency ≠ 0 →
    r.shaft_torque * (2 * Real.pi * (driveNumbers c.engine.components.ws).frequency) = r.power.shaft
  efficiency : r.heat_flow.input ≠ 0 → r.efficiency.mechanical * r.heat_flow.input = r.power.net
  /-- heat taken from the source: hot exchanger, expansion-space wall, thermal losses -/
  input : r.heat_flow.input = (driveNumbers c.engine.components.ws).frequency
      * (trapezoid r.values.time r.values.Q_dot_l
        + trapezoid r.values.time (r.values.T_e.map fun T =>
            (r.temperature.hhx - T) / (driveNumbers c.engine.components.ws).wallExp))
    + (hhxNumbers c.engine.components.hhx).heat + (regenNumbers c.engine.components.regen).heat
    + (driveNumbers c.engine.components.ws).heatExp
  /-- heat given to the sink: cold exchanger, compression-space wall, the losses -/
  rejection : r.heat_flow.rejection = (driveNumbers c.engine.components.ws).frequency
      * (trapezoid r.values.time r.values.Q_dot_k
        + trapezoid r.values.time (r.values.T_c.map fun T =>
            (T - r.temperature.chx) / (driveNumbers c.engine.components.ws).wallComp))
    + (r.power.ideal_indicated - r.power.indicated) + (r.power.indicated - r.power.shaft)
    + (hhxNumbers c.engine.components.hhx).heat + (regenNumbers c.engine.components.regen).heat
    + (driveNumbers c.engine.components.ws).heatExp
  /-- the space pressures straddle the cycle pressure by the drops through the three exchangers -/
  pressures : ∀ (i : ℕ) p ck kr rl le, r.values.P[i]? = some p → r.values.m_dot_ck[i]? = some ck →
    r.values.m_dot_kr[i]? = some kr → r.values.m_dot_rl[i]? = some rl →
    r.values.m_dot_le[i]? = some le → ∃ pc pe, r.values.P_c[i]? = some pc ∧
      r.values.P_e[i]? = some pe ∧ pc + pe = 2 * p ∧
      pc - pe = gasConstant c.engine.fluid / (2 * p) *
        ((chxNumbers c.engine.components.chx).resistance * (ck + kr) * r.temperature.chx
        + (regenNumbers c.engine.components.regen).resistance * (kr + rl) * r.temperature.regen_avg
        + (hhxNumbers c.engine.components.hhx).resistance * (rl + le) * r.temperature.hhx)

/-- The reported temperatures form a ladder from sink to source, with the configured approaches where they
are fixed. -/
structure ReportedLadder (c : Config ℝ) (t : Temperature ℝ) : Prop where
  sink : t.sink = c.conditions.temp_sink
  source : t.source = c.conditions.temp_source
  chx : ∀ d, (chxNumbers c.engine.components.chx).fixed = some d → t.chx = t.sink + d
  cold : ∀ d, (regenNumbers c.engine.components.regen).fixed = some d → t.regen_cold = t.chx + d
  same : t.regen_cold - t.chx = t.hhx - t.regen_hot
  hhx : ∀ d, (hhxNumbers c.engine.components.hhx).fixed = some d → t.hhx = t.source - d
  avg : 0 < (t.chx + t.regen_cold) / 2 → 0 < (t.hhx + t.regen_hot) / 2 →
    t.regen_avg = logMean ((t.chx + t.regen_cold) / 2) ((t.hhx + t.regen_hot) / 2)

end Sett.Spec
