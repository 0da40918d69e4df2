import Verif.Spec.Sane
import Verif.Spec.Run
import Verif.Model.Api

/-! # Specification: engines of different size

`k` engines side by side, or one engine of `k` times the volume: extensive quantities are multiplied by
`k`, intensive ones (pressures, temperatures, times, efficiency) stay. -/

namespace Sett.Spec

open state_equations

/-- A solution of the state equations for `k` times the gas: flows and heats are multiplied, rates stay. -/
noncomputable def scaleSolution (k : ℝ) (s : Solution ℝ) : Solution ℝ where
  m_dot_ck := k * s.m_dot_ck
  m_dot_kr := k * s.m_dot_kr
  m_dot_rl := k * s.m_dot_rl
  m_dot_le := k * s.m_dot_le
  Q_dot_k := k * s.Q_dot_k
  Q_dot_r := k * s.Q_dot_r
  Q_dot_l := k * s.Q_dot_l
  dTc_dt := s.dTc_dt
  dTe_dt := s.dTe_dt
  dP_dt := s.dP_dt

/-- One reported point for `k` times the gas. -/
noncomputable def scaleValue (k : ℝ) (v : state_equations.Values ℝ) : state_equations.Values ℝ where
  time := v.time
  conditions := v.conditions
  solution := scaleSolution k v.solution

/-- A heat-exchanger state for `k` times the gas. -/
noncomputable def scaleHx (k : ℝ) (h : HeatExchanger ℝ) : HeatExchanger ℝ :=
  { h with m_dot := k * h.m_dot, Q_dot := k * h.Q_dot }

/-- An engine state for `k` times the gas. -/
noncomputable def scaleState (k : ℝ) (s : State ℝ) : State ℝ where
  fluid := s.fluid
  pres := s.pres
  temp := s.temp
  mass_flow := ⟨k * s.mass_flow.chx, k * s.mass_flow.regen, k * s.mass_flow.hhx⟩
  heat_flow := ⟨k * s.heat_flow.chx, k * s.heat_flow.regen, k * s.heat_flow.hhx⟩
  regen_imbalance := s.regen_imbalance

/-- A run whose volumes and heat losses are `k` times those of another, everything else being equal. -/
structure ScaledRun (k : ℝ) (r r' : Run ℝ) : Prop where
  solver : r'.solver = r.solver
  norm : r'.enth_norm = r.enth_norm
  fluid : r'.fluid = r.fluid
  period : r'.period = r.period
  temp : r'.temp = r.temp
  comp : ∀ t, (r'.ws_vol_fn t).1 = ⟨k * (r.ws_vol_fn t).1.value, k * (r.ws_vol_fn t).1.deriv⟩
  exp : ∀ t, (r'.ws_vol_fn t).2 = ⟨k * (r.ws_vol_fn t).2.value, k * (r.ws_vol_fn t).2.deriv⟩
  chx : r'.vol_chx = k * r.vol_chx
  regen : r'.vol_regen = k * r.vol_regen
  hhx : r'.vol_hhx = k * r.vol_hhx
  comp_loss : r'.ws_parasitics.comp.thermal = k * r.ws_parasitics.comp.thermal
  exp_loss : r'.ws_parasitics.exp.thermal = k * r.ws_parasitics.exp.thermal

/-- The components of an engine of `k` times the size: volumes and losses `k` times as large, thermal and
hydraulic resistances `k` times smaller, and the same approaches when `k` times the gas transfers `k`
times the heat. -/
structure ScaledComponents (k : ℝ) (c c' : Components ℝ) : Prop where
  frequency : ∀ s, c'.ws.frequency s = c.ws.frequency s
  comp : ∀ s t, (c'.ws.volumes s t).1
    = ⟨k * (c.ws.volumes s t).1.value, k * (c.ws.volumes s t).1.deriv⟩
  exp : ∀ s t, (c'.ws.volumes s t).2
    = ⟨k * (c.ws.volumes s t).2.value, k * (c.ws.volumes s t).2.deriv⟩
  comp_wall : ∀ s, (c'.ws.thermal_resistance s).comp = (c.ws.thermal_resistance s).comp / k
  exp_wall : ∀ s, (c'.ws.thermal_resistance s).exp = (c.ws.thermal_resistance s).exp / k
  comp_heat : ∀ s, (c'.ws.parasitics s).comp.thermal = k * (c.ws.parasitics s).comp.thermal
  exp_heat : ∀ s, (c'.ws.parasitics s).exp.thermal = k * (c.ws.parasitics s).exp.thermal
  comp_work : ∀ s, (c'.ws.parasitics s).comp.mechanical = k * (c.ws.parasitics s).comp.mechanical
  exp_work : ∀ s, (c'.ws.parasitics s).exp.mechanical = k * (c.ws.parasitics s).exp.mechanical
  chx_volume : c'.chx.volume = k * c.chx.volume
  regen_volume : c'.regen.volume = k * c.regen.volume
  hhx_volume : c'.hhx.volume = k * c.hhx.volume
  chx_initial : c'.chx.initial_approach = c.chx.initial_approach
  regen_initial : c'.regen.initial_approach = c.regen.initial_approach
  hhx_initial : c'.hhx.initial_approach = c.hhx.initial_approach
  chx_approach : ∀ h T, c'.chx.approach ⟨scaleHx k h, T⟩ = c.chx.approach ⟨h, T⟩
  regen_approach : ∀ h T U, c'.regen.approach ⟨scaleHx k h, T, U⟩ = c.regen.approach ⟨h, T, U⟩
  hhx_approach : ∀ h T, c'.hhx.approach ⟨scaleHx k h, T⟩ = c.hhx.approach ⟨h, T⟩
  chx_drop : ∀ h T, c'.chx.hydraulic_resistance ⟨scaleHx k h, T⟩
    = c.chx.hydraulic_resistance ⟨h, T⟩ / k
  regen_drop : ∀ h T U, c'.regen.hydraulic_resistance ⟨scaleHx k h, T, U⟩
    = c.regen.hydraulic_resistance ⟨h, T, U⟩ / k
  hhx_drop : ∀ h T, c'.hhx.hydraulic_resistance ⟨scaleHx k h, T⟩
    = c.hhx.hydraulic_resistance ⟨h, T⟩ / k
  chx_work : ∀ h T, (c'.chx.parasitics ⟨scaleHx k h, T⟩).mechanical
    = k * (c.chx.parasitics ⟨h, T⟩).mechanical
  hhx_work : ∀ h T, (c'.hhx.parasitics ⟨scaleHx k h, T⟩).mechanical
    = k * (c.hhx.parasitics ⟨h, T⟩).mechanical
  regen_heat : ∀ h T U, (c'.regen.parasitics ⟨scaleHx k h, T, U⟩).thermal
    = k * (c.regen.parasitics ⟨h, T, U⟩).thermal
  hhx_heat : ∀ h T, (c'.hhx.parasitics ⟨scaleHx k h, T⟩).thermal
    = k * (c.hhx.parasitics ⟨h, T⟩).thermal

/-- The results of an engine of `k` times the size: powers, heats, mass flows and torque multiplied by
`k`; pressures, temperatures, times and efficiencies the same. -/
noncomputable def scaleResults (k : ℝ) (r : api.RunResults ℝ) : api.RunResults ℝ where
  efficiency := r.efficiency
  heat_flow := ⟨k * r.heat_flow.input, k * r.heat_flow.rejection, k * r.heat_flow.chx,
    k * r.heat_flow.regen, k * r.heat_flow.hhx⟩
  mass_flow := ⟨k * r.mass_flow.chx, k * r.mass_flow.regen, k * r.mass_flow.hhx⟩
  power := ⟨k * r.power.ideal_indicated, k * r.power.indicated, k * r.power.shaft, k * r.power.net⟩
  pressure := r.pressure
  regen_imbalance := r.regen_imbalance
  shaft_torque := k * r.shaft_torque
  temperature := r.temperature
  values :=
    { r.values with
      m_dot_ck := r.values.m_dot_ck.map (k * ·)
      m_dot_kr := r.values.m_dot_kr.map (k * ·)
      m_dot_rl := r.values.m_dot_rl.map (k * ·)
      m_dot_le := r.values.m_dot_le.map (k * ·)
      Q_dot_k := r.values.Q_dot_k.map (k * ·)
      Q_dot_r := r.values.Q_dot_r.map (k * ·)
      Q_dot_l := r.values.Q_dot_l.map (k * ·) }

/-- The drive of an engine of `k` times the size: the rhombic linkage is kept and the pistons are made
wider. -/
noncomputable def scaleWs (k : ℝ) : ws.Config ℝ → ws.Config ℝ
  | .Sinusoidal p => .Sinusoidal
      { p with
        V_swept_c := k * p.V_swept_c, V_clearance_c := k * p.V_clearance_c, R_c := p.R_c / k
        W_parasitic_c := k * p.W_parasitic_c
        V_swept_e := k * p.V_swept_e, V_clearance_e := k * p.V_clearance_e, R_e := p.R_e / k
        W_parasitic_e := k * p.W_parasitic_e, Q_parasitic_e := k * p.Q_parasitic_e }
  | .Rhombic p => .Rhombic
      { p with
        D_p := Real.sqrt k * p.D_p, D_d := Real.sqrt k * p.D_d
        V_clearance_c := k * p.V_clearance_c, R_c := p.R_c / k
        W_parasitic_c := k * p.W_parasitic_c
        V_clearance_e := k * p.V_clearance_e, R_e := p.R_e / k
        W_parasitic_e := k * p.W_parasitic_e, Q_parasitic_e := k * p.Q_parasitic_e }
  | .GPU3 p => .GPU3 p
  | .Mod2 p => .Mod2 p

/-- The cold exchanger of an engine of `k` times the size. -/
noncomputable def scaleChx (k : ℝ) : chx.Config ℝ → chx.Config ℝ
  | .FixedApproach p => .FixedApproach
      { p with vol := k * p.vol, R_hyd := p.R_hyd / k, W_parasitic := k * p.W_parasitic }
  | .FixedConductance p => .FixedConductance
      { vol := k * p.vol, UA := k * p.UA, R_hyd := p.R_hyd / k, W_parasitic := k * p.W_parasitic }
  | .GPU3 p => .GPU3 p
  | .Mod2 p => .Mod2 p

/-- The regenerator of an engine of `k` times the size. -/
noncomputable def scaleRegen (k : ℝ) : regen.Config ℝ → regen.Config ℝ
  | .FixedApproach p => .FixedApproach
      { p with vol := k * p.vol, R_hyd := p.R_hyd / k, Q_parasitic := k * p.Q_parasitic }
  | .FixedConductance p => .FixedConductance
      { vol := k * p.vol, UA := k * p.UA, R_hyd := p.R_hyd / k, Q_parasitic := k * p.Q_parasitic }
  | .GPU3 p => .GPU3 p
  | .Mod2 p => .Mod2 p

/-- The hot exchanger of an engine of `k` times the size. -/
noncomputable def scaleHhx (k : ℝ) : hhx.Config ℝ → hhx.Config ℝ
  | .FixedApproach p => .FixedApproach
      { p with
        vol := k * p.vol, R_hyd := p.R_hyd / k
        W_parasitic := k * p.W_parasitic, Q_parasitic := k * p.Q_parasitic }
  | .FixedConductance p => .FixedConductance
      { vol := k * p.vol, UA := k * p.UA, R_hyd := p.R_hyd / k
        W_parasitic := k * p.W_parasitic, Q_parasitic := k * p.Q_parasitic }
  | .GPU3 p => .GPU3 p
  | .Mod2 p => .Mod2 p
  | .GPU3NI p => .GPU3NI p
  | .Mod2NI p => .Mod2NI p

/-- The configuration of an engine of `k` times the size, run under the same conditions. -/
noncomputable def scaleConfig (k : ℝ) (c : Config ℝ) : Config ℝ :=
  { c with
    engine :=
      { fluid := c.engine.fluid
        components :=
          { ws := scaleWs k c.engine.components.ws
            chx := scaleChx k c.engine.components.chx
            regen := scaleRegen k c.engine.components.regen
            hhx := scaleHhx k c.engine.components.hhx } } }

end Sett.Spec
