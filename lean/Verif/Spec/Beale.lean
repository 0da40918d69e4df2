import Verif.Spec.Figures
import Verif.Spec.Scaled

/-! # Specification: engines under another pressure and at another speed

`k` times the pressure and `w` times the speed: the gas passes through the same temperatures, `w` times as fast, with
`k` times as much of it everywhere. -/

namespace Sett.Spec

open state_equations api

/-- A state of the gas under `k` times the pressure. -/
noncomputable def pressed (k : ℝ) (y : Conditions ℝ) : Conditions ℝ := ⟨k * y.P, y.T_c, y.T_e⟩

/-- A course of states under `k` times the pressure, passed through `w` times as fast. -/
noncomputable def pressedCourse (k w : ℝ) (y : ℝ → Conditions ℝ) (t : ℝ) : Conditions ℝ := pressed k (y (w * t))

/-- Flows, heats and rates under `k` times the pressure and at `w` times the speed. -/
noncomputable def pressedSolution (k w : ℝ) (s : Solution ℝ) : Solution ℝ where
  m_dot_ck := k * w * s.m_dot_ck
  m_dot_kr := k * w * s.m_dot_kr
  m_dot_rl := k * w * s.m_dot_rl
  m_dot_le := k * w * s.m_dot_le
  Q_dot_k := k * w * s.Q_dot_k
  Q_dot_r := k * w * s.Q_dot_r
  Q_dot_l := k * w * s.Q_dot_l
  dTc_dt := w * s.dTc_dt
  dTe_dt := w * s.dTe_dt
  dP_dt := k * w * s.dP_dt

/-- A motion under `k` times the pressure and at `w` times the speed. -/
noncomputable def pressedMotion (k w : ℝ) (V : ℝ → state_equations.Values ℝ) (t : ℝ) : state_equations.Values ℝ :=
  ⟨t, pressed k (V (w * t)).conditions, pressedSolution k w (V (w * t)).solution⟩

/-- The run of the same engine with pistons moving `w` times as fast and `k w` times the heat lost to the spaces. -/
structure PressedRun (k w : ℝ) (r r' : Run ℝ) : Prop where
  norm : r'.enth_norm = r.enth_norm
  fluid : r'.fluid = r.fluid
  period : r'.period = r.period / w
  temp : r'.temp = r.temp
  comp : ∀ t, (r'.ws_vol_fn t).1 = ⟨(r.ws_vol_fn (w * t)).1.value, w * (r.ws_vol_fn (w * t)).1.deriv⟩
  exp : ∀ t, (r'.ws_vol_fn t).2 = ⟨(r.ws_vol_fn (w * t)).2.value, w * (r.ws_vol_fn (w * t)).2.deriv⟩
  chx : r'.vol_chx = r.vol_chx
  regen : r'.vol_regen = r.vol_regen
  hhx : r'.vol_hhx = r.vol_hhx
  comp_loss : r'.ws_parasitics.comp.thermal = k * w * r.ws_parasitics.comp.thermal
  exp_loss : r'.ws_parasitics.exp.thermal = k * w * r.ws_parasitics.exp.thermal

/-- A heat exchanger under `k` times the pressure and at `w` times the speed. -/
noncomputable def pressedHx (k w : ℝ) (h : HeatExchanger ℝ) : HeatExchanger ℝ where
  temp := h.temp
  pres := k * h.pres
  dens := k * h.dens
  cp := h.cp
  m_dot := k * w * h.m_dot
  Q_dot := k * w * h.Q_dot

noncomputable def pressedPres (k : ℝ) (p : Pressure ℝ) : Pressure ℝ := ⟨k * p.avg, k * p.max, k * p.min, k * p.t_zero⟩

/-- An engine state under `k` times the pressure and at `w` times the speed. -/
noncomputable def pressedState (k w : ℝ) (s : State ℝ) : State ℝ where
  fluid := s.fluid
  pres := pressedPres k s.pres
  temp := s.temp
  mass_flow := ⟨k * w * s.mass_flow.chx, k * w * s.mass_flow.regen, k * w * s.mass_flow.hhx⟩
  heat_flow := ⟨k * w * s.heat_flow.chx, k * w * s.heat_flow.regen, k * w * s.heat_flow.hhx⟩
  regen_imbalance := s.regen_imbalance

/-- Components for `k` times the pressure and `w` times the speed: same volumes; losses and conductances `k w` times as
large; hydraulic resistances such that pressure drops grow with the pressure; same approaches for `k w` times the heat
and flow. -/
structure PressedComponents (k w : ℝ) (c c' : Components ℝ) : Prop where
  frequency : ∀ p, c'.ws.frequency ⟨pressedPres k p⟩ = w * c.ws.frequency ⟨p⟩
  comp : ∀ p t, (c'.ws.volumes ⟨pressedPres k p⟩ t).1
    = ⟨(c.ws.volumes ⟨p⟩ (w * t)).1.value, w * (c.ws.volumes ⟨p⟩ (w * t)).1.deriv⟩
  exp : ∀ p t, (c'.ws.volumes ⟨pressedPres k p⟩ t).2
    = ⟨(c.ws.volumes ⟨p⟩ (w * t)).2.value, w * (c.ws.volumes ⟨p⟩ (w * t)).2.deriv⟩
  comp_wall : ∀ p, (c'.ws.thermal_resistance ⟨pressedPres k p⟩).comp = (c.ws.thermal_resistance ⟨p⟩).comp / (k * w)
  exp_wall : ∀ p, (c'.ws.thermal_resistance ⟨pressedPres k p⟩).exp = (c.ws.thermal_resistance ⟨p⟩).exp / (k * w)
  comp_heat : ∀ p, (c'.ws.parasitics ⟨pressedPres k p⟩).comp.thermal = k * w * (c.ws.parasitics ⟨p⟩).comp.thermal
  exp_heat : ∀ p, (c'.ws.parasitics ⟨pressedPres k p⟩).exp.thermal = k * w * (c.ws.parasitics ⟨p⟩).exp.thermal
  comp_work : ∀ p, (c'.ws.parasitics ⟨pressedPres k p⟩).comp.mechanical
    = k * w * (c.ws.parasitics ⟨p⟩).comp.mechanical
  exp_work : ∀ p, (c'.ws.parasitics ⟨pressedPres k p⟩).exp.mechanical = k * w * (c.ws.parasitics ⟨p⟩).exp.mechanical
  chx_volume : c'.chx.volume = c.chx.volume
  regen_volume : c'.regen.volume = c.regen.volume
  hhx_volume : c'.hhx.volume = c.hhx.volume
  chx_initial : c'.chx.initial_approach = c.chx.initial_approach
  regen_initial : c'.regen.initial_approach = c.regen.initial_approach
  hhx_initial : c'.hhx.initial_approach = c.hhx.initial_approach
  chx_approach : ∀ h T, c'.chx.approach ⟨pressedHx k w h, T⟩ = c.chx.approach ⟨h, T⟩
  regen_approach : ∀ h T U, c'.regen.approach ⟨pressedHx k w h, T, U⟩ = c.regen.approach ⟨h, T, U⟩
  hhx_approach : ∀ h T, c'.hhx.approach ⟨pressedHx k w h, T⟩ = c.hhx.approach ⟨h, T⟩
  chx_drop : ∀ h T, c'.chx.hydraulic_resistance ⟨pressedHx k w h, T⟩ = k / w * c.chx.hydraulic_resistance ⟨h, T⟩
  regen_drop : ∀ h T U, c'.regen.hydraulic_resistance ⟨pressedHx k w h, T, U⟩
    = k / w * c.regen.hydraulic_resistance ⟨h, T, U⟩
  hhx_drop : ∀ h T, c'.hhx.hydraulic_resistance ⟨pressedHx k w h, T⟩ = k / w * c.hhx.hydraulic_resistance ⟨h, T⟩
  chx_work : ∀ h T, (c'.chx.parasitics ⟨pressedHx k w h, T⟩).mechanical = k * w * (c.chx.parasitics ⟨h, T⟩).mechanical
  hhx_work : ∀ h T, (c'.hhx.parasitics ⟨pressedHx k w h, T⟩).mechanical = k * w * (c.hhx.parasitics ⟨h, T⟩).mechanical
  regen_heat : ∀ h T U, (c'.regen.parasitics ⟨pressedHx k w h, T, U⟩).thermal
    = k * w * (c.regen.parasitics ⟨h, T, U⟩).thermal
  hhx_heat : ∀ h T, (c'.hhx.parasitics ⟨pressedHx k w h, T⟩).thermal = k * w * (c.hhx.parasitics ⟨h, T⟩).thermal

/-- Figures with powers and heats multiplied by `k w` and the torque by `k`. -/
noncomputable def pressedFigures (k w : ℝ) (m : MotionFigures) : MotionFigures where
  ideal := k * w * m.ideal
  indicated := k * w * m.indicated
  shaft := k * w * m.shaft
  net := k * w * m.net
  torque := k * m.torque
  input := k * w * m.input
  rejection := k * w * m.rejection

/-- One reported point under `k` times the pressure and at `w` times the speed. -/
noncomputable def pressedValue (k w : ℝ) (v : state_equations.Values ℝ) : state_equations.Values ℝ :=
  ⟨v.time / w, pressed k v.conditions, pressedSolution k w v.solution⟩

/-- The results under `k` times the pressure and at `w` times the speed: powers, heats and mass flows multiplied by
`k w`, pressures and torque by `k`; temperatures and efficiencies the same. -/
noncomputable def pressedResults (k w : ℝ) (r : api.RunResults ℝ) : api.RunResults ℝ where
  efficiency := r.efficiency
  heat_flow := ⟨k * w * r.heat_flow.input, k * w * r.heat_flow.rejection, k * w * r.heat_flow.chx,
    k * w * r.heat_flow.regen, k * w * r.heat_flow.hhx⟩
  mass_flow := ⟨k * w * r.mass_flow.chx, k * w * r.mass_flow.regen, k * w * r.mass_flow.hhx⟩
  power := ⟨k * w * r.power.ideal_indicated, k * w * r.power.indicated, k * w * r.power.shaft, k * w * r.power.net⟩
  pressure := ⟨k * r.pressure.avg, k * r.pressure.max, k * r.pressure.min, k * r.pressure.t_zero⟩
  regen_imbalance := r.regen_imbalance
  shaft_torque := k * r.shaft_torque
  temperature := r.temperature
  values :=
    { time := r.values.time.map (· / w)
      P := r.values.P.map (k * ·)
      P_c := r.values.P_c.map (k * ·)
      P_e := r.values.P_e.map (k * ·)
      T_c := r.values.T_c
      T_e := r.values.T_e
      m_dot_ck := r.values.m_dot_ck.map (k * w * ·)
      m_dot_kr := r.values.m_dot_kr.map (k * w * ·)
      m_dot_rl := r.values.m_dot_rl.map (k * w * ·)
      m_dot_le := r.values.m_dot_le.map (k * w * ·)
      Q_dot_k := r.values.Q_dot_k.map (k * w * ·)
      Q_dot_r := r.values.Q_dot_r.map (k * w * ·)
      Q_dot_l := r.values.Q_dot_l.map (k * w * ·) }

/-- The drive for `k` times the pressure and `w` times the speed. -/
noncomputable def pressedWs (k w : ℝ) : ws.Config ℝ → ws.Config ℝ
  | .Sinusoidal p => .Sinusoidal
      { p with
        frequency := w * p.frequency, R_c := p.R_c / (k * w), W_parasitic_c := k * w * p.W_parasitic_c
        R_e := p.R_e / (k * w), W_parasitic_e := k * w * p.W_parasitic_e, Q_parasitic_e := k * w * p.Q_parasitic_e }
  | .Rhombic p => .Rhombic
      { p with
        frequency := w * p.frequency, R_c := p.R_c / (k * w), W_parasitic_c := k * w * p.W_parasitic_c
        R_e := p.R_e / (k * w), W_parasitic_e := k * w * p.W_parasitic_e, Q_parasitic_e := k * w * p.Q_parasitic_e }
  | .GPU3 p => .GPU3 p
  | .Mod2 p => .Mod2 p

noncomputable def pressedChx (k w : ℝ) : chx.Config ℝ → chx.Config ℝ
  | .FixedApproach p => .FixedApproach { p with R_hyd := k / w * p.R_hyd, W_parasitic := k * w * p.W_parasitic }
  | .FixedConductance p => .FixedConductance
      { vol := p.vol, UA := k * w * p.UA, R_hyd := k / w * p.R_hyd, W_parasitic := k * w * p.W_parasitic }
  | .GPU3 p => .GPU3 p
  | .Mod2 p => .Mod2 p

noncomputable def pressedRegen (k w : ℝ) : regen.Config ℝ → regen.Config ℝ
  | .FixedApproach p => .FixedApproach { p with R_hyd := k / w * p.R_hyd, Q_parasitic := k * w * p.Q_parasitic }
  | .FixedConductance p => .FixedConductance
      { vol := p.vol, UA := k * w * p.UA, R_hyd := k / w * p.R_hyd, Q_parasitic := k * w * p.Q_parasitic }
  | .GPU3 p => .GPU3 p
  | .Mod2 p => .Mod2 p

noncomputable def pressedHhx (k w : ℝ) : hhx.Config ℝ → hhx.Config ℝ
  | .FixedApproach p => .FixedApproach
      { p with
        R_hyd := k / w * p.R_hyd, W_parasitic := k * w * p.W_parasitic, Q_parasitic := k * w * p.Q_parasitic }
  | .FixedConductance p => .FixedConductance
      { vol := p.vol, UA := k * w * p.UA, R_hyd := k / w * p.R_hyd
        W_parasitic := k * w * p.W_parasitic, Q_parasitic := k * w * p.Q_parasitic }
  | .GPU3 p => .GPU3 p
  | .Mod2 p => .Mod2 p
  | .GPU3NI p => .GPU3NI p
  | .Mod2NI p => .Mod2NI p

/-- The configuration with `k` times the pressure and `w` times the speed. -/
noncomputable def pressedConfig (k w : ℝ) (c : Config ℝ) : Config ℝ :=
  { c with
    engine :=
      { fluid := c.engine.fluid
        components :=
          { ws := pressedWs k w c.engine.components.ws
            chx := pressedChx k w c.engine.components.chx
            regen := pressedRegen k w c.engine.components.regen
            hhx := pressedHhx k w c.engine.components.hhx } }
    conditions := { c.conditions with pres_zero := k * c.conditions.pres_zero } }

end Sett.Spec
