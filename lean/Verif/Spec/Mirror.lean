import Verif.Spec.Sane
import Verif.Spec.Run
import Verif.Model.Api

/-! # Specification: the engine seen in a mirror

Compression and expansion space, cold and hot exchanger, sink and source change places.  Flows and the heats of the two
exchangers change sign with the direction in which they are counted.  What the gas leaves in the regenerator does
not. -/

namespace Sett.Spec

open state_equations

/-- The two temperatures of a state vector exchanged. -/
def swap3 {α : Type} (y : V3 α) : V3 α := ⟨y.y0, y.y2, y.y1⟩

/-- The conversation of an integrator with the two temperatures exchanged in everything said. -/
def swapStepper {α : Type} : Stepper α → Stepper α
  | .done out => .done (out.map fun o => (o.1, o.2.map swap3))
  | .eval t y k => .eval t (swap3 y) fun dy => swapStepper (k (swap3 dy))

/-- An integrator that does not care in which order it is given the two temperatures. -/
def Evenhanded (ode : Ode ℝ) : Prop :=
  ∀ x xend dx y rtol atol, ode x xend dx (swap3 y) rtol atol = swapStepper (ode x xend dx y rtol atol)

def mirrorConditions {α : Type} (y : Conditions α) : Conditions α := ⟨y.P, y.T_e, y.T_c⟩

/-- A solution of the state equations in the mirror. -/
noncomputable def mirrorSolution (s : Solution ℝ) : Solution ℝ where
  m_dot_ck := -s.m_dot_le
  m_dot_kr := -s.m_dot_rl
  m_dot_rl := -s.m_dot_kr
  m_dot_le := -s.m_dot_ck
  Q_dot_k := -s.Q_dot_l
  Q_dot_r := s.Q_dot_r
  Q_dot_l := -s.Q_dot_k
  dTc_dt := s.dTe_dt
  dTe_dt := s.dTc_dt
  dP_dt := s.dP_dt

/-- One reported point in the mirror. -/
noncomputable def mirrorValue (v : state_equations.Values ℝ) : state_equations.Values ℝ :=
  ⟨v.time, mirrorConditions v.conditions, mirrorSolution v.solution⟩

def mirrorTemps {α : Type} (t : Temperatures α) : Temperatures α where
  sink := t.source
  chx := t.hhx
  regen := ⟨t.regen.hot, t.regen.avg, t.regen.cold⟩
  hhx := t.chx
  source := t.sink

/-- An engine state in the mirror. -/
noncomputable def mirrorState (s : State ℝ) : State ℝ where
  fluid := s.fluid
  pres := s.pres
  temp := mirrorTemps s.temp
  mass_flow := ⟨s.mass_flow.hhx, s.mass_flow.regen, s.mass_flow.chx⟩
  heat_flow := ⟨-s.heat_flow.hhx, s.heat_flow.regen, -s.heat_flow.chx⟩
  regen_imbalance := s.regen_imbalance

def mirrorInputs {α : Type} (i : RunInputs α) : RunInputs α :=
  { i with temp_sink := i.temp_source, temp_source := i.temp_sink }

/-- The gas in an exchanger whose heat is counted in the other direction. -/
noncomputable def mirrorHx (h : HeatExchanger ℝ) : HeatExchanger ℝ := { h with Q_dot := -h.Q_dot }

/-- The components in the mirror.  The approach of an exchanger is counted from the other side. -/
noncomputable def mirrorComponents (c : Components ℝ) : Components ℝ where
  ws :=
    { frequency := c.ws.frequency
      volumes := fun s t => (⟨(c.ws.volumes s t).2.value, (c.ws.volumes s t).2.deriv⟩,
        ⟨(c.ws.volumes s t).1.value, (c.ws.volumes s t).1.deriv⟩)
      thermal_resistance := fun s => ⟨(c.ws.thermal_resistance s).exp, (c.ws.thermal_resistance s).comp⟩
      parasitics := fun s => ⟨(c.ws.parasitics s).exp, (c.ws.parasitics s).comp⟩ }
  chx :=
    { volume := c.hhx.volume
      approach := fun s => -c.hhx.approach ⟨mirrorHx s.hxr, s.sink_temp⟩
      hydraulic_resistance := fun s => c.hhx.hydraulic_resistance ⟨mirrorHx s.hxr, s.sink_temp⟩
      parasitics := fun s => c.hhx.parasitics ⟨mirrorHx s.hxr, s.sink_temp⟩
      initial_approach := -c.hhx.initial_approach }
  regen :=
    { volume := c.regen.volume
      approach := fun s => -c.regen.approach ⟨s.hxr, s.temp_hhx, s.temp_chx⟩
      hydraulic_resistance := fun s => c.regen.hydraulic_resistance ⟨s.hxr, s.temp_hhx, s.temp_chx⟩
      parasitics := fun s => c.regen.parasitics ⟨s.hxr, s.temp_hhx, s.temp_chx⟩
      initial_approach := -c.regen.initial_approach }
  hhx :=
    { volume := c.chx.volume
      approach := fun s => -c.chx.approach ⟨mirrorHx s.hxr, s.source_temp⟩
      hydraulic_resistance := fun s => c.chx.hydraulic_resistance ⟨mirrorHx s.hxr, s.source_temp⟩
      parasitics := fun s => c.chx.parasitics ⟨mirrorHx s.hxr, s.source_temp⟩
      initial_approach := -c.chx.initial_approach }

/-- A run in the mirror. -/
noncomputable def mirrorRun (r : Run ℝ) : Run ℝ where
  enth_norm := r.enth_norm
  fluid := r.fluid
  period := r.period
  pres := r.pres
  solver := r.solver
  temp := mirrorTemps r.temp
  vol_chx := r.vol_hhx
  vol_hhx := r.vol_chx
  vol_regen := r.vol_regen
  ws_parasitics := ⟨r.ws_parasitics.exp, r.ws_parasitics.comp⟩
  ws_vol_fn := fun t => (⟨(r.ws_vol_fn t).2.value, (r.ws_vol_fn t).2.deriv⟩,
    ⟨(r.ws_vol_fn t).1.value, (r.ws_vol_fn t).1.deriv⟩)

/-- The series of an engine in the mirror. -/
noncomputable def mirrorSeries (v : Values ℝ) : Values ℝ where
  time := v.time
  P := v.P
  T_c := v.T_e
  T_e := v.T_c
  m_dot_ck := v.m_dot_le.map (-·)
  m_dot_kr := v.m_dot_rl.map (-·)
  m_dot_rl := v.m_dot_kr.map (-·)
  m_dot_le := v.m_dot_ck.map (-·)
  Q_dot_k := v.Q_dot_l.map (-·)
  Q_dot_r := v.Q_dot_r
  Q_dot_l := v.Q_dot_k.map (-·)

/-- The engine in the mirror. -/
noncomputable def mirrorEngine (e : Engine ℝ) : Engine ℝ :=
  ⟨mirrorComponents e.components, mirrorState e.state, mirrorSeries e.values⟩

/-- Parasitic heat taken from the source, from the regenerator and at the expansion space. -/
noncomputable def hotLoss (e : Engine ℝ) : ℝ :=
  (e.components.hhx.parasitics e.state.hhx).thermal + (e.components.regen.parasitics e.state.regen).thermal
    + (e.components.ws.parasitics e.state.ws).exp.thermal

/-- The same with the compression space and the cold exchanger. -/
noncomputable def coldLoss (e : Engine ℝ) : ℝ :=
  (e.components.chx.parasitics e.state.chx).thermal + (e.components.regen.parasitics e.state.regen).thermal
    + (e.components.ws.parasitics e.state.ws).comp.thermal

/-- Results `r'` are what results `r` of the engine `e` become in the mirror: powers and torque are the same, the
pressures of the two spaces change places, and what the gas takes in at one side it gives off at the other. -/
structure MirroredResults (e : Engine ℝ) (r r' : api.RunResults ℝ) : Prop where
  power : r'.power = r.power
  torque : r'.shaft_torque = r.shaft_torque
  pressure : r'.pressure = r.pressure
  mass : r'.mass_flow = ⟨r.mass_flow.hhx, r.mass_flow.regen, r.mass_flow.chx⟩
  temperature : r'.temperature = ⟨r.temperature.source, r.temperature.hhx, r.temperature.regen_hot,
    r.temperature.regen_avg, r.temperature.regen_cold, r.temperature.chx, r.temperature.sink⟩
  chx : r'.heat_flow.chx = -r.heat_flow.hhx
  regen : r'.heat_flow.regen = r.heat_flow.regen
  hhx : r'.heat_flow.hhx = -r.heat_flow.chx
  input : r'.heat_flow.input - coldLoss e
    = -(r.heat_flow.rejection - (r.power.ideal_indicated - r.power.shaft) - hotLoss e)
  rejection : r'.heat_flow.rejection - (r.power.ideal_indicated - r.power.shaft) - coldLoss e
    = -(r.heat_flow.input - hotLoss e)
  time : r'.values.time = r.values.time
  pres : r'.values.P = r.values.P
  comp : r'.values.P_c = r.values.P_e ∧ r'.values.T_c = r.values.T_e
  exp : r'.values.P_e = r.values.P_c ∧ r'.values.T_e = r.values.T_c
  flows : r'.values.m_dot_ck = r.values.m_dot_le.map (-·) ∧ r'.values.m_dot_kr = r.values.m_dot_rl.map (-·) ∧
    r'.values.m_dot_rl = r.values.m_dot_kr.map (-·) ∧ r'.values.m_dot_le = r.values.m_dot_ck.map (-·)
  heats : r'.values.Q_dot_k = r.values.Q_dot_l.map (-·) ∧ r'.values.Q_dot_r = r.values.Q_dot_r ∧
    r'.values.Q_dot_l = r.values.Q_dot_k.map (-·)

end Sett.Spec
