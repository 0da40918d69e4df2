import Verif.Model.Engine

/-! # `src/performance.rs`

A `DVector<f64>` is a list.  Binary `DVector` operations panic on a length mismatch in nalgebra, so
they live in `Panics`. -/

namespace Sett
namespace DVector

variable {α : Type}

/-- Any elementwise binary operation of nalgebra: panics unless the lengths agree. -/
def zipWith (f : α → α → α) (a b : List α) : Panics (List α) :=
  if a.length = b.length then .ok (List.zipWith f a b) else .error (.panic "nalgebra dimensions")

variable [Scalar α]

/-- `&a + &b` -/
def add (a b : List α) : Panics (List α) := zipWith (· + ·) a b
/-- `&a - &b` -/
def sub (a b : List α) : Panics (List α) := zipWith (· - ·) a b
/-- `a.component_mul(&b)` -/
def component_mul (a b : List α) : Panics (List α) := zipWith (· * ·) a b
/-- `a.component_div(&b)` -/
def component_div (a b : List α) : Panics (List α) := zipWith (· / ·) a b
/-- `s * &a`.  nalgebra computes `a_i * s` or `s * a_i`; the two are equal in IEEE arithmetic. -/
def smul (s : α) (a : List α) : List α := a.map fun x => s * x
/-- `&a / s` -/
def sdiv (a : List α) (s : α) : List α := a.map fun x => x / s

end DVector

namespace performance

/-- `PressuresWithDrops`, `src/performance.rs:23-26` -/
structure PressuresWithDrops (α : Type) where
  P_c : List α
  P_e : List α

/-- `Powers`, `src/performance.rs:29-34` -/
structure Powers (α : Type) where
  indicated : α
  indicated_zero_dP : α
  shaft : α
  net : α

/-- `Heats`, `src/performance.rs:36-39` -/
structure Heats (α : Type) where
  input : α
  rejected : α

/-- `Performance`, `src/performance.rs:12-18` -/
structure Performance (α : Type) where
  pressures_with_drops : PressuresWithDrops α
  power : Powers α
  heat : Heats α
  shaft_torque : α
  efficiency : α

variable {α : Type} [Scalar α]

/-- `calculate_hx_pressure_drop`, `src/performance.rs:103-113` -/
def calculate_hx_pressure_drop (m0 m1 density : List α) (hydraulic_resistance : α) :
    Panics (List α) := do
  let s ← DVector.add m0 m1
  let m_dot_avg := DVector.smul 0.5 s
  let volumetric_flow_rate ← DVector.component_div m_dot_avg density
  return DVector.smul hydraulic_resistance volumetric_flow_rate

/-- `PressuresWithDrops::new`, `src/performance.rs:62-100` -/
def PressuresWithDrops.new (engine : Engine α) : Panics (PressuresWithDrops α) := do
  let pressure := engine.values.P
  let dens_cold_hx := pressure.map fun pres => engine.state.fluid.dens engine.state.temp.chx pres
  let dens_hot_hx := pressure.map fun pres => engine.state.fluid.dens engine.state.temp.hhx pres
  let dens_regen :=
    pressure.map fun pres => engine.state.fluid.dens engine.state.temp.regen.avg pres
  let cold_hx ← calculate_hx_pressure_drop engine.values.m_dot_ck engine.values.m_dot_kr
    dens_cold_hx (engine.components.chx.hydraulic_resistance engine.state.chx)
  let hot_hx ← calculate_hx_pressure_drop engine.values.m_dot_rl engine.values.m_dot_le
    dens_hot_hx (engine.components.hhx.hydraulic_resistance engine.state.hhx)
  let regen ← calculate_hx_pressure_drop engine.values.m_dot_kr engine.values.m_dot_rl
    dens_regen (engine.components.regen.hydraulic_resistance engine.state.regen)
  let t ← DVector.add cold_hx hot_hx
  let total ← DVector.add t regen
  let P_c ← DVector.add pressure (DVector.smul 0.5 total)
  let P_e ← DVector.sub pressure (DVector.smul 0.5 total)
  return { P_c, P_e }

/-- `Powers::dV_dts`, `src/performance.rs:158-169` -/
def dV_dts {α : Type} (time : List α) (ws_component : ws.WorkingSpaces α) (ws_state : ws.State α) :
    List α × List α :=
  let vols := time.map (ws_component.volumes ws_state)
  (vols.map fun v => v.1.deriv, vols.map fun v => v.2.deriv)

/-- `Powers::new`, `src/performance.rs:118-155` -/
def Powers.new (p : PressuresWithDrops α) (engine : Engine α) : Panics (Powers α) := do
  let frequency := engine.components.ws.frequency engine.state.ws
  let time := engine.values.time
  let dVs := dV_dts engine.values.time engine.components.ws engine.state.ws
  let dVc_dt := dVs.1
  let dVe_dt := dVs.2
  let wc ← DVector.component_mul p.P_c dVc_dt
  let we ← DVector.component_mul p.P_e dVe_dt
  let w ← DVector.add wc we
  let indicated := frequency * integrate time w
  let pressure := engine.values.P
  let dV ← DVector.add dVc_dt dVe_dt
  let w0 ← DVector.component_mul pressure dV
  let indicated_zero_dP := frequency * integrate time w0
  let ws_parasitics := engine.components.ws.parasitics engine.state.ws
  let shaft := indicated - ws_parasitics.comp.mechanical - ws_parasitics.exp.mechanical
  let cold_hx_parasitics := engine.components.chx.parasitics engine.state.chx
  let hot_hx_parasitics := engine.components.hhx.parasitics engine.state.hhx
  let net := shaft - cold_hx_parasitics.mechanical - hot_hx_parasitics.mechanical
  return { indicated, indicated_zero_dP, shaft, net }

/-- `Heats::new`, `src/performance.rs:174-224`.  `T - DVector::from_element(n, x)` is an elementwise
subtraction whose lengths always agree. -/
def Heats.new (power : Powers α) (engine : Engine α) : Heats α :=
  let frequency := engine.components.ws.frequency engine.state.ws
  let time := engine.values.time
  let hhx_parasitics := engine.components.hhx.parasitics engine.state.hhx
  let regen_parasitics := engine.components.regen.parasitics engine.state.regen
  let ws_parasitics := engine.components.ws.parasitics engine.state.ws
  let ws_thermal_resistances := engine.components.ws.thermal_resistance engine.state.ws
  let Q_dot_e := frequency * integrate time
    (DVector.sdiv (engine.values.T_e.map fun T => T - engine.state.temp.hhx)
      ws_thermal_resistances.exp)
  let Q_dot_l := frequency * integrate time engine.values.Q_dot_l
  let Q_dot_c := frequency * integrate time
    (DVector.sdiv (engine.values.T_c.map fun T => T - engine.state.temp.chx)
      ws_thermal_resistances.comp)
  let Q_dot_k := frequency * integrate time engine.values.Q_dot_k
  let Q_dot_dP := power.indicated_zero_dP - power.indicated
  let Q_dot_loss_external :=
    hhx_parasitics.thermal + regen_parasitics.thermal + ws_parasitics.exp.thermal
  let Q_dot_loss_internal := ws_parasitics.comp.mechanical + ws_parasitics.exp.mechanical
  { input := Q_dot_l - Q_dot_e + Q_dot_loss_external
    rejected := Q_dot_c + Q_dot_k + Q_dot_dP + Q_dot_loss_internal + Q_dot_loss_external }

/-- `impl From<&Engine<T>> for Performance`, `src/performance.rs:41-59` -/
def Performance.ofEngine (engine : Engine α) : Panics (Performance α) := do
  let frequency := engine.components.ws.frequency engine.state.ws
  let pressures_with_drops ← PressuresWithDrops.new engine
  let power ← Powers.new pressures_with_drops engine
  let heat := Heats.new power engine
  return { pressures_with_drops, power, heat
           shaft_torque := power.shaft / (2.0 * Scalar.pi * frequency)
           efficiency := power.net / heat.input }

end performance
end Sett
