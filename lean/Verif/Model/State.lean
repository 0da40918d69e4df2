import Verif.Model.Solver
import Verif.Model.Fluid
import Verif.Model.Ws
import Verif.Model.Hx

/-! # `src/engine/state.rs` (and `Components` of `src/engine.rs`) -/

namespace Sett

/-- `Components`, `src/engine.rs:25-30` -/
structure Components (α : Type) where
  ws : ws.WorkingSpaces α
  chx : chx.ColdHeatExchanger α
  regen : regen.Regenerator α
  hhx : hhx.HotHeatExchanger α

/-- `RegenTemp`, `src/engine/state.rs:44-48` -/
structure RegenTemp (α : Type) where
  cold : α
  avg : α
  hot : α

/-- `Temperatures`, `src/engine/state.rs:34-40` -/
structure Temperatures (α : Type) where
  sink : α
  chx : α
  regen : RegenTemp α
  hhx : α
  source : α

/-- `MassFlows`, `src/engine/state.rs:52-56` -/
structure MassFlows (α : Type) where
  chx : α
  regen : α
  hhx : α

/-- `HeatFlows`, `src/engine/state.rs:60-64` -/
structure HeatFlows (α : Type) where
  chx : α
  regen : α
  hhx : α

/-- `RegenImbalance`, `src/engine/state.rs:87` -/
structure RegenImbalance (α : Type) where
  val : α

/-- `Approach`, `src/engine/state.rs:107-111` -/
structure Approach (α : Type) where
  chx : α
  regen : α
  hhx : α

/-- `engine::state::Values`, `src/engine/state.rs:92-104` -/
structure Values (α : Type) where
  time : List α
  P : List α
  T_c : List α
  T_e : List α
  m_dot_ck : List α
  m_dot_kr : List α
  m_dot_rl : List α
  m_dot_le : List α
  Q_dot_k : List α
  Q_dot_r : List α
  Q_dot_l : List α

/-- `engine::state::State`, `src/engine/state.rs:14-21` -/
structure State (α : Type) where
  fluid : Fluid α
  pres : Pressure α
  temp : Temperatures α
  mass_flow : MassFlows α
  heat_flow : HeatFlows α
  regen_imbalance : RegenImbalance α

variable {α : Type} [Scalar α]

/-- `Iterator::sum::<f64>()`: left fold from `0.0`.  (Recent standard libraries start from `-0.0`;
the only observable difference is the sign of a zero sum.) -/
def sum (l : List α) : α := l.foldl (· + ·) 0.0

/-- `itertools::tuple_windows` at arity two: adjacent pairs. -/
def windows {α : Type} (l : List α) : List (α × α) := l.zip l.tail

/-- `integrate`, `src/engine/state.rs:527-533`; the same code over `DVector` is
`src/performance.rs:227-233`. -/
def integrate (x y : List α) : α :=
  sum (((windows x).zip (windows y)).map fun w => (w.2.2 + w.2.1) * (w.1.2 - w.1.1) * 0.5)

/-- `Iterator::max_by(|a, b| a.total_cmp(b))`: the last of several maximal elements. -/
def maxBy : List α → Option α
  | [] => none
  | a :: l => some (l.foldl (fun x y => if Scalar.totalLe x y then y else x) a)

/-- `Iterator::min_by(|a, b| a.total_cmp(b))`: the first of several minimal elements. -/
def minBy : List α → Option α
  | [] => none
  | a :: l => some (l.foldl (fun x y => if Scalar.totalLe x y then x else y) a)

/-- `Values::final_time`, `src/engine/state.rs:418-420` -/
def Values.final_time {α : Type} (v : Values α) : Panics α :=
  match v.time.getLast? with
  | some t => .ok t
  | none => .error (.panic "state.rs:419")

/-- `Pressure::from_values`, `src/engine/state.rs:273-294` -/
def Pressure.from_values (values : Values α) : Panics (Pressure α) := do
  let t_final ← values.final_time
  let avg := integrate values.time values.P / t_final
  let t_zero ← match values.P.head? with
    | some p => .ok p
    | none => .error (.panic "state.rs:276")
  let max ← match maxBy values.P with
    | some p => .ok p
    | none => .error (.panic "state.rs:281")
  let min ← match minBy values.P with
    | some p => .ok p
    | none => .error (.panic "state.rs:286")
  return { avg, max, min, t_zero }

/-- `Values::m_dot_avg`, `src/engine/state.rs:441-451` -/
def Values.m_dot_avg (v : Values α) (left right : List α) : Panics α := do
  let m_dot := (left.zip right).map fun p => 0.5 * Scalar.abs (p.1 + p.2)
  let t ← v.final_time
  return integrate v.time m_dot / t

/-- `MassFlows::constant`, `src/engine/state.rs:337-343` -/
def MassFlows.constant {α : Type} (value : α) : MassFlows α :=
  { chx := value, regen := value, hhx := value }

/-- `MassFlows::from_values`, `src/engine/state.rs:346-352`, with `m_dot_chx`, `m_dot_regen`,
`m_dot_hhx` (lines 423-435) inlined. -/
def MassFlows.from_values (values : Values α) : Panics (MassFlows α) := do
  let chx ← values.m_dot_avg values.m_dot_ck values.m_dot_kr
  let regen ← values.m_dot_avg values.m_dot_kr values.m_dot_rl
  let hhx ← values.m_dot_avg values.m_dot_rl values.m_dot_le
  return { chx, regen, hhx }

/-- `HeatFlows::constant`, `src/engine/state.rs:357-363` -/
def HeatFlows.constant {α : Type} (value : α) : HeatFlows α :=
  { chx := value, regen := value, hhx := value }

/-- `HeatFlows::from_values`, `src/engine/state.rs:373-413` -/
def HeatFlows.from_values (values : Values α) (temp_chx temp_hhx : α)
    (thermal_res : ws.ThermalResistance α) : Panics (HeatFlows α) := do
  let t_final ← values.final_time
  let Q_dot_c :=
    if Scalar.isInfinite thermal_res.comp then 0.0
    else
      integrate values.time (values.T_c.map fun T_c => (T_c - temp_chx) / thermal_res.comp)
        / t_final
  let Q_dot_k := integrate values.time values.Q_dot_k / t_final
  let regen := integrate values.time values.Q_dot_r / t_final
  let Q_dot_e :=
    if Scalar.isInfinite thermal_res.exp then 0.0
    else
      integrate values.time (values.T_e.map fun T_e => (temp_hhx - T_e) / thermal_res.exp)
        / t_final
  let Q_dot_l := integrate values.time values.Q_dot_l / t_final
  return { chx := Q_dot_c + Q_dot_k, regen, hhx := Q_dot_e + Q_dot_l }

/-- `impl From<Vec<state_equations::Values>> for Values`, `src/engine/state.rs:456-499`: one pass of
pushes, as a left fold. -/
def Values.ofStateValues {α : Type} (values : List (state_equations.Values α)) : Values α :=
  values.foldl
    (fun v value =>
      { time := v.time ++ [value.time]
        P := v.P ++ [value.conditions.P]
        T_c := v.T_c ++ [value.conditions.T_c]
        T_e := v.T_e ++ [value.conditions.T_e]
        m_dot_ck := v.m_dot_ck ++ [value.solution.m_dot_ck]
        m_dot_kr := v.m_dot_kr ++ [value.solution.m_dot_kr]
        m_dot_rl := v.m_dot_rl ++ [value.solution.m_dot_rl]
        m_dot_le := v.m_dot_le ++ [value.solution.m_dot_le]
        Q_dot_k := v.Q_dot_k ++ [value.solution.Q_dot_k]
        Q_dot_r := v.Q_dot_r ++ [value.solution.Q_dot_r]
        Q_dot_l := v.Q_dot_l ++ [value.solution.Q_dot_l] })
    { time := [], P := [], T_c := [], T_e := [], m_dot_ck := [], m_dot_kr := [], m_dot_rl := []
      m_dot_le := [], Q_dot_k := [], Q_dot_r := [], Q_dot_l := [] }

/-- `RegenImbalance::regen_temp`, `src/engine/state.rs:505-523` -/
def RegenImbalance.regen_temp (i : RegenImbalance α) (temp_chx temp_hhx approach : α) :
    RegenTemp α :=
  let cold_approach := if Scalar.le 0.0 i.val then approach else approach - i.val
  let hot_approach := if Scalar.le 0.0 i.val then approach + i.val else approach
  let cold := temp_chx + cold_approach
  let hot := temp_hhx - hot_approach
  let avg := (temp_hhx - 0.5 * hot_approach - temp_chx - 0.5 * cold_approach)
    / Scalar.ln ((temp_hhx - 0.5 * hot_approach) / (temp_chx + 0.5 * cold_approach))
  { cold, avg, hot }

/-- `Temperatures::from_approach`, `src/engine/state.rs:300-316` -/
def Temperatures.from_approach (sink source : α) (approach : Approach α)
    (regen_imbalance : RegenImbalance α) : Temperatures α :=
  let chx := sink + approach.chx
  let hhx := source - approach.hhx
  { sink, chx, regen := regen_imbalance.regen_temp chx hhx approach.regen, hhx, source }

/-- `RegenTemp::is_converged`, `src/engine/state.rs:328-332` -/
def RegenTemp.is_converged (t other : RegenTemp α) (tol : ConvergenceTolerance α) : Bool :=
  tol.is_converged t.cold other.cold
    && tol.is_converged t.avg other.avg
    && tol.is_converged t.hot other.hot

/-- `Temperatures::is_converged`, `src/engine/state.rs:319-323` -/
def Temperatures.is_converged (t other : Temperatures α) (tol : ConvergenceTolerance α) : Bool :=
  tol.is_converged t.chx other.chx
    && tol.is_converged t.hhx other.hhx
    && t.regen.is_converged other.regen tol

namespace State

/-- `State::ws`, `src/engine/state.rs:181-183` -/
def ws {α : Type} (s : State α) : ws.State α := { pres := s.pres }

/-- `State::chx`, `src/engine/state.rs:186-198` -/
def chx {α : Type} (s : State α) : chx.State α :=
  { hxr :=
      { temp := s.temp.chx
        pres := s.pres.avg
        dens := s.fluid.dens s.temp.chx s.pres.avg
        cp := s.fluid.cp s.temp.chx s.pres.avg
        m_dot := s.mass_flow.chx
        Q_dot := s.heat_flow.chx }
    sink_temp := s.temp.sink }

/-- `State::regen`, `src/engine/state.rs:201-214` -/
def regen {α : Type} (s : State α) : regen.State α :=
  { hxr :=
      { temp := s.temp.regen.avg
        pres := s.pres.avg
        dens := s.fluid.dens s.temp.regen.avg s.pres.avg
        cp := s.fluid.cp s.temp.regen.avg s.pres.avg
        m_dot := s.mass_flow.regen
        Q_dot := s.heat_flow.regen }
    temp_chx := s.temp.chx
    temp_hhx := s.temp.hhx }

/-- `State::hhx`, `src/engine/state.rs:217-229` -/
def hhx {α : Type} (s : State α) : hhx.State α :=
  { hxr :=
      { temp := s.temp.hhx
        pres := s.pres.avg
        dens := s.fluid.dens s.temp.hhx s.pres.avg
        cp := s.fluid.cp s.temp.hhx s.pres.avg
        m_dot := s.mass_flow.hhx
        Q_dot := s.heat_flow.hhx }
    source_temp := s.temp.source }

/-- `State::new_hint`, `src/engine/state.rs:233-258` -/
def new_hint (components : Components α) (fluid : Fluid α) (inputs : RunInputs α) : State α :=
  let approach : Approach α :=
    { chx := components.chx.initial_approach
      regen := components.regen.initial_approach
      hhx := components.hhx.initial_approach }
  let regen_imbalance : RegenImbalance α := ⟨0.0⟩
  { fluid
    pres := Pressure.constant inputs.pres_zero
    temp := Temperatures.from_approach inputs.temp_sink inputs.temp_source approach regen_imbalance
    mass_flow := MassFlows.constant 0.0
    heat_flow := HeatFlows.constant 0.0
    regen_imbalance }

/-- The result of `State::update`: `Ok` (updated) or `Err` (converged, original state). -/
inductive Updated (α : Type) where
  | changed (s : State α)
  | converged (s : State α)

/-- `State::update`, `src/engine/state.rs:120-178` -/
def update (self : State α) (components : Components α) (values : Values α)
    (tol : ConvergenceTolerance α) : Panics (Updated α) := do
  let pres ← Pressure.from_values values
  let mass_flow ← MassFlows.from_values values
  let thermal_res := components.ws.thermal_resistance self.ws
  let heat_flow ← HeatFlows.from_values values self.temp.chx self.temp.hhx thermal_res
  let regen_imbalance := self.regen_imbalance
  let new_state : State α :=
    { fluid := self.fluid, temp := self.temp, pres, mass_flow, heat_flow, regen_imbalance }
  let approach : Approach α :=
    { chx := components.chx.approach new_state.chx
      regen := components.regen.approach new_state.regen
      hhx := components.hhx.approach new_state.hhx }
  let new_temp :=
    Temperatures.from_approach self.temp.sink self.temp.source approach regen_imbalance
  if self.temp.is_converged new_temp tol then
    return .converged { self with fluid := new_state.fluid }
  else
    return .changed { new_state with temp := new_temp }

end State
end Sett
