import Verif.Model.Scalar

/-! # `src/types.rs` and the small data types of `src/ws.rs`, `src/engine/state.rs` -/

namespace Sett

/-- `src/types.rs:9-12` -/
inductive RunError where
  | InnerLoop
  | OuterLoop
  deriving Repr, DecidableEq

/-- `src/types.rs:16-20` -/
structure RunInputs (α : Type) where
  pres_zero : α
  temp_sink : α
  temp_source : α

/-- `src/types.rs:40-43` -/
structure OdeTolerance (α : Type) where
  abs : α
  rel : α

/-- `src/types.rs:47-50` -/
structure ConvergenceTolerance (α : Type) where
  abs : α
  rel : α

/-- `src/types.rs:33-36` -/
structure LoopTolerance (α : Type) where
  inner : ConvergenceTolerance α
  outer : ConvergenceTolerance α

/-- `src/types.rs:54-57`; `usize` is modelled as `Nat`. -/
structure MaxIters where
  inner : Nat
  outer : Nat

/-- `src/types.rs:24-29`; `u32` is Lean's `UInt32`. -/
structure RunSettings (α : Type) where
  resolution : UInt32
  loop_tol : LoopTolerance α
  ode_tol : OdeTolerance α
  max_iters : MaxIters

/-- `src/types.rs:63-67` -/
structure ParasiticPower (α : Type) where
  thermal : α
  mechanical : α
  electrical : α

/-- `#[derive(Default)]` on `ParasiticPower`, `src/types.rs:62` (every `f64` defaults to `0.0`). -/
def ParasiticPower.default {α : Type} [Scalar α] : ParasiticPower α :=
  { thermal := 0.0, mechanical := 0.0, electrical := 0.0 }

/-- `src/types.rs:72-79` -/
structure HeatExchanger (α : Type) where
  temp : α
  pres : α
  dens : α
  cp : α
  m_dot : α
  Q_dot : α

/-- `src/types.rs:165-169` -/
def ConvergenceTolerance.is_converged {α : Type} [Scalar α]
    (tol : ConvergenceTolerance α) (old new : α) : Bool :=
  let abs_change := new - old
  let rel_change := abs_change / old
  Scalar.lt (Scalar.abs abs_change) tol.abs && Scalar.lt (Scalar.abs rel_change) tol.rel

/-- `engine::Pressure`, `src/engine/state.rs:25-30` -/
structure Pressure (α : Type) where
  avg : α
  max : α
  min : α
  t_zero : α

/-- `Pressure::constant`, `src/engine/state.rs:263-270` -/
def Pressure.constant {α : Type} (value : α) : Pressure α :=
  { avg := value, max := value, min := value, t_zero := value }

end Sett
