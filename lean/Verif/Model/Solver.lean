import Verif.Model.Types

/-! # `src/state_equations.rs`, `inputs.rs`, `flow_direction.rs`, `solver.rs` -/

namespace Sett

/-- `Conditions`, `src/state_equations.rs:28-32` -/
structure Conditions (α : Type) where
  P : α
  T_c : α
  T_e : α

/-- `Solution`, `src/state_equations.rs:37-48` -/
structure Solution (α : Type) where
  m_dot_ck : α
  m_dot_kr : α
  m_dot_rl : α
  m_dot_le : α
  Q_dot_k : α
  Q_dot_r : α
  Q_dot_l : α
  dTc_dt : α
  dTe_dt : α
  dP_dt : α

namespace state_equations

/-- `state_equations::Values`, `src/state_equations.rs:52-56` -/
structure Values (α : Type) where
  time : α
  conditions : Conditions α
  solution : Solution α

/-- `WorkingSpace` inputs, `src/state_equations/inputs.rs:18-29` -/
structure WorkingSpace (α : Type) where
  vol : α
  dens : α
  inte : α
  enth : α
  dd_dP_T : α
  dd_dT_P : α
  du_dP_T : α
  du_dT_P : α
  dV_dt : α
  Q_dot : α

/-- `HeatExchanger` inputs, `src/state_equations/inputs.rs:34-41` -/
structure HeatExchanger (α : Type) where
  vol : α
  dens : α
  inte : α
  enth : α
  dd_dP_T : α
  du_dP_T : α

/-- `Regenerator` inputs, `src/state_equations/inputs.rs:46-54` -/
structure Regenerator (α : Type) where
  vol : α
  dens : α
  inte : α
  enth_cold : α
  enth_hot : α
  dd_dP_T : α
  du_dP_T : α

/-- `Inputs`, `src/state_equations/inputs.rs:5-13` -/
structure Inputs (α : Type) where
  pres : α
  enth_norm : α
  comp : WorkingSpace α
  chx : HeatExchanger α
  regen : Regenerator α
  hhx : HeatExchanger α
  exp : WorkingSpace α

end state_equations

open state_equations

/-- `Direction`, `src/state_equations/flow_direction.rs:5-9` -/
inductive Direction where
  | Positive
  | Negative
  | Unknown
  deriving Repr, DecidableEq

/-- `FlowDirection`, `src/state_equations/flow_direction.rs:48-53`; `#[derive(PartialEq)]` is
`DecidableEq`. -/
structure FlowDirection where
  ck : Direction
  kr : Direction
  rl : Direction
  le : Direction
  deriving Repr, DecidableEq

/-- `impl Default for FlowDirection`, `src/state_equations/flow_direction.rs:67-76` -/
def FlowDirection.default : FlowDirection :=
  { ck := .Unknown, kr := .Unknown, rl := .Unknown, le := .Unknown }

variable {α : Type} [Scalar α]

/-- `Direction::from_value`, `src/state_equations/flow_direction.rs:15-21` -/
def Direction.from_value (value : α) : Direction :=
  if Scalar.le 0.0 value then .Positive else .Negative

/-- `Direction::select`, `src/state_equations/flow_direction.rs:26-32` -/
def Direction.select (d : Direction) (positive negative : α) : α :=
  match d with
  | .Positive => positive
  | .Negative => negative
  | .Unknown => 0.5 * (positive + negative)

/-- `FlowDirection::from_solution`, `src/state_equations/flow_direction.rs:57-64` -/
def FlowDirection.from_solution (solution : Solution α) : FlowDirection :=
  { ck := Direction.from_value solution.m_dot_ck
    kr := Direction.from_value solution.m_dot_kr
    rl := Direction.from_value solution.m_dot_rl
    le := Direction.from_value solution.m_dot_le }

/-- `type Vector = SVector<f64, 10>`, `src/state_equations/solver.rs:7` -/
abbrev Vec10 (α : Type) := Fin 10 → α

/-- `type Matrix = SMatrix<f64, 10, 10>`, `src/state_equations/solver.rs:6` -/
abbrev Mat10 (α : Type) := Fin 10 → Fin 10 → α

/-- `a[(i, j)] = v` -/
def Mat10.set {α : Type} (a : Mat10 α) (i j : Fin 10) (v : α) : Mat10 α :=
  fun r c => if r = i ∧ c = j then v else a r c

/-- `b[(i)] = v` -/
def Vec10.set {α : Type} (b : Vec10 α) (i : Fin 10) (v : α) : Vec10 α :=
  fun r => if r = i then v else b r

/-- The `MatrixDecomposition` trait, `src/state_equations/solver.rs:199-201`: any function that
either returns a vector or fails.  The four implementors (`QR`, `LU`, `Cholesky`, `SvdDefault`,
lines 203-240) delegate to nalgebra; see `Model/Lu.lean` and `Model/Decompositions.lean`; the error text is dropped. -/
abbrev MatrixDecomposition (α : Type) := Mat10 α → Vec10 α → Option (Vec10 α)

/-- `MatrixStencil`, `src/state_equations/solver.rs:162-170` -/
structure MatrixStencil (α : Type) where
  a : Mat10 α
  h_comp_norm : α
  h_chx_norm : α
  h_regen_cold_norm : α
  h_regen_hot_norm : α
  h_hhx_norm : α
  h_exp_norm : α

/-- `System`, `src/state_equations/solver.rs:40-43` -/
structure System (α : Type) where
  stencil : MatrixStencil α
  b : Vec10 α

/-- The matrix part of `System::new`, `src/state_equations/solver.rs:58-126` (assignments to `a`, in
source order, starting from `Matrix::zeros()`). -/
def System.matrix (inputs : Inputs α) : Mat10 α :=
  let enth_norm := inputs.enth_norm
  let comp := inputs.comp
  let chx := inputs.chx
  let regen := inputs.regen
  let hhx := inputs.hhx
  let exp := inputs.exp
  let a : Mat10 α := fun _ _ => 0.0
  -- Mass balance on compression space
  let a := a.set 0 0 1.0
  let a := a.set 0 7 (comp.vol * comp.dd_dT_P)
  let a := a.set 0 9 (comp.vol * comp.dd_dP_T)
  -- Energy balance on compression space
  let a := a.set 1 7 (comp.vol * (comp.dens * comp.du_dT_P + comp.inte * comp.dd_dT_P) / enth_norm)
  let a := a.set 1 9 (comp.vol * (comp.dens * comp.du_dP_T + comp.inte * comp.dd_dP_T) / enth_norm)
  -- Mass balance on cold heat exchanger
  let a := a.set 2 0 (-1.0)
  let a := a.set 2 1 1.0
  let a := a.set 2 9 (chx.vol * chx.dd_dP_T)
  -- Energy balance on cold heat exchanger
  let a := a.set 3 4 (1.0 / enth_norm)
  let a := a.set 3 9 (chx.vol * (chx.dens * chx.du_dP_T + chx.inte * chx.dd_dP_T) / enth_norm)
  -- Mass balance on regenerator
  let a := a.set 4 1 (-1.0)
  let a := a.set 4 2 1.0
  let a := a.set 4 9 (regen.vol * regen.dd_dP_T)
  -- Energy balance on regenerator
  let a := a.set 5 5 (1.0 / enth_norm)
  let a := a.set 5 9
    (regen.vol * (regen.dens * regen.du_dP_T + regen.inte * regen.dd_dP_T) / enth_norm)
  -- Mass balance on hot heat exchanger
  let a := a.set 6 2 (-1.0)
  let a := a.set 6 3 1.0
  let a := a.set 6 9 (hhx.vol * hhx.dd_dP_T)
  -- Energy balance on hot heat exchanger
  let a := a.set 7 6 (-1.0 / enth_norm)
  let a := a.set 7 9 (hhx.vol * (hhx.dens * hhx.du_dP_T + hhx.inte * hhx.dd_dP_T) / enth_norm)
  -- Mass balance on expansion space
  let a := a.set 8 3 (-1.0)
  let a := a.set 8 8 (exp.vol * exp.dd_dT_P)
  let a := a.set 8 9 (exp.vol * exp.dd_dP_T)
  -- Energy balance on expansion space
  let a := a.set 9 8 (exp.vol * (exp.dens * exp.du_dT_P + exp.inte * exp.dd_dT_P) / enth_norm)
  let a := a.set 9 9 (exp.vol * (exp.dens * exp.du_dP_T + exp.inte * exp.dd_dP_T) / enth_norm)
  a

/-- The right-hand-side part of `System::new`, `src/state_equations/solver.rs:59,75,81,121,127`. -/
def System.rhs (inputs : Inputs α) : Vec10 α :=
  let pres := inputs.pres
  let enth_norm := inputs.enth_norm
  let comp := inputs.comp
  let exp := inputs.exp
  let b : Vec10 α := fun _ => 0.0
  let b := Vec10.set b 0 (-comp.dens * comp.dV_dt)
  let b := Vec10.set b 1 ((-(pres + comp.dens * comp.inte) * comp.dV_dt - comp.Q_dot) / enth_norm)
  let b := Vec10.set b 8 (-exp.dens * exp.dV_dt)
  let b := Vec10.set b 9 ((-(pres + exp.dens * exp.inte) * exp.dV_dt - exp.Q_dot) / enth_norm)
  b

/-- `System::new`, `src/state_equations/solver.rs:47-141` -/
def System.new (inputs : Inputs α) : System α :=
  { stencil :=
      { a := System.matrix inputs
        h_comp_norm := inputs.comp.enth / inputs.enth_norm
        h_chx_norm := inputs.chx.enth / inputs.enth_norm
        h_regen_cold_norm := inputs.regen.enth_cold / inputs.enth_norm
        h_regen_hot_norm := inputs.regen.enth_hot / inputs.enth_norm
        h_hhx_norm := inputs.hhx.enth / inputs.enth_norm
        h_exp_norm := inputs.exp.enth / inputs.enth_norm }
    b := System.rhs inputs }

/-- `MatrixStencil::create_matrix`, `src/state_equations/solver.rs:174-196` -/
def MatrixStencil.create_matrix (s : MatrixStencil α) (flow_dir : FlowDirection) : Mat10 α :=
  let h_ck_norm := flow_dir.ck.select s.h_comp_norm s.h_chx_norm
  let h_kr_norm := flow_dir.kr.select s.h_chx_norm s.h_regen_cold_norm
  let h_rl_norm := flow_dir.rl.select s.h_regen_hot_norm s.h_hhx_norm
  let h_le_norm := flow_dir.le.select s.h_hhx_norm s.h_exp_norm
  let a := s.a
  let a := a.set 1 0 h_ck_norm
  let a := a.set 3 0 (-h_ck_norm)
  let a := a.set 3 1 h_kr_norm
  let a := a.set 5 1 (-h_kr_norm)
  let a := a.set 5 2 h_rl_norm
  let a := a.set 7 2 (-h_rl_norm)
  let a := a.set 7 3 h_le_norm
  let a := a.set 9 3 (-h_le_norm)
  a

/-- The `Solution { m_dot_ck: x[0], … }` of `src/state_equations/solver.rs:147-158` -/
def Solution.ofVec {α : Type} (x : Vec10 α) : Solution α :=
  { m_dot_ck := x 0, m_dot_kr := x 1, m_dot_rl := x 2, m_dot_le := x 3
    Q_dot_k := x 4, Q_dot_r := x 5, Q_dot_l := x 6
    dTc_dt := x 7, dTe_dt := x 8, dP_dt := x 9 }

/-- `System::solve`, `src/state_equations/solver.rs:144-159` -/
def System.solve (T : MatrixDecomposition α) (system : System α) (flow_dir : FlowDirection) :
    Option (Solution α) :=
  (T (system.stencil.create_matrix flow_dir) system.b).map Solution.ofVec

/-- How `solve` can fail: `?` on a failed decomposition (`solver.rs:24`), or the `bail!` of line 31. -/
inductive SolveError where
  | decomposition
  | flow_directions
  deriving Repr, DecidableEq

/-- `ALLOWED_FLOW_UPDATES`, `src/state_equations/solver.rs:10` -/
def ALLOWED_FLOW_UPDATES : Nat := 3

/-- The `for` loop of `solve`, `src/state_equations/solver.rs:23-31`, with `fuel` iterations left.
The second component is a ghost log: the flow directions handed to `system.solve`, in order. -/
def solveLoop (T : MatrixDecomposition α) (system : System α) :
    Nat → FlowDirection → Except SolveError (Solution α) × List FlowDirection
  | 0, _ => (.error .flow_directions, [])
  | fuel + 1, flow_dir =>
    match system.solve T flow_dir with
    | none => (.error .decomposition, [flow_dir])
    | some solution =>
      let actual_flow_dir := FlowDirection.from_solution solution
      if flow_dir = actual_flow_dir then (.ok solution, [flow_dir])
      else
        let rest := solveLoop T system fuel actual_flow_dir
        (rest.1, flow_dir :: rest.2)

/-- `solve` with its ghost log; the range `0..=ALLOWED_FLOW_UPDATES` has one more element than the
constant. -/
def solveLogged (T : MatrixDecomposition α) (inputs : Inputs α) (flow_dir_hint : FlowDirection) :
    Except SolveError (Solution α) × List FlowDirection :=
  solveLoop T (System.new inputs) (ALLOWED_FLOW_UPDATES + 1) flow_dir_hint

/-- `solve`, `src/state_equations/solver.rs:17-32` -/
def solve (T : MatrixDecomposition α) (inputs : Inputs α) (flow_dir_hint : FlowDirection) :
    Except SolveError (Solution α) :=
  (solveLogged T inputs flow_dir_hint).1

end Sett
