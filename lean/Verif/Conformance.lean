import Verif.Model.Dopri5
import Verif.Model.Decompositions
import Verif.Model.Api

/-!
# Running the model on the crate's own test data

The model is executed over Lean's `Float` (machine doubles) and compared with the values the unit tests
of the crate assert.  `/repo` cannot be built here, so the crate's test expectations are the only recorded
outputs of the real program.  Nothing in this file is a theorem and no theorem depends on it: a `#guard`
runs compiled code while the file is checked and the build fails if the value is `false`.  It is evidence
that the transcription is right (signs, indices, constants, order of arguments).

Two external components have to be supplied in order to run anything:

* a matrix solver: Gaussian elimination with partial pivoting, standing for nalgebra's `LU`;
* an ODE integrator: the transcription of `ode_solvers::Dopri5` of `Verif/Model/Dopri5.lean`.
-/

namespace Sett.Conformance

open Sett state_equations

/-- Equal up to a relative error of `1e-9`. -/
def close (a b : Float) : Bool :=
  (a - b).abs ≤ 1e-9 * max a.abs b.abs

/-- `a` and `b` agree up to the given relative error. -/
def near (tol a b : Float) : Bool := (a - b).abs ≤ tol * max a.abs b.abs

/-! ## External components for execution -/

/-- The entry in row `r`, column `c`. -/
def entry (m : Array (Array Float)) (r c : Nat) : Float := (m.getD r #[]).getD c 0.0

/-- Gaussian elimination with partial pivoting on an augmented matrix of `n` rows; `none` if a pivot is
zero (or not a number). -/
def eliminate (n : Nat) (m : Array (Array Float)) : Option (Array Float) := Id.run do
  let mut m := m
  for k in [0:n] do
    let mut p := k
    for r in [k+1:n] do
      if (entry m r k).abs > (entry m p k).abs then p := r
    let rowp := m[p]!
    let rowk := m[k]!
    m := (m.set! k rowp).set! p rowk
    let pivot := rowp[k]!
    if !(pivot.abs > 0.0) then return none
    for r in [k+1:n] do
      let f := entry m r k / pivot
      if f != 0.0 then
        let row := m[r]!
        m := m.set! r (row.mapIdx fun c v => v - f * rowp[c]!)
  let mut x : Array Float := Array.replicate n 0.0
  for i in [0:n] do
    let k := n - 1 - i
    let mut s := entry m k n
    for c in [k+1:n] do
      s := s - entry m k c * x[c]!
    x := x.set! k (s / entry m k k)
  return some x

/-- Stand-in for nalgebra's `LU`. -/
def lu : MatrixDecomposition Float := fun a b =>
  let rows := Array.ofFn fun i : Fin 10 => (Array.ofFn fun j : Fin 10 => a i j).push (b i)
  (eliminate 10 rows).map fun x i => x[i.val]!

/-- The environment used to execute runs. -/
def env : Env Float := { ode := dopri5.solve 5000, build := .checked }

/-! ## `src/state_equations/solver.rs:247-` and `src/state_equations/test_inputs/*.json` -/

/-- `src/state_equations/test_inputs/ideal_gas_hydrogen.json` -/
def idealGasHydrogen : Inputs Float :=
  { pres := 10e6, enth_norm := 5.7448e6
    comp :=
      { vol := 1.596e-4, dens := 7.7256, inte := 6.4867e5, enth := 9.1201e5, dd_dP_T := 7.7256e-7
        dd_dT_P := -0.0246, du_dP_T := 0, du_dT_P := 1.0217e4, dV_dt := 0, Q_dot := 0 }
    chx :=
      { vol := 4e-5, dens := 6.6796, inte := 1.1523e6, enth := 1.6184e6, dd_dP_T := 6.6796e-7
        du_dP_T := 0 }
    regen :=
      { vol := 1e-4, dens := 4.1664, inte := 3.4162e6, enth_cold := 1.7624e6, enth_hot := 8.8429e6
        dd_dP_T := 4.1664e-7, du_dP_T := 0 }
    hhx :=
      { vol := 1e-4, dens := 2.7774, inte := 6.4763e6, enth := 9.0457e6, dd_dP_T := 2.7774e-7
        du_dP_T := 0 }
    exp :=
      { vol := 7.32e-5, dens := 3.1412, inte := 5.4025e6, enth := 7.555e6, dd_dP_T := 3.1412e-7
        dd_dT_P := -0.0041, du_dP_T := 0, du_dT_P := 1.0552e4, dV_dt := -0.0236, Q_dot := 0 } }

/-- `src/state_equations/test_inputs/refprop_hydrogen.json` -/
def refpropHydrogen : Inputs Float :=
  { pres := 10e6, enth_norm := 9.0830e6
    comp :=
      { vol := 1.596e-4, dens := 6.5944, inte := 3.2030e6, enth := 4.7195e6, dd_dP_T := 6.2551e-7
        dd_dT_P := -0.0181, du_dP_T := -0.0018, du_dT_P := 1.0424e4, dV_dt := 0, Q_dot := 0 }
    chx :=
      { vol := 4e-5, dens := 6.3499, inte := 3.3491e6, enth := 4.9240e6, dd_dP_T := 6.0334e-7
        du_dP_T := -0.0016 }
    regen :=
      { vol := 1e-4, dens := 4.0295, inte := 5.6363e6, enth_cold := 5.0700e6, enth_hot := 1.2182e7
        dd_dP_T := 3.8973e-7, du_dP_T := -1.9996e-4 }
    hhx :=
      { vol := 1e-4, dens := 2.7162, inte := 8.7082e6, enth := 1.2390e7, dd_dP_T := 2.6569e-7
        du_dP_T := 6.1808e-4 }
    exp :=
      { vol := 7.32e-5, dens := 3.0751, inte := 7.5992e+6, enth := 1.0851e+7, dd_dP_T := 2.9984e-7
        dd_dT_P := -0.0039, du_dP_T := 3.9660e-4, du_dT_P := 1.0577e4, dV_dt := -0.0236, Q_dot := 0 } }

/-- All ten unknowns agree. -/
def sameSolution (s t : Solution Float) : Bool :=
  close s.m_dot_ck t.m_dot_ck && close s.m_dot_kr t.m_dot_kr && close s.m_dot_rl t.m_dot_rl
    && close s.m_dot_le t.m_dot_le && close s.Q_dot_k t.Q_dot_k && close s.Q_dot_r t.Q_dot_r
    && close s.Q_dot_l t.Q_dot_l && close s.dTc_dt t.dTc_dt && close s.dTe_dt t.dTe_dt
    && close s.dP_dt t.dP_dt

/-- The model's `solve` gives the recorded solution. -/
def solvesTo (i : Inputs Float) (t : Solution Float) : Bool :=
  match solve lu i FlowDirection.default with
  | .ok s => sameSolution s t
  | .error _ => false

-- the recorded LU solution of the ideal-gas case
#guard solvesTo idealGasHydrogen
  { m_dot_ck := -0.0369671135868011, m_dot_kr := -0.04739861686084307
    m_dot_rl := -0.06366524032668251, m_dot_le := -0.07450887512267486
    Q_dot_k := 11687.524503992354, Q_dot_r := 436791.3029835215, Q_dot_l := 83208.74490054866
    dTc_dt := 2845.6263552639434, dTe_dt := 31166.869984699082, dP_dt := 390423950.31296676 }

-- the recorded LU solution of the RefProp case
#guard solvesTo refpropHydrogen
  { m_dot_ck := -0.028538301905757048, m_dot_kr := -0.038613913985699036
    m_dot_rl := -0.05488487354380802, m_dot_le := -0.06597724838021778
    Q_dot_k := 21675.379440630473, Q_dot_r := 392576.6689847019, Q_dot_l := 60769.16953666401
    dTc_dt := 4548.878957390213, dTe_dt := 8995.893667930639, dP_dt := 417493124.93544215 }

/-- The transcription of nalgebra's `LU` gives the recorded solution to the last bit. -/
def solvesExactly (i : Inputs Float) (t : Solution Float) : Bool :=
  match solve Sett.lu.LU i FlowDirection.default with
  | .ok s => s.m_dot_ck == t.m_dot_ck && s.m_dot_kr == t.m_dot_kr && s.m_dot_rl == t.m_dot_rl
    && s.m_dot_le == t.m_dot_le && s.Q_dot_k == t.Q_dot_k && s.Q_dot_r == t.Q_dot_r
    && s.Q_dot_l == t.Q_dot_l && s.dTc_dt == t.dTc_dt && s.dTe_dt == t.dTe_dt && s.dP_dt == t.dP_dt
  | .error _ => false

#guard solvesExactly idealGasHydrogen
  { m_dot_ck := -0.0369671135868011, m_dot_kr := -0.04739861686084307
    m_dot_rl := -0.06366524032668251, m_dot_le := -0.07450887512267486
    Q_dot_k := 11687.524503992354, Q_dot_r := 436791.3029835215, Q_dot_l := 83208.74490054866
    dTc_dt := 2845.6263552639434, dTe_dt := 31166.869984699082, dP_dt := 390423950.31296676 }

#guard solvesExactly refpropHydrogen
  { m_dot_ck := -0.028538301905757048, m_dot_kr := -0.038613913985699036
    m_dot_rl := -0.05488487354380802, m_dot_le := -0.06597724838021778
    Q_dot_k := 21675.379440630473, Q_dot_r := 392576.6689847019, Q_dot_l := 60769.16953666401
    dTc_dt := 4548.878957390213, dTe_dt := 8995.893667930639, dP_dt := 417493124.93544215 }

/-- A matrix as a table, so that its entries are computed once. -/
def table (m : Mat10 Float) : Array Float :=
  Array.ofFn fun k : Fin 100 => m (Fin.ofNat 10 (k.val / 10)) (Fin.ofNat 10 k.val)

/-- The matrix of a table. -/
def ofTable (a : Array Float) : Mat10 Float := fun r c => a.getD (10 * r.val + c.val) 0.0

/-- The vector of a table. -/
def ofList (a : Array Float) : Vec10 Float := fun r => a.getD r.val 0.0

/-- The passes of the transcription of nalgebra's `QR`, in the same order, with tables between them. -/
def qrTabled : MatrixDecomposition Float := fun a b =>
  let f := (List.finRange 10).foldl (fun (s : Array Float × Array Float) i =>
    let t := qr.step ⟨ofTable s.1, ofList s.2⟩ i
    (table t.packed, Array.ofFn t.diag)) (table a, #[])
  let qtb := (List.finRange 10).foldl (fun v i => Array.ofFn
    (qr.reflect i (fun r => ofTable f.1 r i) (qr.signum (ofList f.2 i)) (ofList v))) (Array.ofFn b)
  let m := table fun r c => if r = c then Scalar.abs (ofList f.2 c) else ofTable f.1 r c
  lu.backward (ofTable m) 10 (ofList qtb)

/-- It gives the recorded `QR` solution up to rounding. -/
def qrSolvesTo (i : Inputs Float) (t : Solution Float) : Bool :=
  match solve qrTabled i FlowDirection.default with
  | .ok s => near 1e-14 s.m_dot_ck t.m_dot_ck && near 1e-14 s.m_dot_kr t.m_dot_kr
    && near 1e-14 s.m_dot_rl t.m_dot_rl && near 1e-14 s.m_dot_le t.m_dot_le && near 1e-14 s.Q_dot_k t.Q_dot_k
    && near 1e-14 s.Q_dot_r t.Q_dot_r && near 1e-14 s.Q_dot_l t.Q_dot_l && near 1e-14 s.dTc_dt t.dTc_dt
    && near 1e-14 s.dTe_dt t.dTe_dt && near 1e-14 s.dP_dt t.dP_dt
  | .error _ => false

#guard qrSolvesTo idealGasHydrogen
  { m_dot_ck := -0.03696711358680108, m_dot_kr := -0.04739861686084307
    m_dot_rl := -0.06366524032668251, m_dot_le := -0.07450887512267484
    Q_dot_k := 11687.524503992556, Q_dot_r := 436791.3029835213, Q_dot_l := 83208.74490054866
    dTc_dt := 2845.6263552639507, dTe_dt := 31166.869984699046, dP_dt := 390423950.3129669 }

#guard qrSolvesTo refpropHydrogen
  { m_dot_ck := -0.028538301905757044, m_dot_kr := -0.038613913985699
    m_dot_rl := -0.054884873543808, m_dot_le := -0.06597724838021779
    Q_dot_k := 21675.37944063022, Q_dot_r := 392576.66898470203, Q_dot_l := 60769.169536663976
    dTc_dt := 4548.878957390214, dTe_dt := 8995.893667930726, dP_dt := 417493124.9354423 }

/-! ## `src/fluid/ideal_gas.rs` tests -/

-- helium at 500 K and 10 MPa
#guard
  let g : IdealGas Float := IdealGas.helium
  close (g.dens 500 10e6) 9.628206794625536 && close (g.inte 500 10e6) 778985
    && close (g.enth 500 10e6) 1298292.5 && close (g.cp 500 10e6) 5193.17
    && close (g.dd_dP_T 500 10e6) 9.628206794625535e-7
    && close (g.dd_dT_P 500 10e6) (-0.01925641358925107)
    && g.du_dP_T 500 10e6 == 0 && close (g.du_dT_P 500 10e6) 3115.94

-- hydrogen at 500 K and 10 MPa
#guard
  let g : IdealGas Float := IdealGas.hydrogen
  close (g.dens 500 10e6) 4.849425343096843 && close (g.inte 500 10e6) 2462866.0072656246
    && close (g.enth 500 10e6) 3493916.0072656246 && close (g.cp 500 10e6) 14476.640555625
    && close (g.dd_dP_T 500 10e6) 4.849425343096843e-7
    && close (g.dd_dT_P 500 10e6) (-0.009698850686193685)
    && g.du_dP_T 500 10e6 == 0 && close (g.du_dT_P 500 10e6) 10352.440555624999

-- zero at the reference temperature
#guard
  let g : IdealGas Float := IdealGas.hydrogen
  let h : IdealGas Float := IdealGas.helium
  g.enth g.ref_temp 10e6 == 0 && g.inte g.ref_temp 10e6 == 0
    && h.enth h.ref_temp 10e6 == 0 && h.inte h.ref_temp 10e6 == 0

-- `poly`
#guard
  let a : Coefs Float := { c0 := 1, c1 := 2.5, c2 := 3, c3 := 2.2, c4 := 1.3, c5 := 5 }
  close (poly a 0) 1 && close (poly a 0.5) 3.5125 && close (poly a 1) 15

/-! ## `src/ws/sinusoidal_drive.rs:128-` -/

/-- The drive of the test. -/
def drive : ws.SinusoidalDrive Float :=
  { frequency := 10, phase_angle := 90
    comp_geometry := { clearance_volume := 1e-5, swept_volume := 2e-4 }
    exp_geometry := { clearance_volume := 3e-5, swept_volume := 4e-4 }
    thermal_resistance := ws.ThermalResistance.default, parasitics := ws.Parasitics.default }

#guard
  let v0 := drive.volumes 0
  let v25 := drive.volumes 0.025
  let v50 := drive.volumes 0.05
  let v75 := drive.volumes 0.075
  let v1 := drive.volumes 0.1
  close v0.1.value v1.1.value && close v0.2.value v1.2.value && close v0.2.deriv v1.2.deriv
    && v0.1.value == 1e-5 + 2e-4 && v0.1.deriv == 0
    && v25.2.value == 3e-5 && v25.2.deriv.abs < 1e-14
    && v50.1.value == 1e-5 && v50.1.deriv.abs < 1e-14
    && v75.2.value == 3e-5 + 4e-4 && v75.2.deriv.abs < 1e-14

/-! ## `src/engine/state.rs:535-` -/

/-- `Values::default()` -/
def noValues : Values Float :=
  { time := [], P := [], T_c := [], T_e := [], m_dot_ck := [], m_dot_kr := [], m_dot_rl := []
    m_dot_le := [], Q_dot_k := [], Q_dot_r := [], Q_dot_l := [] }

/-- The value of a computation that returns one satisfying `p`. -/
def yields {β : Type} (c : Panics β) (p : β → Bool) : Bool :=
  match c with
  | .ok b => p b
  | .error _ => false

/-- `assert_eq!` on `Pressure`: exact. -/
def samePressure (p : Pressure Float) (avg max min t_zero : Float) : Bool :=
  p.avg == avg && p.max == max && p.min == min && p.t_zero == t_zero

#guard yields (Pressure.from_values { noValues with time := [0, 10], P := [1, 1] })
  (samePressure · 1 1 1 1)
#guard yields (Pressure.from_values { noValues with time := [0, 1, 2], P := [100, 200, 100] })
  (samePressure · 150 200 100 100)
#guard yields (Pressure.from_values { noValues with
    time := [0.0, 0.5, 1.0, 1.5, 2.0, 2.5, 3.0, 3.5, 4.0]
    P := [1.2e3, 2.5e3, 1.9e2, 1.7e2, 3.2e3, 8.8e3, 6.5e3, 1.4e3, 2e2] })
  (samePressure · 2932.5 8800 170 1200)

#guard yields (MassFlows.from_values { noValues with
    time := [0, 5], m_dot_ck := [1, 1], m_dot_kr := [2, 2], m_dot_rl := [3, 3], m_dot_le := [4, 4] })
  fun m => m.chx == 1.5 && m.regen == 2.5 && m.hhx == 3.5
#guard yields (MassFlows.from_values { noValues with
    time := [0, 5, 10], m_dot_ck := [1, 1, 1], m_dot_kr := [-2, -2, -2], m_dot_rl := [-3, -3, -3]
    m_dot_le := [4, -4, -3] })
  fun m => m.chx == 0.5 && m.regen == 2.5 && m.hhx == 2.625

#guard yields (HeatFlows.from_values { noValues with
    time := [0, 50, 100], Q_dot_k := [1, 1, 1], Q_dot_r := [1, 0, -1], Q_dot_l := [0, 20, 0] }
    300 800 ws.ThermalResistance.default)
  fun q => q.chx == 1 && q.regen == 0 && q.hhx == 10
#guard yields (HeatFlows.from_values { noValues with
    time := [0, 1], T_c := [400, 400], T_e := [600, 600], Q_dot_k := [1, 1], Q_dot_l := [5, 5] }
    300 800 { comp := 1, exp := 50 })
  fun q => q.chx == 101 && q.regen == 0 && q.hhx == 9

/-! ## `src/performance.rs:235-` -/

#guard yields (performance.calculate_hx_pressure_drop [10, 10] [20, 20] [300, 300] (2 : Float))
  fun l => l == [0.1, 0.1]

/-! ## `src/state_equations.rs:58-` -/

/-- `TestEngine`: constant inputs, period one half. -/
def testEngine (i : Inputs Float) : Cycle Float :=
  { Solver := lu, calculate_inputs := fun _ _ => i, period := 0.5, pres_zero := 1 }

-- `integrates_to_final_time`
#guard
  match integrationTryFrom env (testEngine idealGasHydrogen)
      { P := 10e6, T_c := 400, T_e := 600 } 21 { abs := 1e-4, rel := 1e-4 } with
  | .error _ => false
  | .ok points =>
    points.length == 21
      && (yields (integrationIsConverged points { abs := 1e-4, rel := 1e-4 }) fun b => !b)
      && (match points.getLast? with | some p => (p.time - 0.5).abs < 1e-12 | none => false)

-- `calculates_state_values`
#guard
  match integrationTryFrom env (testEngine refpropHydrogen)
      { P := 10e6, T_c := 300, T_e := 500 } 101 { abs := 1e-6, rel := 1e-6 } with
  | .error _ => false
  | .ok points => yields (intoStateValues (testEngine refpropHydrogen) points) fun v => v.length == 101

-- `should_not_find_steady_state`
#guard
  match findSteadyState env (testEngine refpropHydrogen)
      { pres_zero := 10e6, temp_comp_hint := 300, temp_exp_hint := 500, num_points := 100
        ode_tol := { abs := 1e-4, rel := 1e-4 }, conv_tol := { abs := 1e-4, rel := 1e-4 }
        max_iters := 20 } with
  | .error (.err .not_converged) => true
  | _ => false

/-! ## `src/engine.rs:134-`, `run_simple_engine` -/

/-- The components of the test. -/
def simpleComponents : Components Float :=
  { ws := ws.SinusoidalDrive.toWorkingSpaces
      { frequency := 4000 / 60, phase_angle := 90
        comp_geometry := { clearance_volume := 2e-5, swept_volume := 5e-4 }
        exp_geometry := { clearance_volume := 2e-5, swept_volume := 5e-4 }
        thermal_resistance := ws.ThermalResistance.default, parasitics := ws.Parasitics.default }
    chx := chx.FixedApproach.default.toColdHeatExchanger
    regen := regen.FixedApproach.default.toRegenerator
    hhx := hhx.FixedApproach.default.toHotHeatExchanger }

/-- The run of the test. -/
def simpleRun (inner : Nat) : Exec RunError (Engine Float) :=
  Engine.run env lu simpleComponents IdealGas.hydrogen.toFluid
    { pres_zero := 10e6, temp_sink := 300, temp_source := 900 }
    { resolution := 30
      loop_tol := { inner := { abs := 1e-3, rel := 1e-6 }, outer := { abs := 1e-3, rel := 1e-6 } }
      ode_tol := { abs := 1e-6, rel := 1e-6 }
      max_iters := { inner, outer := 20 } }

-- the run succeeds, covers one period with the requested number of points, closes the cycle, satisfies
-- the first law up to the error of a 30-point trapezoid rule, and shows the stale averages of C40
#guard
  match simpleRun 20 with
  | .error _ => false
  | .ok e =>
    e.values.time.length == 30
      && near 1e-9 (e.values.time.getLastD 0) (60 / 4000)
      && near 1e-4 (e.values.P.getLastD 0) 10e6
      && near 1e-3 (e.values.T_c.headD 0) (e.values.T_c.getLastD 0)
      && near 1e-3 (e.values.T_e.headD 0) (e.values.T_e.getLastD 0)
      && (yields (RunResults.ofEngine e) fun r =>
        r.power.net > 0
          && near 0.03 (r.heat_flow.input - r.heat_flow.rejection) r.power.net
          && r.efficiency.mechanical > 0.3 && r.efficiency.mechanical < 1 - 340 / 800
          && r.pressure.avg == 10e6 && r.pressure.max == 10e6 && r.heat_flow.chx == 0)

-- too few inner iterations: `Err(RunError::InnerLoop)`
#guard match simpleRun 2 with
  | .error (.err .InnerLoop) => true
  | _ => false

end Sett.Conformance
