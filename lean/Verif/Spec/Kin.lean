import Verif.Spec.Lipschitz

/-! # Specification: runs of one engine -/

namespace Sett.Spec

open state_equations

/-- `r` is a run of the same engine as `B` (gas, linear solver, volumes of the exchangers, parasitics of the working
spaces), with any drive, and with exchangers between 100 K and `Θ`, a regenerator between `τ` and `Θ` on average, and
regenerator ends of at most `Θ` in magnitude. -/
structure Kin (B : Run ℝ) (τ Θ : ℝ) (r : Run ℝ) : Prop where
  fluid : r.fluid = B.fluid
  solver : r.solver = B.solver
  chx_vol : r.vol_chx = B.vol_chx
  regen_vol : r.vol_regen = B.vol_regen
  hhx_vol : r.vol_hhx = B.vol_hhx
  parasitics : r.ws_parasitics = B.ws_parasitics
  chx : 100 ≤ r.temp.chx ∧ r.temp.chx ≤ Θ
  hhx : 100 ≤ r.temp.hhx ∧ r.temp.hhx ≤ Θ
  regen : τ ≤ r.temp.regen.avg ∧ r.temp.regen.avg ≤ Θ
  cold : |r.temp.regen.cold| ≤ Θ
  hot : |r.temp.regen.hot| ≤ Θ

/-- Distance of the pistons of two runs (volumes and their rates). -/
def pistonGap (r : Run ℝ) (t : ℝ) (r' : Run ℝ) (t' : ℝ) : ℝ :=
  |(r.ws_vol_fn t).1.value - (r'.ws_vol_fn t').1.value| + |(r.ws_vol_fn t).2.value - (r'.ws_vol_fn t').2.value|
    + |(r.ws_vol_fn t).1.deriv - (r'.ws_vol_fn t').1.deriv|
    + |(r.ws_vol_fn t).2.deriv - (r'.ws_vol_fn t').2.deriv|

/-- Distance of the temperatures of two runs. -/
def tempGap (T T' : Temperatures ℝ) : ℝ :=
  |T.chx - T'.chx| + |T.hhx - T'.hhx| + |T.regen.cold - T'.regen.cold| + |T.regen.avg - T'.regen.avg|
    + |T.regen.hot - T'.regen.hot|

end Sett.Spec
