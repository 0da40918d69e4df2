import Verif.Spec.Balances
import Verif.Model.Engine

/-! # Specification: physical states of a run and complete decompositions -/

namespace Sett.Spec

open state_equations

/-- Contract of a matrix decomposition in exact arithmetic, the other half: it does not fail on a system
that has exactly one solution. -/
def Complete (T : MatrixDecomposition ℝ) : Prop := ∀ a b, (∃! x, Solves a b x) → (T a b).isSome

/-- A physical state of a run at a time: gas under pressure, working spaces not empty, exchangers of
non-negative volume, and gas at least at temperature `Tmin` wherever its enthalpy can enter a working
space. -/
structure Physical (r : Run ℝ) (t : ℝ) (y : Conditions ℝ) (Tmin : ℝ) : Prop where
  norm : r.enth_norm ≠ 0
  pres : 0 < y.P
  comp_vol : 0 < (r.ws_vol_fn t).1.value
  exp_vol : 0 < (r.ws_vol_fn t).2.value
  chx_vol : 0 ≤ r.vol_chx
  regen_vol : 0 ≤ r.vol_regen
  hhx_vol : 0 ≤ r.vol_hhx
  regen_temp : 0 < r.temp.regen.avg
  comp_temp : Tmin ≤ y.T_c
  chx_temp : Tmin ≤ r.temp.chx
  hhx_temp : Tmin ≤ r.temp.hhx
  exp_temp : Tmin ≤ y.T_e

/-- Stability of the gas in a working space: `V² ρ (∂u/∂T · ∂ρ/∂P - ∂u/∂P · ∂ρ/∂T)`, which is
`V² ρ (∂ρ/∂P)` times the heat capacity at constant volume. -/
def stability (w : WorkingSpace ℝ) : ℝ :=
  w.vol ^ 2 * w.dens * (w.du_dT_P * w.dd_dP_T - w.du_dP_T * w.dd_dT_P)

/-- Compliance of the gas in the three exchangers. -/
def exchangerCompliance (i : Inputs ℝ) : ℝ :=
  i.chx.vol * i.chx.dd_dP_T + i.regen.vol * i.regen.dd_dP_T + i.hhx.vol * i.hhx.dd_dP_T

/-- Inputs of a stable gas (any fluid): heating at constant pressure expands it, its heat capacity is
positive, the exchangers are not springs, and gas entering a working space from either side leaves the
temperature coefficient positive. -/
structure Stable (i : Inputs ℝ) : Prop where
  comp_expands : i.comp.vol * i.comp.dd_dT_P ≠ 0
  exp_expands : i.exp.vol * i.exp.dd_dT_P ≠ 0
  comp_stable : 0 < stability i.comp
  exp_stable : 0 < stability i.exp
  exchangers : 0 ≤ exchangerCompliance i
  comp_out : 0 < tempCoef i.comp i.comp.enth
  comp_in : 0 < tempCoef i.comp i.chx.enth
  exp_in : 0 < tempCoef i.exp i.hhx.enth
  exp_out : 0 < tempCoef i.exp i.exp.enth

end Sett.Spec
