import Verif.Spec.Balances
import Verif.Model.Engine
import Mathlib.Analysis.Calculus.Deriv.Basic

/-! # Specification: exact trajectories of the state equations

What it means for functions of time to follow the equations of a run, and the gas inventory along them.
Nothing of the solver's matrix or of the integrator is used. -/

namespace Sett.Spec

open state_equations

/-- At time `t` the state `y` moves with the rates of the solution `s`, and `s` is what `solve` returns for
the inputs of that time and state (with some hint).  Right derivatives are enough. -/
structure Follows (r : Run ℝ) (y : ℝ → Conditions ℝ) (t : ℝ) (s : Solution ℝ) : Prop where
  solved : ∃ hint, solve r.solver (r.calculate_inputs t (y t)) hint = .ok s
  pres : HasDerivWithinAt (fun t => (y t).P) s.dP_dt (Set.Ici t) t
  comp : HasDerivWithinAt (fun t => (y t).T_c) s.dTc_dt (Set.Ici t) t
  exp : HasDerivWithinAt (fun t => (y t).T_e) s.dTe_dt (Set.Ici t) t

/-- All three state variables are continuous and both space temperatures positive on `[a, b]`. -/
structure Regular (y : ℝ → Conditions ℝ) (a b : ℝ) : Prop where
  pres : ContinuousOn (fun t => (y t).P) (Set.Icc a b)
  comp : ContinuousOn (fun t => (y t).T_c) (Set.Icc a b)
  exp : ContinuousOn (fun t => (y t).T_e) (Set.Icc a b)
  comp_pos : ∀ t ∈ Set.Icc a b, 0 < (y t).T_c
  exp_pos : ∀ t ∈ Set.Icc a b, 0 < (y t).T_e

/-- Mass of gas in the compression space. -/
def compGas (r : Run ℝ) (y : ℝ → Conditions ℝ) (t : ℝ) : ℝ :=
  (r.ws_vol_fn t).1.value * r.fluid.dens (y t).T_c (y t).P

/-- Mass of gas in the expansion space. -/
def expGas (r : Run ℝ) (y : ℝ → Conditions ℝ) (t : ℝ) : ℝ :=
  (r.ws_vol_fn t).2.value * r.fluid.dens (y t).T_e (y t).P

/-- Total mass of gas in the engine at time `t`: density times volume, summed over the five volumes. -/
def gasMass (r : Run ℝ) (y : ℝ → Conditions ℝ) (t : ℝ) : ℝ :=
  compGas r y t
    + r.vol_chx * r.fluid.dens r.temp.chx (y t).P
    + r.vol_regen * r.fluid.dens r.temp.regen.avg (y t).P
    + r.vol_hhx * r.fluid.dens r.temp.hhx (y t).P
    + expGas r y t

/-- `Σ V / T` over the five volumes. -/
noncomputable def volumePerTemp (r : Run ℝ) (y : ℝ → Conditions ℝ) (t : ℝ) : ℝ :=
  (r.ws_vol_fn t).1.value / (y t).T_c + r.vol_chx / r.temp.chx + r.vol_regen / r.temp.regen.avg
    + r.vol_hhx / r.temp.hhx + (r.ws_vol_fn t).2.value / (y t).T_e

/-- Total internal energy of the gas in the engine at time `t`. -/
def gasEnergy (r : Run ℝ) (y : ℝ → Conditions ℝ) (t : ℝ) : ℝ :=
  compGas r y t * r.fluid.inte (y t).T_c (y t).P
    + r.vol_chx * (r.fluid.dens r.temp.chx (y t).P * r.fluid.inte r.temp.chx (y t).P)
    + r.vol_regen * (r.fluid.dens r.temp.regen.avg (y t).P * r.fluid.inte r.temp.regen.avg (y t).P)
    + r.vol_hhx * (r.fluid.dens r.temp.hhx (y t).P * r.fluid.inte r.temp.hhx (y t).P)
    + expGas r y t * r.fluid.inte (y t).T_e (y t).P

/-- Mass of gas in an engine with components `c` in state `s`: working-space volumes of the drive at time `t`
with gas at the trajectory's temperatures, exchanger volumes with gas at the state's temperatures, all at
the trajectory's pressure. -/
def engineMass (c : Components ℝ) (s : State ℝ) (y : ℝ → Conditions ℝ) (t : ℝ) : ℝ :=
  (c.ws.volumes ⟨s.pres⟩ t).1.value * s.fluid.dens (y t).T_c (y t).P
    + c.chx.volume * s.fluid.dens s.temp.chx (y t).P
    + c.regen.volume * s.fluid.dens s.temp.regen.avg (y t).P
    + c.hhx.volume * s.fluid.dens s.temp.hhx (y t).P
    + (c.ws.volumes ⟨s.pres⟩ t).2.value * s.fluid.dens (y t).T_e (y t).P

/-- Internal energy of that gas. -/
def engineEnergy (c : Components ℝ) (s : State ℝ) (y : ℝ → Conditions ℝ) (t : ℝ) : ℝ :=
  let u := fun T P => s.fluid.dens T P * s.fluid.inte T P
  (c.ws.volumes ⟨s.pres⟩ t).1.value * u (y t).T_c (y t).P
    + c.chx.volume * u s.temp.chx (y t).P
    + c.regen.volume * u s.temp.regen.avg (y t).P
    + c.hhx.volume * u s.temp.hhx (y t).P
    + (c.ws.volumes ⟨s.pres⟩ t).2.value * u (y t).T_e (y t).P

/-- By how much the true temperature derivative of a fluid's internal energy exceeds the `du_dT_P` it
reports. -/
noncomputable def heatCapacityError (f : Fluid ℝ) (T P : ℝ) : ℝ :=
  deriv (fun T => f.inte T P) T - f.du_dT_P T P

/-- The volumes of the run are those of a drive whose reported rates are the derivatives of its reported
volumes. -/
def ExactDrive (w : ws.WorkingSpaces ℝ) : Prop :=
  ∀ s t, HasDerivAt (fun t => (w.volumes s t).1.value) (w.volumes s t).1.deriv t ∧
    HasDerivAt (fun t => (w.volumes s t).2.value) (w.volumes s t).2.deriv t

end Sett.Spec
