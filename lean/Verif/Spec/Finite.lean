import Verif.Proofs.Dopri5
import Verif.Model.Float64
import Verif.Model.Engine
import Verif.Model.Config

/-! # Specification: what must not be NaN or infinite -/

namespace Sett.Spec

open Float64 Raw state_equations

variable {L : Libm}

/-- All three components are finite. -/
def FiniteVec (v : V3 (F64 L)) : Prop := v.y0.raw.Finite ∧ v.y1.raw.Finite ∧ v.y2.raw.Finite

/-- The ten unknowns. -/
def unknowns (s : Solution (F64 L)) : List (F64 L) :=
  [s.m_dot_ck, s.m_dot_kr, s.m_dot_rl, s.m_dot_le, s.Q_dot_k, s.Q_dot_r, s.Q_dot_l, s.dTc_dt, s.dTe_dt, s.dP_dt]

/-- What enters the right side of the equations is finite, what enters the coefficients is a number. -/
structure Numbers (i : Inputs (F64 L)) : Prop where
  pres : i.pres.raw.Finite
  dens_c : i.comp.dens.raw.Finite
  dens_e : i.exp.dens.raw.Finite
  inte_c : i.comp.inte.raw.Finite
  inte_e : i.exp.inte.raw.Finite
  rate_c : i.comp.dV_dt.raw.Finite
  rate_e : i.exp.dV_dt.raw.Finite
  heat_c : i.comp.Q_dot.raw.Finite
  heat_e : i.exp.Q_dot.raw.Finite
  scale : i.enth_norm.raw ≠ nan
  vols : ∀ v ∈ [i.comp.vol, i.chx.vol, i.regen.vol, i.hhx.vol, i.exp.vol], v.raw ≠ nan
  chx : i.chx.dens.raw ≠ nan ∧ i.chx.inte.raw ≠ nan ∧ i.chx.dd_dP_T.raw ≠ nan
  regen : i.regen.dens.raw ≠ nan ∧ i.regen.inte.raw ≠ nan ∧ i.regen.dd_dP_T.raw ≠ nan
  hhx : i.hhx.dens.raw ≠ nan ∧ i.hhx.inte.raw ≠ nan ∧ i.hhx.dd_dP_T.raw ≠ nan

/-- A step of the integrator: where it starts, its size and the seven slopes it is made of. -/
structure MachineStep (α : Type) where
  t : α
  h : α
  y : V3 α
  k : dopri5.Ks α

/-- Steps that lead from `(t, y)` to `(t', y')`, each starting where the one before ended. -/
def Joined {α : Type} [Scalar α] (t : α) (y : V3 α) : List (MachineStep α) → α → V3 α → Prop
  | [], t', y' => t' = t ∧ y' = y
  | s :: l, t', y' => s.t = t ∧ s.y = y ∧ Joined (t + s.h) (s.k.next y s.h) l t' y'

/-- `dy` is the derivative of the state `y` at time `t`: pressure and both temperature rates of a solution of the
equations. -/
def Derivative {α : Type} [Scalar α] (cycle : Cycle α) (t : α) (y dy : V3 α) : Prop :=
  ∃ s, SelfConsistent cycle.Solver (cycle.calculate_inputs t ⟨y.y0, y.y1, y.y2⟩) s ∧
    dy = ⟨s.dP_dt, s.dTc_dt, s.dTe_dt⟩

/-- Nothing in a step is NaN or infinite: its size, its ends, and all seven slopes. -/
structure FiniteStep (s : MachineStep (F64 L)) : Prop where
  size : s.h.raw.Finite
  start : FiniteVec s.y
  finish : FiniteVec (s.k.next s.y s.h)
  k0 : FiniteVec s.k.k0
  k1 : FiniteVec s.k.k1
  k2 : FiniteVec s.k.k2
  k3 : FiniteVec s.k.k3
  k4 : FiniteVec s.k.k4
  k5 : FiniteVec s.k.k5
  k6 : FiniteVec s.k.k6

/-- What an integration that succeeds went through: steps from the initial condition on, at least one, every slope a
solution of the equations at its stage of its step, nothing in them NaN or infinite. -/
def FiniteSteps (cycle : Cycle (F64 L)) (ic : Conditions (F64 L)) : Prop :=
  ∃ (l : List (MachineStep (F64 L))) (t' : F64 L) (y' : V3 (F64 L)), l ≠ [] ∧ Joined 0.0 ⟨ic.P, ic.T_c, ic.T_e⟩ l t' y' ∧
    ∀ s ∈ l, FiniteStep s ∧ Derivative cycle s.t s.y s.k.k0 ∧ s.k.Answer (Derivative cycle) s.t s.y s.h

/-- What the search for a steady cycle needs to be given: numbers throughout, and finite ones where they enter the
state or the right side of the equations. -/
structure GivenNumbers (c : Components (F64 L)) (s : State (F64 L)) (tol : OdeTolerance (F64 L)) : Prop where
  tol : tol.abs.raw ≠ nan ∧ tol.rel.raw ≠ nan
  pres : s.pres.t_zero.raw.Finite
  chx : s.temp.chx.raw.Finite
  hhx : s.temp.hhx.raw.Finite
  regen : s.temp.regen.avg.raw ≠ nan
  sink : s.temp.sink.raw ≠ nan
  source : s.temp.source.raw ≠ nan
  volumes : c.chx.volume.raw ≠ nan ∧ c.regen.volume.raw ≠ nan ∧ c.hhx.volume.raw ≠ nan
  spaces : (c.ws.volumes ⟨s.pres⟩ 0.0).1.value.raw ≠ nan ∧ (c.ws.volumes ⟨s.pres⟩ 0.0).2.value.raw ≠ nan
  rates : (c.ws.volumes ⟨s.pres⟩ 0.0).1.deriv.raw.Finite ∧ (c.ws.volumes ⟨s.pres⟩ 0.0).2.deriv.raw.Finite
  heats : (c.ws.parasitics ⟨s.pres⟩).comp.thermal.raw.Finite ∧ (c.ws.parasitics ⟨s.pres⟩).exp.thermal.raw.Finite

/-- The numbers of a drive: those that move the pistons are finite, clearances are numbers.  (Of the rhombic drive
the displacer diameter is not listed: the crate does not use it, see C15.) -/
inductive DriveIsNumbers : ws.Config (F64 L) → Prop
  | sinusoidal (p : ws.SinusoidalDrive.Config (F64 L)) :
      (∀ v ∈ [p.frequency, p.phase_angle, p.V_swept_c, p.V_swept_e, p.Q_parasitic_e], v.raw.Finite) →
      (∀ v ∈ [p.V_clearance_c, p.V_clearance_e], v.raw ≠ nan) → DriveIsNumbers (.Sinusoidal p)
  | rhombic (p : ws.RhombicDrive.Config (F64 L)) :
      (∀ v ∈ [p.frequency, p.eccentricity, p.r_crank, p.D_p, p.Q_parasitic_e], v.raw.Finite) →
      (∀ v ∈ [p.V_clearance_c, p.V_clearance_e, p.L_conn], v.raw ≠ nan) → DriveIsNumbers (.Rhombic p)

/-- The numbers of an exchanger: the volume is a number, a fixed approach is finite, a conductance is a number. -/
inductive ChxIsNumbers : chx.Config (F64 L) → Prop
  | approach (p : chx.FixedApproach.Config (F64 L)) : p.vol.raw ≠ nan → p.DT.raw.Finite → ChxIsNumbers (.FixedApproach p)
  | conductance (p : chx.FixedConductance.Config (F64 L)) : p.vol.raw ≠ nan → p.UA.raw ≠ nan →
      ChxIsNumbers (.FixedConductance p)
@[inherit_doc ChxIsNumbers]
inductive RegenIsNumbers : regen.Config (F64 L) → Prop
  | approach (p : regen.FixedApproach.Config (F64 L)) : p.vol.raw ≠ nan → p.DT.raw.Finite →
      RegenIsNumbers (.FixedApproach p)
  | conductance (p : regen.FixedConductance.Config (F64 L)) : p.vol.raw ≠ nan → p.UA.raw ≠ nan →
      RegenIsNumbers (.FixedConductance p)
@[inherit_doc ChxIsNumbers]
inductive HhxIsNumbers : hhx.Config (F64 L) → Prop
  | approach (p : hhx.FixedApproach.Config (F64 L)) : p.vol.raw ≠ nan → p.DT.raw.Finite → HhxIsNumbers (.FixedApproach p)
  | conductance (p : hhx.FixedConductance.Config (F64 L)) : p.vol.raw ≠ nan → p.UA.raw ≠ nan →
      HhxIsNumbers (.FixedConductance p)

/-- A configuration made of numbers. -/
structure ConfigIsNumbers (c : Config (F64 L)) : Prop where
  pres : c.conditions.pres_zero.raw.Finite
  sink : c.conditions.temp_sink.raw.Finite
  source : c.conditions.temp_source.raw.Finite
  ode : c.solver.ode.tolerance.abs.raw ≠ nan ∧ c.solver.ode.tolerance.rel.raw ≠ nan
  inner : c.solver.inner_loop.tolerance.abs.raw ≠ nan ∧ c.solver.inner_loop.tolerance.rel.raw ≠ nan
  outer : c.solver.outer_loop.tolerance.abs.raw ≠ nan ∧ c.solver.outer_loop.tolerance.rel.raw ≠ nan
  drive : DriveIsNumbers c.engine.components.ws
  chx : ChxIsNumbers c.engine.components.chx
  regen : RegenIsNumbers c.engine.components.regen
  hhx : HhxIsNumbers c.engine.components.hhx

end Sett.Spec
