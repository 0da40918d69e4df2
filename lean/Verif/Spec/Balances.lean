import Verif.Model.Solver
import Mathlib.Algebra.BigOperators.Fin

/-! # Specification: mass and energy balances of the five control volumes

Written from first principles, without the solver's matrix, its normalisation or its helpers.
Only the input and output record types of the model are used. -/

namespace Sett.Spec

open state_equations

/-- Rate of change of the mass `ρ V` of a control volume, by the product and chain rules.
`ρP, ρT` are the partial derivatives of the density. -/
def massRate (V ρ ρP ρT dV dP dT : ℝ) : ℝ := V * (ρP * dP + ρT * dT) + ρ * dV

/-- Rate of change of the internal energy `ρ u V` of a control volume. -/
def energyRate (V ρ u ρP ρT uP uT dV dP dT : ℝ) : ℝ :=
  V * (ρ * (uP * dP + uT * dT) + u * (ρP * dP + ρT * dT)) + ρ * u * dV

/-- Rates of mass and energy in each control volume for rates `dP, dTc, dTe`. The three heat
exchangers have fixed volume and fixed temperature. -/
def compMass (i : Inputs ℝ) (s : Solution ℝ) : ℝ :=
  massRate i.comp.vol i.comp.dens i.comp.dd_dP_T i.comp.dd_dT_P i.comp.dV_dt s.dP_dt s.dTc_dt
def compEnergy (i : Inputs ℝ) (s : Solution ℝ) : ℝ :=
  energyRate i.comp.vol i.comp.dens i.comp.inte i.comp.dd_dP_T i.comp.dd_dT_P i.comp.du_dP_T
    i.comp.du_dT_P i.comp.dV_dt s.dP_dt s.dTc_dt
def chxMass (i : Inputs ℝ) (s : Solution ℝ) : ℝ :=
  massRate i.chx.vol i.chx.dens i.chx.dd_dP_T 0 0 s.dP_dt 0
def chxEnergy (i : Inputs ℝ) (s : Solution ℝ) : ℝ :=
  energyRate i.chx.vol i.chx.dens i.chx.inte i.chx.dd_dP_T 0 i.chx.du_dP_T 0 0 s.dP_dt 0
def regenMass (i : Inputs ℝ) (s : Solution ℝ) : ℝ :=
  massRate i.regen.vol i.regen.dens i.regen.dd_dP_T 0 0 s.dP_dt 0
def regenEnergy (i : Inputs ℝ) (s : Solution ℝ) : ℝ :=
  energyRate i.regen.vol i.regen.dens i.regen.inte i.regen.dd_dP_T 0 i.regen.du_dP_T 0 0 s.dP_dt 0
def hhxMass (i : Inputs ℝ) (s : Solution ℝ) : ℝ :=
  massRate i.hhx.vol i.hhx.dens i.hhx.dd_dP_T 0 0 s.dP_dt 0
def hhxEnergy (i : Inputs ℝ) (s : Solution ℝ) : ℝ :=
  energyRate i.hhx.vol i.hhx.dens i.hhx.inte i.hhx.dd_dP_T 0 i.hhx.du_dP_T 0 0 s.dP_dt 0
def expMass (i : Inputs ℝ) (s : Solution ℝ) : ℝ :=
  massRate i.exp.vol i.exp.dens i.exp.dd_dP_T i.exp.dd_dT_P i.exp.dV_dt s.dP_dt s.dTe_dt
def expEnergy (i : Inputs ℝ) (s : Solution ℝ) : ℝ :=
  energyRate i.exp.vol i.exp.dens i.exp.inte i.exp.dd_dP_T i.exp.dd_dT_P i.exp.du_dP_T
    i.exp.du_dT_P i.exp.dV_dt s.dP_dt s.dTe_dt

/-- Specific enthalpy carried by the gas at the four interfaces. -/
structure Faces where
  ck : ℝ
  kr : ℝ
  rl : ℝ
  le : ℝ

/-- The ten balances: what flows in, minus what flows out, minus heat and work given away.
Flow is positive from the compression space towards the expansion space; `Q_dot_l` is positive into
the gas, all other heats are positive out of the gas. -/
structure Balances (i : Inputs ℝ) (h : Faces) (s : Solution ℝ) : Prop where
  comp_mass : compMass i s = -s.m_dot_ck
  comp_energy : compEnergy i s = -h.ck * s.m_dot_ck - i.pres * i.comp.dV_dt - i.comp.Q_dot
  chx_mass : chxMass i s = s.m_dot_ck - s.m_dot_kr
  chx_energy : chxEnergy i s = h.ck * s.m_dot_ck - h.kr * s.m_dot_kr - s.Q_dot_k
  regen_mass : regenMass i s = s.m_dot_kr - s.m_dot_rl
  regen_energy : regenEnergy i s = h.kr * s.m_dot_kr - h.rl * s.m_dot_rl - s.Q_dot_r
  hhx_mass : hhxMass i s = s.m_dot_rl - s.m_dot_le
  hhx_energy : hhxEnergy i s = h.rl * s.m_dot_rl - h.le * s.m_dot_le + s.Q_dot_l
  exp_mass : expMass i s = s.m_dot_le
  exp_energy : expEnergy i s = h.le * s.m_dot_le - i.pres * i.exp.dV_dt - i.exp.Q_dot

/-- Enthalpy at an interface for an assumed direction: that of the volume being left, or the mean when
the direction is not known. -/
noncomputable def faceFor (d : Direction) (left right : ℝ) : ℝ :=
  match d with
  | .Positive => left
  | .Negative => right
  | .Unknown => (left + right) / 2

/-- Interface enthalpies for assumed directions. -/
noncomputable def facesFor (i : Inputs ℝ) (d : FlowDirection) : Faces where
  ck := faceFor d.ck i.comp.enth i.chx.enth
  kr := faceFor d.kr i.chx.enth i.regen.enth_cold
  rl := faceFor d.rl i.regen.enth_hot i.hhx.enth
  le := faceFor d.le i.hhx.enth i.exp.enth

open Classical in
/-- Upwind interface enthalpies for actual mass flows: the enthalpy of the volume the gas leaves. -/
noncomputable def upwind (i : Inputs ℝ) (s : Solution ℝ) : Faces where
  ck := if 0 ≤ s.m_dot_ck then i.comp.enth else i.chx.enth
  kr := if 0 ≤ s.m_dot_kr then i.chx.enth else i.regen.enth_cold
  rl := if 0 ≤ s.m_dot_rl then i.regen.enth_hot else i.hhx.enth
  le := if 0 ≤ s.m_dot_le then i.hhx.enth else i.exp.enth

/-- `x` solves `A x = b`. -/
def Solves (a : Mat10 ℝ) (b x : Vec10 ℝ) : Prop := ∀ r, ∑ c, a r c * x c = b r

/-- Contract of a matrix decomposition in exact arithmetic: what it returns solves the system. -/
def Sound (T : MatrixDecomposition ℝ) : Prop := ∀ a b x, T a b = some x → Solves a b x

/-- Rate of change of the total gas mass. -/
def totalMassRate (i : Inputs ℝ) (s : Solution ℝ) : ℝ :=
  compMass i s + chxMass i s + regenMass i s + hhxMass i s + expMass i s

/-- Rate of change of the total internal energy. -/
def totalEnergyRate (i : Inputs ℝ) (s : Solution ℝ) : ℝ :=
  compEnergy i s + chxEnergy i s + regenEnergy i s + hhxEnergy i s + expEnergy i s

/-! ## The reduced system

Eliminating flows and heats leaves three equations for `dTc, dTe, dP`. -/

/-- Coefficient of a working space's temperature rate in its energy balance, relative to the face
enthalpy `h`. -/
def tempCoef (w : WorkingSpace ℝ) (h : ℝ) : ℝ :=
  w.vol * (w.dens * w.du_dT_P + (w.inte - h) * w.dd_dT_P)

/-- Coefficient of the pressure rate in a working space's energy balance. -/
def presCoef (w : WorkingSpace ℝ) (h : ℝ) : ℝ :=
  w.vol * (w.dens * w.du_dP_T + (w.inte - h) * w.dd_dP_T)

/-- Isothermal compliance of all the gas: `Σ V ∂ρ/∂P`. -/
def compliance (i : Inputs ℝ) : ℝ :=
  i.comp.vol * i.comp.dd_dP_T + i.chx.vol * i.chx.dd_dP_T + i.regen.vol * i.regen.dd_dP_T
    + i.hhx.vol * i.hhx.dd_dP_T + i.exp.vol * i.exp.dd_dP_T

/-- Determinant of the reduced 3×3 system in `(dTc, dTe, dP)`. -/
def reducedDet (i : Inputs ℝ) (h : Faces) : ℝ :=
  tempCoef i.comp h.ck * tempCoef i.exp h.le * compliance i
    - tempCoef i.comp h.ck * (i.exp.vol * i.exp.dd_dT_P) * presCoef i.exp h.le
    - tempCoef i.exp h.le * (i.comp.vol * i.comp.dd_dT_P) * presCoef i.comp h.ck

/-! ## The direction search -/

section
variable {α : Type} [Scalar α]

/-- Specification of one step of the search: assuming `d` gives a solution whose flows say `d' ≠ d`. -/
def Redirects (T : MatrixDecomposition α) (sys : System α) (d d' : FlowDirection) : Prop :=
  d ≠ d' ∧ ∃ s, sys.solve T d = some s ∧ FlowDirection.from_solution s = d'

/-- Specification of the search: `ds` are the directions tried, in order, ending in `last`. -/
inductive Search (T : MatrixDecomposition α) (sys : System α) :
    FlowDirection → List FlowDirection → FlowDirection → Prop
  | here (d) : Search T sys d [d] d
  | step {d d' ds last} : Redirects T sys d d' → Search T sys d' ds last →
      Search T sys d (d :: ds) last

end

end Sett.Spec
