import Verif.Model.Float64
import Verif.Spec.Balances

/-! # Specification: the ten balances for machine numbers

A machine number stands for the real number it represents exactly; the balances are those of
`Spec/Balances.lean`, in real numbers. -/

namespace Sett.Spec

open state_equations Float64

variable {L : Libm}

/-- The numbers a record of machine numbers represents. -/
def exactWs (w : state_equations.WorkingSpace (F64 L)) : state_equations.WorkingSpace ℝ where
  vol := w.vol.raw.real
  dens := w.dens.raw.real
  inte := w.inte.raw.real
  enth := w.enth.raw.real
  dd_dP_T := w.dd_dP_T.raw.real
  dd_dT_P := w.dd_dT_P.raw.real
  du_dP_T := w.du_dP_T.raw.real
  du_dT_P := w.du_dT_P.raw.real
  dV_dt := w.dV_dt.raw.real
  Q_dot := w.Q_dot.raw.real

@[inherit_doc exactWs]
def exactHx (w : state_equations.HeatExchanger (F64 L)) : state_equations.HeatExchanger ℝ where
  vol := w.vol.raw.real
  dens := w.dens.raw.real
  inte := w.inte.raw.real
  enth := w.enth.raw.real
  dd_dP_T := w.dd_dP_T.raw.real
  du_dP_T := w.du_dP_T.raw.real

@[inherit_doc exactWs]
def exactRegen (w : state_equations.Regenerator (F64 L)) : state_equations.Regenerator ℝ where
  vol := w.vol.raw.real
  dens := w.dens.raw.real
  inte := w.inte.raw.real
  enth_cold := w.enth_cold.raw.real
  enth_hot := w.enth_hot.raw.real
  dd_dP_T := w.dd_dP_T.raw.real
  du_dP_T := w.du_dP_T.raw.real

@[inherit_doc exactWs]
def exactInputs (i : Inputs (F64 L)) : Inputs ℝ where
  pres := i.pres.raw.real
  enth_norm := i.enth_norm.raw.real
  comp := exactWs i.comp
  chx := exactHx i.chx
  regen := exactRegen i.regen
  hhx := exactHx i.hhx
  exp := exactWs i.exp

@[inherit_doc exactWs]
def exactSolution (s : Solution (F64 L)) : Solution ℝ where
  m_dot_ck := s.m_dot_ck.raw.real
  m_dot_kr := s.m_dot_kr.raw.real
  m_dot_rl := s.m_dot_rl.raw.real
  m_dot_le := s.m_dot_le.raw.real
  Q_dot_k := s.Q_dot_k.raw.real
  Q_dot_r := s.Q_dot_r.raw.real
  Q_dot_l := s.Q_dot_l.raw.real
  dTc_dt := s.dTc_dt.raw.real
  dTe_dt := s.dTe_dt.raw.real
  dP_dt := s.dP_dt.raw.real

/-- Finite and at most 2^100 (about 10^30) in absolute value. -/
def Usual (x : F64 L) : Prop := x.raw.Finite ∧ |x.raw.real| ≤ 2 ^ 100

/-- Every number of the record is usual. -/
structure UsualWs (w : state_equations.WorkingSpace (F64 L)) : Prop where
  vol : Usual w.vol
  dens : Usual w.dens
  inte : Usual w.inte
  enth : Usual w.enth
  dd_dP_T : Usual w.dd_dP_T
  dd_dT_P : Usual w.dd_dT_P
  du_dP_T : Usual w.du_dP_T
  du_dT_P : Usual w.du_dT_P
  dV_dt : Usual w.dV_dt
  Q_dot : Usual w.Q_dot

@[inherit_doc UsualWs]
structure UsualHx (w : state_equations.HeatExchanger (F64 L)) : Prop where
  vol : Usual w.vol
  dens : Usual w.dens
  inte : Usual w.inte
  enth : Usual w.enth
  dd_dP_T : Usual w.dd_dP_T
  du_dP_T : Usual w.du_dP_T

@[inherit_doc UsualWs]
structure UsualRegen (w : state_equations.Regenerator (F64 L)) : Prop where
  vol : Usual w.vol
  dens : Usual w.dens
  inte : Usual w.inte
  enth_cold : Usual w.enth_cold
  enth_hot : Usual w.enth_hot
  dd_dP_T : Usual w.dd_dP_T
  du_dP_T : Usual w.du_dP_T

/-- Every input is usual, and the enthalpy used to normalise is not absurdly close to zero. -/
structure UsualInputs (i : Inputs (F64 L)) : Prop where
  pres : Usual i.pres
  enth_norm : Usual i.enth_norm
  norm_ge : 1 / 2 ^ 100 ≤ |i.enth_norm.raw.real|
  comp : UsualWs i.comp
  chx : UsualHx i.chx
  regen : UsualRegen i.regen
  hhx : UsualHx i.hhx
  exp : UsualWs i.exp

/-- Every number of the solution is finite. -/
structure FiniteSolution (s : Solution (F64 L)) : Prop where
  m_dot_ck : s.m_dot_ck.raw.Finite
  m_dot_kr : s.m_dot_kr.raw.Finite
  m_dot_rl : s.m_dot_rl.raw.Finite
  m_dot_le : s.m_dot_le.raw.Finite
  Q_dot_k : s.Q_dot_k.raw.Finite
  Q_dot_r : s.Q_dot_r.raw.Finite
  Q_dot_l : s.Q_dot_l.raw.Finite
  dTc_dt : s.dTc_dt.raw.Finite
  dTe_dt : s.dTe_dt.raw.Finite
  dP_dt : s.dP_dt.raw.Finite

/-- The ten balances up to an error: mass `m`, energy `e`. -/
structure BalancesWithin (i : Inputs ℝ) (h : Faces) (s : Solution ℝ) (m e : ℝ) : Prop where
  comp_mass : |compMass i s - -s.m_dot_ck| ≤ m
  comp_energy : |compEnergy i s - (-h.ck * s.m_dot_ck - i.pres * i.comp.dV_dt - i.comp.Q_dot)| ≤ e
  chx_mass : |chxMass i s - (s.m_dot_ck - s.m_dot_kr)| ≤ m
  chx_energy : |chxEnergy i s - (h.ck * s.m_dot_ck - h.kr * s.m_dot_kr - s.Q_dot_k)| ≤ e
  regen_mass : |regenMass i s - (s.m_dot_kr - s.m_dot_rl)| ≤ m
  regen_energy : |regenEnergy i s - (h.kr * s.m_dot_kr - h.rl * s.m_dot_rl - s.Q_dot_r)| ≤ e
  hhx_mass : |hhxMass i s - (s.m_dot_rl - s.m_dot_le)| ≤ m
  hhx_energy : |hhxEnergy i s - (h.rl * s.m_dot_rl - h.le * s.m_dot_le + s.Q_dot_l)| ≤ e
  exp_mass : |expMass i s - s.m_dot_le| ≤ m
  exp_energy : |expEnergy i s - (h.le * s.m_dot_le - i.pres * i.exp.dV_dt - i.exp.Q_dot)| ≤ e

/-- Sum of the absolute values of the terms of a mass storage rate. -/
noncomputable def massTerms (V ρ ρP ρT dV dP dT : ℝ) : ℝ :=
  |V| * (|ρP| * |dP| + |ρT| * |dT|) + |ρ| * |dV|

/-- Sum of the absolute values of the terms of an energy storage rate and the work at pressure `p`. -/
noncomputable def energyTerms (p V ρ u ρP ρT uP uT dV dP dT : ℝ) : ℝ :=
  |V| * (|ρ| * (|uP| * |dP| + |uT| * |dT|) + |u| * (|ρP| * |dP| + |ρT| * |dT|)) + (|p| + |ρ| * |u|) * |dV|

/-- Sum of the absolute values of all terms of the five mass balances (each flow counted once). -/
noncomputable def massScale (i : Inputs ℝ) (s : Solution ℝ) : ℝ :=
  |s.m_dot_ck| + |s.m_dot_kr| + |s.m_dot_rl| + |s.m_dot_le|
    + massTerms i.comp.vol i.comp.dens i.comp.dd_dP_T i.comp.dd_dT_P i.comp.dV_dt s.dP_dt s.dTc_dt
    + massTerms i.chx.vol i.chx.dens i.chx.dd_dP_T 0 0 s.dP_dt 0
    + massTerms i.regen.vol i.regen.dens i.regen.dd_dP_T 0 0 s.dP_dt 0
    + massTerms i.hhx.vol i.hhx.dens i.hhx.dd_dP_T 0 0 s.dP_dt 0
    + massTerms i.exp.vol i.exp.dens i.exp.dd_dP_T i.exp.dd_dT_P i.exp.dV_dt s.dP_dt s.dTe_dt

/-- Sum of the absolute values of all terms of the five energy balances (each flow counted once). -/
noncomputable def energyScale (i : Inputs ℝ) (h : Faces) (s : Solution ℝ) : ℝ :=
  |h.ck| * |s.m_dot_ck| + |h.kr| * |s.m_dot_kr| + |h.rl| * |s.m_dot_rl| + |h.le| * |s.m_dot_le|
    + |s.Q_dot_k| + |s.Q_dot_r| + |s.Q_dot_l| + |i.comp.Q_dot| + |i.exp.Q_dot|
    + energyTerms i.pres i.comp.vol i.comp.dens i.comp.inte i.comp.dd_dP_T i.comp.dd_dT_P i.comp.du_dP_T
        i.comp.du_dT_P i.comp.dV_dt s.dP_dt s.dTc_dt
    + energyTerms i.pres i.chx.vol i.chx.dens i.chx.inte i.chx.dd_dP_T 0 i.chx.du_dP_T 0 0 s.dP_dt 0
    + energyTerms i.pres i.regen.vol i.regen.dens i.regen.inte i.regen.dd_dP_T 0 i.regen.du_dP_T 0 0 s.dP_dt 0
    + energyTerms i.pres i.hhx.vol i.hhx.dens i.hhx.inte i.hhx.dd_dP_T 0 i.hhx.du_dP_T 0 0 s.dP_dt 0
    + energyTerms i.pres i.exp.vol i.exp.dens i.exp.inte i.exp.dd_dP_T i.exp.dd_dT_P i.exp.du_dP_T
        i.exp.du_dT_P i.exp.dV_dt s.dP_dt s.dTe_dt

/-- Both together as a mass flow: energies divided by the normalising enthalpy. -/
noncomputable def balanceScale (i : Inputs ℝ) (h : Faces) (s : Solution ℝ) : ℝ :=
  massScale i s + energyScale i h s / |i.enth_norm|

/-- Sum of the absolute values of the ten unknowns. -/
noncomputable def solutionSum (s : Solution ℝ) : ℝ :=
  |s.m_dot_ck| + |s.m_dot_kr| + |s.m_dot_rl| + |s.m_dot_le| + |s.Q_dot_k| + |s.Q_dot_r| + |s.Q_dot_l|
    + |s.dTc_dt| + |s.dTe_dt| + |s.dP_dt|

end Sett.Spec
