import Verif.Model.Decompositions
import Verif.Spec.Scaled

/-! # Specification: singular value decompositions -/

namespace Sett.Spec

open state_equations

variable {n : Nat}

/-- `d` is a singular value decomposition of `a`: orthonormal columns on the left, orthonormal rows on the right,
and factors between them that are not negative. -/
structure IsSvd (d : svd.Svd n ℝ) (a : Fin n → Fin n → ℝ) : Prop where
  product : ∀ r c, a r c = ∑ k, d.u r k * d.sigma k * d.vt k c
  left : ∀ i j, ∑ r, d.u r i * d.u r j = if i = j then 1 else 0
  right : ∀ i j, ∑ c, d.vt i c * d.vt j c = if i = j then 1 else 0
  nonneg : ∀ k, 0 ≤ d.sigma k

/-- By how much mass and (normalised) energy of a volume change per unit of pressure, squared and added. -/
noncomputable def stiffnessSq (vol dens inte dd_dP_T du_dP_T norm : ℝ) : ℝ :=
  (vol * dd_dP_T) ^ 2 + (vol * (dens * du_dP_T + inte * dd_dP_T) / norm) ^ 2

/-- The same for all five volumes. -/
noncomputable def pressureSq (i : Inputs ℝ) : ℝ :=
  stiffnessSq i.comp.vol i.comp.dens i.comp.inte i.comp.dd_dP_T i.comp.du_dP_T i.enth_norm +
  stiffnessSq i.chx.vol i.chx.dens i.chx.inte i.chx.dd_dP_T i.chx.du_dP_T i.enth_norm +
  stiffnessSq i.regen.vol i.regen.dens i.regen.inte i.regen.dd_dP_T i.regen.du_dP_T i.enth_norm +
  stiffnessSq i.hhx.vol i.hhx.dens i.hhx.inte i.hhx.dd_dP_T i.hhx.du_dP_T i.enth_norm +
  stiffnessSq i.exp.vol i.exp.dens i.exp.inte i.exp.dd_dP_T i.exp.du_dP_T i.enth_norm

/-- The ten numbers of a solution, squared and added. -/
noncomputable def lengthSq (s : Solution ℝ) : ℝ :=
  s.m_dot_ck ^ 2 + s.m_dot_kr ^ 2 + s.m_dot_rl ^ 2 + s.m_dot_le ^ 2 + s.Q_dot_k ^ 2 + s.Q_dot_r ^ 2 +
    s.Q_dot_l ^ 2 + s.dTc_dt ^ 2 + s.dTe_dt ^ 2 + s.dP_dt ^ 2

end Sett.Spec
