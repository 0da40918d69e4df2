import Verif.Spec.Kin

/-! # Specification: how far two engines are apart -/

namespace Sett.Spec

open state_equations

/-- Limits of the dimensions of an engine and the temperatures of its exchangers. -/
structure DesignLimits where
  /-- of the volumes of the exchangers -/
  Xmax : ℝ
  /-- of the mean temperature of the regenerator -/
  Tmin : ℝ
  Tmax : ℝ
  /-- of the parasitic heat of a working space -/
  Qmax : ℝ
  Tmin_pos : 0 < Tmin

/-- The exchangers of the run are within the limits, those at the working spaces at 100 K or more. -/
structure WithinDesign (D : DesignLimits) (r : Run ℝ) : Prop where
  chx_vol : 0 ≤ r.vol_chx ∧ r.vol_chx ≤ D.Xmax
  regen_vol : 0 ≤ r.vol_regen ∧ r.vol_regen ≤ D.Xmax
  hhx_vol : 0 ≤ r.vol_hhx ∧ r.vol_hhx ≤ D.Xmax
  chx : 100 ≤ r.temp.chx ∧ r.temp.chx ≤ D.Tmax
  hhx : 100 ≤ r.temp.hhx ∧ r.temp.hhx ≤ D.Tmax
  regen : D.Tmin ≤ r.temp.regen.avg ∧ r.temp.regen.avg ≤ D.Tmax
  cold : |r.temp.regen.cold| ≤ D.Tmax
  hot : |r.temp.regen.hot| ≤ D.Tmax
  comp_heat : |r.ws_parasitics.comp.thermal| ≤ D.Qmax
  exp_heat : |r.ws_parasitics.exp.thermal| ≤ D.Qmax

/-- Distance of two engines, apart from their drives: volumes and temperatures of the exchangers, and parasitic
heats. -/
def designGap (r r' : Run ℝ) : ℝ :=
  tempGap r.temp r'.temp + |r.vol_chx - r'.vol_chx| + |r.vol_regen - r'.vol_regen| + |r.vol_hhx - r'.vol_hhx|
    + |r.ws_parasitics.comp.thermal - r'.ws_parasitics.comp.thermal|
    + |r.ws_parasitics.exp.thermal - r'.ws_parasitics.exp.thermal|

/-- Distance of two sinusoidal drives: speed, phase angle, clearance and swept volumes. -/
def sinusoidGap (d d' : ws.SinusoidalDrive ℝ) : ℝ :=
  |d.frequency - d'.frequency| + |d.phase_angle - d'.phase_angle|
    + |d.comp_geometry.clearance_volume - d'.comp_geometry.clearance_volume|
    + |d.exp_geometry.clearance_volume - d'.exp_geometry.clearance_volume|
    + |d.comp_geometry.swept_volume - d'.comp_geometry.swept_volume|
    + |d.exp_geometry.swept_volume - d'.exp_geometry.swept_volume|

/-- Distance of two rhombic drives: speed, mechanism, diameters and clearance volumes. -/
def rhombicGap (d d' : ws.RhombicDrive ℝ) : ℝ :=
  |d.frequency - d'.frequency| + |d.geometry.eccentricity - d'.geometry.eccentricity|
    + |d.geometry.r_crank - d'.geometry.r_crank| + |d.geometry.L_conn - d'.geometry.L_conn|
    + |d.geometry.D_p - d'.geometry.D_p| + |d.geometry.D_d - d'.geometry.D_d|
    + |d.V_clearance_c - d'.V_clearance_c| + |d.V_clearance_e - d'.V_clearance_e|

/-- The mechanism turns with a clearance of `m`, the piston has at least that diameter, and nothing exceeds `B`. -/
structure RhombicWithin (m B : ℝ) (d : ws.RhombicDrive ℝ) : Prop where
  frequency : |d.frequency| ≤ B
  ecc : 0 ≤ d.geometry.eccentricity
  crank : 0 ≤ d.geometry.r_crank
  rod : d.geometry.eccentricity + d.geometry.r_crank + m ≤ d.geometry.L_conn
  rod_le : d.geometry.L_conn ≤ B
  piston : m ≤ d.geometry.D_p ∧ d.geometry.D_p ≤ B
  displacer : |d.geometry.D_d| ≤ B
  comp : |d.V_clearance_c| ≤ B
  exp : |d.V_clearance_e| ≤ B

end Sett.Spec
