import Verif.Model.Types

/-! # `src/ws.rs`, `src/ws/sinusoidal_drive.rs`, `src/ws/rhombic_drive.rs`

`ws::GPU3` and `ws::Mod2` have only `todo!()` bodies (`src/ws/gpu3.rs:24-46`,
`src/ws/mod2.rs:30-52`); they appear in `Verif/Model/Config.lean` as conversions that panic. -/

namespace Sett.ws

variable {α : Type} [Scalar α]

/-- `CompVolume`, `src/ws.rs:31-34` -/
structure CompVolume (α : Type) where
  value : α
  deriv : α

/-- `ExpVolume`, `src/ws.rs:38-41` -/
structure ExpVolume (α : Type) where
  value : α
  deriv : α

/-- `ThermalResistance`, `src/ws.rs:49-52` -/
structure ThermalResistance (α : Type) where
  comp : α
  exp : α

/-- `impl Default for ThermalResistance`, `src/ws.rs:54-61` -/
def ThermalResistance.default {α : Type} [HasInfinity α] : ThermalResistance α :=
  { comp := HasInfinity.infinity, exp := HasInfinity.infinity }

/-- `Parasitics`, `src/ws.rs:65-68` -/
structure Parasitics (α : Type) where
  comp : ParasiticPower α
  exp : ParasiticPower α

/-- `#[derive(Default)]` on `Parasitics`, `src/ws.rs:64` -/
def Parasitics.default : Parasitics α :=
  { comp := ParasiticPower.default, exp := ParasiticPower.default }

/-- `ws::State`, `src/ws.rs:71-73` -/
structure State (α : Type) where
  pres : Pressure α

/-- The `WorkingSpaces` trait, `src/ws.rs:15-27`, as a record of its methods. -/
structure WorkingSpaces (α : Type) where
  frequency : State α → α
  volumes : State α → α → CompVolume α × ExpVolume α
  thermal_resistance : State α → ThermalResistance α
  parasitics : State α → Parasitics α

namespace SinusoidalDrive

/-- `sinusoidal_drive::Geometry`, `src/ws/sinusoidal_drive.rs:18-21` -/
structure Geometry (α : Type) where
  clearance_volume : α
  swept_volume : α

/-- `sinusoidal_drive::Config`, `src/ws/sinusoidal_drive.rs:25-37` -/
structure Config (α : Type) where
  frequency : α
  phase_angle : α
  V_swept_c : α
  V_clearance_c : α
  R_c : α
  W_parasitic_c : α
  V_swept_e : α
  V_clearance_e : α
  R_e : α
  W_parasitic_e : α
  Q_parasitic_e : α

/-- `impl Default for Config`, `src/ws/sinusoidal_drive.rs:77-93` -/
def Config.default [HasInfinity α] : Config α :=
  { frequency := 66.6667
    phase_angle := 90.0
    V_swept_c := 1.128e-4
    V_clearance_c := 4.68e-5
    R_c := HasInfinity.infinity
    W_parasitic_c := 0.0
    V_swept_e := 1.128e-4
    V_clearance_e := 1.68e-5
    R_e := HasInfinity.infinity
    W_parasitic_e := 0.0
    Q_parasitic_e := 0.0 }

end SinusoidalDrive

/-- `SinusoidalDrive`, `src/ws/sinusoidal_drive.rs:9-16` -/
structure SinusoidalDrive (α : Type) where
  frequency : α
  phase_angle : α
  comp_geometry : SinusoidalDrive.Geometry α
  exp_geometry : SinusoidalDrive.Geometry α
  thermal_resistance : ThermalResistance α
  parasitics : Parasitics α

namespace SinusoidalDrive

/-- `volumes`, `src/ws/sinusoidal_drive.rs:44-66` -/
def volumes (d : SinusoidalDrive α) (time : α) : CompVolume α × ExpVolume α :=
  let vol_clear_c := d.comp_geometry.clearance_volume
  let vol_swept_c := d.comp_geometry.swept_volume
  let vol_clear_e := d.exp_geometry.clearance_volume
  let vol_swept_e := d.exp_geometry.swept_volume
  let omega := 2.0 * Scalar.pi * d.frequency
  let phase_angle_rad := d.phase_angle * Scalar.pi / 180.0
  let theta := omega * time
  ({ value := vol_clear_c + 0.5 * vol_swept_c * (1.0 + Scalar.cos theta)
     deriv := -0.5 * vol_swept_c * Scalar.sin theta * omega },
   { value := vol_clear_e + 0.5 * vol_swept_e * (1.0 + Scalar.cos (theta + phase_angle_rad))
     deriv := -0.5 * vol_swept_e * Scalar.sin (theta + phase_angle_rad) * omega })

/-- `impl WorkingSpaces for SinusoidalDrive`, `src/ws/sinusoidal_drive.rs:39-75` -/
def toWorkingSpaces (d : SinusoidalDrive α) : WorkingSpaces α where
  frequency _ := d.frequency
  volumes _ := d.volumes
  thermal_resistance _ := d.thermal_resistance
  parasitics _ := d.parasitics

/-- `impl From<Config> for SinusoidalDrive`, `src/ws/sinusoidal_drive.rs:95-126` -/
def ofConfig (config : Config α) : SinusoidalDrive α :=
  let parasitics : Parasitics α :=
    { comp := { ParasiticPower.default with mechanical := config.W_parasitic_c }
      exp := { ParasiticPower.default with
        thermal := config.Q_parasitic_e
        mechanical := config.W_parasitic_e } }
  { frequency := config.frequency
    phase_angle := config.phase_angle
    comp_geometry :=
      { clearance_volume := config.V_clearance_c, swept_volume := config.V_swept_c }
    exp_geometry :=
      { clearance_volume := config.V_clearance_e, swept_volume := config.V_swept_e }
    thermal_resistance := { comp := config.R_c, exp := config.R_e }
    parasitics }

end SinusoidalDrive

namespace RhombicDrive

/-- `rhombic_drive::Geometry`, `src/ws/rhombic_drive.rs:35-41` -/
structure Geometry (α : Type) where
  eccentricity : α
  r_crank : α
  D_p : α
  D_d : α
  L_conn : α

/-- `impl Default for Geometry`, `src/ws/rhombic_drive.rs:164-174` with the constants of
lines 17-21 -/
def Geometry.default : Geometry α :=
  { eccentricity := 0.02065, r_crank := 0.01397, D_p := 0.0698, D_d := 0.0696, L_conn := 0.04602 }

/-- `rhombic_drive::Config`, `src/ws/rhombic_drive.rs:45-59` -/
structure Config (α : Type) where
  frequency : α
  V_clearance_c : α
  R_c : α
  W_parasitic_c : α
  V_clearance_e : α
  R_e : α
  W_parasitic_e : α
  Q_parasitic_e : α
  r_crank : α
  L_conn : α
  eccentricity : α
  D_p : α
  D_d : α

/-- `impl Default for Config`, `src/ws/rhombic_drive.rs:176-194` with the constants of lines 9-21 -/
def Config.default [HasInfinity α] : Config α :=
  { frequency := 50.0
    V_clearance_c := 5.785e-6
    R_c := HasInfinity.infinity
    W_parasitic_c := 0.0
    V_clearance_e := 4.13e-6
    R_e := HasInfinity.infinity
    W_parasitic_e := 0.0
    Q_parasitic_e := 0.0
    r_crank := 0.01397
    L_conn := 0.04602
    eccentricity := 0.02065
    D_p := 0.0698
    D_d := 0.0696 }

end RhombicDrive

/-- `RhombicDrive`, `src/ws/rhombic_drive.rs:24-32`; built directly by `RhombicDrive::new`
(lines 64-82), which is this structure's constructor. -/
structure RhombicDrive (α : Type) where
  frequency : α
  geometry : RhombicDrive.Geometry α
  parasitics : Parasitics α
  R_comp : α
  R_exp : α
  V_clearance_c : α
  V_clearance_e : α

namespace RhombicDrive

/-- `volumes`, `src/ws/rhombic_drive.rs:91-126` -/
def volumes (d : RhombicDrive α) (time : α) : CompVolume α × ExpVolume α :=
  let omega := 2.0 * Scalar.pi * d.frequency
  let eccentricity := d.geometry.eccentricity
  let r_crank := d.geometry.r_crank
  let L_conn := d.geometry.L_conn
  let V_clearance_c := d.V_clearance_c
  let V_clearance_e := d.V_clearance_e
  let A_p := Scalar.pi * powi2 d.geometry.D_p / 4.0
  let A_d := Scalar.pi * powi2 d.geometry.D_d / 4.0
  let theta := omega * time
  let b_theta := Scalar.sqrt
    (powi2 L_conn - powi2 (eccentricity + r_crank * Scalar.cos theta))
  let b_1 := Scalar.sqrt (powi2 L_conn - powi2 (eccentricity - r_crank))
  let b_2 := Scalar.sqrt (powi2 (L_conn - r_crank) - powi2 eccentricity)
  let dVc_dtheta :=
    -2.0 * A_p * r_crank * Scalar.sin theta * (eccentricity + (r_crank * Scalar.cos theta))
      / b_theta
  let dVe_dtheta :=
    -((dVc_dtheta * A_d) / (2.0 * A_p)) - A_d * r_crank * Scalar.cos theta
  ({ value := V_clearance_c + 2.0 * A_p * (b_1 - b_theta)
     deriv := dVc_dtheta * omega },
   { value := V_clearance_e + A_d * (b_theta - b_2 - r_crank * Scalar.sin theta)
     deriv := dVe_dtheta * omega })

/-- `impl WorkingSpaces for RhombicDrive`, `src/ws/rhombic_drive.rs:85-138` -/
def toWorkingSpaces (d : RhombicDrive α) : WorkingSpaces α where
  frequency _ := d.frequency
  volumes _ := d.volumes
  thermal_resistance _ := { comp := d.R_comp, exp := d.R_exp }
  parasitics _ := d.parasitics

/-- `impl Default for RhombicDrive`, `src/ws/rhombic_drive.rs:140-162` -/
def default [HasInfinity α] : RhombicDrive α :=
  { geometry := Geometry.default
    frequency := 50.0
    parasitics :=
      { comp := { ParasiticPower.default with mechanical := 0.0 }
        exp := { ParasiticPower.default with thermal := 0.0, mechanical := 0.0 } }
    R_comp := HasInfinity.infinity
    R_exp := HasInfinity.infinity
    V_clearance_c := 5.785e-6
    V_clearance_e := 4.13e-6 }

/-- `impl From<Config> for RhombicDrive`, `src/ws/rhombic_drive.rs:196-226`.
Line 202 of the source really reads `D_d: config.D_p`; the model keeps it. -/
def ofConfig (config : Config α) : RhombicDrive α :=
  let geometry : Geometry α :=
    { eccentricity := config.eccentricity
      r_crank := config.r_crank
      D_p := config.D_p
      D_d := config.D_p
      L_conn := config.L_conn }
  let parasitics : Parasitics α :=
    { comp := { ParasiticPower.default with mechanical := config.W_parasitic_c }
      exp := { ParasiticPower.default with
        thermal := config.Q_parasitic_e
        mechanical := config.W_parasitic_e } }
  { geometry
    frequency := config.frequency
    parasitics
    R_comp := config.R_c
    R_exp := config.R_e
    V_clearance_c := config.V_clearance_c
    V_clearance_e := config.V_clearance_e }

end RhombicDrive
end Sett.ws
