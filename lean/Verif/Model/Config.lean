import Verif.Model.Engine

/-! # Configuration: `src/config.rs`, `src/types.rs:81-238`, the `Config`/`LegacyConfig` enums of
`fluid.rs`, `ws.rs`, `chx.rs`, `regen.rs`, `hhx.rs`, and `Components::from` of `src/engine.rs`

Deserialisation itself is in `Model/Document.lean`. -/

namespace Sett

/-- `Material`, `src/types.rs:144-148` -/
inductive Material where
  | SS304 | Multimet | StainlessSteel
  deriving Repr, DecidableEq

/-- `ToleranceConfig`, `src/types.rs:123-126` -/
structure ToleranceConfig (α : Type) where
  abs : α
  rel : α

/-- `InnerLoopConfig`, `src/types.rs:105-108` -/
structure InnerLoopConfig (α : Type) where
  tolerance : ToleranceConfig α
  max_iterations : UInt32

/-- `OuterLoopConfig`, `src/types.rs:111-114` -/
structure OuterLoopConfig (α : Type) where
  tolerance : ToleranceConfig α
  max_iterations : UInt32

/-- `OdeConfig`, `src/types.rs:117-120` -/
structure OdeConfig (α : Type) where
  tolerance : ToleranceConfig α
  num_timesteps : UInt32

/-- `SolverConfig`, `src/types.rs:82-86` -/
structure SolverConfig (α : Type) where
  inner_loop : InnerLoopConfig α
  outer_loop : OuterLoopConfig α
  ode : OdeConfig α

/-- `LegacyOdeSolver`, `src/types.rs:100-102` -/
inductive LegacyOdeSolver where
  | Ode45
  deriving Repr, DecidableEq

/-- `LegacySolverConfig`, `src/types.rs:90-96` -/
structure LegacySolverConfig (α : Type) where
  inner_loop_tolerance : ToleranceConfig α
  outer_loop_tolerance : ToleranceConfig α
  ode_tolerance : ToleranceConfig α
  ode_solver : LegacyOdeSolver
  time_resolution : UInt32

/-- `ConditionsConfig`, `src/types.rs:129-133` -/
structure ConditionsConfig (α : Type) where
  temp_sink : α
  temp_source : α
  pres_zero : α

/-- `LegacyConditionsConfig`, `src/types.rs:137-141` -/
structure LegacyConditionsConfig (α : Type) where
  T_cold : α
  T_hot : α
  P_0 : α

/-- `DEFAULT_MAX_ITERS`, `src/types.rs:3` -/
def DEFAULT_MAX_ITERS : UInt32 := 20

/-- `impl From<ToleranceConfig> for ConvergenceTolerance`, `src/types.rs:172-179` -/
def ToleranceConfig.toConvergence {α : Type} (c : ToleranceConfig α) : ConvergenceTolerance α :=
  { abs := c.abs, rel := c.rel }

/-- `impl From<SolverConfig> for RunSettings`, `src/types.rs:181-199`; `as usize` from `u32` is
value-preserving on every supported platform. -/
def SolverConfig.toRunSettings {α : Type} (c : SolverConfig α) : RunSettings α :=
  { resolution := c.ode.num_timesteps
    loop_tol :=
      { inner := c.inner_loop.tolerance.toConvergence
        outer := c.outer_loop.tolerance.toConvergence }
    ode_tol := { abs := c.ode.tolerance.abs, rel := c.ode.tolerance.rel }
    max_iters :=
      { inner := c.inner_loop.max_iterations.toNat
        outer := c.outer_loop.max_iterations.toNat } }

/-- `impl From<LegacySolverConfig> for SolverConfig`, `src/types.rs:201-218` -/
def LegacySolverConfig.toSolver {α : Type} (c : LegacySolverConfig α) : SolverConfig α :=
  { inner_loop := { tolerance := c.inner_loop_tolerance, max_iterations := DEFAULT_MAX_ITERS }
    outer_loop := { tolerance := c.outer_loop_tolerance, max_iterations := DEFAULT_MAX_ITERS }
    ode := { tolerance := c.ode_tolerance, num_timesteps := c.time_resolution } }

/-- `impl From<ConditionsConfig> for RunInputs`, `src/types.rs:220-228` -/
def ConditionsConfig.toRunInputs {α : Type} (c : ConditionsConfig α) : RunInputs α :=
  { pres_zero := c.pres_zero, temp_sink := c.temp_sink, temp_source := c.temp_source }

/-- `impl From<LegacyConditionsConfig> for ConditionsConfig`, `src/types.rs:230-238` -/
def LegacyConditionsConfig.toConditions {α : Type} (c : LegacyConditionsConfig α) :
    ConditionsConfig α :=
  { temp_sink := c.T_cold, temp_source := c.T_hot, pres_zero := c.P_0 }

/-! ## Fluid -/
namespace fluid

/-- `ModelConfig`, `src/fluid.rs:97-102` -/
inductive ModelConfig where
  | Custom | Fit | IdealGas | RefProp
  deriving Repr, DecidableEq

/-- `fluid::Config`, `src/fluid.rs:90-93` -/
inductive Config where
  | Hydrogen (m : ModelConfig)
  | Helium (m : ModelConfig)
  deriving Repr, DecidableEq

/-- `LegacyFluidOption`, `src/fluid.rs:123-126` -/
inductive LegacyFluidOption where
  | Hydrogen | Helium
  deriving Repr, DecidableEq

/-- `fluid::LegacyConfig`, `src/fluid.rs:106-120`; the two one-field parameter structs
(`LegacyRefPropParams`, `LegacyIdealGasParams`) are replaced by their field. -/
inductive LegacyConfig where
  | Hydrogen
  | RealGasRefprop (name : LegacyFluidOption)
  | IdealGas (name : LegacyFluidOption)
  deriving Repr, DecidableEq

/-- `LegacyConfig::into`, `src/fluid.rs:130-142` -/
def LegacyConfig.into : LegacyConfig → Config
  | .Hydrogen => .Hydrogen .Custom
  | .RealGasRefprop .Hydrogen => .Hydrogen .RefProp
  | .RealGasRefprop .Helium => .Helium .RefProp
  | .IdealGas .Hydrogen => .Hydrogen .IdealGas
  | .IdealGas .Helium => .Helium .IdealGas

end fluid
/-! ## Working spaces -/
namespace ws

namespace GPU3
/-- `src/ws/gpu3.rs:9-22` -/
structure Config (α : Type) where
  frequency : α
  V_clearance_c : α
  R_c : α
  V_clearance_e : α
  R_e : α
  r_crank : α
  L_conn : α
  eccentricity : α
  D : α
  D_dr : α
  L : α
  h : α

end GPU3

namespace Mod2
/-- `src/ws/mod2.rs:11-28` -/
structure Config (α : Type) where
  frequency : α
  phaseAngle : α
  D : α
  h : α
  L : α
  stroke : α
  V_clearance_c : α
  R_c : α
  V_clearance_e : α
  R_e : α
  material_p : Material
  material_c : Material
  th_pw : α
  th_cw : α
  L_cond : α
  e : α

end Mod2

/-- `ws::Config`, `src/ws.rs:78-83` -/
inductive Config (α : Type) where
  | Sinusoidal (c : SinusoidalDrive.Config α)
  | Rhombic (c : RhombicDrive.Config α)
  | GPU3 (c : GPU3.Config α)
  | Mod2 (c : Mod2.Config α)

/-- `ws::LegacyConfig`, `src/ws.rs:87-92` -/
inductive LegacyConfig (α : Type) where
  | Sinusoidal (c : SinusoidalDrive.Config α)
  | Rhombic (c : RhombicDrive.Config α)
  | GPU3 (c : GPU3.Config α)
  | Mod2 (c : Mod2.Config α)

/-- `LegacyConfig::into`, `src/ws.rs:96-103` -/
def LegacyConfig.into {α : Type} : LegacyConfig α → Config α
  | .Sinusoidal params => .Sinusoidal params
  | .Rhombic params => .Rhombic params
  | .GPU3 params => .GPU3 params
  | .Mod2 params => .Mod2 params

end ws

/-! ## Cold heat exchanger -/
namespace chx

namespace GPU3
/-- `src/chx/gpu3.rs:31-33` -/
inductive Coolant where
  | Water
  deriving Repr, DecidableEq

/-- `src/chx/gpu3.rs:12-28` -/
structure Config (α : Type) where
  length_total : α
  length_ht : α
  D_inner : α
  D_outer : α
  N_total : UInt32
  N_shell : UInt32
  D_sh : α
  Ac_d : α
  roughness : α
  vol_h : α
  m_dot_w : α
  coolant : Coolant
  m_dot_a : α
  UA_a : α
  W_parasitic : α

end GPU3

namespace Mod2
/-- `src/chx/mod2.rs:49-51` -/
inductive Fluid where
  | Water
  deriving Repr, DecidableEq

/-- `src/chx/mod2.rs:54-57` -/
inductive Correlation where
  | Oscillating
  | Steady
  deriving Repr, DecidableEq

/-- `src/chx/mod2.rs:30-38` -/
structure Tubes (α : Type) where
  length : α
  length_ht : α
  D_outer : α
  D_inner : α
  N_total : UInt32
  roughness : α
  material : Material

/-- `src/chx/mod2.rs:42-46` -/
structure Shell (α : Type) where
  R_inner : α
  V_header : α
  Ac_header : α

/-- `src/chx/mod2.rs:23-26` -/
structure Geometry (α : Type) where
  tubes : Tubes α
  shell : Shell α

/-- `src/chx/mod2.rs:12-19` -/
structure Config (α : Type) where
  geometry : Geometry α
  m_dot_p_fs : α
  W_dot_p_fs : α
  n_fs : α
  fluid : Fluid
  correlation : Correlation

end Mod2

/-- `chx::Config`, `src/chx.rs:52-57` -/
inductive Config (α : Type) where
  | FixedApproach (c : FixedApproach.Config α)
  | FixedConductance (c : FixedConductance.Config α)
  | GPU3 (c : GPU3.Config α)
  | Mod2 (c : Mod2.Config α)

/-- `chx::LegacyConfig`, `src/chx.rs:62-67` -/
inductive LegacyConfig (α : Type) where
  | FixedApproach (c : FixedApproach.Config α)
  | FixedConductance (c : FixedConductance.Config α)
  | GPU3 (c : GPU3.Config α)
  | Mod2 (c : Mod2.Config α)

/-- `LegacyConfig::into`, `src/chx.rs:71-78` -/
def LegacyConfig.into {α : Type} : LegacyConfig α → Config α
  | .FixedApproach params => .FixedApproach params
  | .FixedConductance params => .FixedConductance params
  | .GPU3 params => .GPU3 params
  | .Mod2 params => .Mod2 params

end chx

/-! ## Regenerator -/
namespace regen

/-- `src/regen/types.rs:4-6` -/
inductive FrictionFactorCorrelation where
  | GedeonWood
  deriving Repr, DecidableEq

/-- `src/regen/types.rs:9-11` -/
inductive JFactorCorrelation where
  | GedeonWood
  deriving Repr, DecidableEq

namespace GPU3
/-- `src/regen/gpu3.rs:31-35` -/
structure Mesh (α : Type) where
  material : Material
  D_wire : α
  pitch : α

/-- `src/regen/gpu3.rs:39-43` -/
structure Shell (α : Type) where
  diameter : α
  length : α
  number : UInt32

/-- `src/regen/gpu3.rs:23-27` -/
structure Geometry (α : Type) where
  vol_h : α
  mesh : Mesh α
  shell : Shell α

/-- `src/regen/gpu3.rs:14-20` -/
structure Config (α : Type) where
  geometry : Geometry α
  Q_parasitic : α
  bypass : α
  correlationf : FrictionFactorCorrelation
  correlationj : JFactorCorrelation

end GPU3

namespace Mod2
/-- `src/regen/mod2.rs:46-49` -/
inductive Correlation where
  | Steady
  | Oscillating
  deriving Repr, DecidableEq

/-- `src/regen/mod2.rs:29-33` -/
structure Mesh (α : Type) where
  material : Material
  D_wire : α
  pitch : α

/-- `src/regen/mod2.rs:37-43` -/
structure Shell (α : Type) where
  material : Material
  R_sh : α
  th_sh_cold : α
  th_sh_hot : α
  length : α

/-- `src/regen/mod2.rs:22-25` -/
structure Geometry (α : Type) where
  mesh : Mesh α
  shell : Shell α

/-- `src/regen/mod2.rs:14-19` -/
structure Config (α : Type) where
  geometry : Geometry α
  correlationtype : Correlation
  correlationf : FrictionFactorCorrelation
  correlationj : JFactorCorrelation

end Mod2

/-- `regen::Config`, `src/regen.rs:55-60` -/
inductive Config (α : Type) where
  | FixedApproach (c : FixedApproach.Config α)
  | FixedConductance (c : FixedConductance.Config α)
  | GPU3 (c : GPU3.Config α)
  | Mod2 (c : Mod2.Config α)

/-- `regen::LegacyConfig`, `src/regen.rs:65-70` -/
inductive LegacyConfig (α : Type) where
  | FixedApproach (c : FixedApproach.Config α)
  | FixedConductance (c : FixedConductance.Config α)
  | GPU3 (c : GPU3.Config α)
  | Mod2 (c : Mod2.Config α)

/-- `LegacyConfig::into`, `src/regen.rs:74-81` -/
def LegacyConfig.into {α : Type} : LegacyConfig α → Config α
  | .FixedApproach params => .FixedApproach params
  | .FixedConductance params => .FixedConductance params
  | .GPU3 params => .GPU3 params
  | .Mod2 params => .Mod2 params

end regen

/-! ## Hot heat exchanger -/
namespace hhx

namespace GPU3
/-- `src/hhx/gpu3.rs:11-23` -/
structure Config (α : Type) where
  L_total : α
  L_htr : α
  R_tc : α
  D_outer : α
  D_inner : α
  roughness : α
  N_total : UInt32
  vol_h : α
  eta_comb : α
  R_c_loss : α
  W_parasitic : α

end GPU3

namespace Mod2
/-- `src/hhx/mod2.rs:56-59` -/
inductive Correlation where
  | Oscillating
  | Steady
  deriving Repr, DecidableEq

/-- `src/hhx/mod2.rs:27-37` -/
structure Tubes (α : Type) where
  L_front : α
  L_rear : α
  L_inactive : α
  D_outer : α
  D_inner : α
  roughness : α
  N_total : UInt32
  materialtube : Material
  materialfin : Material

/-- `src/hhx/mod2.rs:41-45` -/
structure Shell (α : Type) where
  R_outer : α
  R_inner : α
  V_header : α

/-- `src/hhx/mod2.rs:49-53` -/
structure Fins (α : Type) where
  thickness : α
  pitch : α
  L_fin : α

/-- `src/hhx/mod2.rs:19-23` -/
structure Geometry (α : Type) where
  tubes : Tubes α
  shell : Shell α
  fins : Fins α

/-- `src/hhx/mod2.rs:12-15` -/
structure Config (α : Type) where
  geometry : Geometry α
  correlation : Correlation

end Mod2

namespace NuclearIsomerGPU3
/-- `src/hhx/ni_gpu3.rs:11-23` -/
structure Config (α : Type) where
  R_f : α
  L_f : α
  R_regen : α
  D_outer : α
  D_inner : α
  k_f : α
  roughness : α
  N_total : UInt32
  vol_h : α
  R_ins : α
  W_parasitic : α

end NuclearIsomerGPU3

namespace NuclearIsomerMod2
/-- `src/hhx/ni_mod2.rs:11-23` -/
structure Config (α : Type) where
  R_f : α
  L_f : α
  R_regen : α
  D_outer : α
  D_inner : α
  k_f : α
  roughness : α
  N_total : UInt32
  vol_h : α
  R_ins : α
  W_parasitic : α

end NuclearIsomerMod2

/-- `hhx::Config`, `src/hhx.rs:55-62` -/
inductive Config (α : Type) where
  | FixedApproach (c : FixedApproach.Config α)
  | FixedConductance (c : FixedConductance.Config α)
  | GPU3 (c : GPU3.Config α)
  | Mod2 (c : Mod2.Config α)
  | GPU3NI (c : NuclearIsomerGPU3.Config α)
  | Mod2NI (c : NuclearIsomerMod2.Config α)

/-- `hhx::LegacyConfig`, `src/hhx.rs:67-74` -/
inductive LegacyConfig (α : Type) where
  | FixedApproach (c : FixedApproach.Config α)
  | FixedConductance (c : FixedConductance.Config α)
  | GPU3 (c : GPU3.Config α)
  | Mod2 (c : Mod2.Config α)
  | GPU3NI (c : NuclearIsomerGPU3.Config α)
  | Mod2NI (c : NuclearIsomerMod2.Config α)

/-- `LegacyConfig::into`, `src/hhx.rs:78-87` -/
def LegacyConfig.into {α : Type} : LegacyConfig α → Config α
  | .FixedApproach params => .FixedApproach params
  | .FixedConductance params => .FixedConductance params
  | .GPU3 params => .GPU3 params
  | .Mod2 params => .Mod2 params
  | .GPU3NI params => .GPU3NI params
  | .Mod2NI params => .Mod2NI params

end hhx

/-! ## Whole configuration -/

/-- `ComponentsConfig`, `src/engine.rs:86-91` -/
structure ComponentsConfig (α : Type) where
  chx : chx.Config α
  hhx : hhx.Config α
  regen : regen.Config α
  ws : ws.Config α

/-- `engine::Config`, `src/engine.rs:80-83` -/
structure EngineConfig (α : Type) where
  fluid : fluid.Config
  components : ComponentsConfig α

/-- `Config`, `src/config.rs:10-14` -/
structure Config (α : Type) where
  engine : EngineConfig α
  solver : SolverConfig α
  conditions : ConditionsConfig α

/-- `Legacy`, `src/config.rs:17-25` -/
structure Legacy (α : Type) where
  fluid : fluid.LegacyConfig
  ws : ws.LegacyConfig α
  chx : chx.LegacyConfig α
  regen : regen.LegacyConfig α
  hhx : hhx.LegacyConfig α
  solver : LegacySolverConfig α
  conditions : LegacyConditionsConfig α

/-- `impl From<Legacy> for Config`, `src/config.rs:27-43` -/
def Legacy.toConfig {α : Type} (l : Legacy α) : Config α :=
  { engine :=
      { fluid := l.fluid.into
        components :=
          { chx := l.chx.into, hhx := l.hhx.into, regen := l.regen.into, ws := l.ws.into } }
    solver := l.solver.toSolver
    conditions := l.conditions.toConditions }

variable {α : Type} [Scalar α]

/-- The `ws:` arm of `Components::from`, `src/engine.rs:96-101`.  `GPU3::from`, `Mod2::from` are
`todo!()` (`src/ws/gpu3.rs:42-46`, `src/ws/mod2.rs:48-52`). -/
def ws.Config.build : ws.Config α → Panics (ws.WorkingSpaces α)
  | .Sinusoidal c => .ok (ws.SinusoidalDrive.ofConfig c).toWorkingSpaces
  | .Rhombic c => .ok (ws.RhombicDrive.ofConfig c).toWorkingSpaces
  | .GPU3 _ => .error (.panic "ws/gpu3.rs:44")
  | .Mod2 _ => .error (.panic "ws/mod2.rs:50")

/-- The `chx:` arm of `Components::from`, `src/engine.rs:102-109`; `todo!()` at
`src/chx/gpu3.rs:59`, `src/chx/mod2.rs:83`. -/
def chx.Config.build : chx.Config α → Panics (chx.ColdHeatExchanger α)
  | .FixedApproach c => .ok (chx.FixedApproach.ofConfig c).toColdHeatExchanger
  | .FixedConductance c => .ok (chx.FixedConductance.ofConfig c).toColdHeatExchanger
  | .GPU3 _ => .error (.panic "chx/gpu3.rs:59")
  | .Mod2 _ => .error (.panic "chx/mod2.rs:83")

/-- The `regen:` arm of `Components::from`, `src/engine.rs:110-119`; `todo!()` at
`src/regen/gpu3.rs:69`, `src/regen/mod2.rs:75`. -/
def regen.Config.build : regen.Config α → Panics (regen.Regenerator α)
  | .FixedApproach c => .ok (regen.FixedApproach.ofConfig c).toRegenerator
  | .FixedConductance c => .ok (regen.FixedConductance.ofConfig c).toRegenerator
  | .GPU3 _ => .error (.panic "regen/gpu3.rs:69")
  | .Mod2 _ => .error (.panic "regen/mod2.rs:75")

/-- The `hhx:` arm of `Components::from`, `src/engine.rs:120-129`; `todo!()` at
`src/hhx/gpu3.rs:49`, `src/hhx/mod2.rs:84`, `src/hhx/ni_gpu3.rs:49`, `src/hhx/ni_mod2.rs:49`. -/
def hhx.Config.build : hhx.Config α → Panics (hhx.HotHeatExchanger α)
  | .FixedApproach c => .ok (hhx.FixedApproach.ofConfig c).toHotHeatExchanger
  | .FixedConductance c => .ok (hhx.FixedConductance.ofConfig c).toHotHeatExchanger
  | .GPU3 _ => .error (.panic "hhx/gpu3.rs:49")
  | .Mod2 _ => .error (.panic "hhx/mod2.rs:84")
  | .GPU3NI _ => .error (.panic "hhx/ni_gpu3.rs:49")
  | .Mod2NI _ => .error (.panic "hhx/ni_mod2.rs:49")

/-- `impl From<ComponentsConfig> for Components`, `src/engine.rs:93-132`; fields are evaluated in
source order `ws`, `chx`, `regen`, `hhx`. -/
def ComponentsConfig.build (c : ComponentsConfig α) : Panics (Components α) := do
  let ws ← c.ws.build
  let chx ← c.chx.build
  let regen ← c.regen.build
  let hhx ← c.hhx.build
  return { ws, chx, regen, hhx }

end Sett
