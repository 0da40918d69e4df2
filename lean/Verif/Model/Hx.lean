import Verif.Model.Types

/-! # Heat-exchanger components: `src/chx*.rs`, `src/regen*.rs`, `src/hhx*.rs`

`GPU3`, `Mod2` and the nuclear-isomer components have only `todo!()` bodies and appear in
`Verif/Model/Config.lean` as conversions that panic. -/

namespace Sett

variable {α : Type} [Scalar α]

/-! ## Cold heat exchanger -/
namespace chx

/-- `chx::State`, `src/chx.rs:44-47` -/
structure State (α : Type) where
  hxr : HeatExchanger α
  sink_temp : α

/-- The `ColdHeatExchanger` trait, `src/chx.rs:17-41` -/
structure ColdHeatExchanger (α : Type) where
  volume : α
  approach : State α → α
  hydraulic_resistance : State α → α
  parasitics : State α → ParasiticPower α
  initial_approach : α

/-- `src/chx/fixed_approach.rs:14-19` -/
structure FixedApproach (α : Type) where
  R_hyd : α
  volume : α
  approach : α
  parasitics : ParasiticPower α

namespace FixedApproach
/-- `src/chx/fixed_approach.rs:24-29` -/
structure Config (α : Type) where
  vol : α
  DT : α
  R_hyd : α
  W_parasitic : α

/-- `FixedApproach::new`, `src/chx/fixed_approach.rs:43-50` -/
def new (volume R_hyd approach : α) (parasitics : ParasiticPower α) : FixedApproach α :=
  { R_hyd, volume, approach, parasitics }

/-- `impl Default for FixedApproach`, `src/chx/fixed_approach.rs:75-84` (constants lines 7-10) -/
def default : FixedApproach α :=
  { R_hyd := 0.0, volume := 4.0e-5, approach := 40.0, parasitics := ParasiticPower.default }

/-- `impl Default for Config`, `src/chx/fixed_approach.rs:86-95` -/
def Config.default : Config α := { vol := 4.0e-5, DT := 40.0, R_hyd := 0.0, W_parasitic := 0.0 }

/-- `impl From<Config>`, `src/chx/fixed_approach.rs:97-110` -/
def ofConfig (config : Config α) : FixedApproach α :=
  { R_hyd := config.R_hyd
    volume := config.vol
    approach := config.DT
    parasitics := { ParasiticPower.default with mechanical := config.W_parasitic } }

/-- `impl ColdHeatExchanger for FixedApproach`, `src/chx/fixed_approach.rs:53-73` -/
def toColdHeatExchanger (x : FixedApproach α) : ColdHeatExchanger α where
  volume := x.volume
  approach _ := x.approach
  hydraulic_resistance _ := x.R_hyd
  parasitics _ := x.parasitics
  initial_approach := x.approach
end FixedApproach

/-- `src/chx/fixed_conductance.rs:16-21` -/
structure FixedConductance (α : Type) where
  R_hyd : α
  volume : α
  UA : α
  parasitics : ParasiticPower α

namespace FixedConductance
/-- `src/chx/fixed_conductance.rs:26-31` -/
structure Config (α : Type) where
  vol : α
  UA : α
  R_hyd : α
  W_parasitic : α

/-- `approach`, `src/chx/fixed_conductance.rs:61-67` -/
def approach (x : FixedConductance α) (state : State α) : α :=
  let C_dot_avg := state.hxr.cp * state.hxr.m_dot
  let NTU := x.UA / C_dot_avg
  let effectiveness := 1.0 - Scalar.exp (-NTU)
  (state.hxr.Q_dot / C_dot_avg) * (1.0 / effectiveness - 1.0)

/-- `initial_approach`, `src/chx/fixed_conductance.rs:77-83` -/
def initial_approach (x : FixedConductance α) : α :=
  if Scalar.lt x.UA 0.0 then 0.0 else 10.0

/-- `impl ColdHeatExchanger for FixedConductance`, `src/chx/fixed_conductance.rs:55-84` -/
def toColdHeatExchanger (x : FixedConductance α) : ColdHeatExchanger α where
  volume := x.volume
  approach := x.approach
  hydraulic_resistance _ := x.R_hyd
  parasitics _ := x.parasitics
  initial_approach := x.initial_approach

/-- `impl Default for FixedConductance`, `src/chx/fixed_conductance.rs:86-95` -/
def default : FixedConductance α :=
  { R_hyd := 0.0, volume := 4.0e-5, UA := 400.0, parasitics := ParasiticPower.default }

/-- `impl Default for Config`, `src/chx/fixed_conductance.rs:97-106` -/
def Config.default : Config α := { vol := 4.0e-5, UA := 400.0, R_hyd := 0.0, W_parasitic := 0.0 }

/-- `impl From<Config>`, `src/chx/fixed_conductance.rs:108-121` -/
def ofConfig (config : Config α) : FixedConductance α :=
  { R_hyd := config.R_hyd
    volume := config.vol
    UA := config.UA
    parasitics := { ParasiticPower.default with mechanical := config.W_parasitic } }
end FixedConductance
end chx

/-! ## Regenerator -/
namespace regen

/-- `regen::State`, `src/regen.rs:46-50` -/
structure State (α : Type) where
  hxr : HeatExchanger α
  temp_chx : α
  temp_hhx : α

/-- The `Regenerator` trait, `src/regen.rs:18-43` -/
structure Regenerator (α : Type) where
  volume : α
  approach : State α → α
  hydraulic_resistance : State α → α
  parasitics : State α → ParasiticPower α
  initial_approach : α

/-- `src/regen/fixed_approach.rs:9-14` -/
structure FixedApproach (α : Type) where
  R_hyd : α
  volume : α
  approach : α
  parasitics : ParasiticPower α

namespace FixedApproach
/-- `src/regen/fixed_approach.rs:18-23` -/
structure Config (α : Type) where
  vol : α
  DT : α
  R_hyd : α
  Q_parasitic : α

/-- `FixedApproach::new`, `src/regen/fixed_approach.rs:37-44` -/
def new (volume R_hyd approach : α) (parasitics : ParasiticPower α) : FixedApproach α :=
  { R_hyd, volume, approach, parasitics }

/-- `impl Default for FixedApproach`, `src/regen/fixed_approach.rs:69-78` -/
def default : FixedApproach α :=
  { R_hyd := 0.0, volume := 1.0e-4, approach := 10.0, parasitics := ParasiticPower.default }

/-- `impl Default for Config`, `src/regen/fixed_approach.rs:80-89` -/
def Config.default : Config α := { vol := 1e-4, DT := 10.0, R_hyd := 0.0, Q_parasitic := 0.0 }

/-- `impl From<Config>`, `src/regen/fixed_approach.rs:91-104` -/
def ofConfig (config : Config α) : FixedApproach α :=
  { R_hyd := config.R_hyd
    volume := config.vol
    approach := config.DT
    parasitics := { ParasiticPower.default with thermal := config.Q_parasitic } }

/-- `impl Regenerator for FixedApproach`, `src/regen/fixed_approach.rs:47-67` -/
def toRegenerator (x : FixedApproach α) : Regenerator α where
  volume := x.volume
  approach _ := x.approach
  hydraulic_resistance _ := x.R_hyd
  parasitics _ := x.parasitics
  initial_approach := x.approach
end FixedApproach

/-- `src/regen/fixed_conductance.rs:16-21` -/
structure FixedConductance (α : Type) where
  R_hyd : α
  volume : α
  UA : α
  parasitics : ParasiticPower α

namespace FixedConductance
/-- `src/regen/fixed_conductance.rs:26-31` -/
structure Config (α : Type) where
  vol : α
  UA : α
  R_hyd : α
  Q_parasitic : α

/-- `approach`, `src/regen/fixed_conductance.rs:52-58` -/
def approach (x : FixedConductance α) (state : State α) : α :=
  let C_dot_avg := state.hxr.cp * state.hxr.m_dot
  let NTU := x.UA / C_dot_avg
  let effectiveness := (NTU / 2.0) / (1.0 + (NTU / 2.0))
  (1.0 - effectiveness) * (state.temp_hhx - state.temp_chx)

/-- `impl Regenerator for FixedConductance`, `src/regen/fixed_conductance.rs:46-71` -/
def toRegenerator (x : FixedConductance α) : Regenerator α where
  volume := x.volume
  approach := x.approach
  hydraulic_resistance _ := x.R_hyd
  parasitics _ := x.parasitics
  initial_approach := 10.0

/-- `impl Default for FixedConductance`, `src/regen/fixed_conductance.rs:73-82` -/
def default : FixedConductance α :=
  { R_hyd := 0.0, volume := 1.0e-4, UA := 70000.0, parasitics := ParasiticPower.default }

/-- `impl Default for Config`, `src/regen/fixed_conductance.rs:84-93` -/
def Config.default : Config α :=
  { vol := 1.0e-4, UA := 70000.0, R_hyd := 0.0, Q_parasitic := 0.0 }

/-- `impl From<Config>`, `src/regen/fixed_conductance.rs:95-108` -/
def ofConfig (config : Config α) : FixedConductance α :=
  { R_hyd := config.R_hyd
    volume := config.vol
    UA := config.UA
    parasitics := { ParasiticPower.default with thermal := config.Q_parasitic } }
end FixedConductance
end regen

/-! ## Hot heat exchanger -/
namespace hhx

/-- `hhx::State`, `src/hhx.rs:47-50` -/
structure State (α : Type) where
  hxr : HeatExchanger α
  source_temp : α

/-- The `HotHeatExchanger` trait, `src/hhx.rs:20-44` -/
structure HotHeatExchanger (α : Type) where
  volume : α
  approach : State α → α
  hydraulic_resistance : State α → α
  parasitics : State α → ParasiticPower α
  initial_approach : α

/-- `src/hhx/fixed_approach.rs:15-20` -/
structure FixedApproach (α : Type) where
  R_hyd : α
  volume : α
  approach : α
  parasitics : ParasiticPower α

namespace FixedApproach
/-- `src/hhx/fixed_approach.rs:24-30` -/
structure Config (α : Type) where
  vol : α
  DT : α
  R_hyd : α
  W_parasitic : α
  Q_parasitic : α

/-- `FixedApproach::new`, `src/hhx/fixed_approach.rs:44-51` -/
def new (volume R_hyd approach : α) (parasitics : ParasiticPower α) : FixedApproach α :=
  { R_hyd, volume, approach, parasitics }

/-- `impl Default for FixedApproach`, `src/hhx/fixed_approach.rs:76-85` -/
def default : FixedApproach α :=
  { R_hyd := 0.0, volume := 1.0e-4, approach := 100.0, parasitics := ParasiticPower.default }

/-- `impl Default for Config`, `src/hhx/fixed_approach.rs:87-97` -/
def Config.default : Config α :=
  { vol := 1.0e-4, DT := 100.0, R_hyd := 0.0, W_parasitic := 0.0, Q_parasitic := 0.0 }

/-- `impl From<Config>`, `src/hhx/fixed_approach.rs:99-113` -/
def ofConfig (config : Config α) : FixedApproach α :=
  { R_hyd := config.R_hyd
    volume := config.vol
    approach := config.DT
    parasitics := { ParasiticPower.default with
      mechanical := config.W_parasitic
      thermal := config.Q_parasitic } }

/-- `impl HotHeatExchanger for FixedApproach`, `src/hhx/fixed_approach.rs:54-74` -/
def toHotHeatExchanger (x : FixedApproach α) : HotHeatExchanger α where
  volume := x.volume
  approach _ := x.approach
  hydraulic_resistance _ := x.R_hyd
  parasitics _ := x.parasitics
  initial_approach := x.approach
end FixedApproach

/-- `src/hhx/fixed_conductance.rs:17-22` -/
structure FixedConductance (α : Type) where
  R_hyd : α
  volume : α
  UA : α
  parasitics : ParasiticPower α

namespace FixedConductance
/-- `src/hhx/fixed_conductance.rs:27-33` -/
structure Config (α : Type) where
  vol : α
  UA : α
  R_hyd : α
  W_parasitic : α
  Q_parasitic : α

/-- `approach`, `src/hhx/fixed_conductance.rs:54-60` -/
def approach (x : FixedConductance α) (state : State α) : α :=
  let C_dot_avg := state.hxr.cp * state.hxr.m_dot
  let NTU := x.UA / C_dot_avg
  let effectiveness := 1.0 - Scalar.exp (-NTU)
  (state.hxr.Q_dot / C_dot_avg) * (1.0 / effectiveness - 1.0)

/-- `impl HotHeatExchanger for FixedConductance`, `src/hhx/fixed_conductance.rs:48-73` -/
def toHotHeatExchanger (x : FixedConductance α) : HotHeatExchanger α where
  volume := x.volume
  approach := x.approach
  hydraulic_resistance _ := x.R_hyd
  parasitics _ := x.parasitics
  initial_approach := 10.0

/-- `impl Default for FixedConductance`, `src/hhx/fixed_conductance.rs:75-84` -/
def default : FixedConductance α :=
  { R_hyd := 0.0, volume := 1.0e-4, UA := 100.0, parasitics := ParasiticPower.default }

/-- `impl Default for Config`, `src/hhx/fixed_conductance.rs:86-96` -/
def Config.default : Config α :=
  { vol := 1.0e-4, UA := 100.0, R_hyd := 0.0, W_parasitic := 0.0, Q_parasitic := 0.0 }

/-- `impl From<Config>`, `src/hhx/fixed_conductance.rs:98-112` -/
def ofConfig (config : Config α) : FixedConductance α :=
  { R_hyd := config.R_hyd
    volume := config.vol
    UA := config.UA
    parasitics := { ParasiticPower.default with
      thermal := config.Q_parasitic
      mechanical := config.W_parasitic } }
end FixedConductance
end hhx

end Sett
