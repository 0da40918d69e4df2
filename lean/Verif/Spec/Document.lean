import Verif.Model.Document

/-! # What a configuration document has to say

The names and the shape are written out literally, as a user would write them, independently of the renaming
rules and loops of the model. -/

namespace Sett

/-- The shape of the document for a value. -/
inductive Spec.Form (α : Type) where
  /-- a real number -/
  | num (x : α)
  /-- a 32-bit natural number -/
  | nat (n : UInt32)
  /-- a name -/
  | tag (t : String)
  /-- a table -/
  | table
  /-- a table with exactly one entry `k`, of the given shape, and what `rest` says besides -/
  | entry (k : String) (inner rest : Form α)
  /-- a table with a single entry, named after the variant -/
  | variant (t : String) (inner : Form α)
  /-- a table with exactly one entry `model`, holding the name -/
  | model (t : String)
  /-- a table with exactly one entry `model`, holding the name, and exactly one entry `params` -/
  | adjacent (t : String) (inner : Form α)
  /-- a table with exactly one entry `model`, holding the name, and no `params` except null -/
  | alone (t : String)

namespace Spec

variable {α : Type}

/-- The document is a table with exactly one entry under `k`, and that entry satisfies `p`. -/
def Has (d : Doc α) (k : String) (p : Doc α → Prop) : Prop :=
  ∃ es v, d = .table es ∧ es.filter (fun e => e.1 = k) = [(k, v)] ∧ p v

/-- The entries under `model` and `params`, in document order. -/
def pair (es : List (String × Doc α)) : List (String × Doc α) :=
  es.filter fun e => e.1 = "model" ∨ e.1 = "params"

/-- The text names the variant. -/
def SameName (s : Scalars α) (name t : String) : Prop :=
  name = t ∨ (s.caseless = true ∧ lower name = lower t)

/-- The document has the shape; scalars are converted by `s`, except below a `params` that precedes its `model`,
where they are converted by `buf`. -/
def Fits (buf : Scalars α) : Scalars α → Form α → Doc α → Prop
  | s, .num x, d => s.float d = some x
  | s, .nat n, d => s.uint d = some n
  | s, .tag t, d => ∃ u, d = .text u ∧ SameName s t u
  | _, .table, d => ∃ es, d = .table es
  | s, .entry k φ rest, d => Has d k (Fits buf s φ) ∧ Fits buf s rest d
  | s, .variant t φ, d => ∃ k v, d = .table [(k, v)] ∧ SameName s t k ∧ Fits buf s φ v
  | _, .model t, d => Has d "model" (· = .text t)
  | s, .adjacent t φ, d => ∃ es v, d = .table es ∧
      ((pair es = [("model", .text t), ("params", v)] ∧ Fits buf s φ v) ∨
       (pair es = [("params", v), ("model", .text t)] ∧ Fits buf buf φ v))
  | _, .alone t, d => ∃ es, d = .table es ∧ (pair es = [("model", .text t)] ∨
      pair es = [("model", .text t), ("params", .null)] ∨ pair es = [("params", .null), ("model", .text t)])

/-- How Material is written. -/
def form_Material : Material → Form α
  | .SS304 => .tag "SS304"
  | .Multimet => .tag "Multimet"
  | .StainlessSteel => .tag "StainlessSteel"

/-- How ToleranceConfig is written. -/
def form_ToleranceConfig (c : ToleranceConfig α) : Form α :=
  .entry "abs" (.num c.abs) <|
  .entry "rel" (.num c.rel) <|
  .table

/-- How InnerLoopConfig is written. -/
def form_InnerLoopConfig (c : InnerLoopConfig α) : Form α :=
  .entry "tolerance" (form_ToleranceConfig c.tolerance) <|
  .entry "max_iterations" (.nat c.max_iterations) <|
  .table

/-- How OuterLoopConfig is written. -/
def form_OuterLoopConfig (c : OuterLoopConfig α) : Form α :=
  .entry "tolerance" (form_ToleranceConfig c.tolerance) <|
  .entry "max_iterations" (.nat c.max_iterations) <|
  .table

/-- How OdeConfig is written. -/
def form_OdeConfig (c : OdeConfig α) : Form α :=
  .entry "tolerance" (form_ToleranceConfig c.tolerance) <|
  .entry "num_timesteps" (.nat c.num_timesteps) <|
  .table

/-- How SolverConfig is written. -/
def form_SolverConfig (c : SolverConfig α) : Form α :=
  .entry "inner_loop" (form_InnerLoopConfig c.inner_loop) <|
  .entry "outer_loop" (form_OuterLoopConfig c.outer_loop) <|
  .entry "ode" (form_OdeConfig c.ode) <|
  .table

/-- How LegacyOdeSolver is written. -/
def form_LegacyOdeSolver : LegacyOdeSolver → Form α
  | .Ode45 => .tag "ode45"

/-- How LegacySolverConfig is written. -/
def form_LegacySolverConfig (c : LegacySolverConfig α) : Form α :=
  .entry "innerLoopTolerance" (form_ToleranceConfig c.inner_loop_tolerance) <|
  .entry "outerLoopTolerance" (form_ToleranceConfig c.outer_loop_tolerance) <|
  .entry "odeTolerance" (form_ToleranceConfig c.ode_tolerance) <|
  .entry "odeSolver" (form_LegacyOdeSolver c.ode_solver) <|
  .entry "timeResolution" (.nat c.time_resolution) <|
  .table

/-- How ConditionsConfig is written. -/
def form_ConditionsConfig (c : ConditionsConfig α) : Form α :=
  .entry "temp_sink" (.num c.temp_sink) <|
  .entry "temp_source" (.num c.temp_source) <|
  .entry "pres_zero" (.num c.pres_zero) <|
  .table

/-- How LegacyConditionsConfig is written. -/
def form_LegacyConditionsConfig (c : LegacyConditionsConfig α) : Form α :=
  .entry "T_cold" (.num c.T_cold) <|
  .entry "T_hot" (.num c.T_hot) <|
  .entry "P_0" (.num c.P_0) <|
  .table

/-- How ws.SinusoidalDrive.Config is written. -/
def form_ws_SinusoidalDrive_Config (c : ws.SinusoidalDrive.Config α) : Form α :=
  .entry "frequency" (.num c.frequency) <|
  .entry "phase_angle" (.num c.phase_angle) <|
  .entry "V_swept_c" (.num c.V_swept_c) <|
  .entry "V_clearance_c" (.num c.V_clearance_c) <|
  .entry "R_c" (.num c.R_c) <|
  .entry "W_parasitic_c" (.num c.W_parasitic_c) <|
  .entry "V_swept_e" (.num c.V_swept_e) <|
  .entry "V_clearance_e" (.num c.V_clearance_e) <|
  .entry "R_e" (.num c.R_e) <|
  .entry "W_parasitic_e" (.num c.W_parasitic_e) <|
  .entry "Q_parasitic_e" (.num c.Q_parasitic_e) <|
  .table

/-- How ws.RhombicDrive.Config is written. -/
def form_ws_RhombicDrive_Config (c : ws.RhombicDrive.Config α) : Form α :=
  .entry "frequency" (.num c.frequency) <|
  .entry "V_clearance_c" (.num c.V_clearance_c) <|
  .entry "R_c" (.num c.R_c) <|
  .entry "W_parasitic_c" (.num c.W_parasitic_c) <|
  .entry "V_clearance_e" (.num c.V_clearance_e) <|
  .entry "R_e" (.num c.R_e) <|
  .entry "W_parasitic_e" (.num c.W_parasitic_e) <|
  .entry "Q_parasitic_e" (.num c.Q_parasitic_e) <|
  .entry "r_crank" (.num c.r_crank) <|
  .entry "L_conn" (.num c.L_conn) <|
  .entry "eccentricity" (.num c.eccentricity) <|
  .entry "D_p" (.num c.D_p) <|
  .entry "D_d" (.num c.D_d) <|
  .table

/-- How ws.GPU3.Config is written. -/
def form_ws_GPU3_Config (c : ws.GPU3.Config α) : Form α :=
  .entry "frequency" (.num c.frequency) <|
  .entry "V_clearance_c" (.num c.V_clearance_c) <|
  .entry "R_c" (.num c.R_c) <|
  .entry "V_clearance_e" (.num c.V_clearance_e) <|
  .entry "R_e" (.num c.R_e) <|
  .entry "r_crank" (.num c.r_crank) <|
  .entry "L_conn" (.num c.L_conn) <|
  .entry "eccentricity" (.num c.eccentricity) <|
  .entry "D" (.num c.D) <|
  .entry "D_dr" (.num c.D_dr) <|
  .entry "L" (.num c.L) <|
  .entry "h" (.num c.h) <|
  .table

/-- How ws.Mod2.Config is written. -/
def form_ws_Mod2_Config (c : ws.Mod2.Config α) : Form α :=
  .entry "frequency" (.num c.frequency) <|
  .entry "phaseAngle" (.num c.phaseAngle) <|
  .entry "D" (.num c.D) <|
  .entry "h" (.num c.h) <|
  .entry "L" (.num c.L) <|
  .entry "stroke" (.num c.stroke) <|
  .entry "V_clearance_c" (.num c.V_clearance_c) <|
  .entry "R_c" (.num c.R_c) <|
  .entry "V_clearance_e" (.num c.V_clearance_e) <|
  .entry "R_e" (.num c.R_e) <|
  .entry "material_p" (form_Material c.material_p) <|
  .entry "material_c" (form_Material c.material_c) <|
  .entry "th_pw" (.num c.th_pw) <|
  .entry "th_cw" (.num c.th_cw) <|
  .entry "L_cond" (.num c.L_cond) <|
  .entry "e" (.num c.e) <|
  .table

/-- How chx.FixedApproach.Config is written. -/
def form_chx_FixedApproach_Config (c : chx.FixedApproach.Config α) : Form α :=
  .entry "vol" (.num c.vol) <|
  .entry "DT" (.num c.DT) <|
  .entry "R_hyd" (.num c.R_hyd) <|
  .entry "W_parasitic" (.num c.W_parasitic) <|
  .table

/-- How chx.FixedConductance.Config is written. -/
def form_chx_FixedConductance_Config (c : chx.FixedConductance.Config α) : Form α :=
  .entry "vol" (.num c.vol) <|
  .entry "UA" (.num c.UA) <|
  .entry "R_hyd" (.num c.R_hyd) <|
  .entry "W_parasitic" (.num c.W_parasitic) <|
  .table

/-- How chx.GPU3.Coolant is written. -/
def form_chx_GPU3_Coolant : chx.GPU3.Coolant → Form α
  | .Water => .tag "Water"

/-- How chx.GPU3.Config is written. -/
def form_chx_GPU3_Config (c : chx.GPU3.Config α) : Form α :=
  .entry "length_total" (.num c.length_total) <|
  .entry "length_ht" (.num c.length_ht) <|
  .entry "D_inner" (.num c.D_inner) <|
  .entry "D_outer" (.num c.D_outer) <|
  .entry "N_total" (.nat c.N_total) <|
  .entry "N_shell" (.nat c.N_shell) <|
  .entry "D_sh" (.num c.D_sh) <|
  .entry "Ac_d" (.num c.Ac_d) <|
  .entry "roughness" (.num c.roughness) <|
  .entry "vol_h" (.num c.vol_h) <|
  .entry "m_dot_w" (.num c.m_dot_w) <|
  .entry "coolant" (form_chx_GPU3_Coolant c.coolant) <|
  .entry "m_dot_a" (.num c.m_dot_a) <|
  .entry "UA_a" (.num c.UA_a) <|
  .entry "W_parasitic" (.num c.W_parasitic) <|
  .table

/-- How chx.Mod2.Fluid is written. -/
def form_chx_Mod2_Fluid : chx.Mod2.Fluid → Form α
  | .Water => .tag "Water"

/-- How chx.Mod2.Correlation is written. -/
def form_chx_Mod2_Correlation : chx.Mod2.Correlation → Form α
  | .Oscillating => .tag "Oscillating"
  | .Steady => .tag "Steady"

/-- How chx.Mod2.Tubes is written. -/
def form_chx_Mod2_Tubes (c : chx.Mod2.Tubes α) : Form α :=
  .entry "length" (.num c.length) <|
  .entry "length_ht" (.num c.length_ht) <|
  .entry "D_outer" (.num c.D_outer) <|
  .entry "D_inner" (.num c.D_inner) <|
  .entry "N_total" (.nat c.N_total) <|
  .entry "roughness" (.num c.roughness) <|
  .entry "material" (form_Material c.material) <|
  .table

/-- How chx.Mod2.Shell is written. -/
def form_chx_Mod2_Shell (c : chx.Mod2.Shell α) : Form α :=
  .entry "R_inner" (.num c.R_inner) <|
  .entry "V_header" (.num c.V_header) <|
  .entry "Ac_header" (.num c.Ac_header) <|
  .table

/-- How chx.Mod2.Geometry is written. -/
def form_chx_Mod2_Geometry (c : chx.Mod2.Geometry α) : Form α :=
  .entry "tubes" (form_chx_Mod2_Tubes c.tubes) <|
  .entry "shell" (form_chx_Mod2_Shell c.shell) <|
  .table

/-- How chx.Mod2.Config is written. -/
def form_chx_Mod2_Config (c : chx.Mod2.Config α) : Form α :=
  .entry "geometry" (form_chx_Mod2_Geometry c.geometry) <|
  .entry "m_dot_p_fs" (.num c.m_dot_p_fs) <|
  .entry "W_dot_p_fs" (.num c.W_dot_p_fs) <|
  .entry "n_fs" (.num c.n_fs) <|
  .entry "fluid" (form_chx_Mod2_Fluid c.fluid) <|
  .entry "correlation" (form_chx_Mod2_Correlation c.correlation) <|
  .table

/-- How regen.FrictionFactorCorrelation is written. -/
def form_regen_FrictionFactorCorrelation : regen.FrictionFactorCorrelation → Form α
  | .GedeonWood => .tag "GedeonWood"

/-- How regen.JFactorCorrelation is written. -/
def form_regen_JFactorCorrelation : regen.JFactorCorrelation → Form α
  | .GedeonWood => .tag "GedeonWood"

/-- How regen.FixedApproach.Config is written. -/
def form_regen_FixedApproach_Config (c : regen.FixedApproach.Config α) : Form α :=
  .entry "vol" (.num c.vol) <|
  .entry "DT" (.num c.DT) <|
  .entry "R_hyd" (.num c.R_hyd) <|
  .entry "Q_parasitic" (.num c.Q_parasitic) <|
  .table

/-- How regen.FixedConductance.Config is written. -/
def form_regen_FixedConductance_Config (c : regen.FixedConductance.Config α) : Form α :=
  .entry "vol" (.num c.vol) <|
  .entry "UA" (.num c.UA) <|
  .entry "R_hyd" (.num c.R_hyd) <|
  .entry "Q_parasitic" (.num c.Q_parasitic) <|
  .table

/-- How regen.GPU3.Mesh is written. -/
def form_regen_GPU3_Mesh (c : regen.GPU3.Mesh α) : Form α :=
  .entry "material" (form_Material c.material) <|
  .entry "D_wire" (.num c.D_wire) <|
  .entry "pitch" (.num c.pitch) <|
  .table

/-- How regen.GPU3.Shell is written. -/
def form_regen_GPU3_Shell (c : regen.GPU3.Shell α) : Form α :=
  .entry "diameter" (.num c.diameter) <|
  .entry "length" (.num c.length) <|
  .entry "number" (.nat c.number) <|
  .table

/-- How regen.GPU3.Geometry is written. -/
def form_regen_GPU3_Geometry (c : regen.GPU3.Geometry α) : Form α :=
  .entry "vol_h" (.num c.vol_h) <|
  .entry "mesh" (form_regen_GPU3_Mesh c.mesh) <|
  .entry "shell" (form_regen_GPU3_Shell c.shell) <|
  .table

/-- How regen.GPU3.Config is written. -/
def form_regen_GPU3_Config (c : regen.GPU3.Config α) : Form α :=
  .entry "geometry" (form_regen_GPU3_Geometry c.geometry) <|
  .entry "Q_parasitic" (.num c.Q_parasitic) <|
  .entry "bypass" (.num c.bypass) <|
  .entry "correlationf" (form_regen_FrictionFactorCorrelation c.correlationf) <|
  .entry "correlationj" (form_regen_JFactorCorrelation c.correlationj) <|
  .table

/-- How regen.Mod2.Correlation is written. -/
def form_regen_Mod2_Correlation : regen.Mod2.Correlation → Form α
  | .Steady => .tag "Steady"
  | .Oscillating => .tag "Oscillating"

/-- How regen.Mod2.Mesh is written. -/
def form_regen_Mod2_Mesh (c : regen.Mod2.Mesh α) : Form α :=
  .entry "material" (form_Material c.material) <|
  .entry "D_wire" (.num c.D_wire) <|
  .entry "pitch" (.num c.pitch) <|
  .table

/-- How regen.Mod2.Shell is written. -/
def form_regen_Mod2_Shell (c : regen.Mod2.Shell α) : Form α :=
  .entry "material" (form_Material c.material) <|
  .entry "R_sh" (.num c.R_sh) <|
  .entry "th_sh_cold" (.num c.th_sh_cold) <|
  .entry "th_sh_hot" (.num c.th_sh_hot) <|
  .entry "length" (.num c.length) <|
  .table

/-- How regen.Mod2.Geometry is written. -/
def form_regen_Mod2_Geometry (c : regen.Mod2.Geometry α) : Form α :=
  .entry "mesh" (form_regen_Mod2_Mesh c.mesh) <|
  .entry "shell" (form_regen_Mod2_Shell c.shell) <|
  .table

/-- How regen.Mod2.Config is written. -/
def form_regen_Mod2_Config (c : regen.Mod2.Config α) : Form α :=
  .entry "geometry" (form_regen_Mod2_Geometry c.geometry) <|
  .entry "correlationtype" (form_regen_Mod2_Correlation c.correlationtype) <|
  .entry "correlationf" (form_regen_FrictionFactorCorrelation c.correlationf) <|
  .entry "correlationj" (form_regen_JFactorCorrelation c.correlationj) <|
  .table

/-- How hhx.FixedApproach.Config is written. -/
def form_hhx_FixedApproach_Config (c : hhx.FixedApproach.Config α) : Form α :=
  .entry "vol" (.num c.vol) <|
  .entry "DT" (.num c.DT) <|
  .entry "R_hyd" (.num c.R_hyd) <|
  .entry "W_parasitic" (.num c.W_parasitic) <|
  .entry "Q_parasitic" (.num c.Q_parasitic) <|
  .table

/-- How hhx.FixedConductance.Config is written. -/
def form_hhx_FixedConductance_Config (c : hhx.FixedConductance.Config α) : Form α :=
  .entry "vol" (.num c.vol) <|
  .entry "UA" (.num c.UA) <|
  .entry "R_hyd" (.num c.R_hyd) <|
  .entry "W_parasitic" (.num c.W_parasitic) <|
  .entry "Q_parasitic" (.num c.Q_parasitic) <|
  .table

/-- How hhx.GPU3.Config is written. -/
def form_hhx_GPU3_Config (c : hhx.GPU3.Config α) : Form α :=
  .entry "L_total" (.num c.L_total) <|
  .entry "L_htr" (.num c.L_htr) <|
  .entry "R_tc" (.num c.R_tc) <|
  .entry "D_outer" (.num c.D_outer) <|
  .entry "D_inner" (.num c.D_inner) <|
  .entry "roughness" (.num c.roughness) <|
  .entry "N_total" (.nat c.N_total) <|
  .entry "vol_h" (.num c.vol_h) <|
  .entry "eta_comb" (.num c.eta_comb) <|
  .entry "R_c_loss" (.num c.R_c_loss) <|
  .entry "W_parasitic" (.num c.W_parasitic) <|
  .table

/-- How hhx.Mod2.Correlation is written. -/
def form_hhx_Mod2_Correlation : hhx.Mod2.Correlation → Form α
  | .Oscillating => .tag "Oscillating"
  | .Steady => .tag "Steady"

/-- How hhx.Mod2.Tubes is written. -/
def form_hhx_Mod2_Tubes (c : hhx.Mod2.Tubes α) : Form α :=
  .entry "L_front" (.num c.L_front) <|
  .entry "L_rear" (.num c.L_rear) <|
  .entry "L_inactive" (.num c.L_inactive) <|
  .entry "D_outer" (.num c.D_outer) <|
  .entry "D_inner" (.num c.D_inner) <|
  .entry "roughness" (.num c.roughness) <|
  .entry "N_total" (.nat c.N_total) <|
  .entry "materialtube" (form_Material c.materialtube) <|
  .entry "materialfin" (form_Material c.materialfin) <|
  .table

/-- How hhx.Mod2.Shell is written. -/
def form_hhx_Mod2_Shell (c : hhx.Mod2.Shell α) : Form α :=
  .entry "R_outer" (.num c.R_outer) <|
  .entry "R_inner" (.num c.R_inner) <|
  .entry "V_header" (.num c.V_header) <|
  .table

/-- How hhx.Mod2.Fins is written. -/
def form_hhx_Mod2_Fins (c : hhx.Mod2.Fins α) : Form α :=
  .entry "thickness" (.num c.thickness) <|
  .entry "pitch" (.num c.pitch) <|
  .entry "L_fin" (.num c.L_fin) <|
  .table

/-- How hhx.Mod2.Geometry is written. -/
def form_hhx_Mod2_Geometry (c : hhx.Mod2.Geometry α) : Form α :=
  .entry "tubes" (form_hhx_Mod2_Tubes c.tubes) <|
  .entry "shell" (form_hhx_Mod2_Shell c.shell) <|
  .entry "fins" (form_hhx_Mod2_Fins c.fins) <|
  .table

/-- How hhx.Mod2.Config is written. -/
def form_hhx_Mod2_Config (c : hhx.Mod2.Config α) : Form α :=
  .entry "geometry" (form_hhx_Mod2_Geometry c.geometry) <|
  .entry "correlation" (form_hhx_Mod2_Correlation c.correlation) <|
  .table

/-- How hhx.NuclearIsomerGPU3.Config is written. -/
def form_hhx_NuclearIsomerGPU3_Config (c : hhx.NuclearIsomerGPU3.Config α) : Form α :=
  .entry "R_f" (.num c.R_f) <|
  .entry "L_f" (.num c.L_f) <|
  .entry "R_regen" (.num c.R_regen) <|
  .entry "D_outer" (.num c.D_outer) <|
  .entry "D_inner" (.num c.D_inner) <|
  .entry "k_f" (.num c.k_f) <|
  .entry "roughness" (.num c.roughness) <|
  .entry "N_total" (.nat c.N_total) <|
  .entry "vol_h" (.num c.vol_h) <|
  .entry "R_ins" (.num c.R_ins) <|
  .entry "W_parasitic" (.num c.W_parasitic) <|
  .table

/-- How hhx.NuclearIsomerMod2.Config is written. -/
def form_hhx_NuclearIsomerMod2_Config (c : hhx.NuclearIsomerMod2.Config α) : Form α :=
  .entry "R_f" (.num c.R_f) <|
  .entry "L_f" (.num c.L_f) <|
  .entry "R_regen" (.num c.R_regen) <|
  .entry "D_outer" (.num c.D_outer) <|
  .entry "D_inner" (.num c.D_inner) <|
  .entry "k_f" (.num c.k_f) <|
  .entry "roughness" (.num c.roughness) <|
  .entry "N_total" (.nat c.N_total) <|
  .entry "vol_h" (.num c.vol_h) <|
  .entry "R_ins" (.num c.R_ins) <|
  .entry "W_parasitic" (.num c.W_parasitic) <|
  .table

/-- How fluid.LegacyFluidOption is written. -/
def form_fluid_LegacyFluidOption : fluid.LegacyFluidOption → Form α
  | .Hydrogen => .tag "Hydrogen"
  | .Helium => .tag "Helium"

/-- How `fluid.ModelConfig` is written. -/
def form_fluid_ModelConfig : fluid.ModelConfig → Form α
  | .Custom => .model "custom"
  | .Fit => .model "fit"
  | .IdealGas => .model "ideal_gas"
  | .RefProp => .model "ref_prop"

/-- How `fluid.Config` is written. -/
def form_fluid_Config : fluid.Config → Form α
  | .Hydrogen m => .variant "hydrogen" (form_fluid_ModelConfig m)
  | .Helium m => .variant "helium" (form_fluid_ModelConfig m)

/-- How `fluid.LegacyConfig` is written. -/
def form_fluid_LegacyConfig : fluid.LegacyConfig → Form α
  | .Hydrogen => .alone "Hydrogen"
  | .RealGasRefprop n => .adjacent "RealGasRefprop" <| .entry "name" (form_fluid_LegacyFluidOption n) <| .table
  | .IdealGas n => .adjacent "IdealGas" <| .entry "name" (form_fluid_LegacyFluidOption n) <| .table

/-- How `ws.Config` is written. -/
def form_ws_Config : ws.Config α → Form α
  | .Sinusoidal c => .variant "sinusoidal" (form_ws_SinusoidalDrive_Config c)
  | .Rhombic c => .variant "rhombic" (form_ws_RhombicDrive_Config c)
  | .GPU3 c => .variant "g_p_u3" (form_ws_GPU3_Config c)
  | .Mod2 c => .variant "mod2" (form_ws_Mod2_Config c)

/-- How `ws.LegacyConfig` is written. -/
def form_ws_LegacyConfig : ws.LegacyConfig α → Form α
  | .Sinusoidal c => .adjacent "Sinusoidal" (form_ws_SinusoidalDrive_Config c)
  | .Rhombic c => .adjacent "Rhombic" (form_ws_RhombicDrive_Config c)
  | .GPU3 c => .adjacent "GPU3" (form_ws_GPU3_Config c)
  | .Mod2 c => .adjacent "Mod2" (form_ws_Mod2_Config c)

/-- How `chx.Config` is written. -/
def form_chx_Config : chx.Config α → Form α
  | .FixedApproach c => .variant "fixed_approach" (form_chx_FixedApproach_Config c)
  | .FixedConductance c => .variant "fixed_conductance" (form_chx_FixedConductance_Config c)
  | .GPU3 c => .variant "g_p_u3" (form_chx_GPU3_Config c)
  | .Mod2 c => .variant "mod2" (form_chx_Mod2_Config c)

/-- How `chx.LegacyConfig` is written. -/
def form_chx_LegacyConfig : chx.LegacyConfig α → Form α
  | .FixedApproach c => .adjacent "FixedApproach" (form_chx_FixedApproach_Config c)
  | .FixedConductance c => .adjacent "FixedConductance" (form_chx_FixedConductance_Config c)
  | .GPU3 c => .adjacent "GPU3" (form_chx_GPU3_Config c)
  | .Mod2 c => .adjacent "Mod2" (form_chx_Mod2_Config c)

/-- How `regen.Config` is written. -/
def form_regen_Config : regen.Config α → Form α
  | .FixedApproach c => .variant "fixed_approach" (form_regen_FixedApproach_Config c)
  | .FixedConductance c => .variant "fixed_conductance" (form_regen_FixedConductance_Config c)
  | .GPU3 c => .variant "g_p_u3" (form_regen_GPU3_Config c)
  | .Mod2 c => .variant "mod2" (form_regen_Mod2_Config c)

/-- How `regen.LegacyConfig` is written. -/
def form_regen_LegacyConfig : regen.LegacyConfig α → Form α
  | .FixedApproach c => .adjacent "FixedApproach" (form_regen_FixedApproach_Config c)
  | .FixedConductance c => .adjacent "FixedConductance" (form_regen_FixedConductance_Config c)
  | .GPU3 c => .adjacent "GPU3" (form_regen_GPU3_Config c)
  | .Mod2 c => .adjacent "Mod2" (form_regen_Mod2_Config c)

/-- How `hhx.Config` is written. -/
def form_hhx_Config : hhx.Config α → Form α
  | .FixedApproach c => .variant "fixed_approach" (form_hhx_FixedApproach_Config c)
  | .FixedConductance c => .variant "fixed_conductance" (form_hhx_FixedConductance_Config c)
  | .GPU3 c => .variant "g_p_u3" (form_hhx_GPU3_Config c)
  | .Mod2 c => .variant "mod2" (form_hhx_Mod2_Config c)
  | .GPU3NI c => .variant "g_p_u3_n_i" (form_hhx_NuclearIsomerGPU3_Config c)
  | .Mod2NI c => .variant "mod2_n_i" (form_hhx_NuclearIsomerMod2_Config c)

/-- How `hhx.LegacyConfig` is written. -/
def form_hhx_LegacyConfig : hhx.LegacyConfig α → Form α
  | .FixedApproach c => .adjacent "FixedApproach" (form_hhx_FixedApproach_Config c)
  | .FixedConductance c => .adjacent "FixedConductance" (form_hhx_FixedConductance_Config c)
  | .GPU3 c => .adjacent "GPU3" (form_hhx_GPU3_Config c)
  | .Mod2 c => .adjacent "Mod2" (form_hhx_Mod2_Config c)
  | .GPU3NI c => .adjacent "GPU3NI" (form_hhx_NuclearIsomerGPU3_Config c)
  | .Mod2NI c => .adjacent "Mod2NI" (form_hhx_NuclearIsomerMod2_Config c)

/-- How `ComponentsConfig` is written. -/
def form_ComponentsConfig (c : ComponentsConfig α) : Form α :=
  .entry "chx" (form_chx_Config c.chx) <|
  .entry "hhx" (form_hhx_Config c.hhx) <|
  .entry "regen" (form_regen_Config c.regen) <|
  .entry "ws" (form_ws_Config c.ws) <|
  .table

/-- How `EngineConfig` is written. -/
def form_EngineConfig (c : EngineConfig α) : Form α :=
  .entry "fluid" (form_fluid_Config c.fluid) <|
  .entry "components" (form_ComponentsConfig c.components) <|
  .table

/-- How a configuration is written. -/
def form_Config (c : Config α) : Form α :=
  .entry "engine" (form_EngineConfig c.engine) <|
  .entry "solver" (form_SolverConfig c.solver) <|
  .entry "conditions" (form_ConditionsConfig c.conditions) <|
  .table

/-- How a legacy configuration is written. -/
def form_Legacy (c : Legacy α) : Form α :=
  .entry "fluid" (form_fluid_LegacyConfig c.fluid) <|
  .entry "ws" (form_ws_LegacyConfig c.ws) <|
  .entry "chx" (form_chx_LegacyConfig c.chx) <|
  .entry "regen" (form_regen_LegacyConfig c.regen) <|
  .entry "hhx" (form_hhx_LegacyConfig c.hhx) <|
  .entry "solver" (form_LegacySolverConfig c.solver) <|
  .entry "conditions" (form_LegacyConditionsConfig c.conditions) <|
  .table

/-- The plain way to write a document of the form. -/
def Form.doc : Form α → Doc α
  | .num x => .real x
  | .nat n => .int n.toNat
  | .tag t => .text t
  | .table => .table []
  | .entry k φ rest => .table ((k, φ.doc) :: match rest.doc with
    | .table es => es
    | _ => [])
  | .variant t φ => .table [(t, φ.doc)]
  | .model t => .table [("model", .text t)]
  | .adjacent t φ => .table [("model", .text t), ("params", φ.doc)]
  | .alone t => .table [("model", .text t)]

/-- The scalars are read as they are written. -/
structure ReadsNumbers (s : Scalars α) : Prop where
  real : ∀ x, s.float (.real x) = some x
  nat : ∀ n : UInt32, s.uint (.int n.toNat) = some n

/-- No number is read from a table. -/
structure NoTables (s : Scalars α) : Prop where
  float : ∀ es, s.float (.table es) = none
  uint : ∀ es, s.uint (.table es) = none

/-- Whatever `a` reads, `b` reads as the same. -/
structure Weaker (a b : Scalars α) : Prop where
  float : ∀ d x, a.float d = some x → b.float d = some x
  uint : ∀ d x, a.uint d = some x → b.uint d = some x
  caseless : a.caseless = true → b.caseless = true

/-- The same document, but for the order of the keys. -/
inductive Reordered : Doc α → Doc α → Prop where
  | refl (d) : Reordered d d
  | perm {es es'} : List.Perm es es' → Reordered (.table es) (.table es')
  | inside (a b) (k : String) {v w} : Reordered v w → Reordered (.table (a ++ (k, v) :: b)) (.table (a ++ (k, w) :: b))
  | trans {d e f} : Reordered d e → Reordered e f → Reordered d f

end Spec

end Sett
