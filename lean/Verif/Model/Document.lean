import Verif.Model.Serde

/-! # Reading a configuration document

What the `Deserialize` implementations derived in `src/config.rs`, `src/types.rs`, `src/engine.rs`, `src/fluid.rs`,
`src/ws.rs`, `src/chx.rs`, `src/regen.rs`, `src/hhx.rs` and the files below them do with a parsed document.
serde is a dependency: the loops below follow the code that `serde_derive` 1.0 generates.  Simplifications: every
error is `none`; a document is what a text format leaves after parsing (comments, quoting and number syntax are
gone); sequences and booleans, which no configuration type accepts in the shipped formats, are absent; names of
variants and keys are text, never an index; a unit variant is text. -/

namespace Sett

/-- A parsed document. -/
inductive Doc (α : Type) where
  | null
  | real (x : α)
  | int (z : ℤ)
  | text (s : String)
  | table (entries : List (String × Doc α))

/-- How the scalars of a document are turned into Rust values: by the format when serde reads straight from it,
by serde's own buffer when it had to read ahead. -/
structure Scalars (α : Type) where
  /-- Names of enum variants are compared without regard to case. -/
  caseless : Bool
  /-- `f64::deserialize` -/
  float : Doc α → Option α
  /-- `u32::deserialize` -/
  uint : Doc α → Option UInt32

/-- The text in lower case. -/
def lower (t : String) : String := String.ofList (t.toList.map Char.toLower)

/-- Whether the text `t` names the variant `name`. -/
def Scalars.same {α : Type} (s : Scalars α) (name t : String) : Bool :=
  if s.caseless then lower name == lower t else name == t

/-- `rename_all = "snake_case"` on a variant. -/
def snakeTag (n : String) : String := String.ofList (serde.snakeVariant n.toList)
/-- `rename_all = "camelCase"` on a variant. -/
def camelTag (n : String) : String := String.ofList (serde.camelVariant n.toList)
/-- `rename_all = "camelCase"` on a field. -/
def camelKey (n : String) : String := String.ofList (serde.camelField n.toList)

section
variable {α : Type}

/-- The loop of a derived `visit_map` over the entries: values of known fields are kept, a field that is already
there is an error (`duplicate_field`), other keys are skipped (`IgnoredAny`). -/
def collect (fields : List String) : List (String × Doc α) → List (String × Doc α) → Option (List (String × Doc α))
  | [], acc => some acc
  | (k, v) :: es, acc =>
    if k ∈ fields then
      if acc.any fun e => e.1 == k then none else collect fields es (acc ++ [(k, v)])
    else collect fields es acc

/-- The values found for the fields of a struct. -/
structure Slots (α : Type) where
  found : List (String × Doc α)

/-- A derived `Deserialize` for a struct asks for a map. -/
def slots (fields : List String) : Doc α → Option (Slots α)
  | .table es => (collect fields es []).map Slots.mk
  | _ => none

/-- A field without `#[serde(default)]`, as all fields here are: an error if it is missing (`missing_field`). -/
def Slots.req {β : Type} (m : Slots α) (k : String) (r : Doc α → Option β) : Option β :=
  ((m.found.find? fun e => e.1 == k).map Prod.snd).bind r

/-- An enum of unit variants, written as text. -/
def unitEnum {V : Type} (s : Scalars α) (names : List (String × V)) : Doc α → Option V
  | .text t => (names.find? fun p => s.same p.1 t).map Prod.snd
  | _ => none

/-- An externally tagged enum of newtype variants: a map with one entry, whose key names the variant. -/
def external {V : Type} (s : Scalars α) (names : List (String × (Doc α → Option V))) : Doc α → Option V
  | .table [(k, v)] => (names.find? fun p => s.same p.1 k).bind fun p => p.2 v
  | _ => none

/-- An internally tagged enum of unit variants (`tag = "model"`): the tag is looked for among the entries, the
others are ignored.  The tag is read as an identifier, so its case matters. -/
def internal {V : Type} (names : List (String × V)) (d : Doc α) : Option V := do
  let m ← slots ["model"] d
  m.req "model" fun
    | .text t => (names.find? fun p => p.1 == t).map Prod.snd
    | _ => none

/-- What a variant of an adjacently tagged enum makes of its content, if there is any. -/
abbrev Content (α V : Type) := Option (Scalars α × Doc α) → Option V

/-- A newtype variant requires its content. -/
def newtype {β V : Type} (mk : β → V) (r : Scalars α → Doc α → Option β) : Content α V
  | some (s, d) => (r s d).map mk
  | none => none

/-- A unit variant has none, or null. -/
def unitContent {V : Type} (v : V) : Content α V
  | none => some v
  | some (_, .null) => some v
  | _ => none

/-- The variant named by a tag; the tag is read as an identifier, so its case matters. -/
def byTag {V : Type} (names : List (String × Content α V)) (tag : Doc α) (c : Option (Scalars α × Doc α)) :
    Option V :=
  match tag with
  | .text t => (names.find? fun p => p.1 == t).bind fun p => p.2 c
  | _ => none

/-- An adjacently tagged enum (`tag = "model", content = "params"`).  Entries with other keys are skipped.  If the
tag comes first, the content is read from the document as it stands (`s`); if the content comes first, serde
keeps it in its own buffer (`Content`) until the tag is known, and reads it from there (`buf`).  Repeated keys
are errors. -/
def adjacent {V : Type} (buf s : Scalars α) (names : List (String × Content α V)) : Doc α → Option V
  | .table es =>
    match es.filter fun e => e.1 == "model" || e.1 == "params" with
    | [(k, v)] => if k == "model" then byTag names v none else none
    | [(k₁, v₁), (k₂, v₂)] =>
      if k₁ == "model" && k₂ == "params" then byTag names v₁ (some (s, v₂))
      else if k₁ == "params" && k₂ == "model" then byTag names v₂ (some (buf, v₁))
      else none
    | _ => none
  | _ => none

end

/-- serde's own buffer (`serde::__private::de::ContentDeserializer`): numbers of any kind for `f64`, integers in range
for `u32`, exact names. -/
def Scalars.buffer (α : Type) [Scalar α] : Scalars α where
  caseless := false
  float
    | .real x => some x
    | .int z => some (if z < 0 then -Scalar.ofNat z.natAbs else Scalar.ofNat z.natAbs)
    | _ => none
  uint
    | .int z => if 0 ≤ z ∧ z < 2 ^ 32 then some (UInt32.ofNat z.toNat) else none
    | _ => none

/-- A format that also reads numbers from text, as the `config` crate (0.13) does: `parse` is `str::parse::<f64>`,
`parseInt` is `str::parse::<u32>`. -/
def Scalars.lenient (α : Type) [Scalar α] (caseless : Bool) (parse : String → Option α)
    (parseInt : String → Option UInt32) : Scalars α where
  caseless := caseless
  float
    | .text t => parse t
    | d => (Scalars.buffer α).float d
  uint
    | .text t => parseInt t
    | d => (Scalars.buffer α).uint d

variable {α : Type}

/-- `src/types.rs:144-148` -/
def Material.read (s : Scalars α) : Doc α → Option Material :=
  unitEnum s [("SS304", .SS304), ("Multimet", .Multimet), ("StainlessSteel", .StainlessSteel)]

/-- `src/types.rs:123-126` -/
def ToleranceConfig.read (s : Scalars α) (d : Doc α) : Option (ToleranceConfig α) := do
  let m ← slots ["abs", "rel"] d
  let abs ← m.req "abs" s.float
  let rel ← m.req "rel" s.float
  return { abs := abs, rel := rel }

/-- `src/types.rs:105-108` -/
def InnerLoopConfig.read (s : Scalars α) (d : Doc α) : Option (InnerLoopConfig α) := do
  let m ← slots ["tolerance", "max_iterations"] d
  let tolerance ← m.req "tolerance" (ToleranceConfig.read s)
  let max_iterations ← m.req "max_iterations" s.uint
  return { tolerance := tolerance, max_iterations := max_iterations }

/-- `src/types.rs:111-114` -/
def OuterLoopConfig.read (s : Scalars α) (d : Doc α) : Option (OuterLoopConfig α) := do
  let m ← slots ["tolerance", "max_iterations"] d
  let tolerance ← m.req "tolerance" (ToleranceConfig.read s)
  let max_iterations ← m.req "max_iterations" s.uint
  return { tolerance := tolerance, max_iterations := max_iterations }

/-- `src/types.rs:117-120` -/
def OdeConfig.read (s : Scalars α) (d : Doc α) : Option (OdeConfig α) := do
  let m ← slots ["tolerance", "num_timesteps"] d
  let tolerance ← m.req "tolerance" (ToleranceConfig.read s)
  let num_timesteps ← m.req "num_timesteps" s.uint
  return { tolerance := tolerance, num_timesteps := num_timesteps }

/-- `src/types.rs:82-86` -/
def SolverConfig.read (s : Scalars α) (d : Doc α) : Option (SolverConfig α) := do
  let m ← slots ["inner_loop", "outer_loop", "ode"] d
  let inner_loop ← m.req "inner_loop" (InnerLoopConfig.read s)
  let outer_loop ← m.req "outer_loop" (OuterLoopConfig.read s)
  let ode ← m.req "ode" (OdeConfig.read s)
  return { inner_loop := inner_loop, outer_loop := outer_loop, ode := ode }

/-- `src/types.rs:100-102` with `rename_all = "camelCase"` (line 99) -/
def LegacyOdeSolver.read (s : Scalars α) : Doc α → Option LegacyOdeSolver :=
  unitEnum s [(camelTag "Ode45", .Ode45)]

/-- `src/types.rs:90-96` with `rename_all = "camelCase"` (line 89) -/
def LegacySolverConfig.read (s : Scalars α) (d : Doc α) : Option (LegacySolverConfig α) := do
  let m ← slots [camelKey "inner_loop_tolerance", camelKey "outer_loop_tolerance",
    camelKey "ode_tolerance", camelKey "ode_solver", camelKey "time_resolution"] d
  let inner_loop_tolerance ← m.req (camelKey "inner_loop_tolerance") (ToleranceConfig.read s)
  let outer_loop_tolerance ← m.req (camelKey "outer_loop_tolerance") (ToleranceConfig.read s)
  let ode_tolerance ← m.req (camelKey "ode_tolerance") (ToleranceConfig.read s)
  let ode_solver ← m.req (camelKey "ode_solver") (LegacyOdeSolver.read s)
  let time_resolution ← m.req (camelKey "time_resolution") s.uint
  return { inner_loop_tolerance := inner_loop_tolerance
           outer_loop_tolerance := outer_loop_tolerance, ode_tolerance := ode_tolerance
           ode_solver := ode_solver, time_resolution := time_resolution }

/-- `src/types.rs:129-133` -/
def ConditionsConfig.read (s : Scalars α) (d : Doc α) : Option (ConditionsConfig α) := do
  let m ← slots ["temp_sink", "temp_source", "pres_zero"] d
  let temp_sink ← m.req "temp_sink" s.float
  let temp_source ← m.req "temp_source" s.float
  let pres_zero ← m.req "pres_zero" s.float
  return { temp_sink := temp_sink, temp_source := temp_source, pres_zero := pres_zero }

/-- `src/types.rs:137-141` -/
def LegacyConditionsConfig.read (s : Scalars α) (d : Doc α) : Option (LegacyConditionsConfig α) := do
  let m ← slots ["T_cold", "T_hot", "P_0"] d
  let T_cold ← m.req "T_cold" s.float
  let T_hot ← m.req "T_hot" s.float
  let P_0 ← m.req "P_0" s.float
  return { T_cold := T_cold, T_hot := T_hot, P_0 := P_0 }

/-- `src/ws/sinusoidal_drive.rs:25-37` -/
def ws.SinusoidalDrive.Config.read (s : Scalars α) (d : Doc α) : Option (ws.SinusoidalDrive.Config α) := do
  let m ← slots ["frequency", "phase_angle", "V_swept_c", "V_clearance_c", "R_c", "W_parasitic_c",
    "V_swept_e", "V_clearance_e", "R_e", "W_parasitic_e", "Q_parasitic_e"] d
  let frequency ← m.req "frequency" s.float
  let phase_angle ← m.req "phase_angle" s.float
  let V_swept_c ← m.req "V_swept_c" s.float
  let V_clearance_c ← m.req "V_clearance_c" s.float
  let R_c ← m.req "R_c" s.float
  let W_parasitic_c ← m.req "W_parasitic_c" s.float
  let V_swept_e ← m.req "V_swept_e" s.float
  let V_clearance_e ← m.req "V_clearance_e" s.float
  let R_e ← m.req "R_e" s.float
  let W_parasitic_e ← m.req "W_parasitic_e" s.float
  let Q_parasitic_e ← m.req "Q_parasitic_e" s.float
  return { frequency := frequency, phase_angle := phase_angle, V_swept_c := V_swept_c
           V_clearance_c := V_clearance_c, R_c := R_c, W_parasitic_c := W_parasitic_c
           V_swept_e := V_swept_e, V_clearance_e := V_clearance_e, R_e := R_e
           W_parasitic_e := W_parasitic_e, Q_parasitic_e := Q_parasitic_e }

/-- `src/ws/rhombic_drive.rs:45-59` -/
def ws.RhombicDrive.Config.read (s : Scalars α) (d : Doc α) : Option (ws.RhombicDrive.Config α) := do
  let m ← slots ["frequency", "V_clearance_c", "R_c", "W_parasitic_c", "V_clearance_e", "R_e",
    "W_parasitic_e", "Q_parasitic_e", "r_crank", "L_conn", "eccentricity", "D_p", "D_d"] d
  let frequency ← m.req "frequency" s.float
  let V_clearance_c ← m.req "V_clearance_c" s.float
  let R_c ← m.req "R_c" s.float
  let W_parasitic_c ← m.req "W_parasitic_c" s.float
  let V_clearance_e ← m.req "V_clearance_e" s.float
  let R_e ← m.req "R_e" s.float
  let W_parasitic_e ← m.req "W_parasitic_e" s.float
  let Q_parasitic_e ← m.req "Q_parasitic_e" s.float
  let r_crank ← m.req "r_crank" s.float
  let L_conn ← m.req "L_conn" s.float
  let eccentricity ← m.req "eccentricity" s.float
  let D_p ← m.req "D_p" s.float
  let D_d ← m.req "D_d" s.float
  return { frequency := frequency, V_clearance_c := V_clearance_c, R_c := R_c
           W_parasitic_c := W_parasitic_c, V_clearance_e := V_clearance_e, R_e := R_e
           W_parasitic_e := W_parasitic_e, Q_parasitic_e := Q_parasitic_e, r_crank := r_crank
           L_conn := L_conn, eccentricity := eccentricity, D_p := D_p, D_d := D_d }

/-- `src/ws/gpu3.rs:9-22` -/
def ws.GPU3.Config.read (s : Scalars α) (d : Doc α) : Option (ws.GPU3.Config α) := do
  let m ← slots ["frequency", "V_clearance_c", "R_c", "V_clearance_e", "R_e", "r_crank", "L_conn",
    "eccentricity", "D", "D_dr", "L", "h"] d
  let frequency ← m.req "frequency" s.float
  let V_clearance_c ← m.req "V_clearance_c" s.float
  let R_c ← m.req "R_c" s.float
  let V_clearance_e ← m.req "V_clearance_e" s.float
  let R_e ← m.req "R_e" s.float
  let r_crank ← m.req "r_crank" s.float
  let L_conn ← m.req "L_conn" s.float
  let eccentricity ← m.req "eccentricity" s.float
  let D ← m.req "D" s.float
  let D_dr ← m.req "D_dr" s.float
  let L ← m.req "L" s.float
  let h ← m.req "h" s.float
  return { frequency := frequency, V_clearance_c := V_clearance_c, R_c := R_c
           V_clearance_e := V_clearance_e, R_e := R_e, r_crank := r_crank, L_conn := L_conn
           eccentricity := eccentricity, D := D, D_dr := D_dr, L := L, h := h }

/-- `src/ws/mod2.rs:11-28` -/
def ws.Mod2.Config.read (s : Scalars α) (d : Doc α) : Option (ws.Mod2.Config α) := do
  let m ← slots ["frequency", "phaseAngle", "D", "h", "L", "stroke", "V_clearance_c", "R_c",
    "V_clearance_e", "R_e", "material_p", "material_c", "th_pw", "th_cw", "L_cond", "e"] d
  let frequency ← m.req "frequency" s.float
  let phaseAngle ← m.req "phaseAngle" s.float
  let D ← m.req "D" s.float
  let h ← m.req "h" s.float
  let L ← m.req "L" s.float
  let stroke ← m.req "stroke" s.float
  let V_clearance_c ← m.req "V_clearance_c" s.float
  let R_c ← m.req "R_c" s.float
  let V_clearance_e ← m.req "V_clearance_e" s.float
  let R_e ← m.req "R_e" s.float
  let material_p ← m.req "material_p" (Material.read s)
  let material_c ← m.req "material_c" (Material.read s)
  let th_pw ← m.req "th_pw" s.float
  let th_cw ← m.req "th_cw" s.float
  let L_cond ← m.req "L_cond" s.float
  let e ← m.req "e" s.float
  return { frequency := frequency, phaseAngle := phaseAngle, D := D, h := h, L := L
           stroke := stroke, V_clearance_c := V_clearance_c, R_c := R_c
           V_clearance_e := V_clearance_e, R_e := R_e, material_p := material_p
           material_c := material_c, th_pw := th_pw, th_cw := th_cw, L_cond := L_cond, e := e }

/-- `src/chx/fixed_approach.rs:24-29` -/
def chx.FixedApproach.Config.read (s : Scalars α) (d : Doc α) : Option (chx.FixedApproach.Config α) := do
  let m ← slots ["vol", "DT", "R_hyd", "W_parasitic"] d
  let vol ← m.req "vol" s.float
  let DT ← m.req "DT" s.float
  let R_hyd ← m.req "R_hyd" s.float
  let W_parasitic ← m.req "W_parasitic" s.float
  return { vol := vol, DT := DT, R_hyd := R_hyd, W_parasitic := W_parasitic }

/-- `src/chx/fixed_conductance.rs:26-31` -/
def chx.FixedConductance.Config.read (s : Scalars α) (d : Doc α) : Option (chx.FixedConductance.Config α) := do
  let m ← slots ["vol", "UA", "R_hyd", "W_parasitic"] d
  let vol ← m.req "vol" s.float
  let UA ← m.req "UA" s.float
  let R_hyd ← m.req "R_hyd" s.float
  let W_parasitic ← m.req "W_parasitic" s.float
  return { vol := vol, UA := UA, R_hyd := R_hyd, W_parasitic := W_parasitic }

/-- `src/chx/gpu3.rs:31-33` -/
def chx.GPU3.Coolant.read (s : Scalars α) : Doc α → Option chx.GPU3.Coolant :=
  unitEnum s [("Water", .Water)]

/-- `src/chx/gpu3.rs:12-28` -/
def chx.GPU3.Config.read (s : Scalars α) (d : Doc α) : Option (chx.GPU3.Config α) := do
  let m ← slots ["length_total", "length_ht", "D_inner", "D_outer", "N_total", "N_shell", "D_sh",
    "Ac_d", "roughness", "vol_h", "m_dot_w", "coolant", "m_dot_a", "UA_a", "W_parasitic"] d
  let length_total ← m.req "length_total" s.float
  let length_ht ← m.req "length_ht" s.float
  let D_inner ← m.req "D_inner" s.float
  let D_outer ← m.req "D_outer" s.float
  let N_total ← m.req "N_total" s.uint
  let N_shell ← m.req "N_shell" s.uint
  let D_sh ← m.req "D_sh" s.float
  let Ac_d ← m.req "Ac_d" s.float
  let roughness ← m.req "roughness" s.float
  let vol_h ← m.req "vol_h" s.float
  let m_dot_w ← m.req "m_dot_w" s.float
  let coolant ← m.req "coolant" (chx.GPU3.Coolant.read s)
  let m_dot_a ← m.req "m_dot_a" s.float
  let UA_a ← m.req "UA_a" s.float
  let W_parasitic ← m.req "W_parasitic" s.float
  return { length_total := length_total, length_ht := length_ht, D_inner := D_inner
           D_outer := D_outer, N_total := N_total, N_shell := N_shell, D_sh := D_sh, Ac_d := Ac_d
           roughness := roughness, vol_h := vol_h, m_dot_w := m_dot_w, coolant := coolant
           m_dot_a := m_dot_a, UA_a := UA_a, W_parasitic := W_parasitic }

/-- `src/chx/mod2.rs:49-51` -/
def chx.Mod2.Fluid.read (s : Scalars α) : Doc α → Option chx.Mod2.Fluid :=
  unitEnum s [("Water", .Water)]

/-- `src/chx/mod2.rs:54-57` -/
def chx.Mod2.Correlation.read (s : Scalars α) : Doc α → Option chx.Mod2.Correlation :=
  unitEnum s [("Oscillating", .Oscillating), ("Steady", .Steady)]

/-- `src/chx/mod2.rs:30-38` -/
def chx.Mod2.Tubes.read (s : Scalars α) (d : Doc α) : Option (chx.Mod2.Tubes α) := do
  let m ← slots ["length", "length_ht", "D_outer", "D_inner", "N_total", "roughness", "material"] d
  let length ← m.req "length" s.float
  let length_ht ← m.req "length_ht" s.float
  let D_outer ← m.req "D_outer" s.float
  let D_inner ← m.req "D_inner" s.float
  let N_total ← m.req "N_total" s.uint
  let roughness ← m.req "roughness" s.float
  let material ← m.req "material" (Material.read s)
  return { length := length, length_ht := length_ht, D_outer := D_outer, D_inner := D_inner
           N_total := N_total, roughness := roughness, material := material }

/-- `src/chx/mod2.rs:42-46` -/
def chx.Mod2.Shell.read (s : Scalars α) (d : Doc α) : Option (chx.Mod2.Shell α) := do
  let m ← slots ["R_inner", "V_header", "Ac_header"] d
  let R_inner ← m.req "R_inner" s.float
  let V_header ← m.req "V_header" s.float
  let Ac_header ← m.req "Ac_header" s.float
  return { R_inner := R_inner, V_header := V_header, Ac_header := Ac_header }

/-- `src/chx/mod2.rs:23-26` -/
def chx.Mod2.Geometry.read (s : Scalars α) (d : Doc α) : Option (chx.Mod2.Geometry α) := do
  let m ← slots ["tubes", "shell"] d
  let tubes ← m.req "tubes" (chx.Mod2.Tubes.read s)
  let shell ← m.req "shell" (chx.Mod2.Shell.read s)
  return { tubes := tubes, shell := shell }

/-- `src/chx/mod2.rs:12-19` -/
def chx.Mod2.Config.read (s : Scalars α) (d : Doc α) : Option (chx.Mod2.Config α) := do
  let m ← slots ["geometry", "m_dot_p_fs", "W_dot_p_fs", "n_fs", "fluid", "correlation"] d
  let geometry ← m.req "geometry" (chx.Mod2.Geometry.read s)
  let m_dot_p_fs ← m.req "m_dot_p_fs" s.float
  let W_dot_p_fs ← m.req "W_dot_p_fs" s.float
  let n_fs ← m.req "n_fs" s.float
  let fluid ← m.req "fluid" (chx.Mod2.Fluid.read s)
  let correlation ← m.req "correlation" (chx.Mod2.Correlation.read s)
  return { geometry := geometry, m_dot_p_fs := m_dot_p_fs, W_dot_p_fs := W_dot_p_fs, n_fs := n_fs
           fluid := fluid, correlation := correlation }

/-- `src/regen/types.rs:4-6` -/
def regen.FrictionFactorCorrelation.read (s : Scalars α) : Doc α → Option regen.FrictionFactorCorrelation :=
  unitEnum s [("GedeonWood", .GedeonWood)]

/-- `src/regen/types.rs:9-11` -/
def regen.JFactorCorrelation.read (s : Scalars α) : Doc α → Option regen.JFactorCorrelation :=
  unitEnum s [("GedeonWood", .GedeonWood)]

/-- `src/regen/fixed_approach.rs:18-23` -/
def regen.FixedApproach.Config.read (s : Scalars α) (d : Doc α) : Option (regen.FixedApproach.Config α) := do
  let m ← slots ["vol", "DT", "R_hyd", "Q_parasitic"] d
  let vol ← m.req "vol" s.float
  let DT ← m.req "DT" s.float
  let R_hyd ← m.req "R_hyd" s.float
  let Q_parasitic ← m.req "Q_parasitic" s.float
  return { vol := vol, DT := DT, R_hyd := R_hyd, Q_parasitic := Q_parasitic }

/-- `src/regen/fixed_conductance.rs:26-31` -/
def regen.FixedConductance.Config.read (s : Scalars α) (d : Doc α) : Option (regen.FixedConductance.Config α) := do
  let m ← slots ["vol", "UA", "R_hyd", "Q_parasitic"] d
  let vol ← m.req "vol" s.float
  let UA ← m.req "UA" s.float
  let R_hyd ← m.req "R_hyd" s.float
  let Q_parasitic ← m.req "Q_parasitic" s.float
  return { vol := vol, UA := UA, R_hyd := R_hyd, Q_parasitic := Q_parasitic }

/-- `src/regen/gpu3.rs:31-35` -/
def regen.GPU3.Mesh.read (s : Scalars α) (d : Doc α) : Option (regen.GPU3.Mesh α) := do
  let m ← slots ["material", "D_wire", "pitch"] d
  let material ← m.req "material" (Material.read s)
  let D_wire ← m.req "D_wire" s.float
  let pitch ← m.req "pitch" s.float
  return { material := material, D_wire := D_wire, pitch := pitch }

/-- `src/regen/gpu3.rs:39-43` -/
def regen.GPU3.Shell.read (s : Scalars α) (d : Doc α) : Option (regen.GPU3.Shell α) := do
  let m ← slots ["diameter", "length", "number"] d
  let diameter ← m.req "diameter" s.float
  let length ← m.req "length" s.float
  let number ← m.req "number" s.uint
  return { diameter := diameter, length := length, number := number }

/-- `src/regen/gpu3.rs:23-27` -/
def regen.GPU3.Geometry.read (s : Scalars α) (d : Doc α) : Option (regen.GPU3.Geometry α) := do
  let m ← slots ["vol_h", "mesh", "shell"] d
  let vol_h ← m.req "vol_h" s.float
  let mesh ← m.req "mesh" (regen.GPU3.Mesh.read s)
  let shell ← m.req "shell" (regen.GPU3.Shell.read s)
  return { vol_h := vol_h, mesh := mesh, shell := shell }

/-- `src/regen/gpu3.rs:14-20` -/
def regen.GPU3.Config.read (s : Scalars α) (d : Doc α) : Option (regen.GPU3.Config α) := do
  let m ← slots ["geometry", "Q_parasitic", "bypass", "correlationf", "correlationj"] d
  let geometry ← m.req "geometry" (regen.GPU3.Geometry.read s)
  let Q_parasitic ← m.req "Q_parasitic" s.float
  let bypass ← m.req "bypass" s.float
  let correlationf ← m.req "correlationf" (regen.FrictionFactorCorrelation.read s)
  let correlationj ← m.req "correlationj" (regen.JFactorCorrelation.read s)
  return { geometry := geometry, Q_parasitic := Q_parasitic, bypass := bypass
           correlationf := correlationf, correlationj := correlationj }

/-- `src/regen/mod2.rs:46-49` -/
def regen.Mod2.Correlation.read (s : Scalars α) : Doc α → Option regen.Mod2.Correlation :=
  unitEnum s [("Steady", .Steady), ("Oscillating", .Oscillating)]

/-- `src/regen/mod2.rs:29-33` -/
def regen.Mod2.Mesh.read (s : Scalars α) (d : Doc α) : Option (regen.Mod2.Mesh α) := do
  let m ← slots ["material", "D_wire", "pitch"] d
  let material ← m.req "material" (Material.read s)
  let D_wire ← m.req "D_wire" s.float
  let pitch ← m.req "pitch" s.float
  return { material := material, D_wire := D_wire, pitch := pitch }

/-- `src/regen/mod2.rs:37-43` -/
def regen.Mod2.Shell.read (s : Scalars α) (d : Doc α) : Option (regen.Mod2.Shell α) := do
  let m ← slots ["material", "R_sh", "th_sh_cold", "th_sh_hot", "length"] d
  let material ← m.req "material" (Material.read s)
  let R_sh ← m.req "R_sh" s.float
  let th_sh_cold ← m.req "th_sh_cold" s.float
  let th_sh_hot ← m.req "th_sh_hot" s.float
  let length ← m.req "length" s.float
  return { material := material, R_sh := R_sh, th_sh_cold := th_sh_cold, th_sh_hot := th_sh_hot
           length := length }

/-- `src/regen/mod2.rs:22-25` -/
def regen.Mod2.Geometry.read (s : Scalars α) (d : Doc α) : Option (regen.Mod2.Geometry α) := do
  let m ← slots ["mesh", "shell"] d
  let mesh ← m.req "mesh" (regen.Mod2.Mesh.read s)
  let shell ← m.req "shell" (regen.Mod2.Shell.read s)
  return { mesh := mesh, shell := shell }

/-- `src/regen/mod2.rs:14-19` -/
def regen.Mod2.Config.read (s : Scalars α) (d : Doc α) : Option (regen.Mod2.Config α) := do
  let m ← slots ["geometry", "correlationtype", "correlationf", "correlationj"] d
  let geometry ← m.req "geometry" (regen.Mod2.Geometry.read s)
  let correlationtype ← m.req "correlationtype" (regen.Mod2.Correlation.read s)
  let correlationf ← m.req "correlationf" (regen.FrictionFactorCorrelation.read s)
  let correlationj ← m.req "correlationj" (regen.JFactorCorrelation.read s)
  return { geometry := geometry, correlationtype := correlationtype, correlationf := correlationf
           correlationj := correlationj }

/-- `src/hhx/fixed_approach.rs:24-30` -/
def hhx.FixedApproach.Config.read (s : Scalars α) (d : Doc α) : Option (hhx.FixedApproach.Config α) := do
  let m ← slots ["vol", "DT", "R_hyd", "W_parasitic", "Q_parasitic"] d
  let vol ← m.req "vol" s.float
  let DT ← m.req "DT" s.float
  let R_hyd ← m.req "R_hyd" s.float
  let W_parasitic ← m.req "W_parasitic" s.float
  let Q_parasitic ← m.req "Q_parasitic" s.float
  return { vol := vol, DT := DT, R_hyd := R_hyd, W_parasitic := W_parasitic
           Q_parasitic := Q_parasitic }

/-- `src/hhx/fixed_conductance.rs:27-33` -/
def hhx.FixedConductance.Config.read (s : Scalars α) (d : Doc α) : Option (hhx.FixedConductance.Config α) := do
  let m ← slots ["vol", "UA", "R_hyd", "W_parasitic", "Q_parasitic"] d
  let vol ← m.req "vol" s.float
  let UA ← m.req "UA" s.float
  let R_hyd ← m.req "R_hyd" s.float
  let W_parasitic ← m.req "W_parasitic" s.float
  let Q_parasitic ← m.req "Q_parasitic" s.float
  return { vol := vol, UA := UA, R_hyd := R_hyd, W_parasitic := W_parasitic
           Q_parasitic := Q_parasitic }

/-- `src/hhx/gpu3.rs:11-23` -/
def hhx.GPU3.Config.read (s : Scalars α) (d : Doc α) : Option (hhx.GPU3.Config α) := do
  let m ← slots ["L_total", "L_htr", "R_tc", "D_outer", "D_inner", "roughness", "N_total", "vol_h",
    "eta_comb", "R_c_loss", "W_parasitic"] d
  let L_total ← m.req "L_total" s.float
  let L_htr ← m.req "L_htr" s.float
  let R_tc ← m.req "R_tc" s.float
  let D_outer ← m.req "D_outer" s.float
  let D_inner ← m.req "D_inner" s.float
  let roughness ← m.req "roughness" s.float
  let N_total ← m.req "N_total" s.uint
  let vol_h ← m.req "vol_h" s.float
  let eta_comb ← m.req "eta_comb" s.float
  let R_c_loss ← m.req "R_c_loss" s.float
  let W_parasitic ← m.req "W_parasitic" s.float
  return { L_total := L_total, L_htr := L_htr, R_tc := R_tc, D_outer := D_outer, D_inner := D_inner
           roughness := roughness, N_total := N_total, vol_h := vol_h, eta_comb := eta_comb
           R_c_loss := R_c_loss, W_parasitic := W_parasitic }

/-- `src/hhx/mod2.rs:56-59` -/
def hhx.Mod2.Correlation.read (s : Scalars α) : Doc α → Option hhx.Mod2.Correlation :=
  unitEnum s [("Oscillating", .Oscillating), ("Steady", .Steady)]

/-- `src/hhx/mod2.rs:27-37` -/
def hhx.Mod2.Tubes.read (s : Scalars α) (d : Doc α) : Option (hhx.Mod2.Tubes α) := do
  let m ← slots ["L_front", "L_rear", "L_inactive", "D_outer", "D_inner", "roughness", "N_total",
    "materialtube", "materialfin"] d
  let L_front ← m.req "L_front" s.float
  let L_rear ← m.req "L_rear" s.float
  let L_inactive ← m.req "L_inactive" s.float
  let D_outer ← m.req "D_outer" s.float
  let D_inner ← m.req "D_inner" s.float
  let roughness ← m.req "roughness" s.float
  let N_total ← m.req "N_total" s.uint
  let materialtube ← m.req "materialtube" (Material.read s)
  let materialfin ← m.req "materialfin" (Material.read s)
  return { L_front := L_front, L_rear := L_rear, L_inactive := L_inactive, D_outer := D_outer
           D_inner := D_inner, roughness := roughness, N_total := N_total
           materialtube := materialtube, materialfin := materialfin }

/-- `src/hhx/mod2.rs:41-45` -/
def hhx.Mod2.Shell.read (s : Scalars α) (d : Doc α) : Option (hhx.Mod2.Shell α) := do
  let m ← slots ["R_outer", "R_inner", "V_header"] d
  let R_outer ← m.req "R_outer" s.float
  let R_inner ← m.req "R_inner" s.float
  let V_header ← m.req "V_header" s.float
  return { R_outer := R_outer, R_inner := R_inner, V_header := V_header }

/-- `src/hhx/mod2.rs:49-53` -/
def hhx.Mod2.Fins.read (s : Scalars α) (d : Doc α) : Option (hhx.Mod2.Fins α) := do
  let m ← slots ["thickness", "pitch", "L_fin"] d
  let thickness ← m.req "thickness" s.float
  let pitch ← m.req "pitch" s.float
  let L_fin ← m.req "L_fin" s.float
  return { thickness := thickness, pitch := pitch, L_fin := L_fin }

/-- `src/hhx/mod2.rs:19-23` -/
def hhx.Mod2.Geometry.read (s : Scalars α) (d : Doc α) : Option (hhx.Mod2.Geometry α) := do
  let m ← slots ["tubes", "shell", "fins"] d
  let tubes ← m.req "tubes" (hhx.Mod2.Tubes.read s)
  let shell ← m.req "shell" (hhx.Mod2.Shell.read s)
  let fins ← m.req "fins" (hhx.Mod2.Fins.read s)
  return { tubes := tubes, shell := shell, fins := fins }

/-- `src/hhx/mod2.rs:12-15` -/
def hhx.Mod2.Config.read (s : Scalars α) (d : Doc α) : Option (hhx.Mod2.Config α) := do
  let m ← slots ["geometry", "correlation"] d
  let geometry ← m.req "geometry" (hhx.Mod2.Geometry.read s)
  let correlation ← m.req "correlation" (hhx.Mod2.Correlation.read s)
  return { geometry := geometry, correlation := correlation }

/-- `src/hhx/ni_gpu3.rs:11-23` -/
def hhx.NuclearIsomerGPU3.Config.read (s : Scalars α) (d : Doc α) : Option (hhx.NuclearIsomerGPU3.Config α) := do
  let m ← slots ["R_f", "L_f", "R_regen", "D_outer", "D_inner", "k_f", "roughness", "N_total", "vol_h",
    "R_ins", "W_parasitic"] d
  let R_f ← m.req "R_f" s.float
  let L_f ← m.req "L_f" s.float
  let R_regen ← m.req "R_regen" s.float
  let D_outer ← m.req "D_outer" s.float
  let D_inner ← m.req "D_inner" s.float
  let k_f ← m.req "k_f" s.float
  let roughness ← m.req "roughness" s.float
  let N_total ← m.req "N_total" s.uint
  let vol_h ← m.req "vol_h" s.float
  let R_ins ← m.req "R_ins" s.float
  let W_parasitic ← m.req "W_parasitic" s.float
  return { R_f := R_f, L_f := L_f, R_regen := R_regen, D_outer := D_outer, D_inner := D_inner
           k_f := k_f, roughness := roughness, N_total := N_total, vol_h := vol_h, R_ins := R_ins
           W_parasitic := W_parasitic }

/-- `src/hhx/ni_mod2.rs:11-23` -/
def hhx.NuclearIsomerMod2.Config.read (s : Scalars α) (d : Doc α) : Option (hhx.NuclearIsomerMod2.Config α) := do
  let m ← slots ["R_f", "L_f", "R_regen", "D_outer", "D_inner", "k_f", "roughness", "N_total", "vol_h",
    "R_ins", "W_parasitic"] d
  let R_f ← m.req "R_f" s.float
  let L_f ← m.req "L_f" s.float
  let R_regen ← m.req "R_regen" s.float
  let D_outer ← m.req "D_outer" s.float
  let D_inner ← m.req "D_inner" s.float
  let k_f ← m.req "k_f" s.float
  let roughness ← m.req "roughness" s.float
  let N_total ← m.req "N_total" s.uint
  let vol_h ← m.req "vol_h" s.float
  let R_ins ← m.req "R_ins" s.float
  let W_parasitic ← m.req "W_parasitic" s.float
  return { R_f := R_f, L_f := L_f, R_regen := R_regen, D_outer := D_outer, D_inner := D_inner
           k_f := k_f, roughness := roughness, N_total := N_total, vol_h := vol_h, R_ins := R_ins
           W_parasitic := W_parasitic }

/-- `src/fluid.rs:123-126` -/
def fluid.LegacyFluidOption.read (s : Scalars α) : Doc α → Option fluid.LegacyFluidOption :=
  unitEnum s [("Hydrogen", .Hydrogen), ("Helium", .Helium)]

/-! ## Enums with content -/

/-- `src/fluid.rs:97-102` with `rename_all = "snake_case", tag = "model"` (line 96) -/
def fluid.ModelConfig.read : Doc α → Option fluid.ModelConfig :=
  internal [(snakeTag "Custom", .Custom), (snakeTag "Fit", .Fit), (snakeTag "IdealGas", .IdealGas),
    (snakeTag "RefProp", .RefProp)]

/-- `src/fluid.rs:90-93` with `rename_all = "snake_case"` (line 89) -/
def fluid.Config.read (s : Scalars α) : Doc α → Option fluid.Config :=
  external s [(snakeTag "Hydrogen", fun v => (fluid.ModelConfig.read v).map .Hydrogen),
    (snakeTag "Helium", fun v => (fluid.ModelConfig.read v).map .Helium)]

/-- `LegacyRefPropParams` and `LegacyIdealGasParams`, `src/fluid.rs:112-120` -/
def fluid.legacyParams (s : Scalars α) (d : Doc α) : Option fluid.LegacyFluidOption := do
  let m ← slots ["name"] d
  m.req "name" (fluid.LegacyFluidOption.read s)

/-- `src/fluid.rs:106-110` with `tag = "model", content = "params"` (line 105) -/
def fluid.LegacyConfig.read (buf s : Scalars α) : Doc α → Option fluid.LegacyConfig :=
  adjacent buf s [("Hydrogen", unitContent .Hydrogen), ("RealGasRefprop", newtype .RealGasRefprop fluid.legacyParams),
    ("IdealGas", newtype .IdealGas fluid.legacyParams)]

/-- `src/ws.rs:78-83` with `rename_all = "snake_case"` (line 77) -/
def ws.Config.read (s : Scalars α) : Doc α → Option (ws.Config α) :=
  external s [(snakeTag "Sinusoidal", fun v => (ws.SinusoidalDrive.Config.read s v).map .Sinusoidal),
    (snakeTag "Rhombic", fun v => (ws.RhombicDrive.Config.read s v).map .Rhombic),
    (snakeTag "GPU3", fun v => (ws.GPU3.Config.read s v).map .GPU3),
    (snakeTag "Mod2", fun v => (ws.Mod2.Config.read s v).map .Mod2)]

/-- `src/ws.rs:87-92` with `tag = "model", content = "params"` (line 86) -/
def ws.LegacyConfig.read (buf s : Scalars α) : Doc α → Option (ws.LegacyConfig α) :=
  adjacent buf s [("Sinusoidal", newtype .Sinusoidal ws.SinusoidalDrive.Config.read),
    ("Rhombic", newtype .Rhombic ws.RhombicDrive.Config.read), ("GPU3", newtype .GPU3 ws.GPU3.Config.read),
    ("Mod2", newtype .Mod2 ws.Mod2.Config.read)]

/-- `src/chx.rs:52-57` with `rename_all = "snake_case"` (line 51) -/
def chx.Config.read (s : Scalars α) : Doc α → Option (chx.Config α) :=
  external s [(snakeTag "FixedApproach", fun v => (chx.FixedApproach.Config.read s v).map .FixedApproach),
    (snakeTag "FixedConductance", fun v => (chx.FixedConductance.Config.read s v).map .FixedConductance),
    (snakeTag "GPU3", fun v => (chx.GPU3.Config.read s v).map .GPU3),
    (snakeTag "Mod2", fun v => (chx.Mod2.Config.read s v).map .Mod2)]

/-- `src/chx.rs:62-67` with `tag = "model", content = "params"` (line 61) -/
def chx.LegacyConfig.read (buf s : Scalars α) : Doc α → Option (chx.LegacyConfig α) :=
  adjacent buf s [("FixedApproach", newtype .FixedApproach chx.FixedApproach.Config.read),
    ("FixedConductance", newtype .FixedConductance chx.FixedConductance.Config.read),
    ("GPU3", newtype .GPU3 chx.GPU3.Config.read), ("Mod2", newtype .Mod2 chx.Mod2.Config.read)]

/-- `src/regen.rs:55-60` with `rename_all = "snake_case"` (line 54) -/
def regen.Config.read (s : Scalars α) : Doc α → Option (regen.Config α) :=
  external s [(snakeTag "FixedApproach", fun v => (regen.FixedApproach.Config.read s v).map .FixedApproach),
    (snakeTag "FixedConductance", fun v => (regen.FixedConductance.Config.read s v).map .FixedConductance),
    (snakeTag "GPU3", fun v => (regen.GPU3.Config.read s v).map .GPU3),
    (snakeTag "Mod2", fun v => (regen.Mod2.Config.read s v).map .Mod2)]

/-- `src/regen.rs:65-70` with `tag = "model", content = "params"` (line 64) -/
def regen.LegacyConfig.read (buf s : Scalars α) : Doc α → Option (regen.LegacyConfig α) :=
  adjacent buf s [("FixedApproach", newtype .FixedApproach regen.FixedApproach.Config.read),
    ("FixedConductance", newtype .FixedConductance regen.FixedConductance.Config.read),
    ("GPU3", newtype .GPU3 regen.GPU3.Config.read), ("Mod2", newtype .Mod2 regen.Mod2.Config.read)]

/-- `src/hhx.rs:55-62` with `rename_all = "snake_case"` (line 54) -/
def hhx.Config.read (s : Scalars α) : Doc α → Option (hhx.Config α) :=
  external s [(snakeTag "FixedApproach", fun v => (hhx.FixedApproach.Config.read s v).map .FixedApproach),
    (snakeTag "FixedConductance", fun v => (hhx.FixedConductance.Config.read s v).map .FixedConductance),
    (snakeTag "GPU3", fun v => (hhx.GPU3.Config.read s v).map .GPU3),
    (snakeTag "Mod2", fun v => (hhx.Mod2.Config.read s v).map .Mod2),
    (snakeTag "GPU3NI", fun v => (hhx.NuclearIsomerGPU3.Config.read s v).map .GPU3NI),
    (snakeTag "Mod2NI", fun v => (hhx.NuclearIsomerMod2.Config.read s v).map .Mod2NI)]

/-- `src/hhx.rs:67-74` with `tag = "model", content = "params"` (line 66) -/
def hhx.LegacyConfig.read (buf s : Scalars α) : Doc α → Option (hhx.LegacyConfig α) :=
  adjacent buf s [("FixedApproach", newtype .FixedApproach hhx.FixedApproach.Config.read),
    ("FixedConductance", newtype .FixedConductance hhx.FixedConductance.Config.read),
    ("GPU3", newtype .GPU3 hhx.GPU3.Config.read), ("Mod2", newtype .Mod2 hhx.Mod2.Config.read),
    ("GPU3NI", newtype .GPU3NI hhx.NuclearIsomerGPU3.Config.read),
    ("Mod2NI", newtype .Mod2NI hhx.NuclearIsomerMod2.Config.read)]

/-! ## Whole documents -/

/-- `src/engine.rs:86-91` -/
def ComponentsConfig.read (s : Scalars α) (d : Doc α) : Option (ComponentsConfig α) := do
  let m ← slots ["chx", "hhx", "regen", "ws"] d
  let chx ← m.req "chx" (chx.Config.read s)
  let hhx ← m.req "hhx" (hhx.Config.read s)
  let regen ← m.req "regen" (regen.Config.read s)
  let ws ← m.req "ws" (ws.Config.read s)
  return { chx := chx, hhx := hhx, regen := regen, ws := ws }

/-- `src/engine.rs:80-83` -/
def EngineConfig.read (s : Scalars α) (d : Doc α) : Option (EngineConfig α) := do
  let m ← slots ["fluid", "components"] d
  let fluid ← m.req "fluid" (fluid.Config.read s)
  let components ← m.req "components" (ComponentsConfig.read s)
  return { fluid := fluid, components := components }

/-- `src/config.rs:10-14` -/
def Config.read (s : Scalars α) (d : Doc α) : Option (Config α) := do
  let m ← slots ["engine", "solver", "conditions"] d
  let engine ← m.req "engine" (EngineConfig.read s)
  let solver ← m.req "solver" (SolverConfig.read s)
  let conditions ← m.req "conditions" (ConditionsConfig.read s)
  return { engine := engine, solver := solver, conditions := conditions }

/-- `src/config.rs:17-25`; `buf` is serde's buffer, `s` the format. -/
def Legacy.read (buf s : Scalars α) (d : Doc α) : Option (Legacy α) := do
  let m ← slots ["fluid", "ws", "chx", "regen", "hhx", "solver", "conditions"] d
  let fluid ← m.req "fluid" (fluid.LegacyConfig.read buf s)
  let ws ← m.req "ws" (ws.LegacyConfig.read buf s)
  let chx ← m.req "chx" (chx.LegacyConfig.read buf s)
  let regen ← m.req "regen" (regen.LegacyConfig.read buf s)
  let hhx ← m.req "hhx" (hhx.LegacyConfig.read buf s)
  let solver ← m.req "solver" (LegacySolverConfig.read s)
  let conditions ← m.req "conditions" (LegacyConditionsConfig.read s)
  return { fluid := fluid, ws := ws, chx := chx, regen := regen, hhx := hhx, solver := solver
           conditions := conditions }

end Sett
