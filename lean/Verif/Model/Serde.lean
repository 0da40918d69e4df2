import Verif.Model.Config
import Mathlib.Data.List.Basic

/-! # Names in configuration files

The names under which serde's derived `Deserialize` knows the variants and fields of the configuration
types.  The rules are those of `serde_derive::internals::case::RenameRule` (serde 1.0, a dependency, not
part of the crate); an identifier is a list of characters.  Characters are ASCII here: `char::is_uppercase`
is modelled by `Char.isUpper` and `to_ascii_lowercase` by `Char.toLower`, which agree on ASCII. -/

namespace Sett.serde

/-- One character of a `snake_case` variant name after the first. -/
def snakeChar (c : Char) : List Char := if c.isUpper then ['_', c.toLower] else [c.toLower]

/-- `RenameRule::SnakeCase.apply_to_variant`: an underscore before every uppercase letter except the
first character, everything lowercased.  Used by `#[serde(rename_all = "snake_case")]` on
`src/fluid.rs:89,96`, `src/ws.rs:77`, `src/chx.rs:51`, `src/regen.rs:54`, `src/hhx.rs:54`. -/
def snakeVariant : List Char → List Char
  | [] => []
  | c :: cs => c.toLower :: cs.flatMap snakeChar

/-- `RenameRule::CamelCase.apply_to_variant`: first character lowercased; `src/types.rs:99`. -/
def camelVariant : List Char → List Char
  | [] => []
  | c :: cs => c.toLower :: cs

/-- `RenameRule::PascalCase.apply_to_field`: underscores removed, the character after one (and the first)
uppercased.  `cap` is the loop variable `capitalize`. -/
def pascalField (cap : Bool) : List Char → List Char
  | [] => []
  | c :: cs =>
    if c = '_' then pascalField true cs
    else if cap then c.toUpper :: pascalField false cs
    else c :: pascalField cap cs

/-- `RenameRule::CamelCase.apply_to_field`; `#[serde(rename_all = "camelCase")]` on
`src/types.rs:89`. -/
def camelField (f : List Char) : List Char := camelVariant (pascalField true f)

/-- Reading a tag: serde's generated `match` compares the text with each variant's name in source order
and rejects anything else. -/
def decode {V : Type} (table : List (List Char × V)) (tag : List Char) : Option V :=
  (table.find? fun p => p.1 == tag).map Prod.snd

/-- The variants of `fluid::Config`, `src/fluid.rs:90-93` -/
inductive Gas where | Hydrogen | Helium
  deriving Repr, DecidableEq
/-- The variants of `ws::Config`, `src/ws.rs:78-83` -/
inductive Ws where | Sinusoidal | Rhombic | GPU3 | Mod2
  deriving Repr, DecidableEq
/-- The variants of `chx::Config` and `regen::Config`, `src/chx.rs:52-57`, `src/regen.rs:55-60` -/
inductive Hx where | FixedApproach | FixedConductance | GPU3 | Mod2
  deriving Repr, DecidableEq
/-- The variants of `hhx::Config`, `src/hhx.rs:55-62` -/
inductive Hhx where | FixedApproach | FixedConductance | GPU3 | Mod2 | GPU3NI | Mod2NI
  deriving Repr, DecidableEq

/-- Variant identifiers of `fluid::Config`, in source order. -/
def gasNames : List (List Char × Gas) :=
  [("Hydrogen".toList, .Hydrogen), ("Helium".toList, .Helium)]
/-- Variant identifiers of `fluid::ModelConfig`, in source order. -/
def modelNames : List (List Char × fluid.ModelConfig) :=
  [("Custom".toList, .Custom), ("Fit".toList, .Fit), ("IdealGas".toList, .IdealGas),
   ("RefProp".toList, .RefProp)]
/-- Variant identifiers of `ws::Config`, in source order. -/
def wsNames : List (List Char × Ws) :=
  [("Sinusoidal".toList, .Sinusoidal), ("Rhombic".toList, .Rhombic), ("GPU3".toList, .GPU3),
   ("Mod2".toList, .Mod2)]
/-- Variant identifiers of `chx::Config` and `regen::Config`, in source order. -/
def hxNames : List (List Char × Hx) :=
  [("FixedApproach".toList, .FixedApproach), ("FixedConductance".toList, .FixedConductance),
   ("GPU3".toList, .GPU3), ("Mod2".toList, .Mod2)]
/-- Variant identifiers of `hhx::Config`, in source order. -/
def hhxNames : List (List Char × Hhx) :=
  [("FixedApproach".toList, .FixedApproach), ("FixedConductance".toList, .FixedConductance),
   ("GPU3".toList, .GPU3), ("Mod2".toList, .Mod2), ("GPU3NI".toList, .GPU3NI),
   ("Mod2NI".toList, .Mod2NI)]

/-- The table serde matches against: every identifier renamed. -/
def table {V : Type} (rule : List Char → List Char) (names : List (List Char × V)) :
    List (List Char × V) := names.map fun p => (rule p.1, p.2)

end Sett.serde
