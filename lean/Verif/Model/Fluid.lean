import Verif.Model.Types

/-! # `src/fluid.rs` (the `Fluid` trait) and `src/fluid/ideal_gas.rs` -/

namespace Sett

/-- The `Fluid` trait, `src/fluid.rs:10-86`.  A fluid is its eight property functions of
`(temp, pres)`. -/
structure Fluid (α : Type) where
  dens : α → α → α
  inte : α → α → α
  enth : α → α → α
  cp : α → α → α
  dd_dP_T : α → α → α
  dd_dT_P : α → α → α
  du_dP_T : α → α → α
  du_dT_P : α → α → α

/-- `ideal_gas::Name`, `src/fluid/ideal_gas.rs:13-16` -/
inductive GasName where
  | Helium
  | Hydrogen
  deriving Repr, DecidableEq

/-- A `[f64; 6]` array. -/
structure Coefs (α : Type) where
  c0 : α
  c1 : α
  c2 : α
  c3 : α
  c4 : α
  c5 : α

/-- `[f64; 6]::map` -/
def Coefs.map {α : Type} (f : α → α) (a : Coefs α) : Coefs α :=
  { c0 := f a.c0, c1 := f a.c1, c2 := f a.c2, c3 := f a.c3, c4 := f a.c4, c5 := f a.c5 }

/-- `IdealGas`, `src/fluid/ideal_gas.rs:3-9` -/
structure IdealGas (α : Type) where
  name : GasName
  gas_constant : α
  ref_temp : α
  cp_coefs : Coefs α
  enth_coefs : Coefs α

variable {α : Type} [Scalar α]

/-- `poly`, `src/fluid/ideal_gas.rs:132-134` -/
def poly (a : Coefs α) (x : α) : α :=
  ((((a.c5 * x + a.c4) * x + a.c3) * x + a.c2) * x + a.c1) * x + a.c0

/-- `match name { … }` of `IdealGas::new`, `src/fluid/ideal_gas.rs:33-55`, as the triple
`(gas_constant, ref_temp, cp_coefs)`. -/
def IdealGas.parameters : GasName → α × α × Coefs α
  | .Helium => (2077.23, 250.0,
      { c0 := 5193.17, c1 := 0.0, c2 := 0.0, c3 := 0.0, c4 := 0.0, c5 := 0.0 })
  | .Hydrogen => (4124.2, 250.0,
      { c0 := 12471.4839
        c1 := 13.3194432
        c2 := -3.47782806e-2
        c3 := 4.31784838e-5
        c4 := -2.42883335e-8
        c5 := 5.14289838e-12 })

/-- `IdealGas::new`, `src/fluid/ideal_gas.rs:32-74` -/
def IdealGas.new (name : GasName) : IdealGas α :=
  let (gas_constant, ref_temp, cp_coefs) := IdealGas.parameters name
  { name, gas_constant, ref_temp, cp_coefs
    enth_coefs :=
      { c0 := cp_coefs.c0
        c1 := cp_coefs.c1 / 2.0
        c2 := cp_coefs.c2 / 3.0
        c3 := cp_coefs.c3 / 4.0
        c4 := cp_coefs.c4 / 5.0
        c5 := cp_coefs.c5 / 6.0 } }

/-- `IdealGas::helium`, `src/fluid/ideal_gas.rs:21-23` -/
def IdealGas.helium : IdealGas α := IdealGas.new .Helium

/-- `IdealGas::hydrogen`, `src/fluid/ideal_gas.rs:27-29` -/
def IdealGas.hydrogen : IdealGas α := IdealGas.new .Hydrogen

namespace IdealGas

/-- `dens`, `src/fluid/ideal_gas.rs:85-87` -/
def dens (g : IdealGas α) (temp pres : α) : α := pres / (g.gas_constant * temp)

/-- `enth`, `src/fluid/ideal_gas.rs:94-99` -/
def enth (g : IdealGas α) (temp _pres : α) : α :=
  let ref_diff := temp - g.ref_temp
  let coefs := g.enth_coefs.map (fun x => x * ref_diff)
  poly coefs temp

/-- `inte`, `src/fluid/ideal_gas.rs:89-92` -/
def inte (g : IdealGas α) (temp pres : α) : α :=
  let enth := g.enth temp pres
  enth - g.gas_constant * (temp - g.ref_temp)

/-- `cp`, `src/fluid/ideal_gas.rs:101-103` -/
def cp (g : IdealGas α) (temp _pres : α) : α := poly g.cp_coefs temp

/-- `dd_dP_T`, `src/fluid/ideal_gas.rs:105-107` -/
def dd_dP_T (g : IdealGas α) (temp _pres : α) : α := 1.0 / (g.gas_constant * temp)

/-- `dd_dT_P`, `src/fluid/ideal_gas.rs:109-111` -/
def dd_dT_P (g : IdealGas α) (temp pres : α) : α :=
  -pres / (g.gas_constant * powi2 temp)

/-- `du_dP_T`, `src/fluid/ideal_gas.rs:113-115` -/
def du_dP_T (_g : IdealGas α) (_temp _pres : α) : α := 0.0

/-- `du_dT_P`, `src/fluid/ideal_gas.rs:117-120` -/
def du_dT_P (g : IdealGas α) (temp pres : α) : α :=
  let cp := g.cp temp pres
  cp - g.gas_constant

/-- `impl Fluid for IdealGas`, `src/fluid/ideal_gas.rs:84-121` -/
def toFluid (g : IdealGas α) : Fluid α where
  dens := g.dens
  inte := g.inte
  enth := g.enth
  cp := g.cp
  dd_dP_T := g.dd_dP_T
  dd_dT_P := g.dd_dT_P
  du_dP_T := g.du_dP_T
  du_dT_P := g.du_dT_P

end IdealGas
end Sett
