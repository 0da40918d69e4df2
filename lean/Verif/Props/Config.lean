import Verif.Model.Api
import Verif.Model.Serde
import Verif.Proofs.Lits
import Verif.Props.Engine
import Mathlib.Tactic.IntervalCases
import Verif.Proofs.Performance

/-! # C48–C50, C52, C53: configuration and the top-level entry point -/

namespace Sett

open api performance

/-! ## C48 -/

section
variable {α : Type}

/-- A legacy fluid entry and a fluid entry that mean the same. -/
inductive Spec.SameFluid : fluid.LegacyConfig → fluid.Config → Prop
  | hydrogen : SameFluid .Hydrogen (.Hydrogen .Custom)
  | refprop_hydrogen : SameFluid (.RealGasRefprop .Hydrogen) (.Hydrogen .RefProp)
  | refprop_helium : SameFluid (.RealGasRefprop .Helium) (.Helium .RefProp)
  | ideal_hydrogen : SameFluid (.IdealGas .Hydrogen) (.Hydrogen .IdealGas)
  | ideal_helium : SameFluid (.IdealGas .Helium) (.Helium .IdealGas)

/-- Same drive, same parameters. -/
inductive Spec.SameWs : ws.LegacyConfig α → ws.Config α → Prop
  | sinusoidal (p) : SameWs (.Sinusoidal p) (.Sinusoidal p)
  | rhombic (p) : SameWs (.Rhombic p) (.Rhombic p)
  | gpu3 (p) : SameWs (.GPU3 p) (.GPU3 p)
  | mod2 (p) : SameWs (.Mod2 p) (.Mod2 p)

/-- Same cold heat exchanger, same parameters. -/
inductive Spec.SameChx : chx.LegacyConfig α → chx.Config α → Prop
  | fixedApproach (p) : SameChx (.FixedApproach p) (.FixedApproach p)
  | fixedConductance (p) : SameChx (.FixedConductance p) (.FixedConductance p)
  | gpu3 (p) : SameChx (.GPU3 p) (.GPU3 p)
  | mod2 (p) : SameChx (.Mod2 p) (.Mod2 p)

/-- Same regenerator, same parameters. -/
inductive Spec.SameRegen : regen.LegacyConfig α → regen.Config α → Prop
  | fixedApproach (p) : SameRegen (.FixedApproach p) (.FixedApproach p)
  | fixedConductance (p) : SameRegen (.FixedConductance p) (.FixedConductance p)
  | gpu3 (p) : SameRegen (.GPU3 p) (.GPU3 p)
  | mod2 (p) : SameRegen (.Mod2 p) (.Mod2 p)

/-- Same hot heat exchanger, same parameters. -/
inductive Spec.SameHhx : hhx.LegacyConfig α → hhx.Config α → Prop
  | fixedApproach (p) : SameHhx (.FixedApproach p) (.FixedApproach p)
  | fixedConductance (p) : SameHhx (.FixedConductance p) (.FixedConductance p)
  | gpu3 (p) : SameHhx (.GPU3 p) (.GPU3 p)
  | mod2 (p) : SameHhx (.Mod2 p) (.Mod2 p)
  | gpu3ni (p) : SameHhx (.GPU3NI p) (.GPU3NI p)
  | mod2ni (p) : SameHhx (.Mod2NI p) (.Mod2NI p)

/-- A configuration that says what the legacy configuration says, with 20 iterations for both loops. -/
structure Spec.SameMeaning (l : Legacy α) (c : Config α) : Prop where
  fluid : Spec.SameFluid l.fluid c.engine.fluid
  ws : Spec.SameWs l.ws c.engine.components.ws
  chx : Spec.SameChx l.chx c.engine.components.chx
  regen : Spec.SameRegen l.regen c.engine.components.regen
  hhx : Spec.SameHhx l.hhx c.engine.components.hhx
  inner_tol : c.solver.inner_loop.tolerance = l.solver.inner_loop_tolerance
  outer_tol : c.solver.outer_loop.tolerance = l.solver.outer_loop_tolerance
  ode_tol : c.solver.ode.tolerance = l.solver.ode_tolerance
  resolution : c.solver.ode.num_timesteps = l.solver.time_resolution
  inner_iters : c.solver.inner_loop.max_iterations.toNat = 20
  outer_iters : c.solver.outer_loop.max_iterations.toNat = 20
  sink : c.conditions.temp_sink = l.conditions.T_cold
  source : c.conditions.temp_source = l.conditions.T_hot
  pressure : c.conditions.pres_zero = l.conditions.P_0

/-- **C48.** The conversion is the relation "means the same": it holds of the result, and of nothing
else. -/
theorem C48_same_meaning (l : Legacy α) (c : Config α) : l.toConfig = c ↔ Spec.SameMeaning l c := by
  constructor
  · rintro rfl
    obtain ⟨f, w, k, r, h, s, cd⟩ := l
    constructor
    · rcases f with _ | (_ | _) | (_ | _) <;> constructor
    · cases w <;> constructor
    · cases k <;> constructor
    · cases r <;> constructor
    · cases h <;> constructor
    all_goals rfl
  · rintro ⟨h1, h2, h3, h4, h5, h6, h7, h8, h9, h10, h11, h12, h13, h14⟩
    obtain ⟨f, w, k, r, h, s, cd⟩ := l
    obtain ⟨⟨f', k', h', r', w'⟩, ⟨⟨t1, n1⟩, ⟨t2, n2⟩, ⟨t3, n3⟩⟩, ⟨c1, c2, c3⟩⟩ := c
    simp only at h1 h2 h3 h4 h5 h6 h7 h8 h9 h10 h11 h12 h13 h14
    subst h6 h7 h8 h9 h12 h13 h14
    have hn1 : n1 = 20 := UInt32.toNat_inj.1 h10
    have hn2 : n2 = 20 := UInt32.toNat_inj.1 h11
    subst hn1 hn2
    cases h1 <;> cases h2 <;> cases h3 <;> cases h4 <;> cases h5 <;> rfl

/-- **C48.** Nothing is lost: two legacy configurations convert to the same configuration exactly when
they agree in everything but the ODE-solver name. -/
theorem C48_lossless (l l' : Legacy α) : l.toConfig = l'.toConfig ↔
    l = { l' with solver := { l'.solver with ode_solver := l.solver.ode_solver } } := by
  constructor
  · intro h
    have h1 := (C48_same_meaning l _).1 rfl
    have h2 := (C48_same_meaning l' _).1 h.symm
    obtain ⟨f, w, k, r, x, ⟨s1, s2, s3, s4, s5⟩, ⟨d1, d2, d3⟩⟩ := l
    obtain ⟨f', w', k', r', x', ⟨s1', s2', s3', s4', s5'⟩, ⟨d1', d2', d3'⟩⟩ := l'
    obtain ⟨a1, a2, a3, a4, a5, a6, a7, a8, a9, -, -, a12, a13, a14⟩ := h1
    obtain ⟨b1, b2, b3, b4, b5, b6, b7, b8, b9, -, -, b12, b13, b14⟩ := h2
    simp only at *
    have hf : f = f' := by
      clear h a2 a3 a4 a5 b2 b3 b4 b5
      rcases f with _ | (_ | _) | (_ | _) <;> rcases f' with _ | (_ | _) | (_ | _) <;>
        first | rfl | (cases a1; cases b1)
    have hw : w = w' := by
      revert a2 b2; generalize (Legacy.toConfig _).engine.components.ws = y
      intro a b; cases a <;> cases b <;> rfl
    have hk : k = k' := by
      revert a3 b3; generalize (Legacy.toConfig _).engine.components.chx = y
      intro a b; cases a <;> cases b <;> rfl
    have hr : r = r' := by
      revert a4 b4; generalize (Legacy.toConfig _).engine.components.regen = y
      intro a b; cases a <;> cases b <;> rfl
    have hx : x = x' := by
      revert a5 b5; generalize (Legacy.toConfig _).engine.components.hhx = y
      intro a b; cases a <;> cases b <;> rfl
    have e1 := a6.symm.trans b6
    have e2 := a7.symm.trans b7
    have e3 := a8.symm.trans b8
    have e4 := a9.symm.trans b9
    have e5 := a12.symm.trans b12
    have e6 := a13.symm.trans b13
    have e7 := a14.symm.trans b14
    subst hf hw hk hr hx e1 e2 e3 e4 e5 e6 e7
    rfl
  · intro h
    rw [h]

/-- **C48**, image: exactly the configurations with 20 iterations whose fluid is an ideal gas, a RefProp
gas or the custom hydrogen model come from a legacy configuration. -/
theorem C48_image (c : Config α) : (∃ l : Legacy α, l.toConfig = c) ↔
    c.solver.inner_loop.max_iterations = 20 ∧ c.solver.outer_loop.max_iterations = 20 ∧
      c.engine.fluid ∈ [.Hydrogen .Custom, .Hydrogen .RefProp, .Helium .RefProp, .Hydrogen .IdealGas,
        .Helium .IdealGas] := by
  constructor
  · rintro ⟨l, rfl⟩
    refine ⟨rfl, rfl, ?_⟩
    obtain ⟨f, w, k, r, h, s, cd⟩ := l
    rcases f with _ | (_ | _) | (_ | _) <;> simp [Legacy.toConfig, fluid.LegacyConfig.into]
  · rintro ⟨h1, h2, h3⟩
    obtain ⟨⟨f', k', h', r', w'⟩, ⟨⟨t1, n1⟩, ⟨t2, n2⟩, ⟨t3, n3⟩⟩, ⟨c1, c2, c3⟩⟩ := c
    simp only at h1 h2 h3
    subst h1 h2
    obtain ⟨lf, hlf⟩ : ∃ lf : fluid.LegacyConfig, lf.into = f' := by
      simp only [List.mem_cons, List.not_mem_nil, or_false] at h3
      rcases h3 with rfl | rfl | rfl | rfl | rfl
      · exact ⟨.Hydrogen, rfl⟩
      · exact ⟨.RealGasRefprop .Hydrogen, rfl⟩
      · exact ⟨.RealGasRefprop .Helium, rfl⟩
      · exact ⟨.IdealGas .Hydrogen, rfl⟩
      · exact ⟨.IdealGas .Helium, rfl⟩
    obtain ⟨lw, hlw⟩ : ∃ l : ws.LegacyConfig α, l.into = w' := by
      cases w' with
      | Sinusoidal p => exact ⟨.Sinusoidal p, rfl⟩
      | Rhombic p => exact ⟨.Rhombic p, rfl⟩
      | GPU3 p => exact ⟨.GPU3 p, rfl⟩
      | Mod2 p => exact ⟨.Mod2 p, rfl⟩
    obtain ⟨lk, hlk⟩ : ∃ l : chx.LegacyConfig α, l.into = k' := by
      cases k' with
      | FixedApproach p => exact ⟨.FixedApproach p, rfl⟩
      | FixedConductance p => exact ⟨.FixedConductance p, rfl⟩
      | GPU3 p => exact ⟨.GPU3 p, rfl⟩
      | Mod2 p => exact ⟨.Mod2 p, rfl⟩
    obtain ⟨lr, hlr⟩ : ∃ l : regen.LegacyConfig α, l.into = r' := by
      cases r' with
      | FixedApproach p => exact ⟨.FixedApproach p, rfl⟩
      | FixedConductance p => exact ⟨.FixedConductance p, rfl⟩
      | GPU3 p => exact ⟨.GPU3 p, rfl⟩
      | Mod2 p => exact ⟨.Mod2 p, rfl⟩
    obtain ⟨lh, hlh⟩ : ∃ l : hhx.LegacyConfig α, l.into = h' := by
      cases h' with
      | FixedApproach p => exact ⟨.FixedApproach p, rfl⟩
      | FixedConductance p => exact ⟨.FixedConductance p, rfl⟩
      | GPU3 p => exact ⟨.GPU3 p, rfl⟩
      | Mod2 p => exact ⟨.Mod2 p, rfl⟩
      | GPU3NI p => exact ⟨.GPU3NI p, rfl⟩
      | Mod2NI p => exact ⟨.Mod2NI p, rfl⟩
    refine ⟨⟨lf, lw, lk, lr, lh, ⟨t1, t2, t3, .Ode45, n3⟩, ⟨c1, c2, c3⟩⟩, ?_⟩
    subst hlf hlw hlk hlr hlh
    rfl

end

/-! ## C49 -/

section
variable {α : Type}

/-- The gas a configuration names, and whether its model is the ideal gas. -/
def Spec.gas : fluid.Config → GasName
  | .Hydrogen _ => .Hydrogen
  | .Helium _ => .Helium
@[inherit_doc Spec.gas]
def Spec.gasModel : fluid.Config → fluid.ModelConfig
  | .Hydrogen m => m
  | .Helium m => m

variable [Scalar α]

/-- The approach of an exchanger of conductance `UA` passing the flow `s` (effectiveness-NTU; read
physically in C23). -/
def Spec.ntuApproach (UA : α) (s : HeatExchanger α) : α :=
  s.Q_dot / (s.cp * s.m_dot) * (1.0 / (1.0 - Scalar.exp (-(UA / (s.cp * s.m_dot)))) - 1.0)

/-- The approach of a regenerator of conductance `UA` spanning `dT` (read physically in C26). -/
def Spec.regenApproach (UA dT : α) (s : HeatExchanger α) : α :=
  (1.0 - UA / (s.cp * s.m_dot) / 2.0 / (1.0 + UA / (s.cp * s.m_dot) / 2.0)) * dT

/-- What each kind of component must do, in every state, given its parameters. -/
inductive Spec.BuildsChx : chx.Config α → chx.ColdHeatExchanger α → Prop
  | fixedApproach (c : chx.FixedApproach.Config α) (x : chx.ColdHeatExchanger α)
      (volume : x.volume = c.vol) (approach : ∀ s, x.approach s = c.DT)
      (initial : x.initial_approach = c.DT) (resistance : ∀ s, x.hydraulic_resistance s = c.R_hyd)
      (parasitics : ∀ s, x.parasitics s = ⟨0.0, c.W_parasitic, 0.0⟩) :
      BuildsChx (.FixedApproach c) x
  | fixedConductance (c : chx.FixedConductance.Config α) (x : chx.ColdHeatExchanger α)
      (volume : x.volume = c.vol)
      (approach : ∀ s, x.approach s = Spec.ntuApproach c.UA s.hxr)
      (initial : x.initial_approach = if Scalar.lt c.UA 0.0 then 0.0 else 10.0)
      (resistance : ∀ s, x.hydraulic_resistance s = c.R_hyd)
      (parasitics : ∀ s, x.parasitics s = ⟨0.0, c.W_parasitic, 0.0⟩) :
      BuildsChx (.FixedConductance c) x
@[inherit_doc Spec.BuildsChx]
inductive Spec.BuildsRegen : regen.Config α → regen.Regenerator α → Prop
  | fixedApproach (c : regen.FixedApproach.Config α) (x : regen.Regenerator α)
      (volume : x.volume = c.vol) (approach : ∀ s, x.approach s = c.DT)
      (initial : x.initial_approach = c.DT) (resistance : ∀ s, x.hydraulic_resistance s = c.R_hyd)
      (parasitics : ∀ s, x.parasitics s = ⟨c.Q_parasitic, 0.0, 0.0⟩) :
      BuildsRegen (.FixedApproach c) x
  | fixedConductance (c : regen.FixedConductance.Config α) (x : regen.Regenerator α)
      (volume : x.volume = c.vol)
      (approach : ∀ s, x.approach s = Spec.regenApproach c.UA (s.temp_hhx - s.temp_chx) s.hxr)
      (initial : x.initial_approach = 10.0)
      (resistance : ∀ s, x.hydraulic_resistance s = c.R_hyd)
      (parasitics : ∀ s, x.parasitics s = ⟨c.Q_parasitic, 0.0, 0.0⟩) :
      BuildsRegen (.FixedConductance c) x
@[inherit_doc Spec.BuildsChx]
inductive Spec.BuildsHhx : hhx.Config α → hhx.HotHeatExchanger α → Prop
  | fixedApproach (c : hhx.FixedApproach.Config α) (x : hhx.HotHeatExchanger α)
      (volume : x.volume = c.vol) (approach : ∀ s, x.approach s = c.DT)
      (initial : x.initial_approach = c.DT) (resistance : ∀ s, x.hydraulic_resistance s = c.R_hyd)
      (parasitics : ∀ s, x.parasitics s = ⟨c.Q_parasitic, c.W_parasitic, 0.0⟩) :
      BuildsHhx (.FixedApproach c) x
  | fixedConductance (c : hhx.FixedConductance.Config α) (x : hhx.HotHeatExchanger α)
      (volume : x.volume = c.vol)
      (approach : ∀ s, x.approach s = Spec.ntuApproach c.UA s.hxr)
      (initial : x.initial_approach = 10.0)
      (resistance : ∀ s, x.hydraulic_resistance s = c.R_hyd)
      (parasitics : ∀ s, x.parasitics s = ⟨c.Q_parasitic, c.W_parasitic, 0.0⟩) :
      BuildsHhx (.FixedConductance c) x
/-- What each kind of drive must do, in every state.  The volumes are those of the drive with the
configured dimensions, read physically in C11–C14.  The displacer of the rhombic drive has one of the two
configured diameters; its own is what the field is for, that of the piston is what the code takes (C15). -/
inductive Spec.BuildsWs : ws.Config α → ws.WorkingSpaces α → Prop
  | sinusoidal (c : ws.SinusoidalDrive.Config α) (x : ws.WorkingSpaces α)
      (frequency : ∀ s, x.frequency s = c.frequency)
      (volumes : ∀ s t, x.volumes s t
        = (⟨c.frequency, c.phase_angle, ⟨c.V_clearance_c, c.V_swept_c⟩, ⟨c.V_clearance_e, c.V_swept_e⟩,
            ⟨c.R_c, c.R_e⟩, x.parasitics s⟩ : ws.SinusoidalDrive α).volumes t)
      (resistance : ∀ s, x.thermal_resistance s = ⟨c.R_c, c.R_e⟩)
      (parasitics : ∀ s, x.parasitics s
        = ⟨⟨0.0, c.W_parasitic_c, 0.0⟩, ⟨c.Q_parasitic_e, c.W_parasitic_e, 0.0⟩⟩) :
      BuildsWs (.Sinusoidal c) x
  | rhombic (c : ws.RhombicDrive.Config α) (x : ws.WorkingSpaces α)
      (frequency : ∀ s, x.frequency s = c.frequency)
      (volumes : ∃ D_d, (D_d = c.D_p ∨ D_d = c.D_d) ∧ ∀ s t, x.volumes s t
        = (⟨c.frequency, ⟨c.eccentricity, c.r_crank, c.D_p, D_d, c.L_conn⟩, x.parasitics s, c.R_c, c.R_e,
            c.V_clearance_c, c.V_clearance_e⟩ : ws.RhombicDrive α).volumes t)
      (resistance : ∀ s, x.thermal_resistance s = ⟨c.R_c, c.R_e⟩)
      (parasitics : ∀ s, x.parasitics s
        = ⟨⟨0.0, c.W_parasitic_c, 0.0⟩, ⟨c.Q_parasitic_e, c.W_parasitic_e, 0.0⟩⟩) :
      BuildsWs (.Rhombic c) x

/-- A configuration the crate can run: ideal gas, and no GPU3, Mod2 or nuclear-isomer component. -/
structure Spec.Supported (c : Config α) : Prop where
  fluid : Spec.gasModel c.engine.fluid = .IdealGas
  ws : (∀ p, c.engine.components.ws ≠ .GPU3 p) ∧ ∀ p, c.engine.components.ws ≠ .Mod2 p
  chx : (∀ p, c.engine.components.chx ≠ .GPU3 p) ∧ ∀ p, c.engine.components.chx ≠ .Mod2 p
  regen : (∀ p, c.engine.components.regen ≠ .GPU3 p) ∧ ∀ p, c.engine.components.regen ≠ .Mod2 p
  hhx : (∀ p, c.engine.components.hhx ≠ .GPU3 p) ∧ (∀ p, c.engine.components.hhx ≠ .Mod2 p) ∧
    (∀ p, c.engine.components.hhx ≠ .GPU3NI p) ∧ ∀ p, c.engine.components.hhx ≠ .Mod2NI p

/-- The components and gas asked for by a configuration. -/
structure Spec.Asked (c : Config α) (k : Components α) (g : IdealGas α) : Prop where
  ws : Spec.BuildsWs c.engine.components.ws k.ws
  chx : Spec.BuildsChx c.engine.components.chx k.chx
  regen : Spec.BuildsRegen c.engine.components.regen k.regen
  hhx : Spec.BuildsHhx c.engine.components.hhx k.hhx
  fluid : g = IdealGas.new (Spec.gas c.engine.fluid)

theorem selectFluid_cases (f : fluid.Config) :
    (Spec.gasModel f = .IdealGas ∧ selectFluid (α := α) f = .ok (IdealGas.new (Spec.gas f))) ∨
    (Spec.gasModel f ≠ .IdealGas ∧ ∃ s, selectFluid (α := α) f = .error (.panic s)) := by
  rcases f with (_ | _ | _ | _) | (_ | _ | _ | _)
  all_goals first
    | exact .inl ⟨rfl, rfl⟩
    | exact .inr ⟨by simp [Spec.gasModel], _, rfl⟩

theorem ws_cases (c : ws.Config α) :
    (((∀ p, c ≠ .GPU3 p) ∧ ∀ p, c ≠ .Mod2 p) ∧ ∃ x, c.build = .ok x ∧ Spec.BuildsWs c x) ∨
    (¬((∀ p, c ≠ .GPU3 p) ∧ ∀ p, c ≠ .Mod2 p) ∧ ∃ s, c.build = .error (.panic s)) := by
  cases c with
  | Sinusoidal p => exact .inl ⟨by simp, _, rfl, .sinusoidal _ _ (fun _ => rfl) (fun _ _ => rfl) (fun _ => rfl) (fun _ => rfl)⟩
  | Rhombic p => exact .inl ⟨by simp, _, rfl, .rhombic _ _ (fun _ => rfl) ⟨_, .inl rfl, fun _ _ => rfl⟩ (fun _ => rfl) (fun _ => rfl)⟩
  | GPU3 p => exact .inr ⟨by simp, _, rfl⟩
  | Mod2 p => exact .inr ⟨by simp, _, rfl⟩

theorem chx_cases (c : chx.Config α) :
    (((∀ p, c ≠ .GPU3 p) ∧ ∀ p, c ≠ .Mod2 p) ∧ ∃ x, c.build = .ok x ∧ Spec.BuildsChx c x) ∨
    (¬((∀ p, c ≠ .GPU3 p) ∧ ∀ p, c ≠ .Mod2 p) ∧ ∃ s, c.build = .error (.panic s)) := by
  cases c with
  | FixedApproach p =>
    exact .inl ⟨by simp, _, rfl,
      .fixedApproach _ _ rfl (fun _ => rfl) rfl (fun _ => rfl) (fun _ => rfl)⟩
  | FixedConductance p =>
    exact .inl ⟨by simp, _, rfl,
      .fixedConductance _ _ rfl (fun _ => rfl) rfl (fun _ => rfl) (fun _ => rfl)⟩
  | GPU3 p => exact .inr ⟨by simp, _, rfl⟩
  | Mod2 p => exact .inr ⟨by simp, _, rfl⟩

theorem regen_cases (c : regen.Config α) :
    (((∀ p, c ≠ .GPU3 p) ∧ ∀ p, c ≠ .Mod2 p) ∧ ∃ x, c.build = .ok x ∧ Spec.BuildsRegen c x) ∨
    (¬((∀ p, c ≠ .GPU3 p) ∧ ∀ p, c ≠ .Mod2 p) ∧ ∃ s, c.build = .error (.panic s)) := by
  cases c with
  | FixedApproach p =>
    exact .inl ⟨by simp, _, rfl,
      .fixedApproach _ _ rfl (fun _ => rfl) rfl (fun _ => rfl) (fun _ => rfl)⟩
  | FixedConductance p =>
    exact .inl ⟨by simp, _, rfl,
      .fixedConductance _ _ rfl (fun _ => rfl) rfl (fun _ => rfl) (fun _ => rfl)⟩
  | GPU3 p => exact .inr ⟨by simp, _, rfl⟩
  | Mod2 p => exact .inr ⟨by simp, _, rfl⟩

theorem hhx_cases (c : hhx.Config α) :
    (((∀ p, c ≠ .GPU3 p) ∧ (∀ p, c ≠ .Mod2 p) ∧ (∀ p, c ≠ .GPU3NI p) ∧ ∀ p, c ≠ .Mod2NI p) ∧
      ∃ x, c.build = .ok x ∧ Spec.BuildsHhx c x) ∨
    (¬((∀ p, c ≠ .GPU3 p) ∧ (∀ p, c ≠ .Mod2 p) ∧ (∀ p, c ≠ .GPU3NI p) ∧ ∀ p, c ≠ .Mod2NI p) ∧
      ∃ s, c.build = .error (.panic s)) := by
  cases c with
  | FixedApproach p =>
    exact .inl ⟨by simp, _, rfl,
      .fixedApproach _ _ rfl (fun _ => rfl) rfl (fun _ => rfl) (fun _ => rfl)⟩
  | FixedConductance p =>
    exact .inl ⟨by simp, _, rfl,
      .fixedConductance _ _ rfl (fun _ => rfl) rfl (fun _ => rfl) (fun _ => rfl)⟩
  | GPU3 p => exact .inr ⟨by simp, _, rfl⟩
  | Mod2 p => exact .inr ⟨by simp, _, rfl⟩
  | GPU3NI p => exact .inr ⟨by simp, _, rfl⟩
  | Mod2NI p => exact .inr ⟨by simp, _, rfl⟩

/-- Either the configuration is supported and gas and components are as asked, or building panics. -/
theorem build_cases (c : Config α) :
    (Spec.Supported c ∧ ∃ k g, selectFluid c.engine.fluid = .ok g ∧
      c.engine.components.build = .ok k ∧ Spec.Asked c k g) ∨
    (¬Spec.Supported c ∧ ((∃ s, selectFluid (α := α) c.engine.fluid = .error (.panic s)) ∨
      ∃ s, c.engine.components.build = .error (.panic s))) := by
  rcases selectFluid_cases (α := α) c.engine.fluid with ⟨f1, f2⟩ | ⟨f1, f2⟩
  swap; · exact .inr ⟨fun h => f1 h.fluid, .inl f2⟩
  rcases ws_cases c.engine.components.ws with ⟨w1, w, w2, w3⟩ | ⟨w1, s, w2⟩
  swap
  · refine .inr ⟨fun h => w1 h.ws, .inr ⟨s, ?_⟩⟩
    unfold ComponentsConfig.build; rw [w2]; rfl
  rcases chx_cases c.engine.components.chx with ⟨k1, k, k2, k3⟩ | ⟨k1, s, k2⟩
  swap
  · refine .inr ⟨fun h => k1 h.chx, .inr ⟨s, ?_⟩⟩
    unfold ComponentsConfig.build; rw [w2, k2]; rfl
  rcases regen_cases c.engine.components.regen with ⟨r1, r, r2, r3⟩ | ⟨r1, s, r2⟩
  swap
  · refine .inr ⟨fun h => r1 h.regen, .inr ⟨s, ?_⟩⟩
    unfold ComponentsConfig.build; rw [w2, k2, r2]; rfl
  rcases hhx_cases c.engine.components.hhx with ⟨h1, h, h2, h3⟩ | ⟨h1, s, h2⟩
  swap
  · refine .inr ⟨fun g => h1 g.hhx, .inr ⟨s, ?_⟩⟩
    unfold ComponentsConfig.build; rw [w2, k2, r2, h2]; rfl
  refine .inl ⟨⟨f1, w1, k1, r1, h1⟩, ⟨w, k, r, h⟩, _, f2, ?_, ⟨w3, k3, r3, h3, rfl⟩⟩
  unfold ComponentsConfig.build; rw [w2, k2, r2, h2]; rfl

/-- **C49.** Every unsupported configuration panics, whatever the integrator and the decomposition do. -/
theorem C49_unsupported_panics (env : Env α) (lu : MatrixDecomposition α) (c : Config α)
    (h : ¬Spec.Supported c) : ∃ s, run_engine env lu c = .error (.panic s) := by
  rcases build_cases c with ⟨h', -⟩ | ⟨-, ⟨s, hs⟩ | ⟨s, hs⟩⟩
  · exact absurd h' h
  · refine ⟨s, ?_⟩
    unfold run_engine; rw [hs]; rfl
  · unfold run_engine
    rcases selectFluid_cases (α := α) c.engine.fluid with ⟨-, f⟩ | ⟨-, s', f⟩
    · refine ⟨s, ?_⟩; rw [f, hs]; rfl
    · refine ⟨s', ?_⟩; rw [f]; rfl

/-- **C49.** A supported configuration runs exactly the gas and components it asks for. -/
theorem C49_supported_runs (env : Env α) (lu : MatrixDecomposition α) (c : Config α)
    (h : Spec.Supported c) : ∃ k g, Spec.Asked c k g ∧
      run_engine env lu c = (do
        let e ← Engine.run env lu k g.toFluid c.conditions.toRunInputs c.solver.toRunSettings
        (RunResults.ofEngine e).lift) := by
  rcases build_cases c with ⟨-, k, g, h1, h2, h3⟩ | ⟨h', -⟩
  · refine ⟨k, g, h3, ?_⟩
    unfold run_engine
    rw [h1, h2]
    rfl
  · exact absurd h h'

/-! ## C50 -/

/-- The run inputs and settings a configuration asks for, spelled out. -/
def Spec.inputsOf (c : Config α) : RunInputs α :=
  { pres_zero := c.conditions.pres_zero, temp_sink := c.conditions.temp_sink
    temp_source := c.conditions.temp_source }
@[inherit_doc Spec.inputsOf]
def Spec.settingsOf (c : Config α) : RunSettings α :=
  { resolution := c.solver.ode.num_timesteps
    loop_tol :=
      { inner := ⟨c.solver.inner_loop.tolerance.abs, c.solver.inner_loop.tolerance.rel⟩
        outer := ⟨c.solver.outer_loop.tolerance.abs, c.solver.outer_loop.tolerance.rel⟩ }
    ode_tol := { abs := c.solver.ode.tolerance.abs, rel := c.solver.ode.tolerance.rel }
    max_iters := { inner := c.solver.inner_loop.max_iterations.toNat
                   outer := c.solver.outer_loop.max_iterations.toNat } }

/-- **C50.** `run_engine` succeeds exactly when the run of the asked-for engine under the asked-for
conditions succeeds, and then returns exactly that engine's results.  No panic can occur after the run. -/
theorem C50_ok_iff (env : Env α) (lu : MatrixDecomposition α) (c : Config α)
    (h : Spec.Supported c) : ∃ k g, Spec.Asked c k g ∧
      (∀ r, run_engine env lu c = .ok r ↔ ∃ e,
        Engine.run env lu k g.toFluid (Spec.inputsOf c) (Spec.settingsOf c) = .ok e ∧
          RunResults.ofEngine e = .ok r) ∧
      (∀ x, run_engine env lu c = .error (.err x) ↔
        Engine.run env lu k g.toFluid (Spec.inputsOf c) (Spec.settingsOf c) = .error (.err x)) ∧
      ∀ s, run_engine env lu c = .error (.panic s) ↔
        Engine.run env lu k g.toFluid (Spec.inputsOf c) (Spec.settingsOf c) = .error (.panic s) := by
  obtain ⟨k, g, hk, hr⟩ := C49_supported_runs env lu c h
  refine ⟨k, g, hk, ?_⟩
  have hr' : run_engine env lu c = (do
      let e ← Engine.run env lu k g.toFluid (Spec.inputsOf c) (Spec.settingsOf c)
      (RunResults.ofEngine e).lift) := hr
  rw [hr']
  cases he : Engine.run env lu k g.toFluid (Spec.inputsOf c) (Spec.settingsOf c) with
  | error f =>
    refine ⟨fun r => ⟨fun h => (by cases h), ?_⟩, fun x => ⟨fun h => ?_, fun h => ?_⟩,
      fun s => ⟨fun h => ?_, fun h => ?_⟩⟩
    all_goals first | (cases h; rfl) | skip
    rintro ⟨e, h, -⟩; cases h
  | ok e =>
    obtain ⟨-, -, vs, -, -, -, h3, -⟩ := C36_values_are_steady env lu k g.toFluid _ _ e he
    obtain ⟨r, hres⟩ := results_ok e vs h3
    have : (do let e ← (Except.ok e : Exec RunError (Engine α)); (RunResults.ofEngine e).lift)
        = (.ok r : Exec RunError (RunResults α)) := by
      show (RunResults.ofEngine e).lift = _
      rw [hres]; rfl
    rw [this]
    refine ⟨fun r' => ⟨fun h => ?_, ?_⟩, fun x => ⟨fun h => (by cases h), fun h => (by cases h)⟩,
      fun s => ⟨fun h => (by cases h), fun h => (by cases h)⟩⟩
    · cases h; exact ⟨e, rfl, hres⟩
    · rintro ⟨e', h, h'⟩; cases h; rw [hres] at h'; cases h'; rfl

/-- **C50.** `Ok` is never returned for anything but a supported configuration whose run succeeded. -/
theorem C50_ok_only_if_run_ok (env : Env α) (lu : MatrixDecomposition α) (c : Config α)
    (r : RunResults α) (h : run_engine env lu c = .ok r) : Spec.Supported c ∧
      ∃ k g e, Spec.Asked c k g ∧
        Engine.run env lu k g.toFluid (Spec.inputsOf c) (Spec.settingsOf c) = .ok e ∧
        RunResults.ofEngine e = .ok r := by
  by_cases hs : Spec.Supported c
  · obtain ⟨k, g, hk, h1, -, -⟩ := C50_ok_iff env lu c hs
    obtain ⟨e, h2, h3⟩ := (h1 r).1 h
    exact ⟨hs, k, g, e, hk, h2, h3⟩
  · obtain ⟨s, hp⟩ := C49_unsupported_panics env lu c hs
    rw [hp] at h; cases h

end

/-! ## C52 -/

section
variable {α : Type} [Scalar α]

/-- Decimal literals with the same value are the same number: appending a zero digit changes nothing.
True of the reals and of correctly rounded floating-point literals. -/
def Spec.ExactLiterals (α : Type) [Scalar α] : Prop :=
  ∀ m e, (OfScientific.ofScientific (m * 10) true (e + 1) : α) = OfScientific.ofScientific m true e

theorem real_exactLiterals : Spec.ExactLiterals ℝ := by
  intro m e
  have h : ∀ m e : Nat, (OfScientific.ofScientific m true e : ℝ) = (m : ℝ) / 10 ^ e := by
    intro m e
    rw [NNRatCast.ofScientific_eq_ite, if_pos rfl, NNRat.divNat_eq_div]
    push_cast
    rfl
  show (OfScientific.ofScientific (m * 10) true (e + 1) : ℝ) = OfScientific.ofScientific m true e
  rw [h, h]
  push_cast
  rw [pow_succ]
  field_simp

/-- **C52** for the six heat-exchanger components: built from the default configuration they are the
default component. -/
theorem C52_exchangers (hl : Spec.ExactLiterals α) :
    chx.FixedApproach.ofConfig (α := α) chx.FixedApproach.Config.default = chx.FixedApproach.default ∧
    chx.FixedConductance.ofConfig (α := α) chx.FixedConductance.Config.default
      = chx.FixedConductance.default ∧
    regen.FixedApproach.ofConfig (α := α) regen.FixedApproach.Config.default
      = regen.FixedApproach.default ∧
    regen.FixedConductance.ofConfig (α := α) regen.FixedConductance.Config.default
      = regen.FixedConductance.default ∧
    hhx.FixedApproach.ofConfig (α := α) hhx.FixedApproach.Config.default = hhx.FixedApproach.default ∧
    hhx.FixedConductance.ofConfig (α := α) hhx.FixedConductance.Config.default
      = hhx.FixedConductance.default := by
  have h4 : (1.0e-4 : α) = 1e-4 := hl 1 4
  refine ⟨rfl, rfl, ?_, rfl, rfl, rfl⟩
  have hv : (regen.FixedApproach.default : regen.FixedApproach α)
      = { R_hyd := 0.0, volume := 1.0e-4, approach := 10.0, parasitics := ParasiticPower.default } := rfl
  rw [hv, h4]
  rfl

/-- **C52** for the sinusoidal drive, which has a default configuration but no default of its own: in exact
numbers the drive built from it is adiabatic and free of losses, both spaces sweep 112.8 cm³ a quarter turn
apart at 66.6667 Hz, and at time zero the compression space is fully open (159.6 cm³) with the expansion space
at mid-stroke (73.2 cm³). -/
theorem C52_sinusoidal [HasInfinity ℝ] (s : ws.State ℝ) :
    let d := (ws.SinusoidalDrive.ofConfig (α := ℝ) ws.SinusoidalDrive.Config.default).toWorkingSpaces
    d.thermal_resistance s = ws.ThermalResistance.default ∧ d.parasitics s = ws.Parasitics.default ∧
      d.frequency s = 666667 / 10000 ∧ (d.volumes s 0).1.value = 1596 / 10 ^ 7 ∧
      (d.volumes s 0).2.value = 732 / 10 ^ 7 ∧
      ∀ t, (d.volumes s t).2.value - 168 / 10 ^ 7
        = (d.volumes s (t + 1 / (4 * (666667 / 10000)))).1.value - 468 / 10 ^ 7 := by
  have lits : (66.6667 : ℝ) = 666667 / 10000 ∧ (90.0 : ℝ) = 90 ∧ (180.0 : ℝ) = 180 ∧ (1.128e-4 : ℝ) = 1128 / 10 ^ 7 ∧
      (4.68e-5 : ℝ) = 468 / 10 ^ 7 ∧ (1.68e-5 : ℝ) = 168 / 10 ^ 7 := by norm_num
  have hq : (90 : ℝ) * Real.pi / 180 = Real.pi / 2 := by ring
  refine ⟨rfl, rfl, ?_, ?_, ?_, fun t => ?_⟩
  · exact lits.1
  all_goals
    simp only [ws.SinusoidalDrive.toWorkingSpaces, ws.SinusoidalDrive.ofConfig, ws.SinusoidalDrive.Config.default,
      ws.SinusoidalDrive.volumes]
    scalars
    simp only [lits.1, lits.2.1, lits.2.2.1, lits.2.2.2.1, lits.2.2.2.2.1, lits.2.2.2.2.2]
    norm_num [hq]
  · have : 2 * Real.pi * (666667 / 10000) * (t + 2500 / 666667)
        = 2 * Real.pi * (666667 / 10000) * t + Real.pi / 2 := by ring
    rw [this]

/-- **C52** for the rhombic drive, partial: everything except the displacer diameter agrees.  Missing: the
displacer diameter (`C52_rhombic_false`). -/
theorem C52_rhombic_partial [HasInfinity α] :
    ({ (ws.RhombicDrive.ofConfig (α := α) ws.RhombicDrive.Config.default) with
        geometry := ws.RhombicDrive.Geometry.default } : ws.RhombicDrive α) = ws.RhombicDrive.default ∧
    ({ (ws.RhombicDrive.ofConfig (α := α) ws.RhombicDrive.Config.default).geometry with
        D_d := 0.0696 } : ws.RhombicDrive.Geometry α) = ws.RhombicDrive.Geometry.default ∧
    (ws.RhombicDrive.ofConfig (α := α) ws.RhombicDrive.Config.default).geometry.D_d = 0.0698 :=
  ⟨rfl, rfl, rfl⟩

/-- **C52 is false for the rhombic drive** wherever 0.0698 and 0.0696 are different numbers: the default
configuration builds a drive whose displacer diameter is the piston diameter. -/
theorem C52_rhombic_false [HasInfinity α] (h : (0.0698 : α) ≠ 0.0696) :
    ws.RhombicDrive.ofConfig (α := α) ws.RhombicDrive.Config.default ≠ ws.RhombicDrive.default := by
  intro he
  exact h (congrArg (fun d : ws.RhombicDrive α => d.geometry.D_d) he)

end

/-! ## C53 -/

open serde

/-- A Rust enum variant name in the usual style: an ASCII capital, then ASCII letters and digits. -/
def Spec.VariantName (n : List Char) : Prop :=
  ∃ c cs, n = c :: cs ∧ c.isUpper = true ∧ ∀ d ∈ cs, d.isAlphanum = true

/-- Undoing the renaming: an underscore and the letter after it stand for the capital. -/
def Spec.undoTail : List Char → List Char
  | [] => []
  | '_' :: c :: cs => c.toUpper :: undoTail cs
  | c :: cs => c :: undoTail cs
@[inherit_doc Spec.undoTail]
def Spec.undo : List Char → List Char
  | [] => []
  | c :: cs => c.toUpper :: Spec.undoTail cs

theorem upper_lower (c : Char) (h : c.isUpper = true) : c.toLower.toUpper = c := by
  have h' : 65 ≤ c.toNat ∧ c.toNat ≤ 90 := by
    simp only [Char.isUpper, decide_eq_true_eq, ge_iff_le, UInt32.le_iff_toNat_le] at h
    exact h
  obtain ⟨h1, h2⟩ := h'
  have hc : Char.ofNat c.toNat = c := Char.ofNat_toNat c
  generalize c.toNat = n at *
  subst hc
  interval_cases n <;> decide

theorem lower_of_not_upper (c : Char) (h : c.isUpper = false) : c.toLower = c := by
  simp only [Char.isUpper, decide_eq_false_iff_not] at h
  unfold Char.toLower
  rw [dif_neg]
  intro h'
  exact absurd h' (by simpa [-not_and, not_and_or] using h)

theorem undoTail_snake (cs : List Char) (h : ∀ d ∈ cs, d.isAlphanum = true) :
    Spec.undoTail (cs.flatMap snakeChar) = cs := by
  induction cs with
  | nil => rfl
  | cons c cs ih =>
    have ih := ih fun d hd => h d (by simp [hd])
    have hc := h c (by simp)
    cases hu : c.isUpper with
    | true =>
      have : (c :: cs).flatMap snakeChar = '_' :: c.toLower :: cs.flatMap snakeChar := by
        simp [snakeChar, hu]
      rw [this, Spec.undoTail, ih, upper_lower c hu]
    | false =>
      have : (c :: cs).flatMap snakeChar = c :: cs.flatMap snakeChar := by
        simp [snakeChar, hu, lower_of_not_upper c hu]
      rw [this, Spec.undoTail.eq_3, ih]
      rintro d ds rfl
      simp at hc

/-- The renaming can be undone on every variant name. -/
theorem C53_undo (n : List Char) (h : Spec.VariantName n) : Spec.undo (snakeVariant n) = n := by
  obtain ⟨c, cs, rfl, hc, hcs⟩ := h
  show c.toLower.toUpper :: Spec.undoTail (cs.flatMap snakeChar) = _
  rw [upper_lower c hc, undoTail_snake cs hcs]

/-- **C53.** No two variant names get the same tag. -/
theorem C53_injective (n m : List Char) (hn : Spec.VariantName n) (hm : Spec.VariantName m)
    (h : snakeVariant n = snakeVariant m) : n = m := by
  rw [← C53_undo n hn, h, C53_undo m hm]

/-- Decoding against a table with distinct names finds a variant exactly under its own tag. -/
theorem decode_iff {V : Type} (names : List (List Char × V))
    (hv : ∀ p ∈ names, Spec.VariantName p.1) (hd : (names.map Prod.fst).Nodup) (t : List Char) (v : V) :
    decode (table snakeVariant names) t = some v ↔ ∃ n, (n, v) ∈ names ∧ t = snakeVariant n := by
  unfold decode table
  induction names with
  | nil => simp
  | cons p ps ih =>
    obtain ⟨hp, hd⟩ := List.nodup_cons.1 (show (p.1 :: ps.map Prod.fst).Nodup from hd)
    have ih := ih (fun q hq => hv q (by simp [hq])) hd
    have hpv := hv p (by simp)
    by_cases ht : snakeVariant p.1 = t
    · subst ht
      simp only [List.map_cons, List.find?_cons, BEq.rfl, Option.map_some, Option.some.injEq]
      constructor
      · rintro rfl; exact ⟨p.1, by simp, rfl⟩
      · rintro ⟨n, hn, he⟩
        have hn' := hv (n, v) hn
        have : p.1 = n := C53_injective _ _ hpv hn' he
        rcases List.mem_cons.1 hn with h | h
        · rw [← h]
        · exact absurd (by rw [this]; exact List.mem_map_of_mem (f := Prod.fst) h) hp
    · have hb : (snakeVariant p.1 == t) = false := by simpa using ht
      simp only [List.map_cons, List.find?_cons, hb]
      rw [ih]
      constructor
      · rintro ⟨n, hn, he⟩; exact ⟨n, by simp [hn], he⟩
      · rintro ⟨n, hn, he⟩
        rcases List.mem_cons.1 hn with h | h
        · subst h; exact absurd he.symm ht
        · exact ⟨n, h, he⟩

/-- The tag a user writes for each variant, as documented by the renaming rule. -/
def Spec.gasTag : Gas → String
  | .Hydrogen => "hydrogen" | .Helium => "helium"
@[inherit_doc Spec.gasTag]
def Spec.modelTag : fluid.ModelConfig → String
  | .Custom => "custom" | .Fit => "fit" | .IdealGas => "ideal_gas" | .RefProp => "ref_prop"
@[inherit_doc Spec.gasTag]
def Spec.wsTag : Ws → String
  | .Sinusoidal => "sinusoidal" | .Rhombic => "rhombic" | .GPU3 => "g_p_u3" | .Mod2 => "mod2"
@[inherit_doc Spec.gasTag]
def Spec.hxTag : Hx → String
  | .FixedApproach => "fixed_approach" | .FixedConductance => "fixed_conductance"
  | .GPU3 => "g_p_u3" | .Mod2 => "mod2"
@[inherit_doc Spec.gasTag]
def Spec.hhxTag : Hhx → String
  | .FixedApproach => "fixed_approach" | .FixedConductance => "fixed_conductance"
  | .GPU3 => "g_p_u3" | .Mod2 => "mod2" | .GPU3NI => "g_p_u3_n_i" | .Mod2NI => "mod2_n_i"

theorem decode_tag {V : Type} (names : List (List Char × V)) (tag : V → String)
    (hv : ∀ p ∈ names, Spec.VariantName p.1) (hd : (names.map Prod.fst).Nodup)
    (ht : ∀ p ∈ names, snakeVariant p.1 = (tag p.2).toList) (hall : ∀ v, ∃ p ∈ names, p.2 = v)
    (t : String) (v : V) : decode (table snakeVariant names) t.toList = some v ↔ t = tag v := by
  rw [decode_iff names hv hd]
  constructor
  · rintro ⟨n, hn, h⟩
    have := ht _ hn
    exact String.toList_injective (h.trans this)
  · rintro rfl
    obtain ⟨p, hp, rfl⟩ := hall v
    exact ⟨p.1, hp, (ht p hp).symm⟩

instance (n : List Char) : Decidable (Spec.VariantName n) :=
  match n with
  | [] => .isFalse (by rintro ⟨_, _, h, -⟩; cases h)
  | c :: cs => decidable_of_iff (c.isUpper = true ∧ ∀ d ∈ cs, d.isAlphanum = true)
      ⟨fun h => ⟨c, cs, rfl, h.1, h.2⟩, by rintro ⟨_, _, h, h1, h2⟩; cases h; exact ⟨h1, h2⟩⟩

/-- **C53.** A text decodes to a variant exactly if it is that variant's tag: every variant can be
written, in exactly one way, and no text names two variants; every other text is rejected. -/
theorem C53_tags (t : String) :
    (∀ v, decode (table snakeVariant gasNames) t.toList = some v ↔ t = Spec.gasTag v) ∧
    (∀ v, decode (table snakeVariant modelNames) t.toList = some v ↔ t = Spec.modelTag v) ∧
    (∀ v, decode (table snakeVariant wsNames) t.toList = some v ↔ t = Spec.wsTag v) ∧
    (∀ v, decode (table snakeVariant hxNames) t.toList = some v ↔ t = Spec.hxTag v) ∧
    ∀ v, decode (table snakeVariant hhxNames) t.toList = some v ↔ t = Spec.hhxTag v := by
  refine ⟨fun v => ?_, fun v => ?_, fun v => ?_, fun v => ?_, fun v => ?_⟩ <;>
  refine decode_tag _ _ (by decide) (by decide) (by decide) ?_ t v <;> intro v <;> cases v <;> decide

/-- Two hypothetical variants the rule keeps apart although they differ only in capitalisation. -/
example : Spec.VariantName "GPU3NI".toList ∧ Spec.VariantName "Gpu3Ni".toList ∧
    snakeVariant "GPU3NI".toList = "g_p_u3_n_i".toList ∧
    snakeVariant "Gpu3Ni".toList = "gpu3_ni".toList := by decide

/-- Without the restriction on identifiers the rule is not injective. -/
example : snakeVariant "A_b".toList = snakeVariant "AB".toList := by decide

end Sett
