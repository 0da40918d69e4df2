import Verif.Props.Performance

/-! # A complete successful run with a sound decomposition

Concrete case for C41–C47: a sinusoidal engine with helium, hydraulic resistances and parasitics, solved
exactly at five times by a decomposition that satisfies `Spec.Sound`. -/

namespace Sett
open state_equations performance Spec

namespace SoundRun

/-- Ratio of gas constant and isochoric heat capacity of helium. -/
noncomputable def r : ℝ := 2077.23 / 3115.94

noncomputable def drive : ws.SinusoidalDrive ℝ :=
  { frequency := 1, phase_angle := 180, comp_geometry := ⟨1, 300 + 50 * r⟩
    exp_geometry := ⟨1, 600 + 350 * r⟩, thermal_resistance := ⟨10, 10⟩
    parasitics := { comp := ⟨0, 1, 0⟩, exp := ⟨0, 2, 0⟩ } }
noncomputable def cold : chx.FixedApproach ℝ :=
  { R_hyd := 1, volume := 1, approach := 40, parasitics := ⟨0, 3, 0⟩ }
noncomputable def mid : regen.FixedApproach ℝ :=
  { R_hyd := 2, volume := 1, approach := 0, parasitics := ⟨5, 0, 0⟩ }
noncomputable def hot : hhx.FixedApproach ℝ :=
  { R_hyd := 3, volume := 1, approach := 100, parasitics := ⟨6, 4, 0⟩ }
noncomputable def components : Components ℝ := fixedApproachEngine drive.toWorkingSpaces cold mid hot
noncomputable def runInputs : RunInputs ℝ := { pres_zero := 5, temp_sink := 260, temp_source := 700 }
noncomputable def settings : RunSettings ℝ :=
  { resolution := 5, loop_tol := ⟨⟨1, 1⟩, ⟨1, 1⟩⟩, ode_tol := ⟨1, 1⟩, max_iters := ⟨3, 2⟩ }
noncomputable def fluid : Fluid ℝ := IdealGas.helium.toFluid
noncomputable def start : State ℝ := State.new_hint components fluid runInputs

/-- Half the angular speed times the sine of the crank angle. -/
noncomputable def sigma (t : ℝ) : ℝ := Real.pi * Real.sin (2 * Real.pi * t)
noncomputable def Vc (t : ℝ) : ℝ := 1 + (300 + 50 * r) / 2 * (1 + Real.cos (2 * Real.pi * t))
noncomputable def Ve (t : ℝ) : ℝ := 1 + (600 + 350 * r) / 2 * (1 - Real.cos (2 * Real.pi * t))

/-- Mass flow through every interface. -/
noncomputable def flow (t : ℝ) : ℝ := sigma t * 5 * (1 / 2077.23 + 1 / 3115.94)

/-- The solution of the state equations at time `t` and the start conditions. -/
noncomputable def vecAt (t : ℝ) : Vec10 ℝ :=
  ![flow t, flow t, flow t, flow t, 0, flow t * (5193.17 * 50 - 5193.17 * 350), 0,
    -(2077.23 * 50 * flow t - 5 * (300 + 50 * r) * sigma t) / (3115.94 * Vc t * (5 / (2077.23 * 300))),
    (2077.23 * 350 * flow t - 5 * (600 + 350 * r) * sigma t) / (3115.94 * Ve t * (5 / (2077.23 * 600))),
    0]

theorem r_pos : 0 < r := by unfold r; norm_num
theorem Vc_pos (t : ℝ) : 0 < Vc t := by
  have := r_pos
  have := Real.neg_one_le_cos (2 * Real.pi * t)
  unfold Vc
  have : 0 ≤ (300 + 50 * r) / 2 * (1 + Real.cos (2 * Real.pi * t)) :=
    mul_nonneg (by linarith) (by linarith)
  linarith
theorem Ve_pos (t : ℝ) : 0 < Ve t := by
  have := r_pos
  have := Real.cos_le_one (2 * Real.pi * t)
  unfold Ve
  have : 0 ≤ (600 + 350 * r) / 2 * (1 - Real.cos (2 * Real.pi * t)) :=
    mul_nonneg (by linarith) (by linarith)
  linarith

theorem volumes_at (t : ℝ) : drive.toWorkingSpaces.volumes ⟨start.pres⟩ t
    = (⟨Vc t, -(300 + 50 * r) * sigma t⟩, ⟨Ve t, (600 + 350 * r) * sigma t⟩) := by
  have hang : (180 : ℝ) * Real.pi / 180.0 = Real.pi := by scalars; ring
  simp only [ws.SinusoidalDrive.toWorkingSpaces, ws.SinusoidalDrive.volumes, drive, real_pi, real_cos,
    real_sin, hang, Real.cos_add_pi, Real.sin_add_pi, Vc, Ve, sigma]
  have : (2.0 : ℝ) * Real.pi * 1 * t = 2 * Real.pi * t := by scalars; ring
  rw [this]
  congr 2 <;> (scalars; ring)

/-- State-equation inputs at time `t`. -/
noncomputable def inputsAt (U : MatrixDecomposition ℝ) (t : ℝ) : Inputs ℝ :=
  (Run.new U components start).calculate_inputs t ⟨5, 300, 600⟩

theorem chx_temp : start.temp.chx = 300 := by
  show (260 : ℝ) + 40 = 300; norm_num
theorem hhx_temp : start.temp.hhx = 600 := by
  show (700 : ℝ) - 100 = 600; norm_num
theorem cold_temp : start.temp.regen.cold = 300 := by
  show (260 : ℝ) + 40 + (if Scalar.le (0.0 : ℝ) 0.0 then (0 : ℝ) else 0 - 0.0) = 300
  simp; norm_num
theorem hot_temp : start.temp.regen.hot = 600 := by
  show (700 : ℝ) - 100 - (if Scalar.le (0.0 : ℝ) 0.0 then (0 : ℝ) + 0.0 else 0) = 600
  simp; norm_num

theorem enth_norm_ne (U : MatrixDecomposition ℝ) (t : ℝ) : (inputsAt U t).enth_norm ≠ 0 := by
  show (0.5 : ℝ) * (fluid.enth 260 _ + fluid.enth 700 _) ≠ 0
  norm_num [fluid, IdealGas.toFluid, IdealGas.enth, IdealGas.helium, IdealGas.new, IdealGas.parameters,
    poly, Coefs.map]

theorem enth_eq (T P : ℝ) : fluid.enth T P = 5193.17 * (T - 250) := by
  simp only [fluid, IdealGas.toFluid, IdealGas.enth, IdealGas.helium, IdealGas.new,
    IdealGas.parameters, poly, Coefs.map]
  norm_num
theorem inte_eq (T P : ℝ) : fluid.inte T P = 3115.94 * (T - 250) := by
  show fluid.enth T P - 2077.23 * (T - 250.0) = _
  rw [enth_eq]
  norm_num
  ring
theorem dens_eq (T P : ℝ) : fluid.dens T P = P / (2077.23 * T) := rfl
theorem dd_dT_eq (T P : ℝ) : fluid.dd_dT_P T P = -P / (2077.23 * T ^ 2) := rfl
theorem du_dT_eq (T P : ℝ) : fluid.du_dT_P T P = 3115.94 := by
  simp only [fluid, IdealGas.toFluid, IdealGas.du_dT_P, IdealGas.cp, IdealGas.helium, IdealGas.new,
    IdealGas.parameters, poly]
  norm_num

theorem faces (U : MatrixDecomposition ℝ) (t : ℝ) (d : FlowDirection) :
    facesFor (inputsAt U t) d
      = ⟨5193.17 * 50, 5193.17 * 50, 5193.17 * 350, 5193.17 * 350⟩ := by
  have h1 : (inputsAt U t).comp.enth = 5193.17 * 50 := by
    show fluid.enth 300 5 = _; rw [enth_eq]; norm_num
  have h2 : (inputsAt U t).chx.enth = 5193.17 * 50 := by
    show fluid.enth start.temp.chx 5 = _; rw [enth_eq, chx_temp]; norm_num
  have h3 : (inputsAt U t).regen.enth_cold = 5193.17 * 50 := by
    show fluid.enth start.temp.regen.cold 5 = _; rw [enth_eq, cold_temp]; norm_num
  have h4 : (inputsAt U t).regen.enth_hot = 5193.17 * 350 := by
    show fluid.enth start.temp.regen.hot 5 = _; rw [enth_eq, hot_temp]; norm_num
  have h5 : (inputsAt U t).hhx.enth = 5193.17 * 350 := by
    show fluid.enth start.temp.hhx 5 = _; rw [enth_eq, hhx_temp]; norm_num
  have h6 : (inputsAt U t).exp.enth = 5193.17 * 350 := by
    show fluid.enth 600 5 = _; rw [enth_eq]; norm_num
  have hf : ∀ (d : Direction) (x : ℝ), faceFor d x x = x := by
    intro d x; cases d <;> simp [faceFor]
  simp only [facesFor, h1, h2, h3, h4, h5, h6, hf]

theorem comp_at (U : MatrixDecomposition ℝ) (t : ℝ) : (inputsAt U t).comp.vol = Vc t ∧
    (inputsAt U t).comp.dV_dt = -(300 + 50 * r) * sigma t ∧ (inputsAt U t).exp.vol = Ve t ∧
    (inputsAt U t).exp.dV_dt = (600 + 350 * r) * sigma t := by
  have h := volumes_at t
  refine ⟨?_, ?_, ?_, ?_⟩
  · show (drive.toWorkingSpaces.volumes ⟨start.pres⟩ t).1.value = _; rw [h]
  · show (drive.toWorkingSpaces.volumes ⟨start.pres⟩ t).1.deriv = _; rw [h]
  · show (drive.toWorkingSpaces.volumes ⟨start.pres⟩ t).2.value = _; rw [h]
  · show (drive.toWorkingSpaces.volumes ⟨start.pres⟩ t).2.deriv = _; rw [h]

theorem solves_at (U : MatrixDecomposition ℝ) (t : ℝ) (d : FlowDirection) :
    Solves ((System.new (inputsAt U t)).stencil.create_matrix d) (System.new (inputsAt U t)).b
      (vecAt t) := by
  rw [C04_system_iff_balances _ (enth_norm_ne U t), faces]
  obtain ⟨v1, v2, v3, v4⟩ := comp_at U t
  have hc := (Vc_pos t).ne'
  have he := (Ve_pos t).ne'
  have c1 : (inputsAt U t).comp.dens = 5 / (2077.23 * 300) := rfl
  have c2 : (inputsAt U t).comp.inte = 3115.94 * 50 := by
    show fluid.inte 300 5 = _; rw [inte_eq]; norm_num
  have c3 : (inputsAt U t).comp.dd_dT_P = -5 / (2077.23 * 300 ^ 2) := rfl
  have c4 : (inputsAt U t).comp.du_dT_P = 3115.94 := du_dT_eq _ _
  have c5 : (inputsAt U t).comp.Q_dot = 0 := rfl
  have e1 : (inputsAt U t).exp.dens = 5 / (2077.23 * 600) := rfl
  have e2 : (inputsAt U t).exp.inte = 3115.94 * 350 := by
    show fluid.inte 600 5 = _; rw [inte_eq]; norm_num
  have e3 : (inputsAt U t).exp.dd_dT_P = -5 / (2077.23 * 600 ^ 2) := rfl
  have e4 : (inputsAt U t).exp.du_dT_P = 3115.94 := du_dT_eq _ _
  have e5 : (inputsAt U t).exp.Q_dot = 0 := rfl
  have p1 : (inputsAt U t).pres = 5 := rfl
  have s0 : (Solution.ofVec (vecAt t)).dP_dt = 0 := rfl
  have s1 : (Solution.ofVec (vecAt t)).m_dot_ck = flow t := rfl
  have s2 : (Solution.ofVec (vecAt t)).m_dot_kr = flow t := rfl
  have s3 : (Solution.ofVec (vecAt t)).m_dot_rl = flow t := rfl
  have s4 : (Solution.ofVec (vecAt t)).m_dot_le = flow t := rfl
  have s5 : (Solution.ofVec (vecAt t)).dTc_dt = -(2077.23 * 50 * flow t - 5 * (300 + 50 * r) * sigma t)
    / (3115.94 * Vc t * (5 / (2077.23 * 300))) := rfl
  have s6 : (Solution.ofVec (vecAt t)).dTe_dt = (2077.23 * 350 * flow t - 5 * (600 + 350 * r) * sigma t)
    / (3115.94 * Ve t * (5 / (2077.23 * 600))) := rfl
  have s7 : (Solution.ofVec (vecAt t)).Q_dot_k = 0 := rfl
  have s8 : (Solution.ofVec (vecAt t)).Q_dot_r = flow t * (5193.17 * 50 - 5193.17 * 350) := rfl
  have s9 : (Solution.ofVec (vecAt t)).Q_dot_l = 0 := rfl
  constructor
  · simp only [compMass, massRate, v1, v2, c1, c3, s0, s1, s5, flow, r]
    field_simp; norm_num; ring
  · simp only [compEnergy, energyRate, v1, v2, c1, c2, c3, c4, c5, p1, s0, s1, s5, flow, r]
    field_simp; norm_num; ring
  · simp only [chxMass, massRate, s0, s1, s2]; ring
  · simp only [chxEnergy, energyRate, s0, s1, s2, s7]; ring
  · simp only [regenMass, massRate, s0, s3, s2]; ring
  · simp only [regenEnergy, energyRate, s0, s3, s2, s8]; norm_num; ring
  · simp only [hhxMass, massRate, s0, s3, s4]; ring
  · simp only [hhxEnergy, energyRate, s0, s3, s4, s9]; ring
  · simp only [expMass, massRate, v3, v4, e1, e3, s0, s4, s6, flow, r]
    field_simp; norm_num; ring
  · simp only [expEnergy, energyRate, v3, v4, e1, e2, e3, e4, e5, p1, s0, s4, s6, flow, r]
    field_simp; norm_num; ring

/-- A sound decomposition: the first of the solutions at times 0, 1/4, 3/4 that solves the system. -/
noncomputable def pick : MatrixDecomposition ℝ := fun a b =>
  open Classical in
  if Solves a b (vecAt 0) then some (vecAt 0)
  else if Solves a b (vecAt (1 / 4)) then some (vecAt (1 / 4))
  else if Solves a b (vecAt (3 / 4)) then some (vecAt (3 / 4)) else none

theorem pick_sound : Sound pick := by
  intro a b x h
  unfold pick at h
  split at h
  · cases h; assumption
  · split at h
    · cases h; assumption
    · split at h
      · cases h; assumption
      · cases h

theorem sigma_0 : sigma 0 = 0 := by simp [sigma]
theorem sigma_1 : sigma (1 / 4) = Real.pi := by
  rw [sigma, show 2 * Real.pi * (1 / 4) = Real.pi / 2 by ring]; simp
theorem sigma_2 : sigma (1 / 2) = 0 := by
  rw [sigma, show 2 * Real.pi * (1 / 2) = Real.pi by ring]; simp
theorem sigma_3 : sigma (3 / 4) = -Real.pi := by
  rw [sigma, show 2 * Real.pi * (3 / 4) = Real.pi / 2 + Real.pi by ring, Real.sin_add_pi]; simp
theorem sigma_4 : sigma 1 = 0 := by
  rw [sigma, mul_one, Real.sin_two_pi, mul_zero]
theorem vol_3 : Vc (3 / 4) = Vc (1 / 4) ∧ Ve (3 / 4) = Ve (1 / 4) := by
  have h1 : Real.cos (2 * Real.pi * (3 / 4)) = 0 := by
    rw [show 2 * Real.pi * (3 / 4) = Real.pi / 2 + Real.pi by ring, Real.cos_add_pi]; simp
  have h2 : Real.cos (2 * Real.pi * (1 / 4)) = 0 := by
    rw [show 2 * Real.pi * (1 / 4) = Real.pi / 2 by ring]; simp
  simp only [Vc, Ve, h1, h2, and_self]

theorem vecAt_zero (t : ℝ) (h : sigma t = 0) : vecAt t = 0 := by
  funext j
  fin_cases j <;> simp [vecAt, flow, h]

theorem vecAt_neg : vecAt (3 / 4) = -vecAt (1 / 4) := by
  have hf : flow (3 / 4) = -flow (1 / 4) := by simp only [flow, sigma_1, sigma_3]; ring
  have hs : sigma (3 / 4) = -sigma (1 / 4) := by rw [sigma_1, sigma_3]
  funext j
  fin_cases j <;> simp [vecAt, hf, hs, vol_3] <;> ring

theorem rhs_ne (U : MatrixDecomposition ℝ) (t : ℝ) (h : sigma t ≠ 0) :
    (System.new (inputsAt U t)).b 0 ≠ 0 := by
  have hr := r_pos
  show -(inputsAt U t).comp.dens * (inputsAt U t).comp.dV_dt ≠ 0
  rw [(comp_at U t).2.1]
  have : (inputsAt U t).comp.dens = 5 / (2077.23 * 300) := rfl
  rw [this]
  refine mul_ne_zero (by norm_num) (mul_ne_zero ?_ h)
  have : 0 < 300 + 50 * r := by linarith
  exact neg_ne_zero.2 this.ne'

theorem solves_zero {a : Mat10 ℝ} {b : Vec10 ℝ} (h : Solves a b 0) : b 0 = 0 := by
  rw [← h 0]; simp

theorem pick_at (U : MatrixDecomposition ℝ) (t : ℝ) (ht : t = 0 ∨ t = 1 / 4 ∨ t = 1 / 2 ∨ t = 3 / 4 ∨ t = 1)
    (d : FlowDirection) :
    pick ((System.new (inputsAt U t)).stencil.create_matrix d) (System.new (inputsAt U t)).b
      = some (vecAt t) := by
  have hs := solves_at U t d
  have hpi := Real.pi_pos.ne'
  have z0 := vecAt_zero 0 sigma_0
  unfold pick
  rcases ht with rfl | rfl | rfl | rfl | rfl
  · rw [if_pos hs]
  · rw [if_neg (fun h => rhs_ne U _ (by rw [sigma_1]; exact hpi) (solves_zero (z0 ▸ h))),
      if_pos hs]
  · have z := vecAt_zero _ sigma_2
    rw [z] at hs
    rw [if_pos (z0 ▸ hs), z, z0]
  · rw [if_neg (fun h => rhs_ne U _ (by rw [sigma_3]; exact neg_ne_zero.2 hpi)
      (solves_zero (z0 ▸ h))), if_neg, if_pos hs]
    intro h
    refine rhs_ne U (3 / 4) (by rw [sigma_3]; exact neg_ne_zero.2 hpi) ?_
    have h1 := h 0
    have h2 := hs 0
    rw [vecAt_neg] at h2
    simp only [Pi.neg_apply, mul_neg, Finset.sum_neg_distrib] at h2
    rw [h1] at h2
    linarith
  · have z := vecAt_zero _ sigma_4
    rw [z] at hs
    rw [if_pos (z0 ▸ hs), z, z0]

theorem solve_at (t : ℝ) (ht : t = 0 ∨ t = 1 / 4 ∨ t = 1 / 2 ∨ t = 3 / 4 ∨ t = 1)
    (d : FlowDirection) : solve pick (inputsAt pick t) d = .ok (Solution.ofVec (vecAt t)) := by
  have h : ∀ d, (System.new (inputsAt pick t)).solve pick d = some (Solution.ofVec (vecAt t)) := by
    intro d; simp only [System.solve, pick_at pick t ht d, Option.map_some]
  rw [C08_ok_iff]
  by_cases hd : d = FlowDirection.from_solution (Solution.ofVec (vecAt t))
  · exact ⟨[d], d, by simp, .here _, h _, hd.symm⟩
  · exact ⟨[d, _], _, by simp, .step ⟨hd, _, h _, rfl⟩ (.here _), h _, rfl⟩

/-- An integrator that reports five times and the start state at each. -/
noncomputable def ode : Ode ℝ := fun _ _ _ y _ _ =>
  .done (some ([0, 1 / 4, 1 / 2, 3 / 4, 1], [y, y, y, y, y]))
noncomputable def env : Env ℝ := { ode, build := .checked }

noncomputable def sample (t : ℝ) : state_equations.Values ℝ :=
  ⟨t, ⟨5, 300, 600⟩, Solution.ofVec (vecAt t)⟩
noncomputable def samples : List (state_equations.Values ℝ) :=
  [sample 0, sample (1 / 4), sample (1 / 2), sample (3 / 4), sample 1]

theorem integration (n : UInt32) (hn : n = 2 ∨ n = 5) (tol : OdeTolerance ℝ) :
    integrationTryFrom env (Run.new pick components start).toCycle ⟨5, 300, 600⟩ n tol
      = .ok ([0, 1 / 4, 1 / 2, 3 / 4, 1].map fun t => ⟨t, ⟨5, 300, 600⟩⟩) := by
  rcases hn with rfl | rfl <;>
  simp [integrationTryFrom, timeStep, pointsMinusOne, env, startStepper, ode, Stepper.run,
    toPoints]

theorem inner_ok : Engine.inner env pick components settings start = .ok samples := by
  unfold Engine.inner
  rw [C33_ok_iff]
  have hic : (⟨5, 300, 600⟩ : Conditions ℝ) = ⟨(Engine.steadyInputs settings start).pres_zero,
      (Engine.steadyInputs settings start).temp_comp_hint,
      (Engine.steadyInputs settings start).temp_exp_hint⟩ := by
    have h1 : (Engine.steadyInputs settings start).temp_comp_hint = 300 := chx_temp
    have h2 : (Engine.steadyInputs settings start).temp_exp_hint = 600 := hhx_temp
    rw [h1, h2]; rfl
  refine ⟨0, ⟨5, 300, 600⟩, by show 0 < 3; omega, hic ▸ .hints,
    ⟨_, _, ⟨_, integration 2 (.inl rfl) _, rfl, rfl⟩, ?_⟩, _, integration 5 (.inr rfl) _, ?_⟩
  · simp [Closed, Within, Engine.steadyInputs, settings]
  · have hs := fun t ht d => solve_at t ht d
    have h0 := hs 0 (by simp)
    have h1 := hs (1 / 4) (by simp)
    have h2 := hs (1 / 2) (by simp)
    have h3 := hs (3 / 4) (by simp)
    have h4 := hs 1 (by simp)
    simp only [inputsAt] at h0 h1 h2 h3 h4
    simp only [intoStateValues, List.map_cons, List.map_nil, stateValuesFrom, Run.toCycle]
    have hp : (Run.new pick components start).solver = pick := rfl
    simp only [hp, h0, h1, h2, h3, h4]
    rfl

/-- The engine after the run. -/
noncomputable def engine : Engine ℝ := ⟨components, start, Values.ofStateValues samples⟩

theorem run_ok : Engine.run env pick components fluid runInputs settings = .ok engine := by
  have hs := fun x => within_self settings.loop_tol.outer (by simp [settings]) (by simp [settings]) x
  have := C39_one_iteration env pick drive.toWorkingSpaces cold mid hot fluid runInputs settings
    samples (by simp [settings]) inner_ok (by simp [samples]) ⟨hs _, hs _, hs _, hs _, hs _⟩
  exact congrArg Prod.fst this

theorem aligned : engine.values = Values.ofStateValues samples := rfl

/-- The results of the run. -/
theorem results : ∃ r, RunResults.ofEngine engine = .ok r := results_ok engine samples aligned

theorem flow_1 : 0 < flow (1 / 4) := by
  rw [flow, sigma_1]; have := Real.pi_pos; positivity

theorem avg_pos : 0 < engine.state.temp.regen.avg := by
  have h : engine.state.temp.regen.avg = 300 / Real.log 2 := by
    show (RegenImbalance.regen_temp ⟨(0.0 : ℝ)⟩ start.temp.chx start.temp.hhx 0).avg = _
    rw [chx_temp, hhx_temp]
    simp only [RegenImbalance.regen_temp]
    simp
    norm_num
  rw [h]
  have := Real.log_pos (by norm_num : (1 : ℝ) < 2)
  positivity

/-- C41: at the second sample gas flows forward and the compression space is at the higher pressure. -/
example : ∃ r pc pe, RunResults.ofEngine engine = .ok r ∧ r.values.P_c[1]? = some pc ∧
    r.values.P_e[1]? = some pe ∧ pc + pe = 2 * 5 ∧ pe ≤ 5 ∧ 5 ≤ pc ∧ 0 < pc - pe := by
  obtain ⟨r, hr⟩ := results
  obtain ⟨pc, pe, h1, h2, -, h4, h5⟩ := C41_pressures engine samples aligned r hr 1 (sample (1 / 4)) rfl
  have hf := flow_1
  have hd : 0 < engine.state.fluid.dens engine.state.temp.chx 5 ∧
      0 < engine.state.fluid.dens engine.state.temp.regen.avg 5 ∧
      0 < engine.state.fluid.dens engine.state.temp.hhx 5 := by
    refine ⟨?_, ?_, ?_⟩
    · show 0 < fluid.dens start.temp.chx 5; rw [dens_eq, chx_temp]; norm_num
    · show 0 < fluid.dens engine.state.temp.regen.avg 5
      rw [dens_eq]; have := avg_pos; positivity
    · show 0 < fluid.dens start.temp.hhx 5; rw [dens_eq, hhx_temp]; norm_num
  have ho := (C41_ordering engine samples aligned r hr 1 (sample (1 / 4)) rfl
    ⟨zero_le_one, zero_le_two, zero_le_three⟩ hd pc pe h1 h2).1 hf.le hf.le hf.le hf.le
  refine ⟨r, pc, pe, hr, h1, h2, h4, ho.1, ho.2, ?_⟩
  rw [h5]
  have pos : ∀ R d : ℝ, 0 < R → 0 < d → 0 < Spec.drop R (flow (1 / 4)) (flow (1 / 4)) d := by
    intro R d h1 h2; unfold Spec.drop; positivity
  have a1 : 0 < dropChx engine (sample (1 / 4)) := pos _ _ zero_lt_one hd.1
  have a2 : 0 < dropRegen engine (sample (1 / 4)) := pos _ _ zero_lt_two hd.2.1
  have a3 : 0 < dropHhx engine (sample (1 / 4)) := pos _ _ zero_lt_three hd.2.2
  linarith

/-- C43: the ladder has steps 3 and 7 here. -/
example : ∃ r, RunResults.ofEngine engine = .ok r ∧ r.power.indicated - r.power.shaft = 3 ∧
    r.power.shaft - r.power.net = 7 ∧ r.power.net ≤ r.power.shaft := by
  obtain ⟨r, hr⟩ := results
  obtain ⟨h1, h2⟩ := C43_ladder engine samples aligned r hr
  have h1' : r.power.indicated - r.power.shaft = 1 + 2 := h1
  have h2' : r.power.shaft - r.power.net = 3 + 4 := h2
  exact ⟨r, hr, by linarith, by linarith, by linarith⟩

/-- C44: input heat is non-zero (it is the external losses, 11), so both identities apply. -/
example : ∃ r, RunResults.ofEngine engine = .ok r ∧ r.heat_flow.input = 11 ∧
    r.efficiency.mechanical * 11 = r.power.net ∧ r.shaft_torque * (2 * Real.pi * 1) = r.power.shaft := by
  obtain ⟨r, hr⟩ := results
  have hin : r.heat_flow.input = 11 := by
    rw [(results_heats aligned hr).1]
    have h1 : (samples.map fun v => v.solution.Q_dot_l) = [0, 0, 0, 0, 0] := rfl
    have h2 : (samples.map fun v => (v.conditions.T_e - engine.state.temp.hhx)
        / (engine.components.ws.thermal_resistance engine.state.ws).exp) = [0, 0, 0, 0, 0] := by
      have : engine.state.temp.hhx = 600 := hhx_temp
      rw [this]
      simp [samples, sample]
    have h3 : (engine.components.hhx.parasitics engine.state.hhx).thermal
      + (engine.components.regen.parasitics engine.state.regen).thermal
      + (engine.components.ws.parasitics engine.state.ws).exp.thermal = 6 + 5 + 0 := rfl
    rw [h1, h2, h3]
    simp [trapezoid, times, samples]
    norm_num
  obtain ⟨h1, h2, -⟩ := C44_torque_efficiency engine r hr
  exact ⟨r, hr, hin, by rw [← hin]; exact h2 (by rw [hin]; norm_num), h1 one_ne_zero⟩

/-- Energy stored at a sample: what flows in as enthalpy and work. -/
theorem storage_at (t : ℝ) (ht : t = 0 ∨ t = 1 / 4 ∨ t = 1 / 2 ∨ t = 3 / 4 ∨ t = 1) :
    storage pick engine (sample t)
      = -(flow t * (5193.17 * 50 - 5193.17 * 350)) - 5 * (300 + 300 * r) * sigma t := by
  have h := C06_total_energy_balance pick pick_sound (inputsAt pick t) (enth_norm_ne pick t) .default _
    (solve_at t ht _)
  have hs : storage pick engine (sample t)
    = totalEnergyRate (inputsAt pick t) (Solution.ofVec (vecAt t)) := rfl
  rw [hs, h, (comp_at pick t).2.1, (comp_at pick t).2.2.2]
  show -5 * _ - 0 - 0 - 0 - flow t * (5193.17 * 50 - 5193.17 * 350) + 0 = _
  ring

/-- C45: the hypotheses hold for this run, whose cycle is closed; with no thermal parasitics in the
working spaces heat input minus rejection is exactly the shaft power. -/
example : ∃ r, RunResults.ofEngine engine = .ok r ∧
    r.heat_flow.input - r.heat_flow.rejection = r.power.shaft + 0 + 0 := by
  obtain ⟨r, hr⟩ := results
  refine ⟨r, hr, C45_closed_cycle env pick pick_sound components fluid runInputs settings engine run_ok
    ?_ r hr samples inner_ok ⟨?_, ?_, ?_, ?_, ?_⟩⟩
  · rw [enth_eq, enth_eq]; norm_num [runInputs]
  · show (1 : ℝ) * span [0, 1 / 4, 1 / 2, 3 / 4, 1] = 1
    simp [span]
  · have hz : ∀ t, (t = 0 ∨ t = 1 / 4 ∨ t = 1 / 2 ∨ t = 3 / 4 ∨ t = 1) → sigma t = 0 →
        storage pick engine (sample t) = 0 := fun t ht h => by
      rw [storage_at t ht, flow, h]; ring
    have h3 : storage pick engine (sample (3 / 4)) = -storage pick engine (sample (1 / 4)) := by
      rw [storage_at _ (by simp), storage_at _ (by simp), flow, flow, sigma_1, sigma_3]; ring
    simp only [samples, times, List.map_cons, List.map_nil, hz _ (by simp) sigma_0,
      hz _ (by simp) sigma_2, hz _ (by simp) sigma_4, h3]
    simp [trapezoid, sample]
    ring
  · have hz : ∀ t, sigma t = 0 → (sample t).solution.Q_dot_r = 0 := fun t h => by
      show flow t * _ = 0
      rw [flow, h]; ring
    have h3 : (sample (3 / 4)).solution.Q_dot_r = -(sample (1 / 4)).solution.Q_dot_r := by
      show flow (3 / 4) * _ = -(flow (1 / 4) * _)
      rw [flow, flow, sigma_1, sigma_3]; ring
    simp only [samples, times, List.map_cons, List.map_nil, hz _ sigma_0, hz _ sigma_2, hz _ sigma_4, h3]
    simp [trapezoid, sample]
    ring
  · have : engine.state.temp.chx = 300 := chx_temp
    rw [this]
    simp [samples, sample, times, trapezoid]
  · have : engine.state.temp.hhx = 600 := hhx_temp
    rw [this]
    simp [samples, sample, times, trapezoid]

/-- C46: the last sample is at one period, so the summary of the same values applies. -/
example : ∃ r q, RunResults.ofEngine engine = .ok r ∧
    HeatFlows.from_values engine.values engine.state.temp.chx engine.state.temp.hhx ⟨10, 10⟩ = .ok q ∧
    r.heat_flow.input = q.hhx + 11 := by
  obtain ⟨r, hr⟩ := results
  have hq := heatflows_real engine.values engine.state.temp.chx engine.state.temp.hhx ⟨10, 10⟩ 1 rfl
  refine ⟨r, _, hr, hq, ?_⟩
  have := (C46_heats_agree engine samples aligned r hr _ hq 1 rfl
    (by show (1 : ℝ) = 1 / 1; norm_num)).1
  rw [this]
  show _ + (6 + 5 + 0) = _
  norm_num

/-- C47 for this run. -/
example : ∃ r, RunResults.ofEngine engine = .ok r ∧ r.values.P_c.length = 5 := by
  obtain ⟨r, hr, hl⟩ := C47_series_aligned engine samples aligned
  exact ⟨r, hr, hl r.values.P_c (by simp)⟩

/-- The same engine without hydraulic resistance. -/
noncomputable def smooth : Engine ℝ :=
  ⟨fixedApproachEngine drive.toWorkingSpaces ⟨0, 1, 40, ⟨0, 3, 0⟩⟩ ⟨0, 1, 0, ⟨5, 0, 0⟩⟩
    ⟨0, 1, 100, ⟨6, 4, 0⟩⟩, start, Values.ofStateValues samples⟩

/-- C47: with one pressure sample lost there are no performance numbers. -/
example : ¬ ∃ p, performance.Performance.ofEngine
    { engine with values := { engine.values with P := engine.values.P.tail } } = .ok p := by
  rw [C47_misaligned]
  intro h
  have h1 : engine.values.time.length = engine.values.P.tail.length := h _ (by simp)
  have h2 : engine.values.time.length = 5 ∧ engine.values.P.length = 5 := ⟨rfl, rfl⟩
  rw [List.length_tail] at h1
  omega

/-- C42: without resistance nothing is lost to pressure drop. -/
example : ∃ r, RunResults.ofEngine smooth = .ok r ∧ r.power.indicated = r.power.ideal_indicated := by
  obtain ⟨r, hr⟩ := results_ok smooth samples rfl
  exact ⟨r, hr, (C42_no_resistance _ samples rfl r hr rfl rfl rfl).2.2⟩

/-- A two-sample series with 100 W into the hot exchanger, on an engine whose expansion space leads. -/
noncomputable def powerEngine : Engine ℝ :=
  ⟨fixedApproachEngine ({ drive with phase_angle := -90, exp_geometry := ⟨1, 1⟩ } :
      ws.SinusoidalDrive ℝ).toWorkingSpaces ⟨0, 1, 40, ⟨0, 3, 0⟩⟩ ⟨0, 1, 0, ⟨5, 0, 0⟩⟩
      ⟨0, 1, 100, ⟨6, 4, 0⟩⟩, start,
    Values.ofStateValues [⟨0, ⟨5, 300, 600⟩, ⟨1, 1, 1, 1, 80, 0, 100, 0, 0, 0⟩⟩,
      ⟨1, ⟨5, 300, 600⟩, ⟨1, 1, 1, 1, 80, 0, 100, 0, 0, 0⟩⟩]⟩

/-- C44, C43: net power `5π − 10` of a heat input of 111, so the efficiency is between 0 and 1. -/
example : ∃ r, RunResults.ofEngine powerEngine = .ok r ∧ r.heat_flow.input = 111 ∧
    r.power.net = 5 * Real.pi - 10 ∧ 0 ≤ r.efficiency.mechanical ∧ r.efficiency.mechanical ≤ 1 := by
  obtain ⟨r, hr⟩ := results_ok powerEngine _ rfl
  have hT : powerEngine.state.temp.hhx = 600 := hhx_temp
  have hin : r.heat_flow.input = 111 := by
    rw [(results_heats rfl hr).1, hT]
    have h1 : powerEngine.components.ws.frequency powerEngine.state.ws = 1 := rfl
    have h3 : (powerEngine.components.hhx.parasitics powerEngine.state.hhx).thermal
      + (powerEngine.components.regen.parasitics powerEngine.state.regen).thermal
      + (powerEngine.components.ws.parasitics powerEngine.state.ws).exp.thermal = 6 + 5 + 0 := rfl
    rw [h1, h3]
    simp [trapezoid, times]
    norm_num
  have hang : (-90 : ℝ) * Real.pi / 180.0 = -(Real.pi / 2) := by scalars; ring
  have hnet : r.power.net = 5 * Real.pi - 10 := by
    obtain ⟨-, h2, h3, h4⟩ := results_powers rfl hr
    have h5 := (C42_no_resistance powerEngine _ rfl r hr rfl rfl rfl).2.2
    rw [h4, h3, h5, h2, cycleWork]
    have hc : ∀ t : ℝ, t = 0 ∨ t = 1 → dVc powerEngine t = 0 ∧ dVe powerEngine t = Real.pi := by
      intro t ht
      simp only [dVc, dVe, powerEngine, fixedApproachEngine, ws.SinusoidalDrive.toWorkingSpaces,
        ws.SinusoidalDrive.volumes, drive, real_pi, real_sin, real_cos, hang]
      rcases ht with rfl | rfl
      · simp; norm_num; ring
      · have : (2.0 : ℝ) * Real.pi * 1 * 1 = 2 * Real.pi := by scalars; ring
        rw [this, show 2 * Real.pi + -(Real.pi / 2) = Real.pi + Real.pi / 2 by ring, Real.sin_two_pi]
        simp [Real.sin_add]; norm_num; ring
    have h1 : powerEngine.components.ws.frequency ⟨powerEngine.state.pres⟩ = 1 := rfl
    have m1 : (powerEngine.components.ws.parasitics powerEngine.state.ws).comp.mechanical = 1 := rfl
    have m2 : (powerEngine.components.ws.parasitics powerEngine.state.ws).exp.mechanical = 2 := rfl
    have m3 : (powerEngine.components.chx.parasitics powerEngine.state.chx).mechanical = 3 := rfl
    have m4 : (powerEngine.components.hhx.parasitics powerEngine.state.hhx).mechanical = 4 := rfl
    rw [h1, m1, m2, m3, m4]
    simp [trapezoid, times, (hc 0 (.inl rfl)).1, (hc 0 (.inl rfl)).2, (hc 1 (.inr rfl)).1,
      (hc 1 (.inr rfl)).2]
    ring
  have h3 := Real.two_le_pi
  have h4 := Real.pi_le_four
  obtain ⟨g1, g2⟩ := (C44_torque_efficiency powerEngine r hr).2.2 (by rw [hin]; norm_num)
    (by rw [hnet]; linarith) (by rw [hin, hnet]; linarith)
  exact ⟨r, hr, hin, hnet, g1, g2⟩

end SoundRun
end Sett
