import Verif.Spec.Scaled
import Verif.Props.NoPanic

/-! # C64: an engine of `k` times the size has `k` times the power and the same efficiency -/

namespace Sett

open Spec state_equations api

section inner
variable {k : ℝ} {r r' : Run ℝ}

/-- The balances scale. -/
theorem balances_scale (hk : 0 < k) (h : ScaledRun k r r') (t : ℝ) (y : Conditions ℝ) {s : Solution ℝ}
    (hs : Balances (r.calculate_inputs t y) (upwind (r.calculate_inputs t y) s) s) :
    Balances (r'.calculate_inputs t y)
      (upwind (r'.calculate_inputs t y) (scaleSolution k s)) (scaleSolution k s) := by
  have hu : upwind (r'.calculate_inputs t y) (scaleSolution k s)
      = upwind (r.calculate_inputs t y) s := by
    simp only [upwind, scaleSolution, mul_nonneg_iff_of_pos_left hk, Run.calculate_inputs,
      Run.comp_inputs, Run.chx_inputs, Run.regen_inputs, Run.hhx_inputs, Run.exp_inputs, h.fluid,
      h.temp]
  rw [hu]
  generalize upwind (r.calculate_inputs t y) s = f at hs
  obtain ⟨b1, b2, b3, b4, b5, b6, b7, b8, b9, b10⟩ := hs
  simp only [compMass, compEnergy, chxMass, chxEnergy, regenMass, regenEnergy, hhxMass, hhxEnergy,
    expMass, expEnergy, massRate, energyRate, Run.calculate_inputs,
    Run.comp_inputs, Run.chx_inputs, Run.regen_inputs, Run.hhx_inputs, Run.exp_inputs]
    at b1 b2 b3 b4 b5 b6 b7 b8 b9 b10
  constructor <;>
    simp only [compMass, compEnergy, chxMass, chxEnergy, regenMass, regenEnergy, hhxMass, hhxEnergy,
      expMass, expEnergy, massRate, energyRate, scaleSolution, Run.calculate_inputs,
      Run.comp_inputs, Run.chx_inputs, Run.regen_inputs, Run.hhx_inputs, Run.exp_inputs, h.fluid,
      h.temp, h.comp, h.exp, h.chx, h.regen, h.hhx, h.comp_loss, h.exp_loss]
  · linear_combination k * b1
  · linear_combination k * b2
  · linear_combination k * b3
  · linear_combination k * b4
  · linear_combination k * b5
  · linear_combination k * b6
  · linear_combination k * b7
  · linear_combination k * b8
  · linear_combination k * b9
  · linear_combination k * b10

theorem saneRun_scale (hk : 0 < k) (h : ScaledRun k r r') (hs : SaneRun r) : SaneRun r' := by
  obtain ⟨h1, h2, h3, h4, h5, h6, h7, h8, h9⟩ := hs
  refine ⟨by rwa [h.norm], fun t => ?_, fun t => ?_, ?_, ?_, ?_, by rwa [h.temp], by rwa [h.temp],
    by rwa [h.temp]⟩
  · rw [h.comp]; exact mul_pos hk (h2 t)
  · rw [h.exp]; exact mul_pos hk (h3 t)
  · rw [h.chx]; exact mul_nonneg hk.le h4
  · rw [h.regen]; exact mul_nonneg hk.le h5
  · rw [h.hhx]; exact mul_nonneg hk.le h6

theorem ratesOf_scale (hk : 0 < k) (h : ScaledRun k r r') {f : ℝ → V3 ℝ → V3 ℝ} (hr : RatesOf r f) :
    RatesOf r' f := by
  intro t y hy
  obtain ⟨s, hs, e⟩ := hr t y hy
  exact ⟨scaleSolution k s, balances_scale hk h t _ hs, e⟩

variable {env : Env ℝ} {n : GasName} {f : ℝ → V3 ℝ → V3 ℝ} {tol : OdeTolerance ℝ} {m : UInt32} {P : ℝ}

/-- One integration does not see the size. -/
theorem integration_scale (hk : 0 < k) (h : ScaledRun k r r') (hs : SaneRun r)
    (hf : r.fluid = (IdealGas.new n).toFluid)
    (hT : Sound r.solver) (hc : Complete r.solver) (hr : RatesOf r f) (hw : KeepsWarm env r f tol m P)
    (T_c T_e : ℝ) (h1 : 100 ≤ T_c) (h2 : 100 ≤ T_e) (j : UInt32) (hj : j = 2 ∨ j = m)
    (hm : m ≠ 0 ∨ env.build = .wrapping) :
    integrationTryFrom env r'.toCycle ⟨P, T_c, T_e⟩ j tol
      = integrationTryFrom env r.toCycle ⟨P, T_c, T_e⟩ j tol := by
  obtain ⟨dx, hdx⟩ : ∃ dx, timeStep env.build r.period j = .ok dx := by
    rcases hj with rfl | rfl
    · exact timeStep_two _ _
    · exact timeStep_ok _ _ _ hm
  have hst : startStepper env r'.toCycle ⟨P, T_c, T_e⟩ dx tol
      = startStepper env r.toCycle ⟨P, T_c, T_e⟩ dx tol := by
    simp only [startStepper, Run.toCycle, h.period]
  have hw' : StaysWarm f (startStepper env r.toCycle ⟨P, T_c, T_e⟩ dx tol) :=
    hw T_c T_e dx h1 h2 (by rcases hj with rfl | rfl <;> simp [hdx])
  rw [C60_integration env r n hf hT hc f _ j tol dx hdx fun t y g =>
      ⟨SaneRun.physical hs t (hw'.asked t y g), hr t y (hw'.asked t y g)⟩,
    C60_integration env r' n (h.fluid.trans hf) (h.solver ▸ hT) (h.solver ▸ hc) f _ j tol dx
      (by rw [h.period]; exact hdx) fun t y g => by
        rw [hst] at g
        exact ⟨SaneRun.physical (saneRun_scale hk h hs) t (hw'.asked t y g),
          ratesOf_scale hk h hr t y (hw'.asked t y g)⟩, hst]

theorem values_scale (hk : 0 < k) (h : ScaledRun k r r') (hs : SaneRun r)
    (hf : r.fluid = (IdealGas.new n).toFluid) (hT : Sound r.solver) (hc : Complete r.solver)
    (pts : List (Point ℝ)) (hp : ∀ p ∈ pts, Warm p.conditions) :
    ∃ vs, intoStateValues r.toCycle pts = .ok vs ∧
      intoStateValues r'.toCycle pts = .ok (vs.map (scaleValue k)) := by
  obtain ⟨vs, e, hall⟩ := C60_values r n hf hT hc pts fun p g => SaneRun.physical hs _ (hp p g)
  obtain ⟨vs', e', hall'⟩ := C60_values r' n (h.fluid.trans hf) (h.solver ▸ hT) (h.solver ▸ hc) pts
    fun p g => SaneRun.physical (saneRun_scale hk h hs) _ (hp p g)
  refine ⟨vs, e, ?_⟩
  rw [e']
  congr 1
  clear e e'
  induction hall generalizing vs' with
  | nil => cases hall'; rfl
  | @cons p v ps vs hv _ ih =>
    cases hall' with
    | @cons _ v' _ vs'' hv' hall'' =>
      have e := ih (fun p g => hp p (by simp [g])) vs'' hall''
      have hst := C58_ideal_gas_stable r' n (h.fluid.trans hf) p.time p.conditions
        (SaneRun.physical (saneRun_scale hk h hs) p.time (hp p (by simp)))
      have hu := consistent_unique hst hv'.2.2 (balances_scale hk h _ _ hv.2.2)
      obtain ⟨a1, a2, a3⟩ := v
      obtain ⟨b1, b2, b3⟩ := v'
      obtain ⟨g1, g2, -⟩ := hv
      obtain ⟨g1', g2', -⟩ := hv'
      simp only at g1 g2 g1' g2' hu
      subst g1 g2 g1' g2' hu e
      rfl

/-- **C64**, inner loop: the same pressures and temperatures at the same times, and `k` times the flows
and heats; or the same error. -/
theorem C64_inner (hk : 0 < k) (h : ScaledRun k r r') (hs : SaneRun r)
    (hf : r.fluid = (IdealGas.new n).toFluid)
    (hT : Sound r.solver) (hc : Complete r.solver) (hr : RatesOf r f) (i : SteadyStateInputs ℝ)
    (hm : i.num_points ≠ 0 ∨ env.build = .wrapping)
    (hw : KeepsWarm env r f i.ode_tol i.num_points i.pres_zero)
    (h1 : 100 ≤ i.temp_comp_hint) (h2 : 100 ≤ i.temp_exp_hint) :
    findSteadyState env r'.toCycle i
      = (findSteadyState env r.toCycle i).map (List.map (scaleValue k)) := by
  unfold findSteadyState findSteadyStateLogged
  generalize i.max_iters = fuel
  generalize i.temp_comp_hint = T_c at h1
  generalize i.temp_exp_hint = T_e at h2
  induction fuel generalizing T_c T_e with
  | zero => rfl
  | succ fuel ih =>
    simp only [steadyLoop]
    rw [integration_scale hk h hs hf hT hc hr hw T_c T_e h1 h2 2 (.inl rfl) hm]
    rcases integration_warm hs hf hT hc hr hw T_c T_e h1 h2 2 (.inl rfl) hm with e | ⟨pts, e, g1, g2⟩
    · rw [e]; rfl
    rw [e]
    simp only
    cases hI : integrationIsConverged pts i.conv_tol with
    | error x => cases x with
      | panic s => rfl
      | err x => exact x.elim
    | ok b =>
      cases b with
      | true =>
        simp only
        rw [integration_scale hk h hs hf hT hc hr hw T_c T_e h1 h2 i.num_points (.inr rfl) hm]
        rcases integration_warm hs hf hT hc hr hw T_c T_e h1 h2 i.num_points (.inr rfl) hm with
          e | ⟨pts', e, g3, g4⟩
        · rw [e]; rfl
        rw [e]
        simp only
        obtain ⟨vs, e1, e2⟩ := values_scale hk h hs hf hT hc pts' g4
        rw [e1, e2]; rfl
      | false =>
        simp only
        obtain ⟨q, hq⟩ : ∃ q, pts.getLast? = some q := by
          cases hl : pts.getLast? with
          | none => exact absurd (List.getLast?_eq_none_iff.1 hl) g1
          | some q => exact ⟨q, rfl⟩
        have hF : finalConditions pts = .ok q.conditions := by unfold finalConditions; rw [hq]
        rw [hF]
        have hq' := g2 q (List.mem_of_getLast? hq)
        exact ih _ hq'.comp _ hq'.exp
end inner

/-! ## The outer loop -/

section outer
variable {k : ℝ}

theorem integrate_smul {β : Type} (x : List ℝ) (vs : List β) (a : ℝ) (g : β → ℝ) :
    integrate x (vs.map fun v => a * g v) = a * integrate x (vs.map g) := by
  rw [integrate_eq, integrate_eq]
  have := trapezoid_comb x vs a 0 g g
  simpa using this

theorem scaled_time (vs : List (state_equations.Values ℝ)) :
    (Values.ofStateValues (vs.map (scaleValue k))).time = (Values.ofStateValues vs).time := by
  rw [ofStateValues_eq, ofStateValues_eq]
  simp only [List.map_map, Function.comp_def, scaleValue]

theorem scaled_final (vs : List (state_equations.Values ℝ)) :
    (Values.ofStateValues (vs.map (scaleValue k))).final_time
      = (Values.ofStateValues vs).final_time := by
  unfold Values.final_time; rw [scaled_time]

theorem scaled_pressure (vs : List (state_equations.Values ℝ)) :
    Pressure.from_values (Values.ofStateValues (vs.map (scaleValue k)))
      = Pressure.from_values (Values.ofStateValues vs) := by
  unfold Pressure.from_values
  rw [scaled_final, scaled_time, show (Values.ofStateValues (vs.map (scaleValue k))).P
    = (Values.ofStateValues vs).P by
      rw [ofStateValues_eq, ofStateValues_eq]
      simp only [List.map_map, Function.comp_def, scaleValue]]

theorem scaled_m_dot_avg (hk : 0 < k) (vs : List (state_equations.Values ℝ))
    (g h : state_equations.Values ℝ → ℝ) :
    (Values.ofStateValues (vs.map (scaleValue k))).m_dot_avg (vs.map fun v => k * g v)
        (vs.map fun v => k * h v)
      = ((Values.ofStateValues vs).m_dot_avg (vs.map g) (vs.map h)).map (k * ·) := by
  unfold Values.m_dot_avg
  rw [scaled_final, scaled_time]
  cases (Values.ofStateValues vs).final_time with
  | error e => rfl
  | ok t =>
    simp only [bind, Except.bind, pure, Except.pure, Except.map, List.zip_map', List.map_map,
      Function.comp_def, real_abs]
    congr 1
    rw [show (fun v => 0.5 * |k * g v + k * h v|) = fun v => k * (0.5 * |g v + h v|) by
      funext v; rw [← mul_add, abs_mul, abs_of_pos hk]; ring, integrate_smul]
    ring

theorem scaled_mass_flows (hk : 0 < k) (vs : List (state_equations.Values ℝ)) :
    MassFlows.from_values (Values.ofStateValues (vs.map (scaleValue k)))
      = (MassFlows.from_values (Values.ofStateValues vs)).map
        fun m => ⟨k * m.chx, k * m.regen, k * m.hhx⟩ := by
  have key : ∀ g h : state_equations.Values ℝ → ℝ, _ := scaled_m_dot_avg hk vs
  have e1 := key (·.solution.m_dot_ck) (·.solution.m_dot_kr)
  have e2 := key (·.solution.m_dot_kr) (·.solution.m_dot_rl)
  have e3 := key (·.solution.m_dot_rl) (·.solution.m_dot_le)
  unfold MassFlows.from_values
  rw [show (Values.ofStateValues (vs.map (scaleValue k))).m_dot_ck
      = vs.map fun v => k * v.solution.m_dot_ck by
        rw [ofStateValues_eq]; simp only [List.map_map, Function.comp_def, scaleValue, scaleSolution],
    show (Values.ofStateValues (vs.map (scaleValue k))).m_dot_kr
      = vs.map fun v => k * v.solution.m_dot_kr by
        rw [ofStateValues_eq]; simp only [List.map_map, Function.comp_def, scaleValue, scaleSolution],
    show (Values.ofStateValues (vs.map (scaleValue k))).m_dot_rl
      = vs.map fun v => k * v.solution.m_dot_rl by
        rw [ofStateValues_eq]; simp only [List.map_map, Function.comp_def, scaleValue, scaleSolution],
    show (Values.ofStateValues (vs.map (scaleValue k))).m_dot_le
      = vs.map fun v => k * v.solution.m_dot_le by
        rw [ofStateValues_eq]; simp only [List.map_map, Function.comp_def, scaleValue, scaleSolution],
    e1, e2, e3,
    show (Values.ofStateValues vs).m_dot_ck = vs.map (·.solution.m_dot_ck) by rw [ofStateValues_eq],
    show (Values.ofStateValues vs).m_dot_kr = vs.map (·.solution.m_dot_kr) by rw [ofStateValues_eq],
    show (Values.ofStateValues vs).m_dot_rl = vs.map (·.solution.m_dot_rl) by rw [ofStateValues_eq],
    show (Values.ofStateValues vs).m_dot_le = vs.map (·.solution.m_dot_le) by rw [ofStateValues_eq]]
  unfold Values.m_dot_avg
  cases (Values.ofStateValues vs).final_time <;> rfl

theorem scaled_heat_flows (vs : List (state_equations.Values ℝ)) (Tk Tl : ℝ)
    (R R' : ws.ThermalResistance ℝ) (h1 : R'.comp = R.comp / k) (h2 : R'.exp = R.exp / k) :
    HeatFlows.from_values (Values.ofStateValues (vs.map (scaleValue k))) Tk Tl R'
      = (HeatFlows.from_values (Values.ofStateValues vs) Tk Tl R).map
        fun m => ⟨k * m.chx, k * m.regen, k * m.hhx⟩ := by
  unfold HeatFlows.from_values
  rw [scaled_final, scaled_time]
  cases (Values.ofStateValues vs).final_time with
  | error e => rfl
  | ok t =>
    simp only [bind, Except.bind, pure, Except.pure, Except.map, real_isInfinite,
      Bool.false_eq_true, if_false]
    rw [ofStateValues_eq, ofStateValues_eq, h1, h2]
    simp only [List.map_map, Function.comp_def, scaleValue, scaleSolution, integrate_smul]
    rw [show (fun v : state_equations.Values ℝ => (v.conditions.T_c - Tk) / (R.comp / k))
        = fun v => k * ((v.conditions.T_c - Tk) / R.comp) by
          funext v; rw [div_div_eq_mul_div]; ring,
      show (fun v : state_equations.Values ℝ => (Tl - v.conditions.T_e) / (R.exp / k))
        = fun v => k * ((Tl - v.conditions.T_e) / R.exp) by
          funext v; rw [div_div_eq_mul_div]; ring, integrate_smul, integrate_smul]
    congr 2 <;> ring

/-- The scaled outcome of an update. -/
noncomputable def scaleUpdated (k : ℝ) : State.Updated ℝ → State.Updated ℝ
  | .changed s => .changed (scaleState k s)
  | .converged s => .converged (scaleState k s)

theorem update_scale (hk : 0 < k) {c c' : Components ℝ} (h : ScaledComponents k c c') (s : State ℝ)
    (vs : List (state_equations.Values ℝ)) (tol : ConvergenceTolerance ℝ) :
    (scaleState k s).update c' (Values.ofStateValues (vs.map (scaleValue k))) tol
      = (s.update c (Values.ofStateValues vs) tol).map (scaleUpdated k) := by
  have hws : (scaleState k s).ws = s.ws := rfl
  have hq := scaled_heat_flows vs s.temp.chx s.temp.hhx (c.ws.thermal_resistance s.ws) _
    (h.comp_wall s.ws) (h.exp_wall s.ws)
  unfold State.update
  rw [scaled_pressure, scaled_mass_flows hk, hws]
  simp only [show (scaleState k s).temp = s.temp from rfl, hq]
  cases Pressure.from_values (Values.ofStateValues vs) with
  | error e => rfl
  | ok p =>
    cases MassFlows.from_values (Values.ofStateValues vs) with
    | error e => rfl
    | ok m =>
      simp only [scaleState]
      cases HeatFlows.from_values (Values.ofStateValues vs) s.temp.chx s.temp.hhx
        (c.ws.thermal_resistance s.ws) with
      | error e => rfl
      | ok q =>
        have a1 : ∀ a b d e m q T, c'.chx.approach ⟨⟨a, b, d, e, k * m, k * q⟩, T⟩
            = c.chx.approach ⟨⟨a, b, d, e, m, q⟩, T⟩ := fun a b d e m q T =>
          h.chx_approach ⟨a, b, d, e, m, q⟩ T
        have a2 : ∀ a b d e m q T U, c'.regen.approach ⟨⟨a, b, d, e, k * m, k * q⟩, T, U⟩
            = c.regen.approach ⟨⟨a, b, d, e, m, q⟩, T, U⟩ := fun a b d e m q T U =>
          h.regen_approach ⟨a, b, d, e, m, q⟩ T U
        have a3 : ∀ a b d e m q T, c'.hhx.approach ⟨⟨a, b, d, e, k * m, k * q⟩, T⟩
            = c.hhx.approach ⟨⟨a, b, d, e, m, q⟩, T⟩ := fun a b d e m q T =>
          h.hhx_approach ⟨a, b, d, e, m, q⟩ T
        simp only [bind, Except.bind, Except.map, State.chx, State.regen, State.hhx, a1, a2, a3]
        split
        · rename_i hb; simp only [hb, ↓reduceIte]; rfl
        · rename_i hb; simp only [hb]; rfl

variable {env : Env ℝ} {U : MatrixDecomposition ℝ} {c c' : Components ℝ} {n : GasName}
  {inputs : RunInputs ℝ} {settings : RunSettings ℝ}

theorem scaledRun_new (h : ScaledComponents k c c') (U : MatrixDecomposition ℝ) (s : State ℝ) :
    ScaledRun k (Run.new U c s) (Run.new U c' (scaleState k s)) :=
  ⟨rfl, rfl, rfl, by simp only [Run.new]; exact congrArg _ (h.frequency _), rfl, fun t => h.comp _ t,
    fun t => h.exp _ t, h.chx_volume, h.regen_volume, h.hhx_volume, h.comp_heat _, h.exp_heat _⟩

/-- **C64**, outer loop.  The engine of `k` times the size goes through the same temperatures and
pressures: it fails in the same way, or converges to the state with `k` times the flows. -/
theorem C64_engine (hk : 0 < k) (h : ScaledComponents k c c') (hT : Sound U) (hc : Complete U)
    (hm : settings.resolution ≠ 0 ∨ env.build = .wrapping)
    (hv : ∀ j s, Visited env U c settings (State.new_hint c (IdealGas.new n).toFluid inputs) j s →
      SaneRun (Run.new U c s) ∧ ∃ f, RatesOf (Run.new U c s) f ∧
        KeepsWarm env (Run.new U c s) f settings.ode_tol settings.resolution s.pres.t_zero) :
    match Engine.run env U c (IdealGas.new n).toFluid inputs settings with
    | .ok e => ∃ vs, e.components = c ∧ e.values = Values.ofStateValues vs ∧
        Engine.run env U c' (IdealGas.new n).toFluid inputs settings
          = .ok ⟨c', scaleState k e.state, Values.ofStateValues (vs.map (scaleValue k))⟩
    | .error x => Engine.run env U c' (IdealGas.new n).toFluid inputs settings = .error x := by
  have hstart : State.new_hint c' (IdealGas.new n).toFluid inputs
      = scaleState k (State.new_hint c (IdealGas.new n).toFluid inputs) := by
    unfold State.new_hint scaleState
    simp only [h.chx_initial, h.regen_initial, h.hhx_initial, MassFlows.constant, HeatFlows.constant]
    norm_num
  unfold Engine.run Engine.runLogged
  rw [hstart]
  have key : ∀ fuel j s, Visited env U c settings
      (State.new_hint c (IdealGas.new n).toFluid inputs) j s →
      match (Engine.runLoop env U c settings fuel s).1 with
      | .ok e => ∃ vs, e.components = c ∧ e.values = Values.ofStateValues vs ∧
        (Engine.runLoop env U c' settings fuel (scaleState k s)).1
          = .ok ⟨c', scaleState k e.state, Values.ofStateValues (vs.map (scaleValue k))⟩
      | .error x => (Engine.runLoop env U c' settings fuel (scaleState k s)).1 = .error x := by
    intro fuel
    induction fuel with
    | zero => intro j s _; simp only [Engine.runLoop]
    | succ fuel ih =>
      intro j s hs
      obtain ⟨hsane, f, hr, hw⟩ := hv j s hs
      have hfl : (Run.new U c s).fluid = (IdealGas.new n).toFluid :=
        (C37_visited_invariant env U c _ inputs settings j s hs).1
      have hinner : Engine.inner env U c' settings (scaleState k s)
          = (Engine.inner env U c settings s).map (List.map (scaleValue k)) :=
        C64_inner hk (scaledRun_new h U s) hsane hfl hT hc hr (Engine.steadyInputs settings s) hm hw
          hsane.chx_temp hsane.hhx_temp
      simp only [Engine.runLoop]
      rw [hinner]
      cases hI : Engine.inner env U c settings s with
      | error x => cases x <;> rfl
      | ok vs =>
        simp only [Except.map]
        rw [update_scale hk h]
        cases hU : s.update c (Values.ofStateValues vs) settings.loop_tol.outer with
        | error x => cases x with
          | panic p => rfl
          | err x => exact x.elim
        | ok u =>
          obtain ⟨s', g1, g2⟩ := update_ok hU
          cases u with
          | converged t => exact ⟨vs, rfl, rfl, rfl⟩
          | changed t =>
            rcases g2 with ⟨g3, g4⟩ | ⟨g3, g4⟩
            · cases g3
              exact ih (j + 1) _ (.next hs hI g1 g4)
            · cases g3
  exact key _ 0 _ .start
end outer

/-! ## The results -/

section results
variable {k : ℝ} {c c' : Components ℝ}

theorem sampleDrop_scale (hk : 0 < k) (h : ScaledComponents k c c') (s : State ℝ) (V V' : Values ℝ)
    (v : state_equations.Values ℝ) :
    sampleDrop ⟨c', scaleState k s, V'⟩ (scaleValue k v) = sampleDrop ⟨c, s, V⟩ v := by
  have hx := h.chx_drop s.chx.hxr s.temp.sink
  have hl := h.hhx_drop s.hhx.hxr s.temp.source
  have hr := h.regen_drop s.regen.hxr s.temp.chx s.temp.hhx
  have e1 : c'.chx.hydraulic_resistance (scaleState k s).chx = c.chx.hydraulic_resistance s.chx / k :=
    hx
  have e2 : c'.hhx.hydraulic_resistance (scaleState k s).hhx = c.hhx.hydraulic_resistance s.hhx / k :=
    hl
  have e3 : c'.regen.hydraulic_resistance (scaleState k s).regen
      = c.regen.hydraulic_resistance s.regen / k := hr
  simp only [sampleDrop, e1, e2, e3, scaleValue, scaleSolution]
  have hk' := hk.ne'
  have key : ∀ R a b d : ℝ, R / k * (0.5 * (k * a + k * b) / d) = R * (0.5 * (a + b) / d) := by
    intro R a b d
    rw [← mul_add, show (0.5 : ℝ) * (k * (a + b)) / d = k * (0.5 * (a + b) / d) by ring]
    field_simp
  simp only [key]
  rfl

theorem pressures_scale (hk : 0 < k) (h : ScaledComponents k c c') (s : State ℝ)
    (vs : List (state_equations.Values ℝ)) :
    performance.PressuresWithDrops.new
        ⟨c', scaleState k s, Values.ofStateValues (vs.map (scaleValue k))⟩
      = performance.PressuresWithDrops.new ⟨c, s, Values.ofStateValues vs⟩ := by
  rw [pressures_eq (⟨c, s, Values.ofStateValues vs⟩ : Engine ℝ) vs rfl,
    pressures_eq (⟨c', scaleState k s, Values.ofStateValues (vs.map (scaleValue k))⟩ : Engine ℝ)
      (vs.map (scaleValue k)) rfl]
  simp only [List.map_map, Function.comp_def, sampleDrop_scale hk h s (Values.ofStateValues vs)]
  rfl

/-- Powers of the scaled engine. -/
noncomputable def scalePowers (k : ℝ) (p : performance.Powers ℝ) : performance.Powers ℝ :=
  ⟨k * p.indicated, k * p.indicated_zero_dP, k * p.shaft, k * p.net⟩

theorem powers_scale (h : ScaledComponents k c c') (s : State ℝ)
    (vs : List (state_equations.Values ℝ)) (pc pe : state_equations.Values ℝ → ℝ) :
    performance.Powers.new ⟨vs.map pc, vs.map pe⟩
        ⟨c', scaleState k s, Values.ofStateValues (vs.map (scaleValue k))⟩
      = (performance.Powers.new ⟨vs.map pc, vs.map pe⟩ ⟨c, s, Values.ofStateValues vs⟩).map
        (scalePowers k) := by
  have d1 : (c'.chx.parasitics (scaleState k s).chx).mechanical
      = k * (c.chx.parasitics s.chx).mechanical := h.chx_work s.chx.hxr s.temp.sink
  have d2 : (c'.hhx.parasitics (scaleState k s).hhx).mechanical
      = k * (c.hhx.parasitics s.hhx).mechanical := h.hhx_work s.hhx.hxr s.temp.source
  have hws : (scaleState k s).ws = s.ws := rfl
  have v1 : ∀ t, (c'.ws.volumes s.ws t).1.deriv = k * (c.ws.volumes s.ws t).1.deriv :=
    fun t => by rw [h.comp]
  have v2 : ∀ t, (c'.ws.volumes s.ws t).2.deriv = k * (c.ws.volumes s.ws t).2.deriv :=
    fun t => by rw [h.exp]
  unfold performance.Powers.new performance.dV_dts
  simp only [scaled_time]
  rw [ofStateValues_eq, ofStateValues_eq]
  simp only [List.map_map, Function.comp_def, mul_map, add_map, bind, Except.bind, pure, Except.pure,
    Except.map, hws, v1, v2, d1, d2, h.frequency, h.comp_work, h.exp_work, scaleValue, scalePowers]
  have i1 : ∀ x : List ℝ, integrate x (vs.map fun v => pc v * (k * (c.ws.volumes s.ws v.time).1.deriv)
        + pe v * (k * (c.ws.volumes s.ws v.time).2.deriv))
      = k * integrate x (vs.map fun v => pc v * (c.ws.volumes s.ws v.time).1.deriv
        + pe v * (c.ws.volumes s.ws v.time).2.deriv) := by
    intro x; rw [← integrate_smul]; congr 2; funext v; ring
  have i2 : ∀ x : List ℝ, integrate x (vs.map fun v => v.conditions.P
        * (k * (c.ws.volumes s.ws v.time).1.deriv + k * (c.ws.volumes s.ws v.time).2.deriv))
      = k * integrate x (vs.map fun v => v.conditions.P * ((c.ws.volumes s.ws v.time).1.deriv
        + (c.ws.volumes s.ws v.time).2.deriv)) := by
    intro x; rw [← integrate_smul]; congr 2; funext v; ring
  rw [i1, i2]
  congr 2 <;> ring

theorem heats_scale (h : ScaledComponents k c c') (s : State ℝ)
    (vs : List (state_equations.Values ℝ)) (p : performance.Powers ℝ) :
    performance.Heats.new (scalePowers k p)
        ⟨c', scaleState k s, Values.ofStateValues (vs.map (scaleValue k))⟩
      = ⟨k * (performance.Heats.new p ⟨c, s, Values.ofStateValues vs⟩).input,
        k * (performance.Heats.new p ⟨c, s, Values.ofStateValues vs⟩).rejected⟩ := by
  have d3 : (c'.regen.parasitics (scaleState k s).regen).thermal
      = k * (c.regen.parasitics s.regen).thermal :=
    h.regen_heat s.regen.hxr s.temp.chx s.temp.hhx
  have d4 : (c'.hhx.parasitics (scaleState k s).hhx).thermal
      = k * (c.hhx.parasitics s.hhx).thermal := h.hhx_heat s.hhx.hxr s.temp.source
  have hws : (scaleState k s).ws = s.ws := rfl
  have ht : (scaleState k s).temp = s.temp := rfl
  unfold performance.Heats.new
  rw [ofStateValues_eq, ofStateValues_eq]
  simp only [List.map_map, Function.comp_def, hws, ht, d3, d4, h.frequency, h.comp_work, h.exp_work,
    h.exp_heat, h.comp_wall, h.exp_wall, scaleValue, scaleSolution, scalePowers, DVector.sdiv,
    integrate_smul]
  have key : ∀ (x : List ℝ) (g : state_equations.Values ℝ → ℝ) (R : ℝ),
      integrate x (vs.map fun v => g v / (R / k)) = k * integrate x (vs.map fun v => g v / R) := by
    intro x g R
    rw [← integrate_smul]; congr 2; funext v; rw [div_div_eq_mul_div]; ring
  rw [key, key]
  congr 1 <;> ring

/-- **C64**, results: an engine in the scaled state reports the scaled results. -/
theorem C64_results (hk : 0 < k) (h : ScaledComponents k c c') (s : State ℝ)
    (vs : List (state_equations.Values ℝ)) :
    RunResults.ofEngine ⟨c', scaleState k s, Values.ofStateValues (vs.map (scaleValue k))⟩
      = (RunResults.ofEngine ⟨c, s, Values.ofStateValues vs⟩).map (scaleResults k) := by
  unfold RunResults.ofEngine performance.Performance.ofEngine
  rw [pressures_scale hk h]
  rw [pressures_eq (⟨c, s, Values.ofStateValues vs⟩ : Engine ℝ) vs rfl]
  simp only [bind, Except.bind]
  rw [powers_scale h]
  rw [powers_eq (⟨c, s, Values.ofStateValues vs⟩ : Engine ℝ) vs rfl]
  simp only [Except.map, pure, Except.pure]
  rw [heats_scale h]
  simp only [scaleResults, scalePowers]
  rw [ofStateValues_eq, ofStateValues_eq]
  simp only [List.map_map, Function.comp_def, scaleValue, scaleSolution, scaleState]
  rw [mul_div_mul_left _ _ hk.ne', h.frequency, mul_div_assoc]
  rfl
end results

/-! ## Configurations -/

section config
variable {k : ℝ}

theorem sinusoidal_scale (p : ws.SinusoidalDrive.Config ℝ) (t : ℝ) :
    ((ws.SinusoidalDrive.ofConfig { p with
        V_swept_c := k * p.V_swept_c, V_clearance_c := k * p.V_clearance_c, R_c := p.R_c / k
        W_parasitic_c := k * p.W_parasitic_c
        V_swept_e := k * p.V_swept_e, V_clearance_e := k * p.V_clearance_e, R_e := p.R_e / k
        W_parasitic_e := k * p.W_parasitic_e, Q_parasitic_e := k * p.Q_parasitic_e }).volumes t)
      = (⟨k * ((ws.SinusoidalDrive.ofConfig p).volumes t).1.value,
          k * ((ws.SinusoidalDrive.ofConfig p).volumes t).1.deriv⟩,
        ⟨k * ((ws.SinusoidalDrive.ofConfig p).volumes t).2.value,
          k * ((ws.SinusoidalDrive.ofConfig p).volumes t).2.deriv⟩) := by
  simp only [ws.SinusoidalDrive.ofConfig, ws.SinusoidalDrive.volumes, Prod.mk.injEq,
    ws.CompVolume.mk.injEq, ws.ExpVolume.mk.injEq]
  refine ⟨⟨?_, ?_⟩, ?_, ?_⟩ <;> scalars <;> ring

theorem rhombic_scale (hk : 0 < k) (p : ws.RhombicDrive.Config ℝ) (t : ℝ) :
    ((ws.RhombicDrive.ofConfig { p with
        D_p := Real.sqrt k * p.D_p, D_d := Real.sqrt k * p.D_d
        V_clearance_c := k * p.V_clearance_c, R_c := p.R_c / k
        W_parasitic_c := k * p.W_parasitic_c
        V_clearance_e := k * p.V_clearance_e, R_e := p.R_e / k
        W_parasitic_e := k * p.W_parasitic_e, Q_parasitic_e := k * p.Q_parasitic_e }).volumes t)
      = (⟨k * ((ws.RhombicDrive.ofConfig p).volumes t).1.value,
          k * ((ws.RhombicDrive.ofConfig p).volumes t).1.deriv⟩,
        ⟨k * ((ws.RhombicDrive.ofConfig p).volumes t).2.value,
          k * ((ws.RhombicDrive.ofConfig p).volumes t).2.deriv⟩) := by
  have hk' := hk.ne'
  have hA : Real.pi * (Real.sqrt k * p.D_p) ^ 2 / 4.0 = k * (Real.pi * p.D_p ^ 2 / 4.0) := by
    rw [mul_pow, Real.sq_sqrt hk.le, ← mul_div_assoc]; congr 1; ring
  simp only [ws.RhombicDrive.ofConfig, ws.RhombicDrive.volumes, Prod.mk.injEq,
    ws.CompVolume.mk.injEq, ws.ExpVolume.mk.injEq, real_powi2, real_pi, hA]
  generalize Real.pi * p.D_p ^ 2 / 4.0 = A
  generalize (Scalar.cos _ : ℝ) = x
  generalize (Scalar.sin _ : ℝ) = y
  scalars
  generalize √(p.L_conn ^ 2 - (p.eccentricity + p.r_crank * x) ^ 2) = b
  have h2 : ∀ d : ℝ, k * d * (k * A) / (2 * (k * A)) = k * (d * A / (2 * A)) := by
    intro d
    rw [show k * d * (k * A) = k * (k * (d * A)) by ring, show 2 * (k * A) = k * (2 * A) by ring,
      mul_div_mul_left _ _ hk', mul_div_assoc]
  have h3 : -2 * (k * A) * p.r_crank * y * (p.eccentricity + p.r_crank * x) / b
      = k * (-2 * A * p.r_crank * y * (p.eccentricity + p.r_crank * x) / b) := by ring
  refine ⟨⟨?_, ?_⟩, ?_, ?_⟩
  · ring
  · rw [h3]; ring
  · ring
  · rw [h3, h2]; ring

theorem initial_scale (hk : 0 < k) (x y : chx.FixedConductance ℝ) (h : y.UA = k * x.UA) :
    y.initial_approach = x.initial_approach := by
  have hneg : Scalar.lt y.UA 0.0 = true ↔ Scalar.lt x.UA 0.0 = true := by
    rw [real_lt, real_lt, h, show (0.0 : ℝ) = 0 by norm_num]
    exact ⟨fun h => by nlinarith, fun h => by nlinarith⟩
  unfold chx.FixedConductance.initial_approach
  by_cases hx : Scalar.lt x.UA 0.0 = true
  · rw [if_pos hx, if_pos (hneg.2 hx)]
  · rw [if_neg hx, if_neg (hneg.not.2 hx)]

theorem ntu_scale (hk : 0 < k) (u cp m : ℝ) : k * u / (cp * (k * m)) = u / (cp * m) := by
  rw [show cp * (k * m) = k * (cp * m) by ring, mul_div_mul_left _ _ hk.ne']

/-- **C64**, configurations: the components built from the scaled configuration are the scaled
components. -/
theorem C64_components (hk : 0 < k) (c : Config ℝ) {x : Components ℝ}
    (h : c.engine.components.build = .ok x) :
    ∃ x', (scaleConfig k c).engine.components.build = .ok x' ∧ ScaledComponents k x x' := by
  obtain ⟨⟨fl, ⟨cx, cl, cr, cw⟩⟩, so, co⟩ := c
  simp only [scaleConfig]
  cases cw <;> cases cx <;> cases cr <;> cases cl <;>
    first
    | (cases h; done)
    | (cases h
       refine ⟨_, rfl, ?_⟩
       constructor
       all_goals first
         | (intros; rfl)
         | (intro s t; exact congrArg Prod.fst (sinusoidal_scale _ t))
         | (intro s t; exact congrArg Prod.snd (sinusoidal_scale _ t))
         | (intro s t; exact congrArg Prod.fst (rhombic_scale hk _ t))
         | (intro s t; exact congrArg Prod.snd (rhombic_scale hk _ t))
         | (intros; show (0.0 : ℝ) = k * 0.0; norm_num)
         | (intros; show chx.FixedConductance.approach _ _ = chx.FixedConductance.approach _ _
            simp only [chx.FixedConductance.approach, scaleHx, chx.FixedConductance.ofConfig,
              ntu_scale hk])
         | (intros; show hhx.FixedConductance.approach _ _ = hhx.FixedConductance.approach _ _
            simp only [hhx.FixedConductance.approach, scaleHx, hhx.FixedConductance.ofConfig,
              ntu_scale hk])
         | (intros; show regen.FixedConductance.approach _ _ = regen.FixedConductance.approach _ _
            simp only [regen.FixedConductance.approach, scaleHx, regen.FixedConductance.ofConfig,
              ntu_scale hk])
         | exact initial_scale hk _ _ rfl)

/-- **C64.** `run_engine` on the configuration of an engine of `k` times the size returns exactly the
scaled results (powers, heats, mass flows and torque times `k`; pressures, temperatures and efficiency
unchanged), or fails exactly as it does on the original. -/
theorem C64_run_engine (hk : 0 < k) (env : Env ℝ) (lu : MatrixDecomposition ℝ) (c : Config ℝ)
    (hc : Supported c) (hT : Sound lu) (hT' : Complete lu)
    (hm : c.solver.ode.num_timesteps ≠ 0 ∨ env.build = .wrapping)
    (hv : ∀ x g, Asked c x g → ∀ j s,
      Visited env lu x (settingsOf c) (State.new_hint x g.toFluid (inputsOf c)) j s →
      SaneRun (Run.new lu x s) ∧ ∃ f, RatesOf (Run.new lu x s) f ∧
        KeepsWarm env (Run.new lu x s) f (settingsOf c).ode_tol (settingsOf c).resolution
          s.pres.t_zero) :
    run_engine env lu (scaleConfig k c) = (run_engine env lu c).map (scaleResults k) := by
  rcases build_cases c with ⟨-, x, g, h1, h2, h3⟩ | ⟨h', -⟩
  swap; · exact absurd hc h'
  obtain ⟨x', h2', hx⟩ := C64_components hk c h2
  obtain rfl := h3.fluid
  have key := C64_engine (env := env) (inputs := inputsOf c) hk hx hT hT' hm (hv x _ h3)
  unfold run_engine
  rw [h2, h2', show (scaleConfig k c).engine.fluid = c.engine.fluid from rfl, h1]
  simp only [Panics.lift, bind, Except.bind]
  rw [show (scaleConfig k c).conditions.toRunInputs = inputsOf c from rfl,
    show (scaleConfig k c).solver.toRunSettings = settingsOf c from rfl,
    show c.conditions.toRunInputs = inputsOf c from rfl,
    show c.solver.toRunSettings = settingsOf c from rfl]
  cases hr : Engine.run env lu x (IdealGas.new (gas c.engine.fluid)).toFluid (inputsOf c)
      (settingsOf c) with
  | error e =>
    rw [hr] at key
    simp only at key
    rw [key]; rfl
  | ok e =>
    rw [hr] at key
    obtain ⟨vs, e1, e2, e3⟩ := key
    rw [e3]
    simp only
    rw [C64_results hk hx]
    obtain ⟨a, b, d⟩ := e
    simp only at e1 e2
    subst e1 e2
    cases RunResults.ofEngine ⟨a, b, Values.ofStateValues vs⟩ with
    | ok r => rfl
    | error e => cases e with
      | panic p => rfl
      | err e => exact e.elim
end config

end Sett
