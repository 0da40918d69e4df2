import Verif.Proofs.Evenhanded
import Verif.Props.Scaling

/-! # C89: the engine in a mirror -/

namespace Sett

open Spec state_equations api

section inner
variable {r : Run ℝ}

/-- What crosses a face does not depend on the side from which it is seen. -/
theorem face_mirror (m a b : ℝ) [Decidable (0 ≤ -m)] [Decidable (0 ≤ m)] : (if 0 ≤ -m then b else a) * -m = -((if 0 ≤ m then a else b) * m) := by
  rcases lt_trichotomy m 0 with h | rfl | h
  · rw [if_pos (by linarith), if_neg (by linarith)]; ring
  · simp
  · rw [if_neg (by linarith), if_pos h.le]; ring

/-- The mirrored solution balances the mirrored inputs. -/
theorem balances_mirror (r : Run ℝ) (t : ℝ) (y : Conditions ℝ) {s : Solution ℝ}
    (hs : Balances (r.calculate_inputs t y) (upwind (r.calculate_inputs t y) s) s) :
    Balances ((mirrorRun r).calculate_inputs t (mirrorConditions y))
      (upwind ((mirrorRun r).calculate_inputs t (mirrorConditions y)) (mirrorSolution s)) (mirrorSolution s) := by
  have f1 : (upwind ((mirrorRun r).calculate_inputs t (mirrorConditions y)) (mirrorSolution s)).le * -s.m_dot_ck
      = -((upwind (r.calculate_inputs t y) s).ck * s.m_dot_ck) := @face_mirror _ _ _ _ _
  have f2 : (upwind ((mirrorRun r).calculate_inputs t (mirrorConditions y)) (mirrorSolution s)).rl * -s.m_dot_kr
      = -((upwind (r.calculate_inputs t y) s).kr * s.m_dot_kr) := @face_mirror _ _ _ _ _
  have f3 : (upwind ((mirrorRun r).calculate_inputs t (mirrorConditions y)) (mirrorSolution s)).kr * -s.m_dot_rl
      = -((upwind (r.calculate_inputs t y) s).rl * s.m_dot_rl) := @face_mirror _ _ _ _ _
  have f4 : (upwind ((mirrorRun r).calculate_inputs t (mirrorConditions y)) (mirrorSolution s)).ck * -s.m_dot_le
      = -((upwind (r.calculate_inputs t y) s).le * s.m_dot_le) := @face_mirror _ _ _ _ _
  generalize upwind ((mirrorRun r).calculate_inputs t (mirrorConditions y)) (mirrorSolution s) = A at f1 f2 f3 f4 ⊢
  generalize upwind (r.calculate_inputs t y) s = B at f1 f2 f3 f4 hs
  obtain ⟨b1, b2, b3, b4, b5, b6, b7, b8, b9, b10⟩ := hs
  simp only [compMass, compEnergy, chxMass, chxEnergy, regenMass, regenEnergy, hhxMass, hhxEnergy,
    expMass, expEnergy, massRate, energyRate, Run.calculate_inputs,
    Run.comp_inputs, Run.chx_inputs, Run.regen_inputs, Run.hhx_inputs, Run.exp_inputs]
    at b1 b2 b3 b4 b5 b6 b7 b8 b9 b10
  constructor <;>
    simp only [compMass, compEnergy, chxMass, chxEnergy, regenMass, regenEnergy, hhxMass, hhxEnergy,
      expMass, expEnergy, massRate, energyRate, mirrorSolution, mirrorConditions, mirrorRun, mirrorTemps,
      Run.calculate_inputs, Run.comp_inputs, Run.chx_inputs, Run.regen_inputs, Run.hhx_inputs, Run.exp_inputs]
  · linear_combination b9
  · linear_combination b10 + f4
  · linear_combination b7
  · linear_combination b8 - f4 + f3
  · linear_combination b5
  · linear_combination b6 - f3 + f2
  · linear_combination b3
  · linear_combination b4 - f2 + f1
  · linear_combination b1
  · linear_combination b2 - f1

theorem saneRun_mirror (hs : SaneRun r) : SaneRun (mirrorRun r) := by
  obtain ⟨h1, h2, h3, h4, h5, h6, h7, h8, h9⟩ := hs
  exact ⟨h1, h3, h2, h6, h5, h4, h7, h9, h8⟩

/-- Rates in the mirror. -/
def mirrorRates (f : ℝ → V3 ℝ → V3 ℝ) (t : ℝ) (y : V3 ℝ) : V3 ℝ := swap3 (f t (swap3 y))

theorem isRate_mirror {t : ℝ} {y dy : V3 ℝ} (h : IsRate r t y dy) : IsRate (mirrorRun r) t (swap3 y) (swap3 dy) := by
  obtain ⟨s, hs, e⟩ := h
  exact ⟨mirrorSolution s, balances_mirror r t _ hs, by rw [e]; rfl⟩

theorem warm_mirror {y : Conditions ℝ} (h : Warm y) : Warm (mirrorConditions y) := ⟨h.pres, h.exp, h.comp⟩

theorem ratesOf_mirror {f : ℝ → V3 ℝ → V3 ℝ} (hr : RatesOf r f) : RatesOf (mirrorRun r) (mirrorRates f) := by
  intro t y hy
  exact isRate_mirror (hr t (swap3 y) (warm_mirror hy))

theorem integrated_mirror (f : ℝ → V3 ℝ → V3 ℝ) (st : Stepper ℝ) :
    Integrated (mirrorRates f) (swapStepper st) = (Integrated f st).map fun o => (o.1, o.2.map swap3) := by
  induction st with
  | done out => rfl
  | eval t y k ih => exact ih (f t y)

theorem asks_mirror {f : ℝ → V3 ℝ → V3 ℝ} {st : Stepper ℝ} {t : ℝ} {y : V3 ℝ}
    (h : Asks (mirrorRates f) (swapStepper st) t y) : Asks f st t (swap3 y) := by
  induction st with
  | done out => exact h
  | eval t' y' k ih =>
    rcases h with ⟨rfl, rfl⟩ | h
    · exact .inl ⟨rfl, rfl⟩
    · exact .inr (ih (f t' y') h)

/-- One point of an integration in the mirror. -/
def mirrorPoint (p : Point ℝ) : Point ℝ := ⟨p.time, mirrorConditions p.conditions⟩

theorem toPoints_mirror (xs : List ℝ) (ys : List (V3 ℝ)) :
    toPoints xs (ys.map swap3) = (toPoints xs ys).map mirrorPoint := by
  unfold toPoints
  rw [List.zip_map_right, List.map_map, List.map_map]
  rfl

variable {env : Env ℝ} {n : GasName} {f : ℝ → V3 ℝ → V3 ℝ} {tol : OdeTolerance ℝ} {m : UInt32} {P : ℝ}

/-- One integration in the mirror. -/
theorem integration_mirror (he : Evenhanded env.ode) (hs : SaneRun r) (hf : r.fluid = (IdealGas.new n).toFluid)
    (hT : Sound r.solver) (hc : Complete r.solver) (hr : RatesOf r f) (hw : KeepsWarm env r f tol m P)
    (T_c T_e : ℝ) (h1 : 100 ≤ T_c) (h2 : 100 ≤ T_e) (j : UInt32) (hj : j = 2 ∨ j = m)
    (hm : m ≠ 0 ∨ env.build = .wrapping) :
    integrationTryFrom env (mirrorRun r).toCycle ⟨P, T_e, T_c⟩ j tol
      = (integrationTryFrom env r.toCycle ⟨P, T_c, T_e⟩ j tol).map (List.map mirrorPoint) := by
  obtain ⟨dx, hdx⟩ : ∃ dx, timeStep env.build r.period j = .ok dx := by
    rcases hj with rfl | rfl
    · exact timeStep_two _ _
    · exact timeStep_ok _ _ _ hm
  have hst : startStepper env (mirrorRun r).toCycle ⟨P, T_e, T_c⟩ dx tol
      = swapStepper (startStepper env r.toCycle ⟨P, T_c, T_e⟩ dx tol) :=
    he _ _ _ ⟨P, T_c, T_e⟩ _ _
  have hw' : StaysWarm f (startStepper env r.toCycle ⟨P, T_c, T_e⟩ dx tol) :=
    hw T_c T_e dx h1 h2 (by rcases hj with rfl | rfl <;> simp [hdx])
  rw [C60_integration env r n hf hT hc f _ j tol dx hdx fun t y g =>
      ⟨SaneRun.physical hs t (hw'.asked t y g), hr t y (hw'.asked t y g)⟩,
    C60_integration env (mirrorRun r) n hf hT hc (mirrorRates f) _ j tol dx hdx fun t y g => by
        rw [hst] at g
        have w := hw'.asked t _ (asks_mirror g)
        exact ⟨SaneRun.physical (saneRun_mirror hs) t (warm_mirror w), isRate_mirror (hr t _ w)⟩,
    hst, integrated_mirror]
  cases Integrated f (startStepper env r.toCycle ⟨P, T_c, T_e⟩ dx tol) with
  | none => rfl
  | some o =>
    simp only [Option.map_some, Except.map, toPoints_mirror]

theorem values_mirror (hs : SaneRun r) (hf : r.fluid = (IdealGas.new n).toFluid) (hT : Sound r.solver)
    (hc : Complete r.solver) (pts : List (Point ℝ)) (hp : ∀ p ∈ pts, Warm p.conditions) :
    ∃ vs, intoStateValues r.toCycle pts = .ok vs ∧
      intoStateValues (mirrorRun r).toCycle (pts.map mirrorPoint) = .ok (vs.map mirrorValue) := by
  obtain ⟨vs, e, hall⟩ := C60_values r n hf hT hc pts fun p g => SaneRun.physical hs _ (hp p g)
  obtain ⟨vs', e', hall'⟩ := C60_values (mirrorRun r) n hf hT hc (pts.map mirrorPoint) fun p g => by
    obtain ⟨q, hq, rfl⟩ := List.mem_map.1 g
    exact SaneRun.physical (saneRun_mirror hs) _ (warm_mirror (hp q hq))
  refine ⟨vs, e, ?_⟩
  rw [e']
  congr 1
  clear e e'
  induction hall generalizing vs' with
  | nil => cases hall'; rfl
  | @cons p v ps vs hv _ ih =>
    cases hall' with
    | @cons _ v' _ vs'' hv' hall'' =>
      have e := ih (fun p g => hp p (by simp [g])) vs'' hall''
      have hst := C58_ideal_gas_stable (mirrorRun r) n hf p.time (mirrorConditions p.conditions)
        (SaneRun.physical (saneRun_mirror hs) p.time (warm_mirror (hp p (by simp))))
      have hu := consistent_unique hst hv'.2.2 (balances_mirror r _ _ hv.2.2)
      obtain ⟨a1, a2, a3⟩ := v
      obtain ⟨b1, b2, b3⟩ := v'
      obtain ⟨g1, g2, -⟩ := hv
      obtain ⟨g1', g2', -⟩ := hv'
      simp only at g1 g2 g1' g2' hu
      subst g1 g2 g1' g2' hu e
      rfl

/-- The request for the mirrored steady state. -/
def mirrorRequest (i : SteadyStateInputs ℝ) : SteadyStateInputs ℝ :=
  { i with temp_comp_hint := i.temp_exp_hint, temp_exp_hint := i.temp_comp_hint }

/-- **C89**, inner loop: the search in the mirror finds the mirrored cycle, or fails in the same way. -/
theorem C89_inner (he : Evenhanded env.ode) (hs : SaneRun r) (hf : r.fluid = (IdealGas.new n).toFluid)
    (hT : Sound r.solver) (hc : Complete r.solver) (hr : RatesOf r f) (i : SteadyStateInputs ℝ)
    (hm : i.num_points ≠ 0 ∨ env.build = .wrapping)
    (hw : KeepsWarm env r f i.ode_tol i.num_points i.pres_zero)
    (h1 : 100 ≤ i.temp_comp_hint) (h2 : 100 ≤ i.temp_exp_hint) :
    findSteadyState env (mirrorRun r).toCycle (mirrorRequest i)
      = (findSteadyState env r.toCycle i).map (List.map mirrorValue) := by
  unfold findSteadyState findSteadyStateLogged
  rw [show (mirrorRequest i).max_iters = i.max_iters from rfl,
    show (mirrorRequest i).temp_comp_hint = i.temp_exp_hint from rfl,
    show (mirrorRequest i).temp_exp_hint = i.temp_comp_hint from rfl]
  generalize i.max_iters = fuel
  generalize i.temp_comp_hint = T_c at h1
  generalize i.temp_exp_hint = T_e at h2
  induction fuel generalizing T_c T_e with
  | zero => rfl
  | succ fuel ih =>
    simp only [steadyLoop, show (mirrorRequest i).ode_tol = i.ode_tol from rfl,
      show (mirrorRequest i).pres_zero = i.pres_zero from rfl, show (mirrorRequest i).conv_tol = i.conv_tol from rfl,
      show (mirrorRequest i).num_points = i.num_points from rfl]
    rw [integration_mirror he hs hf hT hc hr hw T_c T_e h1 h2 2 (.inl rfl) hm]
    rcases integration_warm hs hf hT hc hr hw T_c T_e h1 h2 2 (.inl rfl) hm with e | ⟨pts, e, g1, g2⟩
    · rw [e]; rfl
    rw [e]
    simp only [Except.map]
    have hI' : integrationIsConverged (pts.map mirrorPoint) i.conv_tol = integrationIsConverged pts i.conv_tol := by
      unfold integrationIsConverged
      rw [List.head?_map, List.getLast?_map]
      cases pts.head? with
      | none => rfl
      | some a =>
        cases pts.getLast? with
        | none => rfl
        | some b =>
          simp only [Option.map_some]
          exact congrArg Except.ok (Bool.and_comm _ _)
    rw [hI']
    cases hI : integrationIsConverged pts i.conv_tol with
    | error x => cases x with
      | panic s => rfl
      | err x => exact x.elim
    | ok b =>
      cases b with
      | true =>
        simp only
        rw [integration_mirror he hs hf hT hc hr hw T_c T_e h1 h2 i.num_points (.inr rfl) hm]
        rcases integration_warm hs hf hT hc hr hw T_c T_e h1 h2 i.num_points (.inr rfl) hm with
          e | ⟨pts', e, g3, g4⟩
        · rw [e]; rfl
        rw [e]
        simp only [Except.map]
        obtain ⟨vs, e1, e2⟩ := values_mirror hs hf hT hc pts' g4
        rw [e1, e2]; rfl
      | false =>
        simp only
        obtain ⟨q, hq⟩ : ∃ q, pts.getLast? = some q := by
          cases hl : pts.getLast? with
          | none => exact absurd (List.getLast?_eq_none_iff.1 hl) g1
          | some q => exact ⟨q, rfl⟩
        have hF : finalConditions pts = .ok q.conditions := by unfold finalConditions; rw [hq]
        have hF' : finalConditions (pts.map mirrorPoint) = .ok (mirrorConditions q.conditions) := by
          unfold finalConditions; rw [List.getLast?_map, hq]; rfl
        rw [hF, hF']
        have hq' := g2 q (List.mem_of_getLast? hq)
        exact ih _ hq'.comp _ hq'.exp
end inner

/-! ## The outer loop -/

section outer

theorem integrate_neg {β : Type} (x : List ℝ) (vs : List β) (g : β → ℝ) :
    integrate x (vs.map fun v => -g v) = -integrate x (vs.map g) := by
  have := integrate_smul x vs (-1) g
  simpa using this

theorem series_mirror (vs : List (state_equations.Values ℝ)) :
    Values.ofStateValues (vs.map mirrorValue) = mirrorSeries (Values.ofStateValues vs) := by
  rw [ofStateValues_eq, ofStateValues_eq]
  simp only [mirrorSeries, List.map_map, Function.comp_def, mirrorValue, mirrorSolution, mirrorConditions]

theorem mass_flows_mirror (vs : List (state_equations.Values ℝ)) :
    MassFlows.from_values (mirrorSeries (Values.ofStateValues vs))
      = (MassFlows.from_values (Values.ofStateValues vs)).map fun m => ⟨m.hhx, m.regen, m.chx⟩ := by
  have hft : (mirrorSeries (Values.ofStateValues vs)).final_time = (Values.ofStateValues vs).final_time := rfl
  unfold MassFlows.from_values Values.m_dot_avg
  rw [hft]
  cases (Values.ofStateValues vs).final_time with
  | error e => rfl
  | ok t =>
    rw [ofStateValues_eq]
    simp only [bind, Except.bind, pure, Except.pure, Except.map, mirrorSeries, List.map_map, List.zip_map',
      Function.comp_def, real_abs]
    have key : ∀ a b : ℝ, |-a + -b| = |b + a| := fun a b => by
      rw [show -a + -b = -(b + a) by ring, abs_neg]
    simp only [key]

theorem heat_flows_mirror (vs : List (state_equations.Values ℝ)) (Tk Tl : ℝ) (R : ws.ThermalResistance ℝ) :
    HeatFlows.from_values (mirrorSeries (Values.ofStateValues vs)) Tl Tk ⟨R.exp, R.comp⟩
      = (HeatFlows.from_values (Values.ofStateValues vs) Tk Tl R).map fun m => ⟨-m.hhx, m.regen, -m.chx⟩ := by
  have hft : (mirrorSeries (Values.ofStateValues vs)).final_time = (Values.ofStateValues vs).final_time := rfl
  unfold HeatFlows.from_values
  rw [hft]
  cases (Values.ofStateValues vs).final_time with
  | error e => rfl
  | ok t =>
    simp only [bind, Except.bind, pure, Except.pure, Except.map, real_isInfinite, Bool.false_eq_true, if_false]
    rw [ofStateValues_eq]
    simp only [List.map_map, Function.comp_def, mirrorSeries, integrate_neg]
    rw [show (fun v : state_equations.Values ℝ => (v.conditions.T_e - Tl) / R.exp)
        = fun v => -((Tl - v.conditions.T_e) / R.exp) by funext v; ring,
      show (fun v : state_equations.Values ℝ => (Tk - v.conditions.T_c) / R.comp)
        = fun v => -((v.conditions.T_c - Tk) / R.comp) by funext v; ring, integrate_neg, integrate_neg]
    congr 2 <;> ring

theorem pressure_mirror (vs : List (state_equations.Values ℝ)) :
    Pressure.from_values (mirrorSeries (Values.ofStateValues vs)) = Pressure.from_values (Values.ofStateValues vs) :=
  rfl

theorem log_mean_mirror (a b : ℝ) : (a - b) / Real.log (a / b) = (b - a) / Real.log (b / a) := by
  rw [show b / a = (a / b)⁻¹ by rw [inv_div], Real.log_inv, div_neg, ← neg_div, neg_sub]

theorem ladder_mirror (sink source a b c : ℝ) :
    Temperatures.from_approach source sink ⟨-c, -b, -a⟩ ⟨0.0⟩
      = mirrorTemps (Temperatures.from_approach sink source ⟨a, b, c⟩ ⟨0.0⟩) := by
  have h0 : Scalar.le (0.0 : ℝ) 0.0 = true := (real_le _ _).2 le_rfl
  simp only [Temperatures.from_approach, RegenImbalance.regen_temp, mirrorTemps, h0, if_true,
    Temperatures.mk.injEq, RegenTemp.mk.injEq, real_ln, true_and, and_true]
  scalars
  refine ⟨by ring, ⟨by ring, ?_, by ring⟩, by ring⟩
  have := log_mean_mirror (source - c - 1 / 2 * (b + 0)) (sink + a + 1 / 2 * b)
  rw [show source - c - 1 / 2 * (b + 0) - (sink + a) - 1 / 2 * b
    = source - c - 1 / 2 * (b + 0) - (sink + a + 1 / 2 * b) by ring, this]
  rw [show sink - -a - 1 / 2 * (-b + 0) = sink + a + 1 / 2 * b by ring,
    show source + -c + 1 / 2 * -b = source - c - 1 / 2 * (b + 0) by ring]
  congr 1
  ring

/-- The mirrored outcome of an update. -/
noncomputable def mirrorUpdated : State.Updated ℝ → State.Updated ℝ
  | .changed s => .changed (mirrorState s)
  | .converged s => .converged (mirrorState s)

theorem converged_mirror (t u : Temperatures ℝ) (tol : ConvergenceTolerance ℝ) :
    (mirrorTemps t).is_converged (mirrorTemps u) tol = t.is_converged u tol := by
  simp only [Temperatures.is_converged, RegenTemp.is_converged, mirrorTemps]
  generalize tol.is_converged t.hhx u.hhx = a
  generalize tol.is_converged t.chx u.chx = b
  generalize tol.is_converged t.regen.hot u.regen.hot = c
  generalize tol.is_converged t.regen.avg u.regen.avg = d
  generalize tol.is_converged t.regen.cold u.regen.cold = e
  revert a b c d e
  decide

theorem update_mirror (c : Components ℝ) (s : State ℝ) (h0 : s.regen_imbalance = ⟨0.0⟩)
    (vs : List (state_equations.Values ℝ)) (tol : ConvergenceTolerance ℝ) :
    (mirrorState s).update (mirrorComponents c) (mirrorSeries (Values.ofStateValues vs)) tol
      = (s.update c (Values.ofStateValues vs) tol).map mirrorUpdated := by
  have hq := heat_flows_mirror vs s.temp.chx s.temp.hhx (c.ws.thermal_resistance s.ws)
  unfold State.update
  rw [pressure_mirror, mass_flows_mirror]
  simp only
  rw [show HeatFlows.from_values (mirrorSeries (Values.ofStateValues vs)) (mirrorState s).temp.chx (mirrorState s).temp.hhx
      ((mirrorComponents c).ws.thermal_resistance (mirrorState s).ws) = _ from hq]
  cases Pressure.from_values (Values.ofStateValues vs) with
  | error e => rfl
  | ok p =>
    cases MassFlows.from_values (Values.ofStateValues vs) with
    | error e => rfl
    | ok m =>
      cases HeatFlows.from_values (Values.ofStateValues vs) s.temp.chx s.temp.hhx
        (c.ws.thermal_resistance s.ws) with
      | error e => rfl
      | ok q =>
        simp only [bind, Except.bind, Except.map, pure, Except.pure, mirrorState, h0]
        simp only [mirrorComponents, mirrorHx, State.chx, State.regen, State.hhx, neg_neg]
        rw [show (mirrorTemps s.temp).sink = s.temp.source from rfl,
          show (mirrorTemps s.temp).source = s.temp.sink from rfl,
          show (mirrorTemps s.temp).chx = s.temp.hhx from rfl,
          show (mirrorTemps s.temp).hhx = s.temp.chx from rfl,
          show (mirrorTemps s.temp).regen.avg = s.temp.regen.avg from rfl, ladder_mirror, converged_mirror]
        split
        · next h =>
          refine Eq.trans ?_ (congrArg (Except.map mirrorUpdated) (if_pos h).symm)
          simp only [Except.map, mirrorUpdated, mirrorState]
        · next h =>
          refine Eq.trans ?_ (congrArg (Except.map mirrorUpdated) (if_neg h).symm)
          simp only [Except.map, mirrorUpdated, mirrorState]

variable {env : Env ℝ} {U : MatrixDecomposition ℝ} {c : Components ℝ} {n : GasName}
  {inputs : RunInputs ℝ} {settings : RunSettings ℝ}

theorem mirrorRun_new (U : MatrixDecomposition ℝ) (c : Components ℝ) (s : State ℝ) :
    Run.new U (mirrorComponents c) (mirrorState s) = mirrorRun (Run.new U c s) := by
  have h : (Run.new U (mirrorComponents c) (mirrorState s)).enth_norm = (mirrorRun (Run.new U c s)).enth_norm := by
    show 0.5 * (s.fluid.enth s.temp.source s.pres.avg + s.fluid.enth s.temp.sink s.pres.avg)
      = 0.5 * (s.fluid.enth s.temp.sink s.pres.avg + s.fluid.enth s.temp.source s.pres.avg)
    rw [add_comm (s.fluid.enth s.temp.source s.pres.avg)]
  exact congrArg (fun x => { mirrorRun (Run.new U c s) with enth_norm := x }) h

theorem hint_mirror (c : Components ℝ) (fluid : Fluid ℝ) (inputs : RunInputs ℝ) :
    State.new_hint (mirrorComponents c) fluid (mirrorInputs inputs) = mirrorState (State.new_hint c fluid inputs) := by
  simp only [State.new_hint, mirrorState, MassFlows.constant, HeatFlows.constant, mirrorInputs]
  rw [show (mirrorComponents c).chx.initial_approach = -c.hhx.initial_approach from rfl,
    show (mirrorComponents c).hhx.initial_approach = -c.chx.initial_approach from rfl,
    show (mirrorComponents c).regen.initial_approach = -c.regen.initial_approach from rfl, ladder_mirror]
  norm_num

/-- **C89**, whole runs.  With sides and temperatures exchanged the run returns the mirrored engine, or fails in the
same way. -/
theorem C89_engine (he : Evenhanded env.ode) (hT : Sound U) (hc : Complete U)
    (hm : settings.resolution ≠ 0 ∨ env.build = .wrapping)
    (hv : ∀ j s, Visited env U c settings (State.new_hint c (IdealGas.new n).toFluid inputs) j s →
      SaneRun (Run.new U c s) ∧ ∃ f, RatesOf (Run.new U c s) f ∧
        KeepsWarm env (Run.new U c s) f settings.ode_tol settings.resolution s.pres.t_zero) :
    Engine.run env U (mirrorComponents c) (IdealGas.new n).toFluid (mirrorInputs inputs) settings
      = (Engine.run env U c (IdealGas.new n).toFluid inputs settings).map mirrorEngine := by
  unfold Engine.run Engine.runLogged
  rw [hint_mirror]
  have key : ∀ fuel j s, Visited env U c settings
      (State.new_hint c (IdealGas.new n).toFluid inputs) j s → s.regen_imbalance = ⟨0.0⟩ →
      (Engine.runLoop env U (mirrorComponents c) settings fuel (mirrorState s)).1
        = (Engine.runLoop env U c settings fuel s).1.map mirrorEngine := by
    intro fuel
    induction fuel with
    | zero => intro j s _ _; rfl
    | succ fuel ih =>
      intro j s hs h0
      obtain ⟨hsane, f, hr, hw⟩ := hv j s hs
      have hfl : (Run.new U c s).fluid = (IdealGas.new n).toFluid :=
        (C37_visited_invariant env U c _ inputs settings j s hs).1
      have hinner : Engine.inner env U (mirrorComponents c) settings (mirrorState s)
          = (Engine.inner env U c settings s).map (List.map mirrorValue) := by
        unfold Engine.inner
        rw [mirrorRun_new]
        exact C89_inner he hsane hfl hT hc hr (Engine.steadyInputs settings s) hm hw hsane.chx_temp hsane.hhx_temp
      simp only [Engine.runLoop]
      rw [hinner]
      cases hI : Engine.inner env U c settings s with
      | error x => cases x <;> rfl
      | ok vs =>
        simp only [Except.map]
        rw [series_mirror, update_mirror c s h0]
        cases hU : s.update c (Values.ofStateValues vs) settings.loop_tol.outer with
        | error x => cases x with
          | panic p => rfl
          | err x => exact x.elim
        | ok u =>
          obtain ⟨s', g1, g2⟩ := update_ok hU
          cases u with
          | converged t => rfl
          | changed t =>
            rcases g2 with ⟨g3, g4⟩ | ⟨g3, g4⟩
            · cases g3
              refine ih (j + 1) _ (.next hs hI g1 g4) ?_
              rw [← h0]
              exact g1.imbalance
            · cases g3
  exact key _ 0 _ .start rfl
end outer

/-! ## The results -/

section results
variable (c : Components ℝ) (s : State ℝ)

theorem mirror_views :
    (mirrorComponents c).chx.hydraulic_resistance (mirrorState s).chx = c.hhx.hydraulic_resistance s.hhx ∧
    (mirrorComponents c).regen.hydraulic_resistance (mirrorState s).regen = c.regen.hydraulic_resistance s.regen ∧
    (mirrorComponents c).hhx.hydraulic_resistance (mirrorState s).hhx = c.chx.hydraulic_resistance s.chx ∧
    (mirrorComponents c).chx.parasitics (mirrorState s).chx = c.hhx.parasitics s.hhx ∧
    (mirrorComponents c).regen.parasitics (mirrorState s).regen = c.regen.parasitics s.regen ∧
    (mirrorComponents c).hhx.parasitics (mirrorState s).hhx = c.chx.parasitics s.chx := by
  simp only [mirrorComponents, mirrorState, mirrorHx, State.chx, State.hhx, State.regen, mirrorTemps, neg_neg,
    and_self]

theorem sampleDrop_mirror (V V' : Values ℝ) (v : state_equations.Values ℝ) :
    sampleDrop ⟨mirrorComponents c, mirrorState s, V'⟩ (mirrorValue v) = -sampleDrop ⟨c, s, V⟩ v := by
  obtain ⟨e1, e2, e3, -⟩ := mirror_views c s
  simp only [sampleDrop, e1, e2, e3]
  simp only [mirrorValue, mirrorSolution, mirrorConditions, mirrorState, mirrorTemps]
  ring

theorem powers_mirror (vs : List (state_equations.Values ℝ)) (pd pd' : performance.PressuresWithDrops ℝ)
    (h : performance.PressuresWithDrops.new (⟨c, s, Values.ofStateValues vs⟩ : Engine ℝ) = .ok pd)
    (h' : performance.PressuresWithDrops.new (mirrorEngine ⟨c, s, Values.ofStateValues vs⟩) = .ok pd') :
    pd' = ⟨pd.P_e, pd.P_c⟩ ∧ ∃ W, performance.Powers.new pd ⟨c, s, Values.ofStateValues vs⟩ = .ok W ∧
      performance.Powers.new pd' (mirrorEngine ⟨c, s, Values.ofStateValues vs⟩) = .ok W ∧
      W.shaft = W.indicated - (c.ws.parasitics s.ws).comp.mechanical - (c.ws.parasitics s.ws).exp.mechanical := by
  obtain ⟨-, -, -, e4, e5, e6⟩ := mirror_views c s
  have hd := sampleDrop_mirror c s (Values.ofStateValues vs) (mirrorSeries (Values.ofStateValues vs))
  have hV := series_mirror vs
  have hP := pressures_eq (⟨c, s, Values.ofStateValues vs⟩ : Engine ℝ) vs rfl
  have hP' := pressures_eq (mirrorEngine ⟨c, s, Values.ofStateValues vs⟩) (vs.map mirrorValue) hV.symm
  rw [hP] at h
  rw [hP'] at h'
  obtain rfl := Except.ok.inj h
  obtain rfl := Except.ok.inj h'
  have hW := powers_eq (⟨c, s, Values.ofStateValues vs⟩ : Engine ℝ) vs rfl
    (fun v => v.conditions.P + 0.5 * sampleDrop ⟨c, s, Values.ofStateValues vs⟩ v)
    (fun v => v.conditions.P - 0.5 * sampleDrop ⟨c, s, Values.ofStateValues vs⟩ v)
  have hW' := powers_eq (mirrorEngine ⟨c, s, Values.ofStateValues vs⟩) (vs.map mirrorValue) hV.symm
    (fun v => v.conditions.P + 0.5 * sampleDrop (mirrorEngine ⟨c, s, Values.ofStateValues vs⟩) v)
    (fun v => v.conditions.P - 0.5 * sampleDrop (mirrorEngine ⟨c, s, Values.ofStateValues vs⟩) v)
  constructor
  · simp only [List.map_map, Function.comp_def, mirrorEngine, hd, mul_neg, sub_neg_eq_add, ← sub_eq_add_neg]
    rfl
  refine ⟨_, hW, ?_, rfl⟩
  rw [hW']
  have i1 : ∀ x : List ℝ, integrate x (vs.map fun v =>
        (v.conditions.P + 0.5 * -sampleDrop ⟨c, s, Values.ofStateValues vs⟩ v) * (c.ws.volumes s.ws v.time).2.deriv
          + (v.conditions.P - 0.5 * -sampleDrop ⟨c, s, Values.ofStateValues vs⟩ v) * (c.ws.volumes s.ws v.time).1.deriv)
      = integrate x (vs.map fun v =>
        (v.conditions.P + 0.5 * sampleDrop ⟨c, s, Values.ofStateValues vs⟩ v) * (c.ws.volumes s.ws v.time).1.deriv
          + (v.conditions.P - 0.5 * sampleDrop ⟨c, s, Values.ofStateValues vs⟩ v) * (c.ws.volumes s.ws v.time).2.deriv) := by
    intro x; congr 2; funext v; ring
  have i2 : ∀ x : List ℝ, integrate x (vs.map fun v => v.conditions.P
        * ((c.ws.volumes s.ws v.time).2.deriv + (c.ws.volumes s.ws v.time).1.deriv))
      = integrate x (vs.map fun v => v.conditions.P * ((c.ws.volumes s.ws v.time).1.deriv
        + (c.ws.volumes s.ws v.time).2.deriv)) := by
    intro x; congr 2; funext v; ring
  simp only [List.map_map, Function.comp_def, mirrorEngine, hd, e4, e6, sampleVol]
  simp only [mirrorValue, mirrorConditions, mirrorComponents, show (mirrorState s).ws = s.ws from rfl]
  rw [i1, i2]
  congr 2 <;> ring

theorem heats_mirror (vs : List (state_equations.Values ℝ)) (W : performance.Powers ℝ)
    (hW : W.shaft = W.indicated - (c.ws.parasitics s.ws).comp.mechanical - (c.ws.parasitics s.ws).exp.mechanical) :
    let e : Engine ℝ := ⟨c, s, Values.ofStateValues vs⟩
    (performance.Heats.new W (mirrorEngine e)).input - coldLoss e
      = -((performance.Heats.new W e).rejected - (W.indicated_zero_dP - W.shaft) - hotLoss e) ∧
    (performance.Heats.new W (mirrorEngine e)).rejected - (W.indicated_zero_dP - W.shaft) - coldLoss e
      = -((performance.Heats.new W e).input - hotLoss e) := by
  obtain ⟨-, -, -, e4, e5, e6⟩ := mirror_views c s
  intro e
  unfold performance.Heats.new
  simp only [e, mirrorEngine, e5, e6, coldLoss, hotLoss]
  rw [← series_mirror, ofStateValues_eq, ofStateValues_eq]
  simp only [List.map_map, Function.comp_def, DVector.sdiv]
  simp only [mirrorComponents, mirrorValue, mirrorSolution, mirrorConditions, show (mirrorState s).ws = s.ws from rfl,
    integrate_neg]
  rw [show (mirrorState s).temp.hhx = s.temp.chx from rfl, show (mirrorState s).temp.chx = s.temp.hhx from rfl, hW]
  constructor <;> ring

/-- **C89**, results: what is reported of the engine in the mirror. -/
theorem C89_results (e : Engine ℝ) (vs : List (state_equations.Values ℝ)) (h : e.values = Values.ofStateValues vs) :
    ∃ r r', RunResults.ofEngine e = .ok r ∧ RunResults.ofEngine (mirrorEngine e) = .ok r' ∧ MirroredResults e r r' := by
  obtain ⟨c, s, V⟩ := e
  simp only at h
  subst h
  have hP := pressures_eq (⟨c, s, Values.ofStateValues vs⟩ : Engine ℝ) vs rfl
  have hP' := pressures_eq (mirrorEngine ⟨c, s, Values.ofStateValues vs⟩) (vs.map mirrorValue) (series_mirror vs).symm
  obtain ⟨g1, W, g2, g3, g4⟩ := powers_mirror c s vs _ _ hP hP'
  obtain ⟨q1, q2⟩ := heats_mirror c s vs W g4
  unfold RunResults.ofEngine performance.Performance.ofEngine
  rw [hP, hP']
  simp only [bind, Except.bind, pure, Except.pure]
  rw [g2, g3]
  have g1' := (performance.PressuresWithDrops.mk.injEq ..).mp g1
  exact ⟨_, _, rfl, rfl, rfl, rfl, rfl, rfl, rfl, rfl, rfl, rfl, q1, q2, rfl, rfl, ⟨g1'.1, rfl⟩, ⟨g1'.2, rfl⟩,
    ⟨rfl, rfl, rfl, rfl⟩, ⟨rfl, rfl, rfl⟩⟩

/-- **C89**, components: the coded exchangers mirror into the coded exchangers.  A fixed approach changes sign.  A
fixed conductance keeps its numbers, only the first guess of its approach differs. -/
theorem C89_exchangers :
    (∀ x : chx.FixedApproach ℝ, c.chx = x.toColdHeatExchanger →
      (mirrorComponents c).hhx = (hhx.FixedApproach.mk x.R_hyd x.volume (-x.approach) x.parasitics).toHotHeatExchanger) ∧
    (∀ x : regen.FixedApproach ℝ, c.regen = x.toRegenerator →
      (mirrorComponents c).regen = (regen.FixedApproach.mk x.R_hyd x.volume (-x.approach) x.parasitics).toRegenerator) ∧
    (∀ x : hhx.FixedApproach ℝ, c.hhx = x.toHotHeatExchanger →
      (mirrorComponents c).chx = (chx.FixedApproach.mk x.R_hyd x.volume (-x.approach) x.parasitics).toColdHeatExchanger) ∧
    (∀ x : chx.FixedConductance ℝ, c.chx = x.toColdHeatExchanger →
      (mirrorComponents c).hhx = { (hhx.FixedConductance.mk x.R_hyd x.volume x.UA x.parasitics).toHotHeatExchanger with
        initial_approach := -x.initial_approach }) ∧
    (∀ x : regen.FixedConductance ℝ, c.regen = x.toRegenerator →
      (mirrorComponents c).regen = { x.toRegenerator with initial_approach := -10 }) ∧
    (∀ x : hhx.FixedConductance ℝ, c.hhx = x.toHotHeatExchanger →
      (mirrorComponents c).chx = { (chx.FixedConductance.mk x.R_hyd x.volume x.UA x.parasitics).toColdHeatExchanger with
        initial_approach := -10 }) := by
  have k10 : -(10.0 : ℝ) = -10 := by rw [lit_10]
  refine ⟨?_, ?_, ?_, ?_, ?_, ?_⟩ <;> intro x h <;> simp only [mirrorComponents, h]
  · rfl
  · rfl
  · rfl
  · have : ∀ st : hhx.State ℝ, -x.approach ⟨mirrorHx st.hxr, st.source_temp⟩
        = (hhx.FixedConductance.mk x.R_hyd x.volume x.UA x.parasitics).approach st := by
      intro st
      simp only [chx.FixedConductance.approach, hhx.FixedConductance.approach, mirrorHx]
      scalars
      ring
    simp only [chx.FixedConductance.toColdHeatExchanger, hhx.FixedConductance.toHotHeatExchanger, this]
  · have : ∀ st : regen.State ℝ, -x.approach ⟨st.hxr, st.temp_hhx, st.temp_chx⟩ = x.approach st := by
      intro st
      simp only [regen.FixedConductance.approach]
      scalars
      ring
    simp only [regen.FixedConductance.toRegenerator, this, k10]
  · have : ∀ st : chx.State ℝ, -x.approach ⟨mirrorHx st.hxr, st.sink_temp⟩
        = (chx.FixedConductance.mk x.R_hyd x.volume x.UA x.parasitics).approach st := by
      intro st
      simp only [chx.FixedConductance.approach, hhx.FixedConductance.approach, mirrorHx]
      scalars
      ring
    simp only [chx.FixedConductance.toColdHeatExchanger, hhx.FixedConductance.toHotHeatExchanger, this, k10]

/-- **C89**, integrator: the Dopri5 of the dependency does not prefer one temperature. -/
theorem C89_dopri5 (outs : ℕ) : Evenhanded (dopri5.solve outs) := dopri5.evenhanded outs
end results

end Sett
