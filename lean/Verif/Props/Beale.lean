import Verif.Spec.Beale
import Verif.Props.Scaling

/-! # C90: Beale's law

With the code's ideal gases, `k` times the pressure and `w` times the speed multiply power and heat by `k w` and torque
by `k`, and leave temperatures and efficiency alone. -/

namespace Sett

open Spec state_equations api

section inner
variable {k w : ℝ} {r r' : Run ℝ} {n : GasName}

/-- The balances under another pressure and at another speed. -/
theorem balances_pressed (hk : 0 < k) (hw : 0 < w) (h : PressedRun k w r r') (hf : r.fluid = (IdealGas.new n).toFluid)
    (t : ℝ) (y : Conditions ℝ) {s : Solution ℝ}
    (hs : Balances (r.calculate_inputs (w * t) y) (upwind (r.calculate_inputs (w * t) y) s) s) :
    Balances (r'.calculate_inputs t (pressed k y))
      (upwind (r'.calculate_inputs t (pressed k y)) (pressedSolution k w s)) (pressedSolution k w s) := by
  have hkw : 0 < k * w := mul_pos hk hw
  have hu : upwind (r'.calculate_inputs t (pressed k y)) (pressedSolution k w s)
      = upwind (r.calculate_inputs (w * t) y) s := by
    simp only [upwind, pressedSolution, pressed, mul_nonneg_iff_of_pos_left hkw, Run.calculate_inputs,
      Run.comp_inputs, Run.chx_inputs, Run.regen_inputs, Run.hhx_inputs, Run.exp_inputs, h.fluid,
      h.temp, hf, IdealGas.toFluid, IdealGas.enth]
  rw [hu]
  generalize upwind (r.calculate_inputs (w * t) y) s = f at hs
  obtain ⟨b1, b2, b3, b4, b5, b6, b7, b8, b9, b10⟩ := hs
  have hd : ∀ T P, r.fluid.dens T (k * P) = k * r.fluid.dens T P := fun T P => by
    rw [hf]; exact mul_div_assoc _ _ _
  have hdT : ∀ T P, r.fluid.dd_dT_P T (k * P) = k * r.fluid.dd_dT_P T P := fun T P => by
    rw [hf]; show -(k * P) / _ = k * (-P / _); ring
  have hdP : ∀ T P, r.fluid.dd_dP_T T (k * P) = r.fluid.dd_dP_T T P := fun T P => by rw [hf]; rfl
  have hh : ∀ T P, r.fluid.enth T (k * P) = r.fluid.enth T P := fun T P => by rw [hf]; rfl
  have hi : ∀ T P, r.fluid.inte T (k * P) = r.fluid.inte T P := fun T P => by rw [hf]; rfl
  have huT : ∀ T P, r.fluid.du_dT_P T (k * P) = r.fluid.du_dT_P T P := fun T P => by rw [hf]; rfl
  have huP : ∀ T P, r.fluid.du_dP_T T P = 0 := fun T P => by rw [hf]; show (0.0 : ℝ) = 0; norm_num
  simp only [compMass, compEnergy, chxMass, chxEnergy, regenMass, regenEnergy, hhxMass, hhxEnergy,
    expMass, expEnergy, massRate, energyRate, Run.calculate_inputs,
    Run.comp_inputs, Run.chx_inputs, Run.regen_inputs, Run.hhx_inputs, Run.exp_inputs, huP]
    at b1 b2 b3 b4 b5 b6 b7 b8 b9 b10
  constructor <;>
    simp only [compMass, compEnergy, chxMass, chxEnergy, regenMass, regenEnergy, hhxMass, hhxEnergy,
      expMass, expEnergy, massRate, energyRate, pressedSolution, pressed, Run.calculate_inputs,
      Run.comp_inputs, Run.chx_inputs, Run.regen_inputs, Run.hhx_inputs, Run.exp_inputs, h.fluid,
      h.temp, h.comp, h.exp, h.chx, h.regen, h.hhx, h.comp_loss, h.exp_loss, hd, hdT, hdP, hh, hi, huT, huP]
  · linear_combination k * w * b1
  · linear_combination k * w * b2
  · linear_combination k * w * b3
  · linear_combination k * w * b4
  · linear_combination k * w * b5
  · linear_combination k * w * b6
  · linear_combination k * w * b7
  · linear_combination k * w * b8
  · linear_combination k * w * b9
  · linear_combination k * w * b10

theorem saneRun_pressed (h : PressedRun k w r r') (hs : SaneRun r) : SaneRun r' := by
  obtain ⟨h1, h2, h3, h4, h5, h6, h7, h8, h9⟩ := hs
  refine ⟨by rwa [h.norm], fun t => ?_, fun t => ?_, by rwa [h.chx], by rwa [h.regen], by rwa [h.hhx],
    by rwa [h.temp], by rwa [h.temp], by rwa [h.temp]⟩
  · rw [h.comp]; exact h2 _
  · rw [h.exp]; exact h3 _

theorem warm_pressed (hk : 0 < k) {y : Conditions ℝ} (hy : Warm y) : Warm (pressed k y) :=
  ⟨mul_pos hk hy.pres, hy.comp, hy.exp⟩

theorem deriv_pressed (hw : 0 < w) {g : ℝ → ℝ} {d t : ℝ} (h : HasDerivWithinAt g d (Set.Ici (w * t)) (w * t)) :
    HasDerivWithinAt (fun t => g (w * t)) (w * d) (Set.Ici t) t := by
  have e : HasDerivWithinAt (fun t => w * t) w (Set.Ici t) t := by
    simpa using (hasDerivWithinAt_id t (Set.Ici t)).const_mul w
  have := HasDerivWithinAt.comp t h e fun x hx => mul_le_mul_of_nonneg_left hx hw.le
  rw [mul_comm w d]
  exact this

/-- **C90**, one instant: where the gas of the original follows the state equations, the gas under `k` times the
pressure, at `w` times the speed, follows those of its engine, with `k w` times the flows and heats. -/
theorem C90_follows (hk : 0 < k) (hw : 0 < w) (h : PressedRun k w r r') (hf : r.fluid = (IdealGas.new n).toFluid)
    (hs : SaneRun r) (hT : Sound r.solver) (hT' : Sound r'.solver) (hc' : Complete r'.solver)
    {y : ℝ → Conditions ℝ} {t : ℝ} {s : Solution ℝ} (hy : Warm (y (w * t))) (hF : Follows r y (w * t) s) :
    Follows r' (pressedCourse k w y) t (pressedSolution k w s) := by
  have hp' := SaneRun.physical (saneRun_pressed h hs) t (warm_pressed hk hy)
  obtain ⟨hint, hb⟩ := hF.solved
  have hbal := balances_pressed hk hw h hf t _ (C07_upwind_balances _ hT _ hs.norm _ _ hb)
  obtain ⟨s', hs'⟩ := C59_run_solve r' n (h.fluid.trans hf) hT' hc' t _ hp'
  have hst := C58_ideal_gas_stable r' n (h.fluid.trans hf) t _ hp'
  have e := consistent_unique hst (C07_upwind_balances _ hT' _ hp'.norm _ _ (hs' .default)) hbal
  refine ⟨⟨.default, e ▸ hs' .default⟩, ?_, deriv_pressed hw hF.comp, deriv_pressed hw hF.exp⟩
  have := (deriv_pressed hw hF.pres).const_mul k
  rw [← mul_assoc] at this
  exact this

theorem continuous_pressed (hw : 0 < w) {g : ℝ → ℝ} {a b : ℝ} (h : ContinuousOn g (Set.Icc a b)) :
    ContinuousOn (fun t => g (w * t)) (Set.Icc (a / w) (b / w)) := by
  refine h.comp (by fun_prop) fun t ht => ?_
  obtain ⟨h1, h2⟩ := ht
  rw [div_le_iff₀ hw] at h1
  rw [le_div_iff₀ hw] at h2
  constructor <;> linarith

theorem mem_pressed (hw : 0 < w) {a b t : ℝ} (ht : t ∈ Set.Ico (a / w) (b / w)) : w * t ∈ Set.Ico a b := by
  obtain ⟨h1, h2⟩ := ht
  rw [div_le_iff₀ hw] at h1
  rw [lt_div_iff₀ hw] at h2
  constructor <;> linarith

theorem mem_pressed' (hw : 0 < w) {a b t : ℝ} (ht : t ∈ Set.Icc (a / w) (b / w)) : w * t ∈ Set.Icc a b := by
  obtain ⟨h1, h2⟩ := ht
  rw [div_le_iff₀ hw] at h1
  rw [le_div_iff₀ hw] at h2
  constructor <;> linarith

/-- **C90**, trajectories: a trajectory of the original is, under `k` times the pressure and `w` times as fast, a
trajectory of the other engine. -/
theorem C90_trajectory (hk : 0 < k) (hw : 0 < w) (h : PressedRun k w r r') (hf : r.fluid = (IdealGas.new n).toFluid)
    (hs : SaneRun r) (hT : Sound r.solver) (hT' : Sound r'.solver) (hc' : Complete r'.solver)
    {y : ℝ → Conditions ℝ} {a b : ℝ} (hy : Trajectory r y a b) :
    Trajectory r' (pressedCourse k w y) (a / w) (b / w) where
  cont := ⟨(continuous_pressed hw hy.cont.pres).const_mul k, continuous_pressed hw hy.cont.comp,
    continuous_pressed hw hy.cont.exp⟩
  warm := fun t ht => warm_pressed hk (hy.warm _ (mem_pressed' hw ht))
  follows := fun t ht => by
    obtain ⟨s, e⟩ := hy.follows _ (mem_pressed hw ht)
    exact ⟨_, C90_follows hk hw h hf hs hT hT' hc' (hy.warm _ (Set.Ico_subset_Icc_self (mem_pressed hw ht))) e⟩

/-- **C90**, inventory: `k` times the gas. -/
theorem C90_mass (h : PressedRun k w r r') (hf : r.fluid = (IdealGas.new n).toFluid) (y : ℝ → Conditions ℝ) (t : ℝ) :
    gasMass r' (pressedCourse k w y) t = k * gasMass r y (w * t) := by
  have hd : ∀ T P, r.fluid.dens T (k * P) = k * r.fluid.dens T P := fun T P => by
    rw [hf]; exact mul_div_assoc _ _ _
  simp only [gasMass, compGas, expGas, pressedCourse, pressed, h.fluid, h.temp, h.comp, h.exp, h.chx, h.regen, h.hhx,
    hd]
  ring
end inner

/-! ## Figures -/

section figures
variable {k w : ℝ} {c c' : Components ℝ} {n : GasName}

theorem pressedRun_new (h : PressedComponents k w c c') (U : MatrixDecomposition ℝ) (s : State ℝ)
    (hf : s.fluid = (IdealGas.new n).toFluid) :
    PressedRun k w (Run.new U c s) (Run.new U c' (pressedState k w s)) where
  norm := by
    show 0.5 * (s.fluid.enth s.temp.sink (k * s.pres.avg) + s.fluid.enth s.temp.source (k * s.pres.avg))
      = 0.5 * (s.fluid.enth s.temp.sink s.pres.avg + s.fluid.enth s.temp.source s.pres.avg)
    rw [hf]; rfl
  fluid := rfl
  period := by
    show 1.0 / c'.ws.frequency ⟨pressedPres k s.pres⟩ = 1.0 / c.ws.frequency ⟨s.pres⟩ / w
    rw [h.frequency, div_div, mul_comm w]
  temp := rfl
  comp := h.comp s.pres
  exp := h.exp s.pres
  chx := h.chx_volume
  regen := h.regen_volume
  hhx := h.hhx_volume
  comp_loss := h.comp_heat s.pres
  exp_loss := h.exp_heat s.pres

theorem cycleMean_pressed (hw : 0 < w) (a T : ℝ) (g : ℝ → ℝ) :
    cycleMean (T / w) (fun t => a * g (w * t)) = a * cycleMean T g := by
  unfold cycleMean
  rw [intervalIntegral.integral_const_mul, intervalIntegral.integral_comp_mul_left _ hw.ne', mul_zero,
    mul_div_cancel₀ _ hw.ne', smul_eq_mul]
  by_cases hT : T = 0
  · simp [hT]
  · field_simp

theorem chx_pressed (s : State ℝ) (hf : s.fluid = (IdealGas.new n).toFluid) :
    (pressedState k w s).chx = ⟨pressedHx k w s.chx.hxr, s.chx.sink_temp⟩ := by
  simp only [State.chx, pressedState, pressedPres, pressedHx, hf, IdealGas.toFluid, IdealGas.dens, IdealGas.cp,
    mul_div_assoc]

theorem regen_pressed (s : State ℝ) (hf : s.fluid = (IdealGas.new n).toFluid) :
    (pressedState k w s).regen = ⟨pressedHx k w s.regen.hxr, s.regen.temp_chx, s.regen.temp_hhx⟩ := by
  simp only [State.regen, pressedState, pressedPres, pressedHx, hf, IdealGas.toFluid, IdealGas.dens, IdealGas.cp,
    mul_div_assoc]

theorem hhx_pressed (s : State ℝ) (hf : s.fluid = (IdealGas.new n).toFluid) :
    (pressedState k w s).hhx = ⟨pressedHx k w s.hhx.hxr, s.hhx.source_temp⟩ := by
  simp only [State.hhx, pressedState, pressedPres, pressedHx, hf, IdealGas.toFluid, IdealGas.dens, IdealGas.cp,
    mul_div_assoc]

theorem pressureDrop_pressed (hk : 0 < k) (hw : 0 < w) (h : PressedComponents k w c c') (s : State ℝ)
    (hf : s.fluid = (IdealGas.new n).toFluid) (v v' : Sett.Values ℝ) (V : ℝ → state_equations.Values ℝ) (t : ℝ) :
    pressureDrop ⟨c', pressedState k w s, v'⟩ (pressedMotion k w V t) = k * pressureDrop ⟨c, s, v⟩ (V (w * t)) := by
  have hd : ∀ T P, s.fluid.dens T (k * P) = k * s.fluid.dens T P := fun T P => by
    rw [hf]; exact mul_div_assoc _ _ _
  have key : ∀ R m m' d : ℝ, k / w * R * ((k * w * m + k * w * m') / 2 / (k * d)) = k * (R * ((m + m') / 2 / d)) := by
    intro R m m' d
    by_cases h0 : d = 0
    · simp [h0]
    · field_simp
  simp only [pressureDrop, chx_pressed s hf, regen_pressed s hf, hhx_pressed s hf, h.chx_drop, h.regen_drop,
    h.hhx_drop, pressedMotion, pressed, pressedSolution]
  simp only [pressedState, hd, key]
  rw [mul_add, mul_add]

/-- **C90**, figures. -/
theorem C90_figures (hk : 0 < k) (hw : 0 < w) (h : PressedComponents k w c c') (s : State ℝ)
    (hf : s.fluid = (IdealGas.new n).toFluid) (v v' : Sett.Values ℝ) (V : ℝ → state_equations.Values ℝ) :
    figuresOf ⟨c', pressedState k w s, v'⟩ (pressedMotion k w V) = pressedFigures k w (figuresOf ⟨c, s, v⟩ V) := by
  have hws : (pressedState k w s).ws = ⟨pressedPres k s.pres⟩ := rfl
  have hws0 : s.ws = ⟨s.pres⟩ := rfl
  have hdrop := pressureDrop_pressed hk hw h s hf v v' V
  have mean : ∀ (a : ℝ) (g g' : ℝ → ℝ), (∀ t, g' t = a * g (w * t)) →
      cycleMean (1 / (w * c.ws.frequency ⟨s.pres⟩)) g' = a * cycleMean (1 / c.ws.frequency ⟨s.pres⟩) g := by
    intro a g g' e
    rw [show g' = fun t => a * g (w * t) from funext e, mul_comm w, ← div_div]
    exact cycleMean_pressed hw _ _ _
  have hideal := mean (k * w) (fun t => (V t).conditions.P
      * ((c.ws.volumes ⟨s.pres⟩ t).1.deriv + (c.ws.volumes ⟨s.pres⟩ t).2.deriv))
    (fun t => (pressedMotion k w V t).conditions.P * ((c'.ws.volumes ⟨pressedPres k s.pres⟩ t).1.deriv
      + (c'.ws.volumes ⟨pressedPres k s.pres⟩ t).2.deriv)) fun t => by
    rw [h.comp, h.exp]; simp only [pressedMotion, pressed]; ring
  have hind := mean (k * w) (fun t => ((V t).conditions.P + pressureDrop ⟨c, s, v⟩ (V t) / 2)
        * (c.ws.volumes ⟨s.pres⟩ t).1.deriv
      + ((V t).conditions.P - pressureDrop ⟨c, s, v⟩ (V t) / 2) * (c.ws.volumes ⟨s.pres⟩ t).2.deriv)
    (fun t => ((pressedMotion k w V t).conditions.P
          + pressureDrop ⟨c', pressedState k w s, v'⟩ (pressedMotion k w V t) / 2)
        * (c'.ws.volumes ⟨pressedPres k s.pres⟩ t).1.deriv
      + ((pressedMotion k w V t).conditions.P
          - pressureDrop ⟨c', pressedState k w s, v'⟩ (pressedMotion k w V t) / 2)
        * (c'.ws.volumes ⟨pressedPres k s.pres⟩ t).2.deriv) fun t => by
    rw [h.comp, h.exp, hdrop]; simp only [pressedMotion, pressed]; ring
  have hQl := mean (k * w) (fun t => (V t).solution.Q_dot_l) (fun t => (pressedMotion k w V t).solution.Q_dot_l)
    fun t => rfl
  have hQk := mean (k * w) (fun t => (V t).solution.Q_dot_k) (fun t => (pressedMotion k w V t).solution.Q_dot_k)
    fun t => rfl
  have hwe := mean (k * w) (fun t => (s.temp.hhx - (V t).conditions.T_e) / (c.ws.thermal_resistance ⟨s.pres⟩).exp)
    (fun t => (s.temp.hhx - (pressedMotion k w V t).conditions.T_e)
      / (c'.ws.thermal_resistance ⟨pressedPres k s.pres⟩).exp) fun t => by
    rw [h.exp_wall]; simp only [pressedMotion, pressed]; rw [div_div_eq_mul_div]; ring
  have hwc := mean (k * w) (fun t => ((V t).conditions.T_c - s.temp.chx) / (c.ws.thermal_resistance ⟨s.pres⟩).comp)
    (fun t => ((pressedMotion k w V t).conditions.T_c - s.temp.chx)
      / (c'.ws.thermal_resistance ⟨pressedPres k s.pres⟩).comp) fun t => by
    rw [h.comp_wall]; simp only [pressedMotion, pressed]; rw [div_div_eq_mul_div]; ring
  have htemp : (pressedState k w s).temp = s.temp := rfl
  have htq : ∀ x f : ℝ, k * w * x / (2 * Real.pi * (w * f)) = k * (x / (2 * Real.pi * f)) := by
    intro x f
    rw [show k * w * x = w * (k * x) by ring, show 2 * Real.pi * (w * f) = w * (2 * Real.pi * f) by ring,
      mul_div_mul_left _ _ hw.ne', mul_div_assoc]
  simp only [figuresOf, pressedFigures, hws, hws0, h.frequency, hideal, hind, hQl, hQk, htemp, hwe, hwc,
    chx_pressed s hf, regen_pressed s hf, hhx_pressed s hf, h.chx_work, h.hhx_work, h.comp_work, h.exp_work,
    h.regen_heat, h.hhx_heat, h.exp_heat, MotionFigures.mk.injEq, true_and]
  refine ⟨by ring, by ring, ?_, by ring, by ring⟩
  rw [← htq]
  congr 1
  ring
end figures

/-! ## The outer loop -/

section outer
variable {k w : ℝ} {c c' : Components ℝ} {n : GasName}

theorem trapezoid_time {β : Type} (a : ℝ) (vs : List β) (g x : β → ℝ) :
    Spec.trapezoid (vs.map fun v => x v / a) (vs.map g) = Spec.trapezoid (vs.map x) (vs.map g) / a := by
  induction vs with
  | nil => simp [Spec.trapezoid]
  | cons v vs ih =>
    cases vs with
    | nil => simp [Spec.trapezoid]
    | cons u vs =>
      simp only [List.map_cons, Spec.trapezoid] at ih ⊢
      rw [ih]; ring

/-- A trapezoid sum of `a` times the quantity over `w` times shorter intervals. -/
theorem integrate_pressed (vs : List (state_equations.Values ℝ)) (a : ℝ) (g : state_equations.Values ℝ → ℝ) :
    integrate (vs.map fun v => v.time / w) (vs.map fun v => a * g v)
      = a * (integrate (vs.map fun v => v.time) (vs.map g) / w) := by
  rw [integrate_smul, integrate_eq, integrate_eq, trapezoid_time]

theorem pressed_final (vs : List (state_equations.Values ℝ)) :
    (Values.ofStateValues (vs.map (pressedValue k w))).final_time
      = (Values.ofStateValues vs).final_time.map (· / w) := by
  unfold Values.final_time
  rw [ofStateValues_eq, ofStateValues_eq]
  simp only [List.map_map, Function.comp_def, pressedValue, List.getLast?_map]
  cases vs.getLast? <;> rfl

theorem totalLe_pressed (hk : 0 < k) (a b : ℝ) : Scalar.totalLe (k * a) (k * b) = Scalar.totalLe a b :=
  Bool.eq_iff_iff.2 (by rw [real_totalLe, real_totalLe, mul_le_mul_iff_right₀ hk])

theorem maxBy_pressed (hk : 0 < k) (l : List ℝ) : maxBy (l.map (k * ·)) = (maxBy l).map (k * ·) := by
  cases l with
  | nil => rfl
  | cons a l =>
    simp only [List.map_cons, maxBy, Option.map_some]
    congr 1
    induction l generalizing a with
    | nil => rfl
    | cons b l ih =>
      simp only [List.map_cons, List.foldl_cons, totalLe_pressed hk]
      split <;> exact ih _

theorem minBy_pressed (hk : 0 < k) (l : List ℝ) : minBy (l.map (k * ·)) = (minBy l).map (k * ·) := by
  cases l with
  | nil => rfl
  | cons a l =>
    simp only [List.map_cons, minBy, Option.map_some]
    congr 1
    induction l generalizing a with
    | nil => rfl
    | cons b l ih =>
      simp only [List.map_cons, List.foldl_cons, totalLe_pressed hk]
      split <;> exact ih _

theorem mean_pressed (hw : 0 < w) (a x t : ℝ) : a * (x / w) / (t / w) = a * (x / t) := by
  rw [mul_div_assoc, div_div_div_cancel_right₀ hw.ne']

theorem pressure_pressed (hk : 0 < k) (hw : 0 < w) (vs : List (state_equations.Values ℝ)) :
    Pressure.from_values (Values.ofStateValues (vs.map (pressedValue k w)))
      = (Pressure.from_values (Values.ofStateValues vs)).map (pressedPres k) := by
  unfold Pressure.from_values
  rw [pressed_final]
  cases (Values.ofStateValues vs).final_time with
  | error e => rfl
  | ok t =>
    have e1 : (Values.ofStateValues (vs.map (pressedValue k w))).P = (vs.map (·.conditions.P)).map (k * ·) := by
      rw [ofStateValues_eq]; simp only [List.map_map, Function.comp_def, pressedValue, pressed]
    have e2 : (Values.ofStateValues vs).P = vs.map (·.conditions.P) := by rw [ofStateValues_eq]
    have e3 : (Values.ofStateValues (vs.map (pressedValue k w))).time = vs.map fun v => v.time / w := by
      rw [ofStateValues_eq]; simp only [List.map_map, Function.comp_def, pressedValue]
    have e4 : (Values.ofStateValues vs).time = vs.map (·.time) := by rw [ofStateValues_eq]
    rw [e1, e2, e3, e4, maxBy_pressed hk, minBy_pressed hk]
    simp only [List.map_map, Function.comp_def, integrate_pressed, bind, Except.bind, Except.map, pure, Except.pure,
      mean_pressed hw, List.head?_map]
    cases vs.head? <;> cases maxBy (vs.map (·.conditions.P)) <;> cases minBy (vs.map (·.conditions.P)) <;> rfl

theorem m_dot_avg_pressed (hk : 0 < k) (hw : 0 < w) (vs : List (state_equations.Values ℝ))
    (g h : state_equations.Values ℝ → ℝ) :
    (Values.ofStateValues (vs.map (pressedValue k w))).m_dot_avg (vs.map fun v => k * w * g v)
        (vs.map fun v => k * w * h v)
      = ((Values.ofStateValues vs).m_dot_avg (vs.map g) (vs.map h)).map (k * w * ·) := by
  unfold Values.m_dot_avg
  rw [pressed_final]
  cases (Values.ofStateValues vs).final_time with
  | error e => rfl
  | ok t =>
    rw [ofStateValues_eq, ofStateValues_eq]
    simp only [bind, Except.bind, pure, Except.pure, Except.map, List.zip_map', List.map_map,
      Function.comp_def, real_abs, pressedValue]
    rw [show (fun v => 0.5 * |k * w * g v + k * w * h v|) = fun v => k * w * (0.5 * |g v + h v|) by
      funext v; rw [← mul_add, abs_mul, abs_of_pos (mul_pos hk hw)]; ring, integrate_pressed, mean_pressed hw]

theorem mass_flows_pressed (hk : 0 < k) (hw : 0 < w) (vs : List (state_equations.Values ℝ)) :
    MassFlows.from_values (Values.ofStateValues (vs.map (pressedValue k w)))
      = (MassFlows.from_values (Values.ofStateValues vs)).map
        fun m => ⟨k * w * m.chx, k * w * m.regen, k * w * m.hhx⟩ := by
  have key : ∀ g h : state_equations.Values ℝ → ℝ, _ := m_dot_avg_pressed hk hw vs
  have e1 := key (·.solution.m_dot_ck) (·.solution.m_dot_kr)
  have e2 := key (·.solution.m_dot_kr) (·.solution.m_dot_rl)
  have e3 := key (·.solution.m_dot_rl) (·.solution.m_dot_le)
  unfold MassFlows.from_values
  rw [show (Values.ofStateValues (vs.map (pressedValue k w))).m_dot_ck
      = vs.map fun v => k * w * v.solution.m_dot_ck by
        rw [ofStateValues_eq]; simp only [List.map_map, Function.comp_def, pressedValue, pressedSolution],
    show (Values.ofStateValues (vs.map (pressedValue k w))).m_dot_kr
      = vs.map fun v => k * w * v.solution.m_dot_kr by
        rw [ofStateValues_eq]; simp only [List.map_map, Function.comp_def, pressedValue, pressedSolution],
    show (Values.ofStateValues (vs.map (pressedValue k w))).m_dot_rl
      = vs.map fun v => k * w * v.solution.m_dot_rl by
        rw [ofStateValues_eq]; simp only [List.map_map, Function.comp_def, pressedValue, pressedSolution],
    show (Values.ofStateValues (vs.map (pressedValue k w))).m_dot_le
      = vs.map fun v => k * w * v.solution.m_dot_le by
        rw [ofStateValues_eq]; simp only [List.map_map, Function.comp_def, pressedValue, pressedSolution],
    e1, e2, e3,
    show (Values.ofStateValues vs).m_dot_ck = vs.map (·.solution.m_dot_ck) by rw [ofStateValues_eq],
    show (Values.ofStateValues vs).m_dot_kr = vs.map (·.solution.m_dot_kr) by rw [ofStateValues_eq],
    show (Values.ofStateValues vs).m_dot_rl = vs.map (·.solution.m_dot_rl) by rw [ofStateValues_eq],
    show (Values.ofStateValues vs).m_dot_le = vs.map (·.solution.m_dot_le) by rw [ofStateValues_eq]]
  unfold Values.m_dot_avg
  cases (Values.ofStateValues vs).final_time <;> rfl

theorem over_wall (x R a : ℝ) : x / (R / a) = a * (x / R) := by rw [div_div_eq_mul_div]; ring

theorem heat_flows_pressed (hw : 0 < w) (vs : List (state_equations.Values ℝ)) (Tk Tl : ℝ)
    (R R' : ws.ThermalResistance ℝ) (h1 : R'.comp = R.comp / (k * w)) (h2 : R'.exp = R.exp / (k * w)) :
    HeatFlows.from_values (Values.ofStateValues (vs.map (pressedValue k w))) Tk Tl R'
      = (HeatFlows.from_values (Values.ofStateValues vs) Tk Tl R).map
        fun m => ⟨k * w * m.chx, k * w * m.regen, k * w * m.hhx⟩ := by
  unfold HeatFlows.from_values
  rw [pressed_final]
  cases (Values.ofStateValues vs).final_time with
  | error e => rfl
  | ok t =>
    simp only [bind, Except.bind, pure, Except.pure, Except.map, real_isInfinite,
      Bool.false_eq_true, if_false]
    rw [ofStateValues_eq, ofStateValues_eq, h1, h2]
    simp only [List.map_map, Function.comp_def, pressedValue, pressedSolution, pressed, over_wall, integrate_pressed,
      mean_pressed hw]
    congr 2 <;> ring

/-- The outcome of an update under `k` times the pressure and at `w` times the speed. -/
noncomputable def pressedUpdated (k w : ℝ) : State.Updated ℝ → State.Updated ℝ
  | .changed s => .changed (pressedState k w s)
  | .converged s => .converged (pressedState k w s)

/-- **C90**, outer loop: the engine starts from the corresponding state. -/
theorem C90_start (h : PressedComponents k w c c') (f : Fluid ℝ) (i : RunInputs ℝ) :
    State.new_hint c' f { i with pres_zero := k * i.pres_zero } = pressedState k w (State.new_hint c f i) := by
  unfold State.new_hint pressedState
  simp only [h.chx_initial, h.regen_initial, h.hhx_initial, MassFlows.constant, HeatFlows.constant, Pressure.constant,
    pressedPres]
  norm_num

/-- **C90**, outer loop: from corresponding samples `State::update` goes to the corresponding state, and accepts one
exactly when it accepts the other. -/
theorem C90_update (hk : 0 < k) (hw : 0 < w) (h : PressedComponents k w c c') (s : State ℝ)
    (hf : s.fluid = (IdealGas.new n).toFluid)
    (vs : List (state_equations.Values ℝ)) (tol : ConvergenceTolerance ℝ) :
    (pressedState k w s).update c' (Values.ofStateValues (vs.map (pressedValue k w))) tol
      = (s.update c (Values.ofStateValues vs) tol).map (pressedUpdated k w) := by
  have hws : (pressedState k w s).ws = ⟨pressedPres k s.pres⟩ := rfl
  have hws0 : s.ws = ⟨s.pres⟩ := rfl
  have hq := heat_flows_pressed (k := k) hw vs s.temp.chx s.temp.hhx (c.ws.thermal_resistance ⟨s.pres⟩) _
    (h.comp_wall s.pres) (h.exp_wall s.pres)
  unfold State.update
  rw [pressure_pressed hk hw, mass_flows_pressed hk hw, hws, hws0]
  simp only [show (pressedState k w s).temp = s.temp from rfl, hq]
  cases Pressure.from_values (Values.ofStateValues vs) with
  | error e => rfl
  | ok p =>
    cases MassFlows.from_values (Values.ofStateValues vs) with
    | error e => rfl
    | ok m =>
      cases HeatFlows.from_values (Values.ofStateValues vs) s.temp.chx s.temp.hhx
        (c.ws.thermal_resistance ⟨s.pres⟩) with
      | error e => rfl
      | ok q =>
        have a1 := (congrArg c'.chx.approach (chx_pressed (k := k) (w := w)
          ⟨s.fluid, p, s.temp, m, q, s.regen_imbalance⟩ hf)).trans (h.chx_approach _ _)
        have a2 := (congrArg c'.regen.approach (regen_pressed (k := k) (w := w)
          ⟨s.fluid, p, s.temp, m, q, s.regen_imbalance⟩ hf)).trans (h.regen_approach _ _ _)
        have a3 := (congrArg c'.hhx.approach (hhx_pressed (k := k) (w := w)
          ⟨s.fluid, p, s.temp, m, q, s.regen_imbalance⟩ hf)).trans (h.hhx_approach _ _)
        simp only [pressedState] at a1 a2 a3
        simp only [bind, Except.bind, Except.map, pressedState, a1, a2, a3]
        split <;> rfl
end outer

/-! ## The results -/

section results
variable {k w : ℝ} {c c' : Components ℝ} {n : GasName}

theorem sampleDrop_pressed (hk : 0 < k) (hw : 0 < w) (h : PressedComponents k w c c') (s : State ℝ)
    (hf : s.fluid = (IdealGas.new n).toFluid) (V V' : Sett.Values ℝ) (v : state_equations.Values ℝ) :
    sampleDrop ⟨c', pressedState k w s, V'⟩ (pressedValue k w v)
      = k * sampleDrop ⟨c, s, V⟩ v := by
  have hd : ∀ T P, s.fluid.dens T (k * P) = k * s.fluid.dens T P := fun T P => by
    rw [hf]; exact mul_div_assoc _ _ _
  have key : ∀ R m m' d : ℝ, k / w * R * (0.5 * (k * w * m + k * w * m') / (k * d))
      = k * (R * (0.5 * (m + m') / d)) := by
    intro R m m' d
    by_cases h0 : d = 0
    · simp [h0]
    · field_simp
  simp only [sampleDrop, chx_pressed s hf, regen_pressed s hf, hhx_pressed s hf, h.chx_drop, h.regen_drop,
    h.hhx_drop, pressedValue, pressed, pressedSolution]
  simp only [pressedState, hd, key]
  rw [← mul_add k, ← mul_add k]

/-- Powers under `k` times the pressure and at `w` times the speed. -/
noncomputable def pressedPowers (k w : ℝ) (p : performance.Powers ℝ) : performance.Powers ℝ :=
  ⟨k * w * p.indicated, k * w * p.indicated_zero_dP, k * w * p.shaft, k * w * p.net⟩

theorem powers_pressed (hw : 0 < w) (h : PressedComponents k w c c') (s : State ℝ)
    (hf : s.fluid = (IdealGas.new n).toFluid)
    (vs : List (state_equations.Values ℝ)) (pc pe : state_equations.Values ℝ → ℝ) :
    performance.Powers.new ⟨vs.map fun v => k * pc v, vs.map fun v => k * pe v⟩
        ⟨c', pressedState k w s, Values.ofStateValues (vs.map (pressedValue k w))⟩
      = (performance.Powers.new ⟨vs.map pc, vs.map pe⟩ ⟨c, s, Values.ofStateValues vs⟩).map (pressedPowers k w) := by
  have hws : (pressedState k w s).ws = ⟨pressedPres k s.pres⟩ := rfl
  have hws0 : s.ws = ⟨s.pres⟩ := rfl
  unfold performance.Powers.new performance.dV_dts
  rw [ofStateValues_eq, ofStateValues_eq]
  simp only [List.map_map, Function.comp_def, mul_map, add_map, bind, Except.bind, pure, Except.pure,
    Except.map, hws, hws0, h.comp, h.exp, chx_pressed s hf, hhx_pressed s hf, h.chx_work, h.hhx_work, h.frequency,
    h.comp_work, h.exp_work, pressedValue, pressed, pressedPowers, mul_div_cancel₀ _ hw.ne']
  have i1 := integrate_pressed (w := w) vs (k * w) fun v => pc v * (c.ws.volumes ⟨s.pres⟩ v.time).1.deriv
        + pe v * (c.ws.volumes ⟨s.pres⟩ v.time).2.deriv
  have i2 := integrate_pressed (w := w) vs (k * w) fun v => v.conditions.P * ((c.ws.volumes ⟨s.pres⟩ v.time).1.deriv
        + (c.ws.volumes ⟨s.pres⟩ v.time).2.deriv)
  rw [show (fun v : state_equations.Values ℝ => k * pc v * (w * (c.ws.volumes ⟨s.pres⟩ v.time).1.deriv)
        + k * pe v * (w * (c.ws.volumes ⟨s.pres⟩ v.time).2.deriv))
      = fun v => k * w * (pc v * (c.ws.volumes ⟨s.pres⟩ v.time).1.deriv
        + pe v * (c.ws.volumes ⟨s.pres⟩ v.time).2.deriv) by funext v; ring,
    show (fun v : state_equations.Values ℝ => k * v.conditions.P * (w * (c.ws.volumes ⟨s.pres⟩ v.time).1.deriv
        + w * (c.ws.volumes ⟨s.pres⟩ v.time).2.deriv))
      = fun v => k * w * (v.conditions.P * ((c.ws.volumes ⟨s.pres⟩ v.time).1.deriv
        + (c.ws.volumes ⟨s.pres⟩ v.time).2.deriv)) by funext v; ring, i1, i2]
  have e : ∀ f x : ℝ, w * f * (k * w * (x / w)) = k * w * (f * x) := by
    intro f x; field_simp
  simp only [e]
  congr 2 <;> ring

theorem heats_pressed (hw : 0 < w) (h : PressedComponents k w c c') (s : State ℝ)
    (hf : s.fluid = (IdealGas.new n).toFluid)
    (vs : List (state_equations.Values ℝ)) (p : performance.Powers ℝ) :
    performance.Heats.new (pressedPowers k w p)
        ⟨c', pressedState k w s, Values.ofStateValues (vs.map (pressedValue k w))⟩
      = ⟨k * w * (performance.Heats.new p ⟨c, s, Values.ofStateValues vs⟩).input,
        k * w * (performance.Heats.new p ⟨c, s, Values.ofStateValues vs⟩).rejected⟩ := by
  have hws : (pressedState k w s).ws = ⟨pressedPres k s.pres⟩ := rfl
  have hws0 : s.ws = ⟨s.pres⟩ := rfl
  have ht : (pressedState k w s).temp = s.temp := rfl
  unfold performance.Heats.new
  rw [ofStateValues_eq, ofStateValues_eq]
  simp only [List.map_map, Function.comp_def, hws, hws0, ht, regen_pressed s hf, hhx_pressed s hf, h.regen_heat,
    h.hhx_heat, h.frequency, h.comp_work, h.exp_work,
    h.exp_heat, h.comp_wall, h.exp_wall, pressedValue, pressed, pressedSolution, pressedPowers, DVector.sdiv,
    over_wall, integrate_pressed]
  have e : ∀ f x : ℝ, w * f * (k * w * (x / w)) = k * w * (f * x) := by
    intro f x; field_simp
  simp only [e]
  congr 1 <;> ring

/-- **C90**, results: from the corresponding state and samples, powers, heats and flows are `k w` times, pressures and
torque `k` times those of the original, and temperatures and efficiencies the same. -/
theorem C90_results (hk : 0 < k) (hw : 0 < w) (h : PressedComponents k w c c') (s : State ℝ)
    (hf : s.fluid = (IdealGas.new n).toFluid) (vs : List (state_equations.Values ℝ)) :
    RunResults.ofEngine ⟨c', pressedState k w s, Values.ofStateValues (vs.map (pressedValue k w))⟩
      = (RunResults.ofEngine ⟨c, s, Values.ofStateValues vs⟩).map (pressedResults k w) := by
  have hp : performance.PressuresWithDrops.new
        ⟨c', pressedState k w s, Values.ofStateValues (vs.map (pressedValue k w))⟩
      = .ok ⟨vs.map fun v => k * (v.conditions.P
          + 0.5 * sampleDrop ⟨c, s, Values.ofStateValues vs⟩ v),
        vs.map fun v => k * (v.conditions.P
          - 0.5 * sampleDrop ⟨c, s, Values.ofStateValues vs⟩ v)⟩ := by
    rw [pressures_eq (⟨c', pressedState k w s, Values.ofStateValues (vs.map (pressedValue k w))⟩ : Engine ℝ)
      (vs.map (pressedValue k w)) rfl]
    simp only [List.map_map, Function.comp_def, sampleDrop_pressed hk hw h s hf (Values.ofStateValues vs)]
    simp only [pressedValue, pressed]
    congr 2 <;> (congr 1; funext v; ring)
  unfold RunResults.ofEngine performance.Performance.ofEngine
  rw [hp]
  rw [pressures_eq (⟨c, s, Values.ofStateValues vs⟩ : Engine ℝ) vs rfl]
  simp only [bind, Except.bind]
  rw [powers_pressed hw h s hf]
  rw [powers_eq (⟨c, s, Values.ofStateValues vs⟩ : Engine ℝ) vs rfl]
  simp only [Except.map, pure, Except.pure]
  rw [heats_pressed hw h s hf]
  simp only [pressedResults, pressedPowers]
  rw [ofStateValues_eq, ofStateValues_eq]
  simp only [List.map_map, Function.comp_def, pressedValue, pressed, pressedSolution]
  have htq : ∀ x d f : ℝ, k * w * x / (d * (w * f)) = k * (x / (d * f)) := by
    intro x d f
    rw [show k * w * x = w * (k * x) by ring, show d * (w * f) = w * (d * f) by ring,
      mul_div_mul_left _ _ hw.ne', mul_div_assoc]
  rw [mul_div_mul_left _ _ (mul_pos hk hw).ne', show (pressedState k w s).ws = ⟨pressedPres k s.pres⟩ from rfl,
    h.frequency, htq]
  rfl
end results

/-! ## Configurations -/

section config
variable {k w : ℝ}

theorem sinusoidal_pressed (p : ws.SinusoidalDrive.Config ℝ) (t : ℝ) :
    ((ws.SinusoidalDrive.ofConfig { p with
        frequency := w * p.frequency, R_c := p.R_c / (k * w), W_parasitic_c := k * w * p.W_parasitic_c
        R_e := p.R_e / (k * w), W_parasitic_e := k * w * p.W_parasitic_e
        Q_parasitic_e := k * w * p.Q_parasitic_e }).volumes t)
      = (⟨((ws.SinusoidalDrive.ofConfig p).volumes (w * t)).1.value,
          w * ((ws.SinusoidalDrive.ofConfig p).volumes (w * t)).1.deriv⟩,
        ⟨((ws.SinusoidalDrive.ofConfig p).volumes (w * t)).2.value,
          w * ((ws.SinusoidalDrive.ofConfig p).volumes (w * t)).2.deriv⟩) := by
  simp only [ws.SinusoidalDrive.ofConfig, ws.SinusoidalDrive.volumes, Prod.mk.injEq,
    ws.CompVolume.mk.injEq, ws.ExpVolume.mk.injEq]
  scalars
  refine ⟨⟨?_, ?_⟩, ?_, ?_⟩ <;> ring_nf

theorem rhombic_pressed (p : ws.RhombicDrive.Config ℝ) (t : ℝ) :
    ((ws.RhombicDrive.ofConfig { p with
        frequency := w * p.frequency, R_c := p.R_c / (k * w), W_parasitic_c := k * w * p.W_parasitic_c
        R_e := p.R_e / (k * w), W_parasitic_e := k * w * p.W_parasitic_e
        Q_parasitic_e := k * w * p.Q_parasitic_e }).volumes t)
      = (⟨((ws.RhombicDrive.ofConfig p).volumes (w * t)).1.value,
          w * ((ws.RhombicDrive.ofConfig p).volumes (w * t)).1.deriv⟩,
        ⟨((ws.RhombicDrive.ofConfig p).volumes (w * t)).2.value,
          w * ((ws.RhombicDrive.ofConfig p).volumes (w * t)).2.deriv⟩) := by
  simp only [ws.RhombicDrive.ofConfig, ws.RhombicDrive.volumes, Prod.mk.injEq,
    ws.CompVolume.mk.injEq, ws.ExpVolume.mk.injEq]
  scalars
  refine ⟨⟨?_, ?_⟩, ?_, ?_⟩ <;> ring_nf

/-- **C90**, configurations. -/
theorem C90_components (hk : 0 < k) (hw : 0 < w) (c : Config ℝ) {x : Components ℝ}
    (h : c.engine.components.build = .ok x) :
    ∃ x', (pressedConfig k w c).engine.components.build = .ok x' ∧ PressedComponents k w x x' := by
  have hkw := mul_pos hk hw
  obtain ⟨⟨fl, ⟨cx, cl, cr, cw⟩⟩, so, co⟩ := c
  simp only [pressedConfig]
  cases cw <;> cases cx <;> cases cr <;> cases cl <;>
    first
    | (cases h; done)
    | (cases h
       refine ⟨_, rfl, ?_⟩
       constructor
       all_goals first
         | (intros; rfl)
         | (intro s t; exact congrArg Prod.fst (sinusoidal_pressed _ t))
         | (intro s t; exact congrArg Prod.snd (sinusoidal_pressed _ t))
         | (intro s t; exact congrArg Prod.fst (rhombic_pressed _ t))
         | (intro s t; exact congrArg Prod.snd (rhombic_pressed _ t))
         | (intros; show (0.0 : ℝ) = k * w * 0.0; norm_num)
         | (intros; show chx.FixedConductance.approach _ _ = chx.FixedConductance.approach _ _
            simp only [chx.FixedConductance.approach, pressedHx, chx.FixedConductance.ofConfig,
              ntu_scale hkw])
         | (intros; show hhx.FixedConductance.approach _ _ = hhx.FixedConductance.approach _ _
            simp only [hhx.FixedConductance.approach, pressedHx, hhx.FixedConductance.ofConfig,
              ntu_scale hkw])
         | (intros; show regen.FixedConductance.approach _ _ = regen.FixedConductance.approach _ _
            simp only [regen.FixedConductance.approach, pressedHx, regen.FixedConductance.ofConfig,
              ntu_scale hkw])
         | exact initial_scale hkw _ _ rfl)

/-- **C90.** Beale's law.  Take an engine, in any sane state, whose gas follows the state equations through one cycle of
the drive.  In the engine of the configuration with `k` times the pressure and `w` times the speed, in the corresponding
state, the corresponding motion follows the state equations through one cycle, closes if the original does, and delivers
power in the same proportion to mean pressure times speed, with the same efficiency. -/
theorem C90_beale (hk : 0 < k) (hw : 0 < w) (c : Config ℝ) {x x' : Components ℝ} {n : GasName}
    (hx : c.engine.components.build = .ok x) (hx' : (pressedConfig k w c).engine.components.build = .ok x')
    {U : MatrixDecomposition ℝ} (hT : Sound U) (hc : Complete U) (s : State ℝ)
    (hf : s.fluid = (IdealGas.new n).toFluid) (hs : SaneRun (Run.new U x s))
    (V : ℝ → state_equations.Values ℝ)
    (hV : ∀ t ∈ Set.Icc 0 (Run.new U x s).period, Warm (V t).conditions ∧
      Follows (Run.new U x s) (fun t => (V t).conditions) t (V t).solution) (v v' : Sett.Values ℝ) :
    let r' := Run.new U x' (pressedState k w s)
    let V' := pressedMotion k w V
    let m := figuresOf ⟨x, s, v⟩ V
    let m' := figuresOf ⟨x', pressedState k w s, v'⟩ V'
    (∀ t ∈ Set.Icc 0 r'.period, Warm (V' t).conditions ∧ Follows r' (fun t => (V' t).conditions) t (V' t).solution) ∧
    ((V (Run.new U x s).period).conditions = (V 0).conditions → (V' r'.period).conditions = (V' 0).conditions) ∧
    m' = pressedFigures k w m ∧
    m'.shaft / (cycleMean r'.period (fun t => (V' t).conditions.P) * (1 / r'.period))
      = m.shaft / (cycleMean (Run.new U x s).period (fun t => (V t).conditions.P) * (1 / (Run.new U x s).period)) ∧
    m'.net / m'.input = m.net / m.input := by
  intro r' V' m m'
  obtain ⟨x'', e1, e2⟩ := C90_components hk hw c hx
  obtain rfl : x'' = x' := by rw [e1] at hx'; exact Except.ok.inj hx'
  have hr : PressedRun k w (Run.new U x s) r' := pressedRun_new e2 U s hf
  have hm : m' = pressedFigures k w m := C90_figures hk hw e2 s hf v v' V
  have hwn := hw.ne'
  have hkn := hk.ne'
  refine ⟨fun t ht => ?_, fun he => ?_, hm, ?_, ?_⟩
  · rw [hr.period, ← zero_div w] at ht
    obtain ⟨h1, h2⟩ := hV (w * t) (mem_pressed' hw ht)
    exact ⟨warm_pressed hk h1, C90_follows hk hw hr hf hs hT hT hc h1 h2⟩
  · show pressed k (V (w * r'.period)).conditions = pressed k (V (w * 0)).conditions
    rw [hr.period, mul_div_cancel₀ _ hwn, he, mul_zero]
  · have e := cycleMean_pressed hw k (Run.new U x s).period fun t => (V t).conditions.P
    rw [hm, hr.period]
    show k * w * m.shaft / (cycleMean ((Run.new U x s).period / w) (fun t => k * (V (w * t)).conditions.P) * _) = _
    rw [e, one_div_div, show k * cycleMean (Run.new U x s).period (fun t => (V t).conditions.P)
        * (w / (Run.new U x s).period) = k * w * (cycleMean (Run.new U x s).period (fun t => (V t).conditions.P)
        * (1 / (Run.new U x s).period)) by ring, mul_div_mul_left _ _ (mul_pos hk hw).ne']
  · rw [hm]
    exact mul_div_mul_left _ _ (mul_pos hk hw).ne'
end config

end Sett
