import Verif.Model.State
import Verif.Proofs.Lits
import Mathlib.Analysis.SpecialFunctions.ExpDeriv
import Mathlib.Analysis.Calculus.MeanValue
import Mathlib.Analysis.SpecialFunctions.Log.Deriv
import Mathlib.Tactic.Linarith
import Mathlib.Tactic.FieldSimp

/-! # C20, C21, C23, C24, C26: heat-exchanger temperatures in exact arithmetic -/

namespace Sett

/-! ## C20, C21 -/

/-- **C20.** The smaller side difference is the approach; hot difference minus cold difference is the
imbalance. -/
theorem C20_side_temperatures (i : RegenImbalance ℝ) (Tk Tl approach : ℝ) :
    let t := i.regen_temp Tk Tl approach
    min (t.cold - Tk) (Tl - t.hot) = approach ∧ (Tl - t.hot) - (t.cold - Tk) = i.val := by
  simp only [RegenImbalance.regen_temp]
  scalars
  by_cases h : 0 ≤ i.val
  · simp only [h, if_true]
    refine ⟨?_, by ring⟩
    rw [min_eq_left (by linarith)]; ring
  · simp only [h, if_false]
    refine ⟨?_, by ring⟩
    rw [min_eq_right (by linarith)]; ring

/-- Effective end temperatures: corrected by half of each side's temperature difference. -/
noncomputable def Spec.effectiveEnds (Tk Tl cold hot : ℝ) : ℝ × ℝ :=
  (Tk + (cold - Tk) / 2, Tl - (Tl - hot) / 2)

/-- Logarithmic mean of two temperatures. -/
noncomputable def Spec.logMean (a b : ℝ) : ℝ := (b - a) / (Real.log b - Real.log a)

theorem logMean_between {a b : ℝ} (ha : 0 < a) (hab : a < b) :
    a < Spec.logMean a b ∧ Spec.logMean a b < b := by
  have hb : 0 < b := ha.trans hab
  have hlog : 0 < Real.log b - Real.log a := sub_pos.2 (Real.log_lt_log ha hab)
  have hne : b / a ≠ 1 := by rw [ne_eq, div_eq_one_iff_eq ha.ne']; exact hab.ne'
  have hne' : a / b ≠ 1 := by rw [ne_eq, div_eq_one_iff_eq hb.ne']; exact hab.ne
  have h1 := Real.log_lt_sub_one_of_pos (div_pos hb ha) hne
  have h2 := Real.log_lt_sub_one_of_pos (div_pos ha hb) hne'
  rw [Real.log_div hb.ne' ha.ne'] at h1
  rw [Real.log_div ha.ne' hb.ne'] at h2
  unfold Spec.logMean
  constructor
  · rw [lt_div_iff₀ hlog]
    have : a * (b / a - 1) = b - a := by field_simp
    nlinarith [mul_lt_mul_of_pos_left h1 ha]
  · rw [div_lt_iff₀ hlog]
    have : b * (a / b - 1) = a - b := by field_simp
    nlinarith [mul_lt_mul_of_pos_left h2 hb]

theorem logMean_comm (a b : ℝ) : Spec.logMean a b = Spec.logMean b a := by
  unfold Spec.logMean
  rw [← neg_sub a b, ← neg_sub (Real.log a), neg_div_neg_eq]

/-- **C21**, the value: the reported average is the logarithmic mean of the effective ends. -/
theorem C21_average_is_log_mean (i : RegenImbalance ℝ) (Tk Tl approach : ℝ) :
    let t := i.regen_temp Tk Tl approach
    let e := Spec.effectiveEnds Tk Tl t.cold t.hot
    0 < e.1 → 0 < e.2 → t.avg = Spec.logMean e.1 e.2 := by
  intro t e h1 h2
  have e1 : e.1 = Tk + 1 / 2 * (t.cold - Tk) := by simp [e, Spec.effectiveEnds]; ring
  have e2 : e.2 = Tl - 1 / 2 * (Tl - t.hot) := by simp [e, Spec.effectiveEnds]; ring
  rw [Spec.logMean, ← Real.log_div h2.ne' h1.ne', e1, e2]
  simp only [t, RegenImbalance.regen_temp]
  scalars
  split <;> congr 1 <;> ring_nf

/-- **C21**, bounds: for positive, different effective ends the average lies strictly between them. -/
theorem C21_average_between (i : RegenImbalance ℝ) (Tk Tl approach : ℝ) :
    let t := i.regen_temp Tk Tl approach
    let e := Spec.effectiveEnds Tk Tl t.cold t.hot
    0 < e.1 → 0 < e.2 → e.1 ≠ e.2 → min e.1 e.2 < t.avg ∧ t.avg < max e.1 e.2 := by
  intro t e h1 h2 hne
  rw [show t.avg = _ from C21_average_is_log_mean i Tk Tl approach h1 h2]
  rcases lt_or_gt_of_ne hne with h | h
  · rw [min_eq_left h.le, max_eq_right h.le]; exact logMean_between h1 h
  · rw [min_eq_right h.le, max_eq_left h.le, logMean_comm]; exact logMean_between h2 h

/-- **C21**, symmetry: two regenerators whose effective ends are exchanged have the same average. -/
theorem C21_average_symmetric (i j : RegenImbalance ℝ) (Tk Tl ap Tk' Tl' ap' : ℝ)
    (h1 : 0 < (Spec.effectiveEnds Tk Tl (i.regen_temp Tk Tl ap).cold (i.regen_temp Tk Tl ap).hot).1)
    (h2 : 0 < (Spec.effectiveEnds Tk Tl (i.regen_temp Tk Tl ap).cold (i.regen_temp Tk Tl ap).hot).2)
    (hs : Spec.effectiveEnds Tk' Tl' (j.regen_temp Tk' Tl' ap').cold (j.regen_temp Tk' Tl' ap').hot
      = (Spec.effectiveEnds Tk Tl (i.regen_temp Tk Tl ap).cold
          (i.regen_temp Tk Tl ap).hot).swap) :
    (j.regen_temp Tk' Tl' ap').avg = (i.regen_temp Tk Tl ap).avg := by
  rw [show (i.regen_temp Tk Tl ap).avg = _ from C21_average_is_log_mean i Tk Tl ap h1 h2]
  have h1' : 0 < (Spec.effectiveEnds Tk' Tl' (j.regen_temp Tk' Tl' ap').cold
      (j.regen_temp Tk' Tl' ap').hot).1 := by rw [hs]; exact h2
  have h2' : 0 < (Spec.effectiveEnds Tk' Tl' (j.regen_temp Tk' Tl' ap').cold
      (j.regen_temp Tk' Tl' ap').hot).2 := by rw [hs]; exact h1
  rw [show (j.regen_temp Tk' Tl' ap').avg = _ from C21_average_is_log_mean j Tk' Tl' ap' h1' h2', hs]
  exact logMean_comm _ _

/-- Hypotheses of C21 for a typical engine: 340 K, 800 K, approach 10 K, imbalance 3 K. -/
example : min (345 : ℝ) (800 - 13 / 2) < ((⟨3⟩ : RegenImbalance ℝ).regen_temp 340 800 10).avg ∧
    ((⟨3⟩ : RegenImbalance ℝ).regen_temp 340 800 10).avg < max (345 : ℝ) (800 - 13 / 2) := by
  have h : Spec.effectiveEnds 340 800 ((⟨3⟩ : RegenImbalance ℝ).regen_temp 340 800 10).cold
      ((⟨3⟩ : RegenImbalance ℝ).regen_temp 340 800 10).hot = (345, 800 - 13 / 2) := by
    simp only [RegenImbalance.regen_temp, Spec.effectiveEnds]; scalars; norm_num
  have := C21_average_between ⟨3⟩ 340 800 10
  simp only [h] at this
  exact this (by norm_num) (by norm_num) (by norm_num)

/-! ## C23, C24 -/

theorem ntu_form {UA C : ℝ} (Q : ℝ) (hU : 0 < UA) (hC : 0 < C) :
    Q / C * (1 / (1 - Real.exp (-(UA / C))) - 1) = Q / C / (Real.exp (UA / C) - 1) := by
  have h1 : 1 < Real.exp (UA / C) := Real.one_lt_exp_iff.2 (div_pos hU hC)
  rw [Real.exp_neg]
  have h0 := Real.exp_pos (UA / C)
  have h2 : Real.exp (UA / C) - 1 ≠ 0 := by linarith
  have h3 : 1 - (Real.exp (UA / C))⁻¹ ≠ 0 := by
    intro h
    apply h2
    field_simp at h
    linarith
  field_simp
  ring

/-- Capacitance rate seen by an exchanger. -/
def Spec.capacitance (x : HeatExchanger ℝ) : ℝ := x.cp * x.m_dot

/-- **C23**, closed form, cold exchanger. -/
theorem C23_chx_closed_form (x : chx.FixedConductance ℝ) (s : chx.State ℝ) (hU : 0 < x.UA)
    (hC : 0 < Spec.capacitance s.hxr) :
    x.approach s = s.hxr.Q_dot / Spec.capacitance s.hxr
      / (Real.exp (x.UA / Spec.capacitance s.hxr) - 1) := by
  rw [← ntu_form _ hU hC]
  simp only [chx.FixedConductance.approach, Spec.capacitance]; scalars

/-- **C23**, closed form, hot exchanger. -/
theorem C23_hhx_closed_form (x : hhx.FixedConductance ℝ) (s : hhx.State ℝ) (hU : 0 < x.UA)
    (hC : 0 < Spec.capacitance s.hxr) :
    x.approach s = s.hxr.Q_dot / Spec.capacitance s.hxr
      / (Real.exp (x.UA / Spec.capacitance s.hxr) - 1) := by
  rw [← ntu_form _ hU hC]
  simp only [hhx.FixedConductance.approach, Spec.capacitance]; scalars

/-- Specification from first principles: `θ a` is the temperature difference between the stream and a
reservoir after the stream has passed conductance `a`; it obeys `C θ' = -θ`, and the stream gives off
`Q = C (θ 0 - θ UA)` in total. -/
structure Spec.StreamToReservoir (UA C Q : ℝ) (θ : ℝ → ℝ) : Prop where
  rate : ∀ a, HasDerivAt θ (-θ a / C) a
  heat : C * (θ 0 - θ UA) = Q

theorem stream_residual {UA C Q : ℝ} {θ : ℝ → ℝ} (h : Spec.StreamToReservoir UA C Q θ)
    (hU : 0 < UA) (hC : 0 < C) : θ UA = Q / C / (Real.exp (UA / C) - 1) := by
  have hconst : ∀ a, HasDerivAt (fun a => θ a * Real.exp (a / C)) 0 a := fun a => by
    have he : HasDerivAt (fun a : ℝ => Real.exp (a / C)) (Real.exp (a / C) * (1 / C)) a :=
      ((hasDerivAt_id a).div_const C).exp
    refine ((h.rate a).mul he).congr_deriv ?_
    field_simp
    ring
  have hd : Differentiable ℝ (fun a => θ a * Real.exp (a / C)) := fun a =>
    (hconst a).differentiableAt
  have := is_const_of_deriv_eq_zero hd (fun a => (hconst a).deriv) 0 UA
  simp only [zero_div, Real.exp_zero, mul_one] at this
  have h1 : 1 < Real.exp (UA / C) := Real.one_lt_exp_iff.2 (div_pos hU hC)
  have h2 : Real.exp (UA / C) - 1 ≠ 0 := by linarith
  have hh := h.heat
  rw [this] at hh
  rw [← hh]
  field_simp

/-- **C23**, cold exchanger: the approach is the residual temperature difference of a stream giving `Q`
to a constant-temperature reservoir through conductance `UA`. -/
theorem C23_chx_approach_is_residual (x : chx.FixedConductance ℝ) (s : chx.State ℝ) (hU : 0 < x.UA)
    (hC : 0 < Spec.capacitance s.hxr) (θ : ℝ → ℝ)
    (hθ : Spec.StreamToReservoir x.UA (Spec.capacitance s.hxr) s.hxr.Q_dot θ) :
    x.approach s = θ x.UA := by
  rw [C23_chx_closed_form x s hU hC, stream_residual hθ hU hC]

/-- **C23**, hot exchanger. -/
theorem C23_hhx_approach_is_residual (x : hhx.FixedConductance ℝ) (s : hhx.State ℝ) (hU : 0 < x.UA)
    (hC : 0 < Spec.capacitance s.hxr) (θ : ℝ → ℝ)
    (hθ : Spec.StreamToReservoir x.UA (Spec.capacitance s.hxr) s.hxr.Q_dot θ) :
    x.approach s = θ x.UA := by
  rw [C23_hhx_closed_form x s hU hC, stream_residual hθ hU hC]

/-- Such a stream exists for every `UA, C > 0` and `Q`. -/
example (UA C Q : ℝ) (hU : 0 < UA) (hC : 0 < C) : ∃ θ, Spec.StreamToReservoir UA C Q θ := by
  have h1 : 1 < Real.exp (UA / C) := Real.one_lt_exp_iff.2 (div_pos hU hC)
  have h2 : Real.exp (UA / C) - 1 ≠ 0 := by linarith
  have h0 := Real.exp_pos (UA / C)
  refine ⟨fun a => Q / C * (Real.exp (UA / C) / (Real.exp (UA / C) - 1)) * Real.exp (-(a / C)),
    fun a => ?_, ?_⟩
  · have he : HasDerivAt (fun a : ℝ => Real.exp (-(a / C))) (Real.exp (-(a / C)) * -(1 / C)) a :=
      (((hasDerivAt_id a).div_const C).neg).exp
    refine (he.const_mul _).congr_deriv ?_
    field_simp
  · simp only [zero_div, neg_zero, Real.exp_zero, Real.exp_neg]
    field_simp

/-- The residual as a function, for the monotonicity statements. -/
noncomputable def Spec.residual (Q C UA : ℝ) : ℝ := Q / C / (Real.exp (UA / C) - 1)

theorem residual_nonneg {Q C UA : ℝ} (hQ : 0 ≤ Q) (hC : 0 < C) (hU : 0 < UA) :
    0 ≤ Spec.residual Q C UA := by
  have h1 : 1 < Real.exp (UA / C) := Real.one_lt_exp_iff.2 (div_pos hU hC)
  have : 0 < Real.exp (UA / C) - 1 := by linarith
  unfold Spec.residual; positivity

theorem residual_le {Q C UA : ℝ} (hQ : 0 ≤ Q) (hC : 0 < C) (hU : 0 < UA) :
    Spec.residual Q C UA ≤ Q / UA := by
  have h1 : UA / C + 1 ≤ Real.exp (UA / C) := Real.add_one_le_exp _
  have hp : 0 < UA / C := div_pos hU hC
  unfold Spec.residual
  calc Q / C / (Real.exp (UA / C) - 1) ≤ Q / C / (UA / C) := by
        gcongr
        linarith
    _ = Q / UA := by field_simp

theorem residual_strictAnti {Q C : ℝ} (hQ : 0 < Q) (hC : 0 < C) {U U' : ℝ} (hU : 0 < U)
    (h : U < U') : Spec.residual Q C U' < Spec.residual Q C U := by
  have h1 : 1 < Real.exp (U / C) := Real.one_lt_exp_iff.2 (div_pos hU hC)
  have h2 : Real.exp (U / C) < Real.exp (U' / C) := Real.exp_lt_exp.2 (by gcongr)
  unfold Spec.residual
  apply div_lt_div_of_pos_left (by positivity) (by linarith) (by linarith)

/-- **C24**, cold exchanger: sign, bound by `Q/UA`, strict decrease in `UA`. -/
theorem C24_chx_bounds (x x' : chx.FixedConductance ℝ) (s : chx.State ℝ) (hU : 0 < x.UA)
    (hC : 0 < Spec.capacitance s.hxr) (hQ : 0 ≤ s.hxr.Q_dot) :
    0 ≤ x.approach s ∧ x.approach s ≤ s.hxr.Q_dot / x.UA ∧
      (0 < s.hxr.Q_dot → x.UA < x'.UA → x'.approach s < x.approach s) := by
  rw [C23_chx_closed_form x s hU hC]
  refine ⟨residual_nonneg hQ hC hU, residual_le hQ hC hU, fun hQ' h => ?_⟩
  rw [C23_chx_closed_form x' s (hU.trans h) hC]
  exact residual_strictAnti hQ' hC hU h

/-- **C24**, hot exchanger. -/
theorem C24_hhx_bounds (x x' : hhx.FixedConductance ℝ) (s : hhx.State ℝ) (hU : 0 < x.UA)
    (hC : 0 < Spec.capacitance s.hxr) (hQ : 0 ≤ s.hxr.Q_dot) :
    0 ≤ x.approach s ∧ x.approach s ≤ s.hxr.Q_dot / x.UA ∧
      (0 < s.hxr.Q_dot → x.UA < x'.UA → x'.approach s < x.approach s) := by
  rw [C23_hhx_closed_form x s hU hC]
  refine ⟨residual_nonneg hQ hC hU, residual_le hQ hC hU, fun hQ' h => ?_⟩
  rw [C23_hhx_closed_form x' s (hU.trans h) hC]
  exact residual_strictAnti hQ' hC hU h

theorem tendsto_of_residual {f : ℝ → ℝ} {Q C : ℝ} (hQ : 0 ≤ Q) (hC : 0 < C)
    (hf : ∀ U, 0 < U → f U = Spec.residual Q C U) :
    Filter.Tendsto f Filter.atTop (nhds 0) := by
  have hz : Filter.Tendsto (fun U : ℝ => Q / U) Filter.atTop (nhds 0) :=
    tendsto_const_nhds.div_atTop Filter.tendsto_id
  refine squeeze_zero' ?_ ?_ hz
  · filter_upwards [Filter.eventually_gt_atTop 0] with U hU
    rw [hf U hU]; exact residual_nonneg hQ hC hU
  · filter_upwards [Filter.eventually_gt_atTop 0] with U hU
    rw [hf U hU]; exact residual_le hQ hC hU

/-- **C24**, limit, both exchangers: the approach tends to zero as the conductance grows. -/
theorem C24_tends_to_zero (x : chx.FixedConductance ℝ) (s : chx.State ℝ)
    (y : hhx.FixedConductance ℝ) (s' : hhx.State ℝ) (hC : 0 < Spec.capacitance s.hxr)
    (hQ : 0 ≤ s.hxr.Q_dot) (hC' : 0 < Spec.capacitance s'.hxr) (hQ' : 0 ≤ s'.hxr.Q_dot) :
    Filter.Tendsto (fun U => ({ x with UA := U } : chx.FixedConductance ℝ).approach s)
      Filter.atTop (nhds 0) ∧
    Filter.Tendsto (fun U => ({ y with UA := U } : hhx.FixedConductance ℝ).approach s')
      Filter.atTop (nhds 0) :=
  ⟨tendsto_of_residual hQ hC fun _ hU => C23_chx_closed_form _ s hU hC,
   tendsto_of_residual hQ' hC' fun _ hU => C23_hhx_closed_form _ s' hU hC'⟩

example : ∃ s : chx.State ℝ, 0 < Spec.capacitance s.hxr ∧ 0 < s.hxr.Q_dot :=
  ⟨⟨⟨300, 1e6, 1, 5193, 0.01, 1000⟩, 290⟩, by simp only [Spec.capacitance]; norm_num, by norm_num⟩

/-! ## C26 -/

/-- **C26**, closed form. -/
theorem C26_closed_form (x : regen.FixedConductance ℝ) (s : regen.State ℝ) (hU : 0 < x.UA)
    (hC : 0 < Spec.capacitance s.hxr) :
    x.approach s = (s.temp_hhx - s.temp_chx) / (1 + x.UA / Spec.capacitance s.hxr / 2) := by
  have hp : 0 < x.UA / (s.hxr.cp * s.hxr.m_dot) := div_pos hU hC
  simp only [regen.FixedConductance.approach, Spec.capacitance]
  scalars
  generalize x.UA / (s.hxr.cp * s.hxr.m_dot) = N at *
  field_simp
  ring

/-- **C26**, bounds and monotonicity. -/
theorem C26_bounds (x x' : regen.FixedConductance ℝ) (s : regen.State ℝ) (hU : 0 < x.UA)
    (hC : 0 < Spec.capacitance s.hxr) (hT : s.temp_chx < s.temp_hhx) :
    0 < x.approach s ∧ x.approach s < s.temp_hhx - s.temp_chx ∧
      (x.UA < x'.UA → x'.approach s < x.approach s) := by
  have hp : 0 < x.UA / Spec.capacitance s.hxr := div_pos hU hC
  have hd : 0 < s.temp_hhx - s.temp_chx := by linarith
  rw [C26_closed_form x s hU hC]
  refine ⟨by positivity, ?_, fun h => ?_⟩
  · rw [div_lt_iff₀ (by positivity)]; nlinarith
  · rw [C26_closed_form x' s (hU.trans h) hC]
    apply div_lt_div_of_pos_left hd (by positivity)
    gcongr

/-- **C26**, ordering of the sides: with the balanced regenerator the engine uses, the cold side is
colder than the hot side exactly when `NTU > 2`. -/
theorem C26_cold_below_hot_iff (x : regen.FixedConductance ℝ) (s : regen.State ℝ) (hU : 0 < x.UA)
    (hC : 0 < Spec.capacitance s.hxr) (hT : s.temp_chx < s.temp_hhx) :
    let t := (⟨0⟩ : RegenImbalance ℝ).regen_temp s.temp_chx s.temp_hhx (x.approach s)
    t.cold < t.hot ↔ 2 < x.UA / Spec.capacitance s.hxr := by
  have hp : 0 < x.UA / Spec.capacitance s.hxr := div_pos hU hC
  simp only [RegenImbalance.regen_temp]
  scalars
  simp only [le_refl, if_true, add_zero]
  rw [C26_closed_form x s hU hC]
  have hd : 0 < s.temp_hhx - s.temp_chx := by linarith
  generalize x.UA / Spec.capacitance s.hxr = N at *
  have h2 : s.temp_chx + (s.temp_hhx - s.temp_chx) / (1 + N / 2)
      < s.temp_hhx - (s.temp_hhx - s.temp_chx) / (1 + N / 2) ↔
      2 * ((s.temp_hhx - s.temp_chx) / (1 + N / 2)) < s.temp_hhx - s.temp_chx := by
    constructor <;> intro h <;> linarith
  rw [h2, ← mul_div_assoc, div_lt_iff₀ (by positivity)]
  constructor <;> intro h <;> nlinarith

example : ∃ (x : regen.FixedConductance ℝ) (s : regen.State ℝ), 0 < x.UA ∧
    0 < Spec.capacitance s.hxr ∧ s.temp_chx < s.temp_hhx ∧ 2 < x.UA / Spec.capacitance s.hxr :=
  ⟨regen.FixedConductance.default, ⟨⟨500, 1e6, 1, 5000, 0.01, 0⟩, 300, 700⟩, by
    simp only [regen.FixedConductance.default]; norm_num, by simp only [Spec.capacitance]; norm_num,
    by norm_num, by simp only [Spec.capacitance, regen.FixedConductance.default]; norm_num⟩

end Sett
