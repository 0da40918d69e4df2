import Verif.Props.SettleConfig
import Verif.Props.Breathing

/-! # C103 for configuration files: short strokes always work -/

namespace Sett

open Spec dopri5 state_equations

/-! ## The rhombic drive with a small crank -/

/-- Square roots of `L² - u²` while `u` stays within `m < L`. -/
theorem rod_bounds {L m u v : ℝ} (hL : m < L) (hu : |u| ≤ m) (hv : |v| ≤ m) :
    let β := Real.sqrt (L ^ 2 - m ^ 2)
    0 < β ∧ β ≤ Real.sqrt (L ^ 2 - u ^ 2) ∧ Real.sqrt (L ^ 2 - u ^ 2) ≤ L ∧
    |Real.sqrt (L ^ 2 - u ^ 2) - Real.sqrt (L ^ 2 - v ^ 2)| ≤ m / β * |u - v| ∧
    |u / Real.sqrt (L ^ 2 - u ^ 2)| ≤ m / β ∧
    |u / Real.sqrt (L ^ 2 - u ^ 2) - v / Real.sqrt (L ^ 2 - v ^ 2)| ≤ (1 / β + m / β * (m / β) / β) * |u - v| := by
  intro β
  have hm : 0 ≤ m := (abs_nonneg u).trans hu
  have hβ2 : 0 < L ^ 2 - m ^ 2 := by nlinarith
  have hβ : 0 < β := Real.sqrt_pos.2 hβ2
  have low : ∀ x, |x| ≤ m → β ≤ Real.sqrt (L ^ 2 - x ^ 2) := fun x hx =>
    Real.sqrt_le_sqrt (by have := sq_le_sq' (by linarith [neg_abs_le x]) ((le_abs_self x).trans hx); linarith)
  have sq : ∀ x, |x| ≤ m → Real.sqrt (L ^ 2 - x ^ 2) ^ 2 = L ^ 2 - x ^ 2 := fun x hx =>
    Real.sq_sqrt (by have := sq_le_sq' (by linarith [neg_abs_le x]) ((le_abs_self x).trans hx); linarith)
  have l1 := low u hu; have l2 := low v hv
  have q1 := sq u hu; have q2 := sq v hv
  set a := Real.sqrt (L ^ 2 - u ^ 2) with ha
  set b := Real.sqrt (L ^ 2 - v ^ 2) with hb
  have a0 : 0 < a := hβ.trans_le l1
  have b0 : 0 < b := hβ.trans_le l2
  have hroot : |a - b| ≤ m / β * |u - v| := by
    have e : (a - b) * (a + b) = -((u - v) * (u + v)) := by linear_combination q1 - q2
    have e' : |a - b| * (a + b) = |u - v| * |u + v| := by
      rw [← abs_of_pos (add_pos a0 b0), ← abs_mul, e, abs_neg, abs_mul]
    have h1 : |u + v| ≤ 2 * m := (abs_add_le u v).trans (by linarith)
    have h2 : |a - b| * (2 * β) ≤ |u - v| * (2 * m) := by
      calc |a - b| * (2 * β) ≤ |a - b| * (a + b) := mul_le_mul_of_nonneg_left (by linarith) (abs_nonneg _)
        _ = |u - v| * |u + v| := e'
        _ ≤ _ := mul_le_mul_of_nonneg_left h1 (abs_nonneg _)
    rw [div_mul_eq_mul_div, le_div_iff₀ hβ]
    linarith
  refine ⟨hβ, l1, ?_, hroot, ?_, ?_⟩
  · rw [ha]
    exact (Real.sqrt_le_sqrt (by nlinarith [sq_nonneg u])).trans (Real.sqrt_sq (hm.trans hL.le)).le
  · rw [abs_div, abs_of_pos a0]
    exact div_le_div₀ hm hu hβ l1
  · have e : u / a - v / b = (u - v) / a + v / b * ((b - a) / a) := by field_simp; ring
    rw [e]
    refine (abs_add_le _ _).trans ?_
    rw [abs_mul, abs_div, abs_div, abs_div, abs_of_pos a0, abs_of_pos b0, abs_sub_comm b a, add_mul]
    refine add_le_add ?_ ?_
    · rw [one_div, inv_mul_eq_div]
      exact div_le_div_of_nonneg_left (abs_nonneg _) hβ l1
    · calc |v| / b * (|a - b| / a) ≤ m / β * (m / β * |u - v| / β) :=
            mul_le_mul (div_le_div₀ hm hv hβ l2) (div_le_div₀ (by positivity) hroot hβ l1) (by positivity) (by positivity)
        _ = _ := by ring

/-- A rhombic drive with a small crank: volumes and their rates in terms of the crank. -/
structure SmallCrank (d : ws.RhombicDrive ℝ) (V W N : ℝ) : Prop where
  comp_low : ∀ t, d.V_clearance_c - N * d.geometry.r_crank ≤ (d.volumes t).1.value
  comp_high : ∀ t, (d.volumes t).1.value ≤ V
  exp_low : ∀ t, d.V_clearance_e ≤ (d.volumes t).2.value
  exp_high : ∀ t, (d.volumes t).2.value ≤ W
  comp_rate : ∀ t, |(d.volumes t).1.deriv| ≤ N * d.geometry.r_crank
  exp_rate : ∀ t, |(d.volumes t).2.deriv| ≤ N * d.geometry.r_crank
  steady : ∀ t t', |(d.volumes t).1.value - (d.volumes t').1.value| + |(d.volumes t).2.value - (d.volumes t').2.value|
    + |(d.volumes t).1.deriv - (d.volumes t').1.deriv| + |(d.volumes t).2.deriv - (d.volumes t').2.deriv|
    ≤ N * d.geometry.r_crank * |t - t'|

set_option maxHeartbeats 1000000 in
theorem small_crank {f e r0 l Dp Dd Vc Ve : ℝ} (he : 0 ≤ e) (hr0 : 0 ≤ r0) (hl : e + r0 < l) (hD : Dp ≠ 0) (hf : 0 < f) :
    ∃ V W N : ℝ, 0 < N ∧ ∀ d : ws.RhombicDrive ℝ, d.frequency = f → d.geometry.eccentricity = e → d.geometry.L_conn = l →
      d.geometry.D_p = Dp → d.geometry.D_d = Dd → d.V_clearance_c = Vc → d.V_clearance_e = Ve → 0 ≤ d.geometry.r_crank →
      d.geometry.r_crank ≤ r0 → SmallCrank d V W N := by
  have hl0 : 0 < l := by linarith
  set m := e + r0 with hm
  set β := Real.sqrt (l ^ 2 - m ^ 2) with hβ'
  have hm0 : 0 ≤ m := by positivity
  have hβ : 0 < β := (rod_bounds hl (u := 0) (v := 0) (by simpa using hm0) (by simpa using hm0)).1
  set M := m / β with hM
  have hM0 : 0 ≤ M := by positivity
  set κ := 1 / β + m / β * (m / β) / β with hκ
  have hκ0 : 0 ≤ κ := by positivity
  set o := 2 * Real.pi * f with ho
  have ho0 : 0 < o := by have := Real.pi_pos; positivity
  set Ap := Real.pi * Dp ^ 2 / 4 with hAp
  set Ad := Real.pi * Dd ^ 2 / 4 with hAd
  have hAp0 : 0 < Ap := by have := Real.pi_pos; positivity
  have hAd0 : 0 ≤ Ad := by have := Real.pi_pos; positivity
  set G := 2 * Ap + Ad with hG
  have hG0 : 0 < G := by linarith
  set B := M + κ * r0 + 1 with hB
  have hκr : 0 ≤ κ * r0 := by positivity
  have hB0 : 0 < B := by linarith
  refine ⟨Vc + 2 * Ap * l, Ve + Ad * (l + r0), (2 + o + o ^ 2) * G * B, by positivity, ?_⟩
  intro d d1 d2 d3 d4 d5 d6 d7 hr hr'
  have hv := ws.rhombic_volumes d
  simp only [d1, d2, d3, d4, d5, d6, d7] at hv
  rw [← ho, ← hAp, ← hAd] at hv
  have hfe : ws.Feasible d.geometry := ⟨by rw [d2]; exact he, hr, by rw [d2, d3]; linarith⟩
  have hge := ws.C14_rhombic_expansion_ge d hfe
  rw [d7] at hge
  set r := d.geometry.r_crank with hr''
  have hu : ∀ x, |e + r * Real.cos x| ≤ m := by
    intro x
    refine (abs_add_le _ _).trans ?_
    rw [abs_of_nonneg he, abs_mul, abs_of_nonneg hr]
    have := mul_le_mul_of_nonneg_left (Real.abs_cos_le_one x) hr
    linarith
  have hu1 : |e - r| ≤ m := by
    rw [abs_le]; constructor <;> linarith
  have hsin : ∀ t t' : ℝ, |Real.sin (o * t) - Real.sin (o * t')| ≤ o * |t - t'| := by
    intro t t'
    refine (Real.abs_sin_sub_sin_le _ _).trans ?_
    rw [← mul_sub, abs_mul, abs_of_pos ho0]
  have hcos : ∀ t t' : ℝ, |Real.cos (o * t) - Real.cos (o * t')| ≤ o * |t - t'| := by
    intro t t'
    refine (Real.abs_cos_sub_cos_le _ _).trans ?_
    rw [← mul_sub, abs_mul, abs_of_pos ho0]
  have huu : ∀ t t' : ℝ, |(e + r * Real.cos (o * t)) - (e + r * Real.cos (o * t'))| ≤ r * (o * |t - t'|) := by
    intro t t'
    rw [show (e + r * Real.cos (o * t)) - (e + r * Real.cos (o * t')) = r * (Real.cos (o * t) - Real.cos (o * t')) by ring,
      abs_mul, abs_of_nonneg hr]
    exact mul_le_mul_of_nonneg_left (hcos t t') hr
  set b : ℝ → ℝ := fun t => Real.sqrt (l ^ 2 - (e + r * Real.cos (o * t)) ^ 2) with hb
  set p : ℝ → ℝ := fun t => Real.sin (o * t) * ((e + r * Real.cos (o * t)) / b t) with hp
  have hbb : ∀ t t', |b t - b t'| ≤ M * (r * (o * |t - t'|)) := fun t t' =>
    (rod_bounds hl (hu (o * t)) (hu (o * t'))).2.2.2.1.trans (mul_le_mul_of_nonneg_left (huu t t') hM0)
  have hp1 : ∀ t, |p t| ≤ M := by
    intro t
    rw [hp, abs_mul]
    have h2 := (rod_bounds hl (hu (o * t)) (hu (o * t))).2.2.2.2.1
    calc _ ≤ 1 * M := mul_le_mul (Real.abs_sin_le_one _) h2 (abs_nonneg _) zero_le_one
      _ = M := one_mul M
  have hpp : ∀ t t', |p t - p t'| ≤ (M + κ * r) * (o * |t - t'|) := by
    intro t t'
    have h2 := (rod_bounds hl (hu (o * t)) (hu (o * t'))).2.2.2.2.1
    have h3 := (rod_bounds hl (hu (o * t)) (hu (o * t'))).2.2.2.2.2
    have e1 : p t - p t' = (Real.sin (o * t) - Real.sin (o * t')) * ((e + r * Real.cos (o * t)) / b t)
        + Real.sin (o * t') * ((e + r * Real.cos (o * t)) / b t - (e + r * Real.cos (o * t')) / b t') := by
      simp only [hp]; ring
    rw [e1]
    refine (abs_add_le _ _).trans ?_
    rw [abs_mul, abs_mul, add_mul]
    refine add_le_add ?_ ?_
    · rw [mul_comm M]
      exact mul_le_mul (hsin t t') h2 (abs_nonneg _) (by positivity)
    · calc _ ≤ 1 * (κ * (r * (o * |t - t'|))) :=
            mul_le_mul (Real.abs_sin_le_one _) (h3.trans (mul_le_mul_of_nonneg_left (huu t t') hκ0)) (abs_nonneg _) zero_le_one
        _ = _ := by ring
  have v1 : ∀ t, (d.volumes t).1.value = Vc + 2 * Ap * (Real.sqrt (l ^ 2 - (e - r) ^ 2) - b t) := fun t => (hv t).1
  have v2 : ∀ t, (d.volumes t).2.value = Ve + Ad * (b t - Real.sqrt ((l - r) ^ 2 - e ^ 2) - r * Real.sin (o * t)) :=
    fun t => (hv t).2.2.1
  have v3 : ∀ t, (d.volumes t).1.deriv = -(2 * Ap * r * o * p t) := by
    intro t; rw [(hv t).2.1]; simp only [hp]; ring
  have v4 : ∀ t, (d.volumes t).2.deriv = Ad * r * o * (p t - Real.cos (o * t)) := by
    intro t
    rw [(hv t).2.2.2]
    simp only [hp]
    have : b t ≠ 0 := (hβ.trans_le (rod_bounds hl (hu (o * t)) (hu (o * t))).2.1).ne'
    simp only [hb] at this ⊢
    field_simp
  have hκ2 : κ * r ≤ κ * r0 := mul_le_mul_of_nonneg_left hr' hκ0
  have mono : ∀ {x y : ℝ}, x ≤ y → ∀ z, 0 ≤ z → z * x ≤ z * y := fun h z hz => mul_le_mul_of_nonneg_left h hz
  have big : ∀ {x c g : ℝ}, 0 ≤ g → g ≤ G → 0 ≤ c → c ≤ B → 0 ≤ x → g * c * x ≤ G * B * x := by
    intro x c g h1 h2 h3 h4 h5
    exact mul_le_mul_of_nonneg_right (mul_le_mul h2 h4 h3 hG0.le) h5
  refine ⟨fun t => ?_, fun t => ?_, ?_, fun t => ?_, fun t => ?_, fun t => ?_, fun t t' => ?_⟩
  · have h1 : |Real.sqrt (l ^ 2 - (e - r) ^ 2) - b t| ≤ M * |(e - r) - (e + r * Real.cos (o * t))| :=
      (rod_bounds hl hu1 (hu (o * t))).2.2.2.1
    have h2 : |(e - r) - (e + r * Real.cos (o * t))| ≤ 2 * r := by
      rw [show (e - r) - (e + r * Real.cos (o * t)) = -(r * (1 + Real.cos (o * t))) by ring, abs_neg, abs_mul, abs_of_nonneg hr,
        abs_of_nonneg (by linarith [Real.neg_one_le_cos (o * t)]), mul_comm]
      exact mul_le_mul_of_nonneg_right (by linarith [Real.cos_le_one (o * t)]) hr
    have h3 := (abs_le.1 (h1.trans (mul_le_mul_of_nonneg_left h2 hM0))).1
    have h4 := mono h3 (2 * Ap) (by positivity)
    have h5 : 2 * Ap * M * (2 * r) ≤ G * B * (2 * r) := big (by positivity) (by linarith) hM0 (by linarith) (by positivity)
    have h6 : 0 ≤ (o + o ^ 2) * G * B * r := by positivity
    rw [v1, d6]
    linarith
  · have h1 := (rod_bounds hl hu1 hu1).2.2.1
    have h2 : 0 ≤ b t := Real.sqrt_nonneg _
    have h3 := mono (show Real.sqrt (l ^ 2 - (e - r) ^ 2) - b t ≤ l by linarith) (2 * Ap) (by positivity)
    rw [v1]; linarith
  · rw [d7]; exact hge
  · have h1 : b t ≤ l := (rod_bounds hl (hu (o * t)) (hu (o * t))).2.2.1
    have h2 := Real.sqrt_nonneg ((l - r) ^ 2 - e ^ 2)
    have h3 := mul_le_mul_of_nonneg_left (Real.neg_one_le_sin (o * t)) hr
    have h4 := mono (show b t - Real.sqrt ((l - r) ^ 2 - e ^ 2) - r * Real.sin (o * t) ≤ l + r0 by linarith) Ad hAd0
    rw [v2]; linarith
  · rw [v3, abs_neg, abs_mul, abs_of_nonneg (by positivity)]
    have h1 := mono (hp1 t) (2 * Ap * r * o) (by positivity)
    have h2 : 2 * Ap * M * (r * o) ≤ G * B * (r * o) := big (by positivity) (by linarith) hM0 (by linarith) (by positivity)
    have h3 : 0 ≤ (2 + o ^ 2) * G * B * r := by positivity
    linarith
  · rw [v4, abs_mul, abs_of_nonneg (by positivity)]
    have h0 : |p t - Real.cos (o * t)| ≤ M + 1 :=
      (abs_sub _ _).trans (add_le_add (hp1 t) (Real.abs_cos_le_one _))
    have h1 := mono h0 (Ad * r * o) (by positivity)
    have h2 : Ad * (M + 1) * (r * o) ≤ G * B * (r * o) := big hAd0 (by linarith) (by positivity) (by linarith) (by positivity)
    have h3 : 0 ≤ (2 + o ^ 2) * G * B * r := by positivity
    linarith
  · set τ := |t - t'| with hτ
    have hτ0 : 0 ≤ τ := abs_nonneg _
    rw [v1, v1, v2, v2, v3, v3, v4, v4]
    have s1 : |Vc + 2 * Ap * (Real.sqrt (l ^ 2 - (e - r) ^ 2) - b t) - (Vc + 2 * Ap * (Real.sqrt (l ^ 2 - (e - r) ^ 2) - b t'))|
        ≤ 2 * Ap * (M * (r * (o * τ))) := by
      rw [show Vc + 2 * Ap * (Real.sqrt (l ^ 2 - (e - r) ^ 2) - b t) - (Vc + 2 * Ap * (Real.sqrt (l ^ 2 - (e - r) ^ 2) - b t'))
        = -(2 * Ap * (b t - b t')) by ring, abs_neg, abs_mul, abs_of_nonneg (by positivity)]
      exact mono (hbb t t') _ (by positivity)
    have s2 : |Ve + Ad * (b t - Real.sqrt ((l - r) ^ 2 - e ^ 2) - r * Real.sin (o * t))
        - (Ve + Ad * (b t' - Real.sqrt ((l - r) ^ 2 - e ^ 2) - r * Real.sin (o * t')))|
        ≤ Ad * (M * (r * (o * τ)) + r * (o * τ)) := by
      rw [show Ve + Ad * (b t - Real.sqrt ((l - r) ^ 2 - e ^ 2) - r * Real.sin (o * t))
        - (Ve + Ad * (b t' - Real.sqrt ((l - r) ^ 2 - e ^ 2) - r * Real.sin (o * t')))
        = Ad * ((b t - b t') - r * (Real.sin (o * t) - Real.sin (o * t'))) by ring, abs_mul, abs_of_nonneg hAd0]
      refine mono ((abs_sub _ _).trans (add_le_add (hbb t t') ?_)) _ hAd0
      rw [abs_mul, abs_of_nonneg hr]
      exact mono (hsin t t') _ hr
    have s3 : |-(2 * Ap * r * o * p t) - -(2 * Ap * r * o * p t')| ≤ 2 * Ap * r * o * ((M + κ * r) * (o * τ)) := by
      rw [show -(2 * Ap * r * o * p t) - -(2 * Ap * r * o * p t') = -(2 * Ap * r * o * (p t - p t')) by ring, abs_neg, abs_mul,
        abs_of_nonneg (by positivity)]
      exact mono (hpp t t') _ (by positivity)
    have s4 : |Ad * r * o * (p t - Real.cos (o * t)) - Ad * r * o * (p t' - Real.cos (o * t'))|
        ≤ Ad * r * o * ((M + κ * r) * (o * τ) + o * τ) := by
      rw [show Ad * r * o * (p t - Real.cos (o * t)) - Ad * r * o * (p t' - Real.cos (o * t'))
        = Ad * r * o * ((p t - p t') - (Real.cos (o * t) - Real.cos (o * t'))) by ring, abs_mul, abs_of_nonneg (by positivity)]
      exact mono ((abs_sub _ _).trans (add_le_add (hpp t t') (hcos t t'))) _ (by positivity)
    have b1 : 2 * Ap * (M * (r * (o * τ))) + Ad * (M * (r * (o * τ)) + r * (o * τ)) ≤ G * B * (r * (o * τ)) := by
      have h1 : 2 * Ap * M * (r * (o * τ)) ≤ 2 * Ap * B * (r * (o * τ)) :=
        mul_le_mul_of_nonneg_right (mono (by linarith) _ (by positivity)) (by positivity)
      have h2 : Ad * (M + 1) * (r * (o * τ)) ≤ Ad * B * (r * (o * τ)) :=
        mul_le_mul_of_nonneg_right (mono (by linarith) _ hAd0) (by positivity)
      simp only [hG]
      linarith
    have b2 : 2 * Ap * r * o * ((M + κ * r) * (o * τ)) + Ad * r * o * ((M + κ * r) * (o * τ) + o * τ)
        ≤ G * B * (r * (o * (o * τ))) := by
      have h1 : 2 * Ap * (M + κ * r) * (r * (o * (o * τ))) ≤ 2 * Ap * B * (r * (o * (o * τ))) :=
        mul_le_mul_of_nonneg_right (mono (by linarith) _ (by positivity)) (by positivity)
      have h2 : Ad * (M + κ * r + 1) * (r * (o * (o * τ))) ≤ Ad * B * (r * (o * (o * τ))) :=
        mul_le_mul_of_nonneg_right (mono (by linarith) _ hAd0) (by positivity)
      simp only [hG]
      linarith
    have b3 : 0 ≤ 2 * G * B * r * τ := by positivity
    linarith

theorem SmallCrank.mono {d : ws.RhombicDrive ℝ} {V W N V' W' N' : ℝ} (h : SmallCrank d V W N) (hr : 0 ≤ d.geometry.r_crank)
    (hV : V ≤ V') (hW : W ≤ W') (hN : N ≤ N') : SmallCrank d V' W' N' := by
  have := mul_le_mul_of_nonneg_right hN hr
  refine ⟨fun t => by linarith [h.comp_low t], fun t => (h.comp_high t).trans hV, h.exp_low, fun t => (h.exp_high t).trans hW,
    fun t => (h.comp_rate t).trans this, fun t => (h.exp_rate t).trans this, fun t t' => (h.steady t t').trans ?_⟩
  exact mul_le_mul_of_nonneg_right this (abs_nonneg _)

/-! ## Drives at time zero -/

theorem not_still {U : MatrixDecomposition ℝ} (hU : Sound U) {x : Components ℝ} {n : GasName} {inputs : RunInputs ℝ}
    {settings : RunSettings ℝ} (hc : Turning x settings.resolution) (hstand : ∀ q, (x.ws.volumes q 0).1.deriv = 0)
    (hmove : ∀ q, (x.ws.volumes q 0).2.deriv ≠ 0)
    (hq : ∀ q, (x.ws.parasitics q).comp.thermal = 0 ∧ (x.ws.parasitics q).exp.thermal = 0) {outs : Nat} {env : Env ℝ}
    (ho : env.ode = dopri5.solve outs) :
    ¬StandsStill env U x settings (State.new_hint x (IdealGas.new n).toFluid inputs) := by
  rintro ⟨k, s, vs, m, -, hvis, hin, ⟨hsane, hwarm⟩, hm, hz⟩
  obtain ⟨i1, -⟩ := visited_invariant _ _ _ _ _ _ hvis
  obtain ⟨h1, h2, h3⟩ := C103_never_still outs env ho U hU x settings hc s n i1 hsane (hstand _) (hmove _) (hq _).1 (hq _).2 vs
    hin (fun v hv => hwarm v (List.mem_of_mem_head? hv)) m hm
  rcases hz with h | h | h
  · exact h1.ne' h
  · exact h2.ne' h
  · exact h3.ne' h

theorem turning_of {x : Components ℝ} {f : ℝ} {N : UInt32} (h : ∀ q, x.ws.frequency q = f) (hf : 0 < f) (hn : 2 ≤ N.toNat)
    (hres : ((N.toNat : ℝ) - 1) * 1e-14 < 1 / f) : Turning x N :=
  ⟨fun q => by rw [h]; exact hf, hn, fun q => by rw [h]; rwa [lt_div_iff₀ hf] at hres⟩

/-! ## Configurations -/

/-- **C103**, sinusoidal drives.  Take a configuration as in C101, with the expansion piston not in phase with the
compression piston nor opposite to it.  There is a swept volume up to which `run_engine` succeeds on the same configuration
with any two smaller ones, as long as that of the expansion space is not zero; there is no exception. -/
theorem C103_sinusoidal (c : Config ℝ) (p : ws.SinusoidalDrive.Config ℝ) (hfl : gasModel c.engine.fluid = .IdealGas)
    (hp : c.engine.components.ws = .Sinusoidal p) (hk : ChxConducts c.engine.components.chx)
    (hr : RegenConducts c.engine.components.regen) (hl : HhxConducts c.engine.components.hhx)
    (hfirst : WarmApproach (inputsOf c) ⟨(chxApproach c.engine.components.chx).1,
      (regenApproaches c.engine.components.regen).1, (hhxApproach c.engine.components.hhx).1⟩)
    (hrest : WarmApproach (inputsOf c) ⟨(chxApproach c.engine.components.chx).2,
      (regenApproaches c.engine.components.regen).2, (hhxApproach c.engine.components.hhx).2⟩)
    (hnorm : (IdealGas.new (gas c.engine.fluid) : IdealGas ℝ).enth c.conditions.temp_sink c.conditions.pres_zero
      + (IdealGas.new (gas c.engine.fluid) : IdealGas ℝ).enth c.conditions.temp_source c.conditions.pres_zero ≠ 0)
    (hvc : 0 < p.V_clearance_c) (hve : 0 < p.V_clearance_e) (hQ : p.Q_parasitic_e = 0) (hP : 0 < c.conditions.pres_zero)
    (hphase : Real.sin (p.phase_angle * Real.pi / 180) ≠ 0)
    (hf : 1.01e-6 ≤ p.frequency) (hf' : p.frequency ≤ 1e10) (hn : 2 ≤ c.solver.ode.num_timesteps.toNat)
    (hres : ((c.solver.ode.num_timesteps.toNat : ℝ) - 1) * 1e-14 < 1 / p.frequency)
    (hrel : 0 ≤ c.solver.ode.tolerance.rel) (habs : 0 < c.solver.ode.tolerance.abs)
    (hia : 0 < c.solver.inner_loop.tolerance.abs) (hir : 0 < c.solver.inner_loop.tolerance.rel)
    (him : 1 ≤ c.solver.inner_loop.max_iterations.toNat) (hoa : 0 < c.solver.outer_loop.tolerance.abs)
    (hor : 0 < c.solver.outer_loop.tolerance.rel) (hom : 2 ≤ c.solver.outer_loop.max_iterations.toNat) :
    ∃ v, 0 < v ∧ ∀ a b, 0 ≤ a → a ≤ v → 0 < b → b ≤ v → ∀ (outs : Nat) (env : Env ℝ), env.ode = dopri5.solve outs →
      c.solver.ode.num_timesteps.toNat + 2 ≤ outs → ∃ res, run_engine env lu.LU (withStroke c p a b) = .ok res := by
  obtain ⟨v, hv, h⟩ := C101_run_engine c p hfl hp hk hr hl hfirst hrest hnorm hvc hve hQ hP hf hf' hn hres hrel habs hia hir
    him hoa hor hom
  refine ⟨v, hv, fun a b ha ha' hb hb' outs env hode hout => ?_⟩
  rcases h a b ha ha' hb.le hb' outs env hode hout with h | ⟨x, g, hx, hstill⟩
  · exact h
  · exfalso
    have hf0 : 0 < p.frequency := lt_of_lt_of_le (by norm_num) hf
    have hg := hx.fluid
    have hws : BuildsWs (.Sinusoidal { p with V_swept_c := a, V_swept_e := b }) x.ws := hx.ws
    obtain ⟨xw, xk, xr, xl⟩ := x
    simp only at hws
    cases hws with
    | sinusoidal _ _ f1 f2 f3 f4 =>
    have vol : ∀ q, (xw.volumes q 0).1.deriv = 0 ∧ (xw.volumes q 0).2.deriv
        = -(0.5 * b * (2 * Real.pi * p.frequency) * Real.sin (p.phase_angle * Real.pi / 180)) := by
      intro q
      rw [f2]
      simp only [ws.SinusoidalDrive.volumes]
      scalars
      simp only [mul_zero, zero_add, Real.sin_zero, zero_mul, true_and]
      ring
    rw [hg] at hstill
    refine not_still C69_sound (turning_of f1 hf0 hn hres) (fun q => (vol q).1) (fun q => ?_) (fun q => ?_) hode hstill
    · rw [(vol q).2, neg_ne_zero]
      exact mul_ne_zero (by have := Real.pi_pos; positivity) hphase
    · simp only [f4]
      exact ⟨lit_0, hQ⟩

/-- A configuration with another crank radius. -/
def Spec.withCrank (c : Config ℝ) (p : ws.RhombicDrive.Config ℝ) (r : ℝ) : Config ℝ :=
  { c with engine := { c.engine with components :=
    { c.engine.components with ws := .Rhombic { p with r_crank := r } } } }

theorem redriven_of_crank {c : Config ℝ} {p : ws.RhombicDrive.Config ℝ} (hp : c.engine.components.ws = .Rhombic p)
    {r : ℝ} {x x' : Components ℝ} {g g' : IdealGas ℝ} (hx : Asked c x g) (hx' : Asked (withCrank c p r) x' g') :
    Redriven x x' ∧ (∀ q, x'.ws.frequency q = p.frequency) ∧ (∀ q, (x'.ws.parasitics q).comp.thermal = 0) ∧
      (∀ q, (x'.ws.parasitics q).exp.thermal = p.Q_parasitic_e) ∧
      ∃ d : ws.RhombicDrive ℝ, d.frequency = p.frequency ∧ d.geometry.eccentricity = p.eccentricity ∧
        d.geometry.L_conn = p.L_conn ∧ d.geometry.D_p = p.D_p ∧ (d.geometry.D_d = p.D_p ∨ d.geometry.D_d = p.D_d) ∧
        d.V_clearance_c = p.V_clearance_c ∧ d.V_clearance_e = p.V_clearance_e ∧ d.geometry.r_crank = r ∧
        ∀ q, x'.ws.volumes q = d.volumes := by
  obtain ⟨a1, a2, a3, a4, -⟩ := hx
  obtain ⟨b1, b2, b3, b4, -⟩ := hx'
  replace b2 : BuildsChx c.engine.components.chx x'.chx := b2
  replace b3 : BuildsRegen c.engine.components.regen x'.regen := b3
  replace b4 : BuildsHhx c.engine.components.hhx x'.hhx := b4
  replace b1 : BuildsWs (.Rhombic { p with r_crank := r }) x'.ws := b1
  rw [hp] at a1
  obtain ⟨xw, xk, xr, xl⟩ := x
  obtain ⟨yw, yk, yr, yl⟩ := x'
  simp only at a1 a2 a3 a4 b1 b2 b3 b4 ⊢
  generalize c.engine.components.chx = ck at *
  generalize c.engine.components.regen = cr at *
  generalize c.engine.components.hhx = cl at *
  cases a1 with
  | rhombic _ _ f1 f2 f3 f4 =>
  cases b1 with
  | rhombic _ _ g1 g2 g3 g4 =>
  have k : yk.volume = xk.volume ∧ (∀ s, yk.approach s = xk.approach s) ∧ yk.initial_approach = xk.initial_approach := by
    cases a2 <;> cases b2 <;> simp_all
  have r : yr.volume = xr.volume ∧ (∀ s, yr.approach s = xr.approach s) ∧ yr.initial_approach = xr.initial_approach := by
    cases a3 <;> cases b3 <;> simp_all
  have l : yl.volume = xl.volume ∧ (∀ s, yl.approach s = xl.approach s) ∧ yl.initial_approach = xl.initial_approach := by
    cases a4 <;> cases b4 <;> simp_all
  obtain ⟨D, hD, g2⟩ := g2
  have vol : ∀ q, yw.volumes q = (⟨p.frequency, ⟨p.eccentricity, _, p.D_p, D, p.L_conn⟩, ⟨⟨0, 0, 0⟩, ⟨0, 0, 0⟩⟩, p.R_c, p.R_e,
      p.V_clearance_c, p.V_clearance_e⟩ : ws.RhombicDrive ℝ).volumes := fun q => funext fun t => g2 q t
  refine ⟨⟨k.1, k.2.1, k.2.2, r.1, r.2.1, r.2.2, l.1, l.2.1, l.2.2, fun q q' => by rw [g4, f4], fun q q' => by rw [g3, f3],
    fun q q' => by rw [g1, g1], fun q q' => by rw [vol, vol]⟩, g1, fun s => by rw [g4]; exact lit_0, fun s => by rw [g4],
    ⟨_, rfl, rfl, rfl, rfl, hD, rfl, rfl, rfl, vol⟩⟩

/-- **C103**, rhombic drives.  Take a configuration as in C101, with a rhombic drive of connecting rods longer than the
eccentricity and of a piston and a displacer that are not points.  There is a crank radius up to which `run_engine` succeeds
on the same configuration with any smaller one but zero. -/
theorem C103_rhombic (c : Config ℝ) (p : ws.RhombicDrive.Config ℝ) (hfl : gasModel c.engine.fluid = .IdealGas)
    (hp : c.engine.components.ws = .Rhombic p) (hk : ChxConducts c.engine.components.chx)
    (hr : RegenConducts c.engine.components.regen) (hl : HhxConducts c.engine.components.hhx)
    (hfirst : WarmApproach (inputsOf c) ⟨(chxApproach c.engine.components.chx).1,
      (regenApproaches c.engine.components.regen).1, (hhxApproach c.engine.components.hhx).1⟩)
    (hrest : WarmApproach (inputsOf c) ⟨(chxApproach c.engine.components.chx).2,
      (regenApproaches c.engine.components.regen).2, (hhxApproach c.engine.components.hhx).2⟩)
    (hnorm : (IdealGas.new (gas c.engine.fluid) : IdealGas ℝ).enth c.conditions.temp_sink c.conditions.pres_zero
      + (IdealGas.new (gas c.engine.fluid) : IdealGas ℝ).enth c.conditions.temp_source c.conditions.pres_zero ≠ 0)
    (hvc : 0 < p.V_clearance_c) (hve : 0 < p.V_clearance_e) (hQ : p.Q_parasitic_e = 0) (hP : 0 < c.conditions.pres_zero)
    (hecc : 0 ≤ p.eccentricity) (hrod : p.eccentricity < p.L_conn) (hDp : p.D_p ≠ 0) (hDd : p.D_d ≠ 0)
    (hf : 1.01e-6 ≤ p.frequency) (hf' : p.frequency ≤ 1e10) (hn : 2 ≤ c.solver.ode.num_timesteps.toNat)
    (hres : ((c.solver.ode.num_timesteps.toNat : ℝ) - 1) * 1e-14 < 1 / p.frequency)
    (hrel : 0 ≤ c.solver.ode.tolerance.rel) (habs : 0 < c.solver.ode.tolerance.abs)
    (hia : 0 < c.solver.inner_loop.tolerance.abs) (hir : 0 < c.solver.inner_loop.tolerance.rel)
    (him : 1 ≤ c.solver.inner_loop.max_iterations.toNat) (hoa : 0 < c.solver.outer_loop.tolerance.abs)
    (hor : 0 < c.solver.outer_loop.tolerance.rel) (hom : 2 ≤ c.solver.outer_loop.max_iterations.toNat) :
    ∃ v, 0 < v ∧ ∀ r, 0 < r → r ≤ v → ∀ (outs : Nat) (env : Env ℝ), env.ode = dopri5.solve outs →
      c.solver.ode.num_timesteps.toNat + 2 ≤ outs → ∃ res, run_engine env lu.LU (withCrank c p r) = .ok res := by
  have hsup : ∀ r, Supported (withCrank c p r) := by
    intro r
    refine ⟨hfl, ?_, ?_, ?_, ?_⟩
    · simp [withCrank]
    · show (∀ p, c.engine.components.chx ≠ _) ∧ ∀ p, c.engine.components.chx ≠ _
      generalize c.engine.components.chx = y at hk
      cases hk <;> simp
    · show (∀ p, c.engine.components.regen ≠ _) ∧ ∀ p, c.engine.components.regen ≠ _
      generalize c.engine.components.regen = y at hr
      cases hr <;> simp
    · show (∀ p, c.engine.components.hhx ≠ _) ∧ (∀ p, c.engine.components.hhx ≠ _) ∧ (∀ p, c.engine.components.hhx ≠ _) ∧
        ∀ p, c.engine.components.hhx ≠ _
      generalize c.engine.components.hhx = y at hl
      cases hl <;> simp
  have hf0 : 0 < p.frequency := lt_of_lt_of_le (by norm_num) hf
  obtain ⟨x, g, hx, -⟩ := C50_ok_iff (⟨dopri5.solve 0, .checked⟩ : Env ℝ) lu.LU (withCrank c p p.r_crank) (hsup _)
  have hx0 : Asked c x g := ⟨by rw [hp]; exact hx.ws, hx.chx, hx.regen, hx.hhx, hx.fluid⟩
  obtain ⟨-, -, par1, par2, -⟩ := redriven_of_crank hp hx0 hx
  set r0 := (p.L_conn - p.eccentricity) / 2 with hr0
  have hr0' : 0 < r0 := by rw [hr0]; linarith
  obtain ⟨V1, W1, N1, n1, s1⟩ := small_crank (Dd := p.D_p) (Vc := p.V_clearance_c) (Ve := p.V_clearance_e) hecc hr0'.le
    (show p.eccentricity + r0 < p.L_conn by rw [hr0]; linarith) hDp hf0
  obtain ⟨V2, W2, N2, n2, s2⟩ := small_crank (Dd := p.D_d) (Vc := p.V_clearance_c) (Ve := p.V_clearance_e) hecc hr0'.le
    (show p.eccentricity + r0 < p.L_conn by rw [hr0]; linarith) hDp hf0
  set Vmax := max (max V1 W1) (max V2 W2) with hVmax
  obtain ⟨L, w, hL1, hL2, hw, hrun⟩ := settles_of_config hx0 hk hr hl hfirst hrest hnorm
    (fun q => ⟨par1 q, (par2 q).trans hQ⟩) hP hf hf' hn hres hrel habs hia hir him hoa hor hom
    (Vmin := min p.V_clearance_c p.V_clearance_e / 2) (Vmax := Vmax) (half_pos (lt_min hvc hve))
  set N := N1 + N2 with hN
  have hN0 : 0 < N := by rw [hN]; linarith
  refine ⟨min r0 (min (w / N) (p.V_clearance_c / 2 / N)), by positivity, ?_⟩
  intro r hr1 hr2 outs env hode hout
  have e1 := hr2.trans (min_le_left _ _)
  have e2 := (hr2.trans (min_le_right _ _)).trans (min_le_left _ _)
  have e3 := (hr2.trans (min_le_right _ _)).trans (min_le_right _ _)
  rw [le_div_iff₀ hN0, mul_comm] at e2 e3
  obtain ⟨x', g', hx', h1, -⟩ := C50_ok_iff env lu.LU (withCrank c p r) (hsup _)
  obtain ⟨hre, s4, q1, q2, d, k1, k2, k3, k4, k5, k6, k7, k8, k9⟩ := redriven_of_crank hp hx0 hx'
  have hsmall : SmallCrank d Vmax Vmax N := by
    rcases k5 with k5 | k5
    · exact (s1 d k1 k2 k3 k4 k5 k6 k7 (by rw [k8]; exact hr1.le) (by rw [k8]; exact e1)).mono (by rw [k8]; exact hr1.le)
        ((le_max_left _ _).trans (le_max_left _ _)) ((le_max_right _ _).trans (le_max_left _ _)) (by linarith)
    · exact (s2 d k1 k2 k3 k4 k5 k6 k7 (by rw [k8]; exact hr1.le) (by rw [k8]; exact e1)).mono (by rw [k8]; exact hr1.le)
        ((le_max_left _ _).trans (le_max_right _ _)) ((le_max_right _ _).trans (le_max_right _ _)) (by linarith)
  have hvol : (firstRun lu.LU x' (gas c.engine.fluid) (inputsOf c)).ws_vol_fn = d.volumes := k9 _
  have m1 := min_le_left p.V_clearance_c p.V_clearance_e
  have m2 := min_le_right p.V_clearance_c p.V_clearance_e
  have m3 := lt_min hvc hve
  have slow : SlowDrive (firstRun lu.LU x' (gas c.engine.fluid) (inputsOf c)) L w := by
    obtain ⟨b1, b2, b3, b4, b5, b6, b7⟩ := hsmall
    rw [k8] at b1 b5 b6 b7
    rw [k6] at b1
    rw [k7] at b3
    refine ⟨?_, ?_, ?_, ?_, ?_⟩
    · intro t; rw [hvol, hL1, hL2]; exact ⟨by linarith [b1 t], b2 t⟩
    · intro t; rw [hvol, hL1, hL2]; exact ⟨by linarith [b3 t], b4 t⟩
    · intro t; rw [hvol]; exact (b5 t).trans e2
    · intro t; rw [hvol]; exact (b6 t).trans e2
    · intro t t'
      unfold driveGap
      rw [hvol]
      exact (b7 t t').trans (mul_le_mul_of_nonneg_right e2 (abs_nonneg _))
  have hg := hx'.fluid
  rcases hrun x' hre s4 slow outs env hode hout with ⟨e, he⟩ | hstill
  · obtain ⟨-, -, vs, -, -, -, h3, -⟩ := C36_values_are_steady env lu.LU x' _ _ _ e he
    obtain ⟨res, hres⟩ := results_ok e vs h3
    refine ⟨res, (h1 res).2 ⟨e, ?_, hres⟩⟩
    rw [hg]
    exact he
  · exfalso
    have o0 : 0 < 2 * Real.pi * p.frequency := by have := Real.pi_pos; positivity
    have ht : Turning x' c.solver.ode.num_timesteps := turning_of s4 hf0 hn hres
    refine not_still C69_sound ht (fun q => ?_) (fun q => ?_)
      (fun q => ⟨q1 q, (q2 q).trans hQ⟩) hode hstill
    · rw [k9, (ws.rhombic_volumes d 0).2.1]
      simp
    · rw [k9, (ws.rhombic_volumes d 0).2.2.2]
      simp only [mul_zero, Real.sin_zero, Real.cos_zero, zero_mul, zero_div, neg_zero, zero_sub, mul_one, k1, k8]
      have hD : d.geometry.D_d ≠ 0 := by rcases k5 with k5 | k5 <;> rw [k5] <;> assumption
      have hpi := Real.pi_pos
      have : 0 < Real.pi * d.geometry.D_d ^ 2 / 4 := by positivity
      exact mul_ne_zero (neg_ne_zero.2 (mul_pos this hr1).ne') o0.ne'

end Sett
