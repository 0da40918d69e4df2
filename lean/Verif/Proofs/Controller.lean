import Verif.Props.Exact
import Verif.Props.Steps
import Verif.Proofs.StepError

/-! # The error estimate and the step size controller on rates that are bounded and Lipschitz -/

namespace Sett

open Spec dopri5

/-- The rates `A` are bounded by `M`, and Lipschitz with constant `C` in the state and `C K` in time. -/
structure Gentle (A : ℝ → V3 ℝ → V3 ℝ → Prop) (M C K : ℝ) : Prop where
  bound : ∀ t y k, A t y k → ‖vec k‖ ≤ M
  lip : ∀ t y k t' y' k', A t y k → A t' y' k' → ‖vec k - vec k'‖ ≤ C * (‖vec y - vec y'‖ + K * |t - t'|)

theorem Tame.gentle {A : ℝ → V3 ℝ → V3 ℝ → Prop} {M C : ℝ} (h : Tame A M C) : Gentle A M C 1 :=
  ⟨h.bound, fun t y k t' y' k' a a' => by rw [one_mul]; exact h.lip t y k t' y' k' a a'⟩

theorem gentle_slopes {A : ℝ → V3 ℝ → V3 ℝ → Prop} {M C K : ℝ} (hC : 0 ≤ C) (hK : 0 ≤ K) (hA : Gentle A M C K) {s : Step}
    (hh : 0 < s.h) (hs : s.Slopes A) : CloseSlopes s (C * ((25 * M + K) * s.h)) := by
  have hM : SmallSlopes s M :=
    ⟨hA.bound _ _ _ hs.k1, hA.bound _ _ _ hs.k2, hA.bound _ _ _ hs.k3, hA.bound _ _ _ hs.k4,
      hA.bound _ _ _ hs.k5, hA.bound _ _ _ hs.k6, hA.bound _ _ _ hs.k7⟩
  have key : ∀ {t : ℝ} {w1 w2 w3 w4 w5 w6 w7 : ℝ} {k : V3 ℝ}, A t (s.go w1 w2 w3 w4 w5 w6 w7) k →
      |w1| + |w2| + |w3| + |w4| + |w5| + |w6| + |w7| ≤ 25 → |t - s.t| ≤ s.h →
      ‖vec k - vec s.k1‖ ≤ C * ((25 * M + K) * s.h) := by
    intro t w1 w2 w3 w4 w5 w6 w7 k hk hw ht
    refine (hA.lip _ _ _ _ _ _ hk hs.k1).trans (mul_le_mul_of_nonneg_left ?_ hC)
    have := go_near hM hh w1 w2 w3 w4 w5 w6 w7 hw
    have := mul_le_mul_of_nonneg_left ht hK
    linarith
  have ab : ∀ c : ℝ, 0 ≤ c → c ≤ 1 → |s.t + c * s.h - s.t| ≤ s.h := by
    intro c h0 h1
    rw [add_sub_cancel_left, abs_of_nonneg (by positivity)]
    nlinarith
  refine ⟨key hs.k2 (by norm_num [abs_of_pos, abs_of_neg]) ?_, key hs.k3 (by norm_num [abs_of_pos, abs_of_neg]) ?_,
    key hs.k4 (by norm_num [abs_of_pos, abs_of_neg]) ?_, key hs.k5 (by norm_num [abs_of_pos, abs_of_neg]) ?_,
    key hs.k6 (by norm_num [abs_of_pos, abs_of_neg]) ?_, key hs.k7 (by norm_num [abs_of_pos, abs_of_neg]) ?_⟩
  · convert ab (1 / 5) (by norm_num) (by norm_num) using 3; ring
  · convert ab (3 / 10) (by norm_num) (by norm_num) using 3; ring
  · convert ab (4 / 5) (by norm_num) (by norm_num) using 3; ring
  · convert ab (8 / 9) (by norm_num) (by norm_num) using 3; ring
  · convert ab 1 (by norm_num) (by norm_num) using 3; ring
  · convert ab 1 (by norm_num) (by norm_num) using 3; ring

/-! ## The error estimate -/

theorem errorNorm_le {p : Problem ℝ} {σ E : ℝ} (hσ : 0 < σ) (hr : 0 ≤ p.rtol) {y : V3 ℝ}
    (h0 : σ ≤ p.atol + |y.y0| * p.rtol) (h1 : σ ≤ p.atol + |y.y1| * p.rtol) (h2 : σ ≤ p.atol + |y.y2| * p.rtol)
    (yNext v : V3 ℝ) (hv : ‖vec v‖ ≤ E) : errorNorm p y yNext v ≤ E / σ := by
  have hE : 0 ≤ E := (norm_nonneg _).trans hv
  have key : ∀ a b w : ℝ, σ ≤ p.atol + |a| * p.rtol → |w| ≤ E → scaled p a b w ≤ (E / σ) ^ 2 := by
    intro a b w ha hw
    unfold scaled
    rw [real_powi2, fmax_eq, real_abs, real_abs]
    have hs : σ ≤ p.atol + max |a| |b| * p.rtol :=
      ha.trans (add_le_add le_rfl (mul_le_mul_of_nonneg_right (le_max_left _ _) hr))
    have : |w / (p.atol + max |a| |b| * p.rtol)| ≤ E / σ := by
      rw [abs_div, abs_of_pos (hσ.trans_le hs)]
      exact div_le_div₀ hE hw hσ hs
    rw [← sq_abs]
    exact pow_le_pow_left₀ (abs_nonneg _) this 2
  have hn : |v.y0| ≤ E ∧ |v.y1| ≤ E ∧ |v.y2| ≤ E := by
    simp only [vec, Prod.norm_mk, Real.norm_eq_abs, max_le_iff] at hv
    exact hv
  have a0 := key y.y0 yNext.y0 v.y0 h0 hn.1
  have a1 := key y.y1 yNext.y1 v.y1 h1 hn.2.1
  have a2 := key y.y2 yNext.y2 v.y2 h2 hn.2.2
  unfold errorNorm
  rw [real_sqrt, Real.sqrt_le_left (by positivity), lit_0]
  norm_num
  linarith

theorem err_le {A : ℝ → V3 ℝ → V3 ℝ → Prop} {M C K : ℝ} (hC : 0 ≤ C) (hK : 0 ≤ K) (hA : Gentle A M C K) {p : Problem ℝ} {σ : ℝ}
    (hσ : 0 < σ) (hr : 0 ≤ p.rtol) {x h : ℝ} {y : V3 ℝ} {k : Ks ℝ} (hh : 0 < h)
    (h0 : σ ≤ p.atol + |y.y0| * p.rtol) (h1 : σ ≤ p.atol + |y.y1| * p.rtol) (h2 : σ ≤ p.atol + |y.y2| * p.rtol)
    (hk0 : A x y k.k0) (hk : k.Answer A x y h) :
    0 ≤ k.err p y h ∧ k.err p y h ≤ 0.16 * (C * (25 * M + K)) * h ^ 2 / σ := by
  refine ⟨Real.sqrt_nonneg _, ?_⟩
  have hc := gentle_slopes hC hK hA (s := asStep k x y h) hh (asStep_slopes hk0 hk)
  refine errorNorm_le hσ hr h0 h1 h2 _ _ ?_
  set D := C * ((25 * M + K) * h) with hD
  have hD0 : 0 ≤ D := (norm_nonneg _).trans hc.k2
  have e : vec (scale3 (weighted [k.k0, k.k2, k.k3, k.k4, k.k5, k.k6] dopri5.e) h)
      = h • ((0 : ℝ) • (vec k.k1 - vec k.k0) + (0 : ℝ) • (vec k.k1 - vec k.k0)
        + (-71 / 16695 : ℝ) • (vec k.k2 - vec k.k0) + (71 / 1920 : ℝ) • (vec k.k3 - vec k.k0)
        + (-17253 / 339200 : ℝ) • (vec k.k4 - vec k.k0) + (22 / 525 : ℝ) • (vec k.k5 - vec k.k0)
        + (-1 / 40 : ℝ) • (vec k.k6 - vec k.k0)) := by
    simp only [weighted, dopri5.e, List.zip_cons_cons, List.zip_nil_left, List.foldl_cons,
      List.foldl_nil, add3, zip3, scale3, vec, Prod.smul_mk, Prod.mk_add_mk, Prod.mk_sub_mk, smul_eq_mul,
      Prod.mk.injEq]
    refine ⟨?_, ?_, ?_⟩ <;>
    · norm_num
      ring
  rw [e, norm_smul, Real.norm_eq_abs, abs_of_pos hh]
  have hn := norm_comb hc.k2 hc.k2 hc.k3 hc.k4 hc.k5 hc.k6 hc.k7 0 0 (-71 / 16695) (71 / 1920) (-17253 / 339200)
    (22 / 525) (-1 / 40)
  have hw : |(0 : ℝ)| + |0| + |-71 / 16695| + |71 / 1920| + |-17253 / 339200| + |22 / 525| + |-1 / 40| ≤ 0.16 := by
    norm_num [abs_of_pos, abs_of_neg]
  have := mul_le_mul_of_nonneg_left (hn.trans (mul_le_mul_of_nonneg_right hw hD0)) hh.le
  refine this.trans (le_of_eq ?_)
  show h * (0.16 * (C * ((25 * M + K) * h))) = _
  ring

/-- The second half of a pass with a rejected step. -/
theorem conclude_rejected {p : Problem ℝ} {outs : Nat} {next : dopri5.State ℝ → V3 ℝ → Stepper ℝ}
    {s : dopri5.State ℝ} {last : Bool} {h : ℝ} {k : Ks ℝ} {yStiff : V3 ℝ} {hNew : ℝ}
    (h1 : accept p s.facOld s.reject (k.err p s.y h) h = (false, hNew)) :
    conclude p outs next s last h k.k0 k.k2 k.k3 k.k4 k.k5 k.k6 yStiff (k.next s.y h)
      = next { s with h := hNew, reject := true } k.k0 := by
  unfold Ks.err at h1
  simp only [conclude, h1]

/-! ## The controller -/

theorem fac_old {g : ℝ} (hg : 1e-4 ≤ g) : 0 < g ^ (-0.04 : ℝ) ∧ g ^ (-0.04 : ℝ) ≤ 1.446 := by
  have hg0 : 0 < g := lt_of_lt_of_le (by norm_num) hg
  refine ⟨Real.rpow_pos_of_pos hg0 _, ?_⟩
  have h1 : g ^ (-0.04 : ℝ) ≤ (1e-4 : ℝ) ^ (-0.04 : ℝ) :=
    Real.rpow_le_rpow_of_nonpos (by norm_num) hg (by norm_num)
  refine h1.trans ?_
  have h2 : ((1e-4 : ℝ) ^ (-0.04 : ℝ)) ^ 25 ≤ 1.446 ^ 25 := by
    rw [← Real.rpow_natCast, ← Real.rpow_mul (by norm_num)]
    have : (-0.04 : ℝ) * ((25 : ℕ) : ℝ) = -1 := by norm_num
    rw [this, Real.rpow_neg_one]
    norm_num
  exact (pow_le_pow_iff_left₀ (Real.rpow_nonneg (by norm_num) _) (by norm_num) (by norm_num)).1 h2

theorem fac_new {e a b : ℝ} (he : 0 ≤ e) (hb : 0 ≤ b) (h : e ≤ a) (hab : a ^ 17 ≤ b ^ 100) : e ^ (0.2 - 0.04 * 0.75 : ℝ) ≤ b := by
  have ha : 0 ≤ a := he.trans h
  refine (Real.rpow_le_rpow he h (by norm_num)).trans ?_
  have h2 : (a ^ (0.2 - 0.04 * 0.75 : ℝ)) ^ 100 ≤ b ^ 100 := by
    rw [← Real.rpow_natCast, ← Real.rpow_mul ha]
    have : (0.2 - 0.04 * 0.75 : ℝ) * ((100 : ℕ) : ℝ) = ((17 : ℕ) : ℝ) := by norm_num
    rw [this, Real.rpow_natCast]
    exact hab
  exact (pow_le_pow_iff_left₀ (Real.rpow_nonneg ha _) hb (by norm_num)).1 h2

/-- A step that passes its error test: the next is not too short. -/
theorem accept_yes {p : Problem ℝ} (hp : p.posneg = 1) {facOld err h H : ℝ} (reject : Bool) (hh : 0 < h) (hH : 0 < H)
    (hg : 1e-4 ≤ facOld) (he0 : 0 ≤ err) (he : err ≤ (h / H) ^ 2) (he1 : err ≤ 1) (hm : 0 < p.hMax) :
    ∃ hNew, accept p facOld reject err h = (true, hNew) ∧ hNew ≤ p.hMax ∧
      (reject = false → h ≤ 0.06 * H → 1.5 * h ≤ hNew ∨ p.hMax ≤ hNew) ∧
      (0.06 * H ≤ h → 0.06 * H ≤ p.hMax → 0.06 * H ≤ hNew) := by
  obtain ⟨g0, g1⟩ := fac_old hg
  have hle : Scalar.le err (1.0 : ℝ) = true := (real_le _ _).2 (by rw [lit_1]; exact he1)
  simp only [accept, fmax_real, fmin_real, hle, if_true, hp, one_mul]
  refine ⟨_, rfl, ?_⟩
  have hf : ∃ f : ℝ, max (1.0 / 10.0) (min (1.0 / 0.2) (HasPowf.powf err (0.2 - 0.04 * 0.75)
      * HasPowf.powf facOld (-0.04) / 0.9)) = f ∧ 0 < f ∧ f ≤ 1.61 ∧ (err ≤ 0.0036 → f ≤ 2 / 3) ∧ (err ≤ 0.06 → f ≤ 1) := by
    have key : ∀ a b c : ℝ, 0 ≤ b → err ≤ a → a ^ 17 ≤ b ^ 100 → b * 1.446 / 0.9 ≤ c → 1 / 10 ≤ c →
        max (1.0 / 10.0) (min (1.0 / 0.2) (HasPowf.powf err (0.2 - 0.04 * 0.75)
          * HasPowf.powf facOld (-0.04) / 0.9)) ≤ c := by
      intro a b c hb h1 h2 h3 h4
      refine max_le (by norm_num at h4 ⊢; exact h4) ((min_le_right _ _).trans ?_)
      refine le_trans (div_le_div_of_nonneg_right ?_ (by norm_num)) h3
      exact mul_le_mul (fac_new he0 hb h1 h2) g1 g0.le hb
    exact ⟨_, rfl, lt_of_lt_of_le (by norm_num) (le_max_left _ _),
      key 1 1 _ (by norm_num) he1 (by norm_num) (by norm_num) (by norm_num),
      fun h => key 0.0036 0.41 _ (by norm_num) h (by norm_num) (by norm_num) (by norm_num),
      fun h => key 0.06 0.622 _ (by norm_num) h (by norm_num) (by norm_num) (by norm_num)⟩
  obtain ⟨f, ef, f0, f1, f2, f3⟩ := hf
  rw [ef]
  have hq : 0 < h / f := div_pos hh f0
  have hc : ∃ c : ℝ, (if Scalar.lt p.hMax (Scalar.abs (h / f)) = true then p.hMax else h / f) = c ∧ 0 < c ∧
      c ≤ p.hMax ∧ (c = p.hMax ∨ c = h / f) := by
    refine ⟨_, rfl, ?_⟩
    rw [real_abs, abs_of_pos hq]
    split
    · exact ⟨hm, le_rfl, .inl rfl⟩
    · rename_i hn
      rw [real_lt, not_lt] at hn
      exact ⟨hq, hn, .inr rfl⟩
  obtain ⟨c, ec, c0, c1, c2⟩ := hc
  rw [ec, real_abs, real_abs, abs_of_pos c0, abs_of_pos hh]
  have hsq : ∀ b : ℝ, 0 ≤ b → h ≤ b * H → err ≤ b ^ 2 := by
    intro b hb h1
    refine he.trans (pow_le_pow_left₀ (div_nonneg hh.le hH.le) ?_ 2)
    rwa [div_le_iff₀ hH]
  refine ⟨?_, ?_, ?_⟩
  · split
    · exact (min_le_left _ _).trans c1
    · exact c1
  · intro hr hs
    rw [hr, if_neg Bool.false_ne_true]
    rcases c2 with rfl | rfl
    · exact .inr le_rfl
    · left
      rw [le_div_iff₀ f0]
      have := f2 ((hsq 0.06 (by norm_num) hs).trans (by norm_num))
      have : h * f ≤ h * (2 / 3) := mul_le_mul_of_nonneg_left this hh.le
      norm_num
      linarith
  · intro hs hm'
    have hc' : 0.06 * H ≤ c := by
      rcases c2 with rfl | rfl
      · exact hm'
      · rw [le_div_iff₀ f0]
        by_cases hb : h ≤ 0.2449 * H
        · have := f3 ((hsq 0.2449 (by norm_num) hb).trans (by norm_num))
          have : 0.06 * H * f ≤ 0.06 * H * 1 := mul_le_mul_of_nonneg_left this (by positivity)
          linarith
        · have : 0.06 * H * f ≤ 0.06 * H * 1.61 := mul_le_mul_of_nonneg_left f1 (by positivity)
          norm_num at this hb ⊢
          linarith
    split
    · exact le_min hc' hs
    · exact hc'

/-- A step that fails its error test: the next is shorter, but by no more than a factor of five. -/
theorem accept_no {p : Problem ℝ} {facOld err h H : ℝ} (reject : Bool) (hh : 0 < h) (hH : 0 < H)
    (he : err ≤ (h / H) ^ 2) (he1 : 1 < err) :
    ∃ hNew, accept p facOld reject err h = (false, hNew) ∧ H < h ∧ h / 5 ≤ hNew ∧ hNew ≤ 0.9 * h := by
  have hle : ¬Scalar.le err (1.0 : ℝ) = true := by rw [real_le, lit_1]; exact not_le.2 he1
  simp only [accept, fmax_real, fmin_real, hle]
  refine ⟨_, rfl, ?_, ?_, ?_⟩
  · by_contra hc
    have : h / H ≤ 1 := (div_le_one hH).2 (not_lt.1 hc)
    have := pow_le_one₀ (n := 2) (div_nonneg hh.le hH.le) this
    linarith
  all_goals
    have h1 : 1 ≤ HasPowf.powf err (0.2 - 0.04 * 0.75 : ℝ) := Real.one_le_rpow he1.le (by norm_num)
    set f := HasPowf.powf err (0.2 - 0.04 * 0.75 : ℝ)
    have h2 : 1 / 0.9 ≤ min (1.0 / 0.2 : ℝ) (f / 0.9) :=
      le_min (by norm_num) (div_le_div_of_nonneg_right h1 (by norm_num))
    have h3 : min (1.0 / 0.2 : ℝ) (f / 0.9) ≤ 5 := (min_le_left _ _).trans (by norm_num)
    set m := min (1.0 / 0.2 : ℝ) (f / 0.9)
    have hm : 0 < m := lt_of_lt_of_le (by norm_num) h2
  · exact div_le_div_of_nonneg_left hh.le hm h3
  · rw [div_le_iff₀ hm]
    have : 1 ≤ 0.9 * m := by norm_num at h2 ⊢; linarith
    nlinarith

end Sett
