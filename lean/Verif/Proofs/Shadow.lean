import Verif.Spec.Shadow
import Verif.Props.Near

/-! # Proofs for C83: an exact motion beside every chain of steps -/

namespace Sett

open Spec state_equations Set Metric
open scoped NNReal

/-- A triple as a vector. -/
def unvec (x : ℝ × ℝ × ℝ) : V3 ℝ := ⟨x.1, x.2.1, x.2.2⟩

theorem vec_unvec (x : ℝ × ℝ × ℝ) : vec (unvec x) = x := rfl

/-- Rates given everywhere have an exact solution over any time. -/
theorem exists_exact {A : ℝ → V3 ℝ → V3 ℝ → Prop} {M C : ℝ} (hM : 0 ≤ M) (hC : 0 < C) (hA : Tame A M C)
    (all : ∀ t y, ∃ k, A t y k) (y₀ : V3 ℝ) {b : ℝ} (hb : 0 ≤ b) : ∃ Y, Y 0 = y₀ ∧ Exact A Y b := by
  choose k hk using all
  have gap : ∀ t t' x x', ‖vec (k t (unvec x)) - vec (k t' (unvec x'))‖ ≤ C * (‖x - x'‖ + |t - t'|) :=
    fun t t' x x' => hA.lip _ _ _ _ _ _ (hk t (unvec x)) (hk t' (unvec x'))
  have pl : IsPicardLindelof (fun t x => vec (k t (unvec x))) (tmin := 0) (tmax := b) ⟨0, ⟨le_rfl, hb⟩⟩ (vec y₀)
      ⟨M * b, by positivity⟩ 0 ⟨M, hM⟩ ⟨C, hC.le⟩ := by
    refine ⟨fun t ht => ?_, fun x hx => ?_, fun t ht x hx => ?_, ?_⟩
    · refine LipschitzOnWith.of_dist_le_mul fun x hx x' hx' => ?_
      rw [dist_eq_norm, dist_eq_norm]
      have := gap t t x x'
      rw [sub_self, abs_zero, add_zero] at this
      exact this
    · intro t ht
      have h0 : Filter.Tendsto (fun t' => C * |t' - t|) (nhdsWithin t (Icc 0 b)) (nhds 0) := by
        have hc : Continuous fun t' : ℝ => C * |t' - t| := by fun_prop
        have := (hc.tendsto t).mono_left (nhdsWithin_le_nhds (s := Icc 0 b))
        simpa using this
      refine tendsto_iff_dist_tendsto_zero.2 (squeeze_zero (fun _ => dist_nonneg) (fun t' => ?_) h0)
      have := gap t' t x x
      rw [dist_eq_norm]
      simpa using this
    · exact hA.bound _ _ _ (hk t (unvec x))
    · show M * max (b - 0) (0 - 0) ≤ M * b - 0
      rw [sub_zero, sub_zero, sub_zero, max_eq_left hb]
  obtain ⟨α, hα0, -, hcont, hder⟩ := picard_in_ball pl (mem_closedBall_self le_rfl)
  refine ⟨fun t => unvec (α t), ?_, hcont.continuousOn, fun t ht => ⟨_, hk t _, ?_⟩⟩
  · show unvec (α 0) = y₀
    rw [show α 0 = vec y₀ from hα0]; rfl
  · exact (hder t ⟨ht.1, ht.2.le⟩).mono_of_mem_nhdsWithin (s := Ici t)
      (mem_nhdsWithin.2 ⟨Iio b, isOpen_Iio, ht.2, fun u hu => ⟨ht.1.trans hu.2, le_of_lt hu.1⟩⟩)

/-- Every time is in one of the steps. -/
theorem leads_cover {t t' : ℝ} {y y' : V3 ℝ} {l : List Step} (hl : Leads t y l t' y') (hf : ∀ s ∈ l, 0 < s.h)
    (h : t < t') : ∀ u ∈ Icc t t', ∃ s ∈ l, u ∈ Icc s.t (s.t + s.h) := by
  induction l generalizing t y with
  | nil => exact absurd hl.1 h.ne
  | cons s l ih =>
    intro u hu
    obtain ⟨rfl, -, hl⟩ := hl
    by_cases hus : u ≤ s.t + s.h
    · exact ⟨s, List.mem_cons_self, hu.1, hus⟩
    · push Not at hus
      obtain ⟨a, ha, h1⟩ := ih hl (fun a ha => hf a (List.mem_cons_of_mem _ ha)) (hus.trans_le hu.2) u ⟨hus.le, hu.2⟩
      exact ⟨a, List.mem_cons_of_mem _ ha, h1⟩

/-! ## Rates continued beyond the limits -/

/-- The nearest number in `[a, b]`. -/
noncomputable def clamp1 (a b x : ℝ) : ℝ := max a (min b x)

theorem clamp1_lip (a b x y : ℝ) : |clamp1 a b x - clamp1 a b y| ≤ |x - y| := by
  have h1 := abs_max_sub_max_le_max a (min b x) a (min b y)
  have h2 := abs_min_sub_min_le_max b x b y
  have e : ∀ z : ℝ, max 0 |z| = |z| := fun z => max_eq_right (abs_nonneg z)
  rw [sub_self, abs_zero, e] at h1 h2
  exact h1.trans h2

theorem clamp1_mem {a b : ℝ} (h : a ≤ b) (x : ℝ) : a ≤ clamp1 a b x ∧ clamp1 a b x ≤ b :=
  ⟨le_max_left _ _, max_le h (min_le_left _ _)⟩

theorem clamp1_self {a b x : ℝ} (h1 : a ≤ x) (h2 : x ≤ b) : clamp1 a b x = x := by
  rw [clamp1, min_eq_right h2, max_eq_right h1]

/-- The nearest state within the limits. -/
noncomputable def clamp (L : Limits) (y : V3 ℝ) : V3 ℝ :=
  ⟨clamp1 L.Pmin L.Pmax y.y0, clamp1 100 L.Tmax y.y1, clamp1 100 L.Tmax y.y2⟩

theorem clamp_lip (L : Limits) (y y' : V3 ℝ) : ‖vec (clamp L y) - vec (clamp L y')‖ ≤ ‖vec y - vec y'‖ := by
  simp only [vec, clamp, Prod.mk_sub_mk, Prod.norm_mk, Real.norm_eq_abs]
  exact max_le_max (clamp1_lip _ _ _ _) (max_le_max (clamp1_lip _ _ _ _) (clamp1_lip _ _ _ _))

section
variable {r : Run ℝ} {n : GasName} {L : Limits}

theorem clamp_within (hw : DriveWithin r L) (hP : L.Pmin ≤ L.Pmax) (hT : 100 ≤ L.Tmax) (t : ℝ) (y : V3 ℝ) :
    WithinLimits r L t (conditionsOf (clamp L y)) :=
  ⟨clamp1_mem hP _, clamp1_mem hT _, clamp1_mem hT _, hw.comp_vol t, hw.exp_vol t, hw.comp_rate t, hw.exp_rate t⟩

theorem clamp_of_inside {y : V3 ℝ} (h : Inside L 0 (conditionsOf y)) : clamp L y = y := by
  obtain ⟨⟨h1, h2⟩, ⟨h3, h4⟩, h5, h6⟩ := h
  simp only [conditionsOf, add_zero, sub_zero] at h1 h2 h3 h4 h5 h6
  simp only [clamp, clamp1_self h1 h2, clamp1_self h3 h4, clamp1_self h5 h6]

theorem within_of_inside (hw : DriveWithin r L) {y : Conditions ℝ} (h : Inside L 0 y) (t : ℝ) :
    WithinLimits r L t y := by
  obtain ⟨h1, h2, h3⟩ := h
  simp only [add_zero, sub_zero] at h1 h2 h3
  exact ⟨h1, h2, h3, hw.comp_vol t, hw.exp_vol t, hw.comp_rate t, hw.exp_rate t⟩

theorem inside_near {y z : V3 ℝ} {d e : ℝ} (h : Inside L (d + e) (conditionsOf y)) (hz : ‖vec z - vec y‖ ≤ e) :
    Inside L d (conditionsOf z) := by
  simp only [vec, Prod.mk_sub_mk, Prod.norm_mk, Real.norm_eq_abs, max_le_iff, abs_le] at hz
  obtain ⟨h1, h2, h3⟩ := h
  obtain ⟨z1, z2, z3⟩ := hz
  simp only [conditionsOf] at h1 h2 h3
  refine ⟨⟨?_, ?_⟩, ⟨?_, ?_⟩, ?_, ?_⟩ <;> simp only [conditionsOf] <;> linarith

theorem inside_mono {y : Conditions ℝ} {d d' : ℝ} (h : Inside L d y) (hd : d' ≤ d) : Inside L d' y := by
  obtain ⟨h1, h2, h3⟩ := h
  refine ⟨⟨?_, ?_⟩, ⟨?_, ?_⟩, ?_, ?_⟩ <;> linarith

end

end Sett
