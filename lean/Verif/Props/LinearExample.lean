import Verif.Props.Linear
import Verif.Props.SucceedsExample

/-! # C104: the harmonic motion -/

namespace Sett

open Spec state_equations dopri5 Set

/-- Whatever the integrator is asked to follow, it gets somewhere, asking only what it is known to ask. -/
theorem runs_asking {A : ℝ → V3 ℝ → V3 ℝ → Prop} {P : ℝ → V3 ℝ → Prop} (f : ℝ → V3 ℝ → V3 ℝ) (hf : ∀ t y, P t y → A t y (f t y))
    (st : Stepper ℝ) (h : OnlyAsks A P st) :
    ∃ qs out, Reaches st qs (.done out) ∧ ∀ q ∈ qs, P q.1 q.2.1 ∧ q.2.2 = f q.1 q.2.1 := by
  induction st with
  | done out => exact ⟨[], out, .refl _, by simp⟩
  | eval t y k ih =>
    have hp : P t y := h [] t y k (.refl _) (by simp)
    obtain ⟨qs, out, hr, hq⟩ := ih (f t y) fun qs t' y' k' hr hA => h _ t' y' k' (.step hr) fun q hq => by
      rcases List.mem_cons.1 hq with rfl | hq
      · exact hf t y hp
      · exact hA q hq
    refine ⟨_, out, .step hr, fun q hq' => ?_⟩
    rcases List.mem_cons.1 hq' with rfl | hq'
    · exact ⟨hp, rfl⟩
    · exact hq q hq'

namespace LinearExample

/-- `(p, q, z) ↦ (q, -p, 0)`. -/
noncomputable def spin : (ℝ × ℝ × ℝ) →L[ℝ] (ℝ × ℝ × ℝ) :=
  ((ContinuousLinearMap.fst ℝ ℝ ℝ).comp (ContinuousLinearMap.snd ℝ ℝ (ℝ × ℝ))).prod
    ((-(ContinuousLinearMap.fst ℝ ℝ (ℝ × ℝ))).prod 0)

theorem spin_apply (a b c : ℝ) : spin (a, b, c) = (b, -a, 0) := rfl

theorem spin_norm : ‖spin‖ ≤ 1 := by
  refine ContinuousLinearMap.opNorm_le_bound _ one_pos.le ?_
  rintro ⟨a, b, c⟩
  rw [spin_apply, one_mul]
  simp only [Prod.norm_mk, norm_neg, norm_zero]
  exact max_le ((le_max_left _ _).trans (le_max_right _ _)) (max_le (le_max_left _ _) (by positivity))

theorem motion (b : ℝ) : LinearMotion spin 0 b fun t => (Real.cos t, -Real.sin t, 0) := by
  have h : ∀ t, HasDerivAt (fun t => (Real.cos t, -Real.sin t, (0 : ℝ))) (-Real.sin t, -Real.cos t, (0 : ℝ)) t := fun t =>
    (Real.hasDerivAt_cos t).prodMk ((Real.hasDerivAt_sin t).neg.prodMk (hasDerivAt_const t 0))
  refine ⟨fun t _ => (h t).continuousAt.continuousWithinAt, fun t _ => ?_⟩
  rw [sub_zero, spin_apply]
  exact (h t).hasDerivWithinAt

theorem near {t : ℝ} {y : V3 ℝ} (h : NearStart ⟨1, 0, 0⟩ 2 (1 / 100) t y) : |y.y0| ≤ 2 ∧ |y.y1| ≤ 2 := by
  obtain ⟨-, -, h⟩ := h
  simp only [vec, Prod.mk_sub_mk, Prod.norm_mk, Real.norm_eq_abs, max_le_iff] at h
  obtain ⟨h0, h1, -⟩ := h
  rw [abs_le] at h0 h1
  constructor <;> rw [abs_le] <;> constructor <;> linarith

/-- The integrator follows the harmonic motion to the end. -/
theorem runs : ∃ qs xs ys, Reaches (dopri5.solve 12 0.0 (1 / 100) (1 / 1000) ⟨1, 0, 0⟩ 0 1e-2) qs (.done (some (xs, ys))) ∧
    ∀ q ∈ qs, LinearRates spin 0 q.1 q.2.1 q.2.2 := by
  have asks := solve_asks (A := fun _ y k => k = ⟨y.y1, -y.y0, 0⟩) (y0 := ⟨1, 0, 0⟩) (M := 2) 12 (xEnd := 1 / 100) (dx := 1 / 1000) 0 1e-2
    (by norm_num) (by norm_num) (by norm_num) (by
      rintro t y k rfl h
      obtain ⟨h0, h1⟩ := near h
      exact norm_vec_le h1 (by rwa [abs_neg]) (by simp))
  obtain ⟨qs, out, hr, hq⟩ := runs_asking (A := fun _ y k => k = ⟨y.y1, -y.y0, 0⟩) (fun _ y => ⟨y.y1, -y.y0, 0⟩)
    (fun t y _ => rfl) _ asks
  cases out with
  | none =>
    refine absurd hr (C86_integrator 11 (1 / 100) (1 / 1000) 0 1e-2 ⟨1, 0, 0⟩
      (fun _ y k => (|y.y0| ≤ 2 ∧ |y.y1| ≤ 2) ∧ k = ⟨y.y1, -y.y0, 0⟩) (M := 2) (C := 1) (K := 0) (σ := 1e-2)
      (by norm_num) le_rfl ⟨?_, ?_⟩ (by norm_num) le_rfl ?_ (by norm_num) (by norm_num) (by norm_num) (by norm_num)
      (by norm_num) (by norm_num) qs fun q h => ⟨near (hq q h).1, (hq q h).2⟩)
    · rintro t y k ⟨⟨h0, h1⟩, rfl⟩
      exact norm_vec_le h1 (by rwa [abs_neg]) (by simp)
    · rintro t y k t' y' k' ⟨-, rfl⟩ ⟨-, rfl⟩
      rw [one_mul, zero_mul, add_zero]
      simp only [vec, Prod.mk_sub_mk, Prod.norm_mk, Real.norm_eq_abs, sub_self, abs_zero]
      have e : |-y.y0 - -y'.y0| = |y.y0 - y'.y0| := by rw [show -y.y0 - -y'.y0 = -(y.y0 - y'.y0) by ring, abs_neg]
      rw [e]
      refine max_le ((le_max_left _ _).trans (le_max_right _ _)) (max_le (le_max_left _ _) ?_)
      exact (abs_nonneg _).trans (le_max_left _ _)
    · intro t y k _
      norm_num
  | some o =>
    refine ⟨qs, o.1, o.2, hr, fun q h => ?_⟩
    rw [LinearRates, (hq q h).2, sub_zero]
    rfl

/-- C104 applies: what the integrator reports of the harmonic motion deviates from `(cos, -sin)` by the fifth power of its steps. -/
example : ∃ (qs : List (ℝ × V3 ℝ × V3 ℝ)) (xs : List ℝ) (ys : List (V3 ℝ)) (l : List Step),
    Reaches (dopri5.solve 12 0.0 (1 / 100) (1 / 1000) ⟨1, 0, 0⟩ 0 1e-2) qs (.done (some (xs, ys))) ∧
    Integrates (LinearRates spin 0) 0 1e-2 ⟨1, 0, 0⟩ (1 / 100) l ∧ xs.length = ys.length ∧
    ∀ H : ℝ, (∀ s ∈ l, s.h ≤ H) → ∀ q ∈ xs.zip ys,
      ‖vec q.2 - (Real.cos q.1, -Real.sin q.1, 0)‖
        ≤ 1 / 10 * (1 + ‖spin‖ * (1 / 100)) ^ 2 * Real.exp (3 * (‖spin‖ * (1 / 100))) * (‖spin‖ * H) ^ 5 := by
  obtain ⟨qs, xs, ys, hr, hq⟩ := runs
  obtain ⟨-, -, hlen, -⟩ := C82_steps 12 (1 / 100) (1 / 1000) 0 1e-2 ⟨1, 0, 0⟩ (by norm_num) (by norm_num) _ qs hq xs ys hr
  obtain ⟨l, hl, h⟩ := C104_order 12 (1 / 100) (1 / 1000) 0 1e-2 ⟨1, 0, 0⟩ (by norm_num) (by norm_num) spin 0 qs hq xs ys hr
  refine ⟨qs, xs, ys, l, hr, hl, hlen, fun H hH q hq => ?_⟩
  refine (h H hH _ (motion _) (by simp [vec]) q hq).trans (le_of_eq ?_)
  simp [vec, Prod.norm_mk]

end LinearExample

end Sett
