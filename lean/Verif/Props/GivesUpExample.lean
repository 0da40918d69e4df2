import Verif.Props.GivesUp

/-! # C87: worked cases -/

namespace Sett

open Spec dopri5

/-- The alarm: fifteen stiff steps in a row from the thousandth on, -/
example : Alarm (List.replicate 999 false ++ List.replicate 15 true) :=
  ⟨_, _, rfl, ⟨by rw [List.length_replicate], by simp, fun h => by
    have : false ∈ List.replicate 15 true := h.subset (by simp)
    simp at this⟩, by simp, by simp⟩

/-- and none before the thousandth, however stiff. -/
example (f : List Bool) (h : f.length < 1000) : ¬Alarm f := by
  rintro ⟨pre, w, rfl, hw, -, hc⟩
  have h1 := hw.thousandth
  have h2 := w.count_le_length (a := true)
  rw [List.length_append] at h
  omega

namespace PoleExample

/-- `y' = 1 / t` in all three variables, from zero. -/
noncomputable def f (t : ℝ) : V3 ℝ := ⟨1 / t, 1 / t, 1 / t⟩

/-- Tolerance a thousandth, one second, ten points. -/
noncomputable def p : Problem ℝ :=
  { xEnd := 1, dx := 0.1, rtol := 0, atol := 1e-3, hMax := Scalar.abs ((1 : ℝ) - 0.0)
    posneg := dopri5.sign 1.0 ((1 : ℝ) - 0.0) }

theorem err_gt (y : V3 ℝ) {h : ℝ} (hh : 0 < h) :
    1 < (⟨f 0.0, f (0.0 + h * c2), f (0.0 + h * c3), f (0.0 + h * c4), f (0.0 + h * c5), f (0.0 + h * c6),
      f (0.0 + h * c7)⟩ : Ks ℝ).err p y h := by
  unfold Ks.err
  generalize Ks.next (α := ℝ) _ _ _ = z
  have e : ∀ g : V3 ℝ → ℝ, (g = V3.y0 ∨ g = V3.y1 ∨ g = V3.y2) → g (scale3 (weighted [f 0.0, f (0.0 + h * c3),
      f (0.0 + h * c4), f (0.0 + h * c5), f (0.0 + h * c6), f (0.0 + h * c7)] dopri5.e) h)
        = -71 / 16695 * (10 / 3) + 71 / 1920 * (5 / 4) - 17253 / 339200 * (9 / 8) + 22 / 525 - 1 / 40 := by
    rintro g (rfl | rfl | rfl) <;>
    · simp only [weighted, dopri5.e, List.zip_cons_cons, List.zip_nil_left, List.foldl_cons, List.foldl_nil, add3, zip3,
        scale3, f, c3, c4, c5, c6, c7, lit_0]
      norm_num
      field_simp
      norm_num
  unfold errorNorm scaled
  rw [e V3.y0 (by simp), e V3.y1 (by simp), e V3.y2 (by simp), real_sqrt, Real.lt_sqrt (by norm_num)]
  simp only [p, real_powi2, mul_zero, add_zero, lit_0, zero_add]
  norm_num

/-- Every step from zero is rejected, to the last. -/
theorem loop_gives_up (outs passes : Nat) : ∀ s : dopri5.State ℝ, s.x = 0.0 → 0 < s.h → s.h ≤ 1 →
    ∃ qs, (∀ q ∈ qs, q.2.2 = f q.1) ∧ qs.length = 6 * passes ∧ Reaches (loop p outs passes s (f 0.0)) qs (.done none) := by
  have hp : p.posneg = 1 := by
    show dopri5.sign 1.0 ((1 : ℝ) - 0.0) = 1
    rw [sign_abs (by norm_num)]
    norm_num
  have hm : p.hMax = 1 := by
    show |(1 : ℝ) - 0.0| = 1
    norm_num
  induction passes with
  | zero => intro s _ _ _; exact ⟨[], by simp, rfl, .refl _⟩
  | succ passes ih =>
    intro s hx hh h1
    have htr : 0 < tried p s ∧ tried p s ≤ 1 := by
      unfold tried
      split
      · rw [hx]
        show (0 : ℝ) < 1 - 0.0 ∧ (1 : ℝ) - 0.0 ≤ 1
        norm_num
      · exact ⟨hh, h1⟩
    set k : Ks ℝ := ⟨f 0.0, f (0.0 + tried p s * c2), f (0.0 + tried p s * c3), f (0.0 + tried p s * c4),
      f (0.0 + tried p s * c5), f (0.0 + tried p s * c6), f (0.0 + tried p s * c7)⟩ with hk
    have herr := err_gt s.y htr.1
    obtain ⟨hNew, hacc, hle, h0⟩ : ∃ hNew, accept p s.facOld s.reject (k.err p s.y (tried p s)) (tried p s) = (false, hNew) ∧
        hNew ≤ tried p s ∧ 0 < hNew := by
      obtain ⟨hNew, a1, -, a3, a4⟩ := accept_no (p := p) (facOld := s.facOld)
        (H := tried p s / √(k.err p s.y (tried p s))) s.reject htr.1 (div_pos htr.1 (Real.sqrt_pos.2 (one_pos.trans herr)))
        (by
          rw [div_div_cancel₀ htr.1.ne', Real.sq_sqrt (one_pos.trans herr).le]) herr
      refine ⟨hNew, a1, ?_, by linarith⟩
      norm_num at a4
      linarith
    have hc := conclude_rejected (outs := outs) (next := loop p outs passes) (last := isLast p s)
      (yStiff := stage s.y (tried p s) [k.k0, k.k1, k.k2, k.k3, k.k4] a6) hacc
    obtain ⟨qs, hq, hl, hr⟩ := ih { s with h := hNew, reject := true } hx h0 (hle.trans htr.2)
    refine ⟨(s.x + tried p s * c2, stage s.y (tried p s) [k.k0] a2, k.k1) ::
      (s.x + tried p s * c3, stage s.y (tried p s) [k.k0, k.k1] a3, k.k2) ::
      (s.x + tried p s * c4, stage s.y (tried p s) [k.k0, k.k1, k.k2] a4, k.k3) ::
      (s.x + tried p s * c5, stage s.y (tried p s) [k.k0, k.k1, k.k2, k.k3] a5, k.k4) ::
      (s.x + tried p s * c6, stage s.y (tried p s) [k.k0, k.k1, k.k2, k.k3, k.k4] a6, k.k5) ::
      (s.x + tried p s * c7, k.next s.y (tried p s), k.k6) :: qs, ?_, ?_, ?_⟩
    · rw [hx]
      intro q h
      simp only [List.mem_cons] at h
      rcases h with rfl | rfl | rfl | rfl | rfl | rfl | h
      all_goals first | rfl | exact hq q h
    · simp only [List.length_cons, hl]
      ring
    · unfold loop
      rw [if_neg (by rw [real_le, real_abs, real_abs, hx, lit_0, abs_zero, abs_of_pos hh]; norm_num; exact hh)]
      refine .step (.step (.step (.step (.step (.step ?_)))))
      exact Eq.subst (motive := fun st => Reaches st qs (.done none)) hc.symm hr

/-- C87 applies, with a failure: on `y' = 1 / t` from zero the error of a step does not get smaller with the step, and
the integrator gives up after its 100001 tries. -/
theorem gives_up : ∃ qs, (∀ q ∈ qs, q.2.2 = f q.1) ∧ qs.length = 600009 ∧
    Reaches (dopri5.solve 12 0.0 1 0.1 ⟨0, 0, 0⟩ 0 1e-3) qs (.done none) := by
  have hp : p.posneg = 1 := by
    show dopri5.sign 1.0 ((1 : ℝ) - 0.0) = 1
    rw [sign_abs (by norm_num)]
    norm_num
  have hm : p.hMax = 1 := by
    show |(1 : ℝ) - 0.0| = 1
    norm_num
  set g := firstGuess p ⟨0, 0, 0⟩ (f 0.0) with hg
  have g0 : 0 < g := firstGuess_pos hp (by rw [hm]; norm_num) _ _
  set h := secondGuess p ⟨0, 0, 0⟩ (f 0.0) (f (0.0 + g)) g with hh
  have h0 : 0 < h := secondGuess_pos hp (by rw [hm]; norm_num) _ _ _ g0
  have h1 : h ≤ 1 := by
    have : h = |min (100.0 * Scalar.abs g) (min (if Scalar.le (max (Scalar.sqrt (initNorm p ⟨0, 0, 0⟩ (f 0.0)))
      (Scalar.abs (Scalar.sqrt (initNorm p ⟨0, 0, 0⟩ (sub3 (f (0.0 + g)) (f 0.0))) / g))) 1e-15 = true
      then max 1e-6 (Scalar.abs g * 1e-3)
      else HasPowf.powf (0.01 / max (Scalar.sqrt (initNorm p ⟨0, 0, 0⟩ (f 0.0))) (Scalar.sqrt (initNorm p ⟨0, 0, 0⟩
        (sub3 (f (0.0 + g)) (f 0.0))) / g)) (1.0 / 5.0)) p.hMax)| := by
      rw [hh]
      simp only [secondGuess, fmin_real, fmax_real, hp]
      rw [sign_abs one_pos]
    rw [this, abs_le, ← hm]
    refine ⟨?_, (min_le_right _ _).trans (min_le_right _ _)⟩
    have hpos : (0 : ℝ) ≤ p.hMax := by rw [hm]; norm_num
    refine le_trans (neg_nonpos.2 hpos) (le_min (mul_nonneg (by norm_num) (abs_nonneg _)) (le_min ?_ hpos))
    split
    · exact le_trans (by norm_num) (le_max_left _ _)
    · exact Real.rpow_nonneg (div_nonneg (by norm_num) (le_trans (Real.sqrt_nonneg _) (le_max_left _ _))) _
  obtain ⟨qs, hq, hl, hr⟩ := loop_gives_up 12 100001
    { x := 0.0, xOld := 0.0, xd := 0.0, h := h, hOld := h, y := ⟨0, 0, 0⟩
      rcont0 := ⟨0.0, 0.0, 0.0⟩, rcont1 := ⟨0.0, 0.0, 0.0⟩, rcont2 := ⟨0.0, 0.0, 0.0⟩, rcont3 := ⟨0.0, 0.0, 0.0⟩
      rcont4 := ⟨0.0, 0.0, 0.0⟩
      facOld := 1.0e-4, reject := false, accepted := 0, iasti := 0, nonStiff := 0
      xOut := [], yOut := [] } rfl h0 h1
  refine ⟨(0.0, ⟨0, 0, 0⟩, f 0.0) :: (0.0 + g, add3 ⟨0, 0, 0⟩ (scale3 (f 0.0) g), f (0.0 + g)) ::
    (0.0, ⟨0, 0, 0⟩, f 0.0) :: qs, ?_, by simp [hl], ?_⟩
  · intro q h
    simp only [List.mem_cons] at h
    rcases h with rfl | rfl | rfl | h
    all_goals first | rfl | exact hq q h
  · unfold dopri5.solve
    exact .step (.step (.step hr))

example : ∃ l asked, Ended (fun t _ k => k = f t) 0 1e-3 ⟨0, 0, 0⟩ 1 l asked false := by
  obtain ⟨qs, hq, -, hr⟩ := gives_up
  obtain ⟨l, hl⟩ := C87_ends 11 1 0.1 0 1e-3 ⟨0, 0, 0⟩ one_pos (by norm_num) (by norm_num) (fun t _ k => k = f t) qs hq none hr
  exact ⟨l, _, hl⟩

end PoleExample

end Sett
