import Verif.Proofs.Controller
import Verif.Props.Near
import Verif.Spec.Succeeds

/-! # C86: the integrator gives up only for a reason -/

namespace Sett

open Spec dopri5

/-- Before a pass of an integration of tame rates. -/
structure Ready (A : ℝ → V3 ℝ → V3 ℝ → Prop) (p : Problem ℝ) (s : dopri5.State ℝ) (k0 : V3 ℝ) : Prop where
  nonneg : 0 ≤ s.x
  before : s.x < p.xEnd
  step : 0 < s.h
  size : s.h ≤ p.xEnd
  fac : 1e-4 ≤ s.facOld
  rate : A s.x s.y k0
  due : s.x ≤ s.xd
  iasti : s.iasti = 0

/-- At most `m` more steps: either the step size is still growing from a tiny start, or it is at least the
667th part of the whole. -/
def Budget (p : Problem ℝ) (s : dopri5.State ℝ) (m : Nat) : Prop :=
  (∃ n, s.h < 0.0015 * p.xEnd ∧ s.x ≤ 2 * s.h ∧ s.reject = false ∧ 0.0015 * p.xEnd ≤ s.h * 1.5 ^ n ∧ n + 667 ≤ m) ∨
    (0.0015 * p.xEnd ≤ s.h ∧ p.xEnd - s.x ≤ m * (0.0015 * p.xEnd))

theorem budget_proceeds {p : Problem ℝ} {s : dopri5.State ℝ} {m : Nat} (hx : 0 ≤ s.x) (hb : s.x < p.xEnd) (hh : 0 < s.h)
    (h : Budget p s m) : ¬Scalar.le (0.1 * Scalar.abs s.h) (2.220446049250313e-16 * Scalar.abs s.x) = true := by
  rw [real_le, real_abs, real_abs, abs_of_nonneg hx, abs_of_pos hh, not_le]
  rcases h with ⟨n, h1, h2, -⟩ | ⟨h1, -⟩
  · norm_num at h2 ⊢
    linarith
  · norm_num at h1 ⊢
    linarith

theorem budget_pos {p : Problem ℝ} {s : dopri5.State ℝ} {m : Nat} (hb : s.x < p.xEnd) (h : Budget p s m) : 1 ≤ m := by
  rcases h with ⟨n, -, -, -, -, h⟩ | ⟨-, h⟩
  · omega
  · rcases Nat.eq_zero_or_pos m with rfl | h0
    · simp at h
      linarith
    · exact h0

section
variable {A : ℝ → V3 ℝ → V3 ℝ → Prop} {p : Problem ℝ}

theorem loop_goes_on (hp : p.posneg = 1) (hm : p.hMax = p.xEnd) (hd : 0 < p.dx) (outs : Nat) (ho : p.xEnd < outs * p.dx)
    (herr : ∀ (x h : ℝ) (y : V3 ℝ) (k : Ks ℝ), 0 < h → A x y k.k0 → k.Answer A x y h →
      0 ≤ k.err p y h ∧ k.err p y h ≤ (h / (p.xEnd / 40)) ^ 2) (passes : Nat) :
    ∀ (m j : Nat) (s : dopri5.State ℝ) (k0 : V3 ℝ) (qs : List (ℝ × V3 ℝ × V3 ℝ)), Ready A p s k0 → Budget p s m →
      j ≤ 40 → s.h ≤ p.xEnd * 0.91 ^ (40 - j) → s.accepted + m < 1000 → 41 * m + j < passes → Answered A qs →
      ¬Reaches (loop p (outs + 1) passes s k0) qs (.done none) := by
  induction passes with
  | zero => intro m j s k0 qs _ _ _ _ _ h; omega
  | succ passes ih =>
    intro m j s k0 qs hI hB hj hsz hacc hpass hA h
    have hm1 := budget_pos hI.before hB
    have hpr := budget_proceeds hI.nonneg hI.before hI.step hB
    have hE : 0 < p.xEnd := lt_of_le_of_lt hI.nonneg hI.before
    have hlast : isLast p s = true ↔ 0 < s.x + 1.01 * s.h - p.xEnd := by
      unfold isLast
      rw [real_lt, hp, mul_one, lit_0]
    have htr : 0 < tried p s := by
      unfold tried
      split
      · exact sub_pos.2 hI.before
      · exact hI.step
    have htr' : tried p s ≤ 1.01 * s.h := by
      unfold tried
      split
      · rename_i hl
        rw [hlast] at hl
        linarith
      · have := hI.step
        norm_num
        linarith
    have hend : s.x + tried p s ≤ p.xEnd := by
      unfold tried
      split
      · linarith
      · rename_i hl
        rw [hlast, not_lt] at hl
        norm_num at hl
        linarith [hI.step]
    unfold loop at h
    rw [if_neg hpr] at h
    simp only [stages] at h
    obtain ⟨k1, _, h, hA, q1⟩ := reaches_eval h hA
    obtain ⟨k2, _, h, hA, q2⟩ := reaches_eval h hA
    obtain ⟨k3, _, h, hA, q3⟩ := reaches_eval h hA
    obtain ⟨k4, _, h, hA, q4⟩ := reaches_eval h hA
    obtain ⟨k5, _, h, hA, q5⟩ := reaches_eval h hA
    obtain ⟨k6, _, h, hA, q6⟩ := reaches_eval h hA
    set k : Ks ℝ := ⟨k0, k1, k2, k3, k4, k5, k6⟩ with hk
    have hans : k.Answer A s.x s.y (tried p s) := ⟨q1, q2, q3, q4, q5, q6⟩
    obtain ⟨e0, e1⟩ := herr s.x (tried p s) s.y k htr hI.rate hans
    by_cases hacc1 : k.err p s.y (tried p s) ≤ 1
    · obtain ⟨hNew, a1, a2, a3, a4⟩ := accept_yes hp s.reject htr (by positivity) hI.fac e0 e1 hacc1 (hm ▸ hE)
      rw [hm] at a2 a3 a4
      have hst : ∀ yS, stiffness { s with accepted := s.accepted + 1 } (tried p s) k.k6 k.k5
          (k.next s.y (tried p s)) yS = some (0, s.nonStiff) := by
        intro yS
        unfold stiffness
        rw [if_neg, hI.iasti]
        show ¬((s.accepted + 1) % 1000 = 0 ∨ 0 < s.iasti)
        rw [hI.iasti]
        omega
      obtain ⟨s', hs'⟩ := output_succeeds p hd outs (k.advance p s (tried p s) (0, s.nonStiff)) hI.nonneg
        (by show 0 ≤ s.x + tried p s; linarith [hI.nonneg]) hI.due
        (by
          show s.x + tried p s < s.xd + outs * p.dx
          linarith [hI.due, hI.nonneg])
      obtain ⟨ts, -, g2, g3⟩ := output_points (p := p) hd (outs + 1) (k.advance p s (tried p s) (0, s.nonStiff)) s'
        (by show 0 ≤ s.x + tried p s; linarith [hI.nonneg]) (by show 0 ≤ s.xd; linarith [hI.due, hI.nonneg]) hs'
      have hc := conclude_accepted (p := p) (outs := outs + 1) (next := loop p (outs + 1) passes) (last := isLast p s)
        (k := k) (yStiff := stage s.y (tried p s) [k0, k1, k2, k3, k4] a6) a1 (hst _) hs'
      replace h := (Eq.subst (motive := fun st => Reaches st _ (.done none)) hc h)
      cases hl : isLast p s with
      | true =>
        rw [hl, if_pos rfl] at h
        cases reaches_done h
      | false =>
        rw [hl, if_neg Bool.false_ne_true] at h
        have ht : tried p s = s.h := by unfold tried; rw [hl]; rfl
        rw [ht] at g2 g3 a3 a4 hend
        have e1 : s'.x = s.x + s.h := by rw [g2]; rfl
        have e2 : s'.y = k.next s.y s.h := by rw [g2]; rfl
        have e3 : s'.facOld = fmax (k.err p s.y s.h) 1.0e-4 := by rw [g2]; rfl
        have e4 : s'.iasti = 0 := by rw [g2]; rfl
        have e5 : s'.accepted = s.accepted + 1 := by rw [g2]; rfl
        have e6 : s'.reject = false := by rw [g2]; rfl
        have hl' := hl
        rw [← Bool.not_eq_true, hlast, not_lt] at hl'
        norm_num at hl'
        have hs := hI.step
        have hx0 := hI.nonneg
        have hn0 : 0 < hNew := accept_pos hp (hm ▸ hE) htr a1
        refine ih (m - 1) 40 { s' with h := hNew } k6 _ ?_ ?_ le_rfl ?_ ?_ (by omega) hA h
        · refine ⟨?_, ?_, hn0, a2, ?_, ?_, ?_, e4⟩
          · show 0 ≤ s'.x
            rw [e1]; linarith
          · show s'.x < p.xEnd
            rw [e1]; linarith
          · show 1e-4 ≤ s'.facOld
            rw [e3, fmax_real]
            exact le_trans (by norm_num) (le_max_right _ _)
          · show A s'.x s'.y k6
            rw [e1, e2]
            have := hans.s6
            rw [ht, c7, lit_1, mul_one] at this
            exact this
          · show s'.x ≤ s'.xd
            have : s.x + tried p s < s'.xd := by rw [ht]; exact g3
            rw [e1, ← ht]; exact this.le
        · have hmc : ((m - 1 : ℕ) : ℝ) = (m : ℝ) - 1 := by
            rw [Nat.cast_sub hm1]; norm_num
          have e40 : 0.06 * (p.xEnd / 40) = 0.0015 * p.xEnd := by ring
          rw [e40] at a3 a4
          by_cases hbig : 0.0015 * p.xEnd ≤ hNew
          · right
            refine ⟨hbig, ?_⟩
            show p.xEnd - s'.x ≤ _
            rw [e1, hmc]
            rcases hB with ⟨n, b1, b2, b3, b4, b5⟩ | ⟨b1, b2⟩
            · have : 1 ≤ n := by
                rcases Nat.eq_zero_or_pos n with rfl | h
                · simp at b4; linarith
                · exact h
              have h668 : (668 : ℝ) ≤ m := by exact_mod_cast (by omega : 668 ≤ m)
              have : (667 : ℝ) * (0.0015 * p.xEnd) ≤ ((m : ℝ) - 1) * (0.0015 * p.xEnd) :=
                mul_le_mul_of_nonneg_right (by linarith) (by positivity)
              norm_num at this ⊢
              linarith
            · linarith
          · left
            rcases hB with ⟨n, b1, b2, b3, b4, b5⟩ | ⟨b1, b2⟩
            · have hn1 : 1 ≤ n := by
                rcases Nat.eq_zero_or_pos n with rfl | h
                · simp at b4; linarith
                · exact h
              have hgrow : 1.5 * s.h ≤ hNew := by
                rcases a3 b3 b1.le with h | h
                · exact h
                · exact absurd (le_trans (by norm_num; linarith) h) hbig
              refine ⟨n - 1, not_le.1 hbig, ?_, e6, ?_, by omega⟩
              · show s'.x ≤ 2 * hNew
                rw [e1]
                norm_num at hgrow
                linarith
              · show 0.0015 * p.xEnd ≤ hNew * 1.5 ^ (n - 1)
                obtain ⟨n, rfl⟩ : ∃ a, n = a + 1 := ⟨n - 1, by omega⟩
                rw [Nat.add_sub_cancel]
                refine b4.trans ?_
                rw [pow_succ]
                have := mul_le_mul_of_nonneg_right hgrow (show (0 : ℝ) ≤ 1.5 ^ n by positivity)
                linarith
            · exact absurd (a4 b1 (by norm_num; linarith)) hbig
        · show hNew ≤ _
          simpa using a2
        · show s'.accepted + (m - 1) < 1000
          rw [e5]; omega
    · obtain ⟨hNew, a1, a2, a3, a4⟩ := accept_no (p := p) (facOld := s.facOld) (H := p.xEnd / 40) s.reject htr
        (by positivity) e1 (not_le.1 hacc1)
      have hc := conclude_rejected (outs := outs + 1) (next := loop p (outs + 1) passes) (last := isLast p s)
        (yStiff := stage s.y (tried p s) [k0, k1, k2, k3, k4] a6) a1
      replace h := (Eq.subst (motive := fun st => Reaches st _ (.done none)) hc h)
      have hj1 : 1 ≤ j := by
        rcases Nat.eq_zero_or_pos j with rfl | h
        · have h40 : p.xEnd * 0.91 ^ (40 - 0) ≤ 0.0235 * p.xEnd := by
            rw [mul_comm]
            exact mul_le_mul_of_nonneg_right (by norm_num) hE.le
          norm_num at htr' a2 hsz h40
          linarith
        · exact h
      have hn0 : 0 < hNew := by linarith
      refine ih m (j - 1) { s with h := hNew, reject := true } k0 _ ?_ ?_ (by omega) ?_ hacc (by omega) hA h
      · exact ⟨hI.nonneg, hI.before, hn0, by
          show hNew ≤ p.xEnd
          linarith [hI.nonneg], hI.fac, hI.rate, hI.due, hI.iasti⟩
      · right
        refine ⟨?_, ?_⟩
        · show 0.0015 * p.xEnd ≤ hNew
          norm_num
          linarith
        · rcases hB with ⟨n, b1, b2, b3, b4, b5⟩ | ⟨b1, b2⟩
          · norm_num at b1 htr'
            linarith
          · exact b2
      · show hNew ≤ p.xEnd * 0.91 ^ (40 - (j - 1))
        have e : 40 - (j - 1) = (40 - j) + 1 := by omega
        rw [e, pow_succ]
        have : hNew ≤ 0.91 * s.h := by norm_num at a4 htr' ⊢; linarith
        have h2 : 0.91 * s.h ≤ 0.91 * (p.xEnd * 0.91 ^ (40 - j)) := mul_le_mul_of_nonneg_left hsz (by norm_num)
        linarith


theorem initNorm_scaled {p : Problem ℝ} {σ B : ℝ} (hσ : 0 < σ) {y v : V3 ℝ} (h0 : σ ≤ p.atol + |y.y0| * p.rtol)
    (h1 : σ ≤ p.atol + |y.y1| * p.rtol) (h2 : σ ≤ p.atol + |y.y2| * p.rtol) (hv : ‖vec v‖ ≤ B * σ) :
    initNorm p y v ≤ 3 * B ^ 2 := by
  have key : ∀ s w : ℝ, σ ≤ s → |w| ≤ B * σ → (w / s) ^ 2 ≤ B ^ 2 := by
    intro s w hs hw
    have hB : 0 ≤ B := nonneg_of_mul_nonneg_left ((abs_nonneg _).trans hw) hσ
    have : |w / s| ≤ B := by
      rw [abs_div, abs_of_pos (hσ.trans_le hs), div_le_iff₀ (hσ.trans_le hs)]
      exact hw.trans (mul_le_mul_of_nonneg_left hs hB)
    rw [← sq_abs]
    exact pow_le_pow_left₀ (abs_nonneg _) this 2
  have hn : |v.y0| ≤ B * σ ∧ |v.y1| ≤ B * σ ∧ |v.y2| ≤ B * σ := by
    simp only [vec, Prod.norm_mk, Real.norm_eq_abs, max_le_iff] at hv
    exact hv
  have a := key _ _ h0 hn.1
  have b := key _ _ h1 hn.2.1
  have c := key _ _ h2 hn.2.2
  simp only [initNorm, lit_0, Scalar.powi2, real_abs]
  linarith

theorem firstGuess_lower {p : Problem ℝ} (hp : p.posneg = 1) (hm : 1e-10 ≤ p.hMax) {y f0 : V3 ℝ}
    (hd1 : initNorm p y f0 ≤ 3 * 1e20 ^ 2) : 1e-28 ≤ firstGuess p y f0 := by
  have hm' : (0 : ℝ) < p.hMax := lt_of_lt_of_le (by norm_num) hm
  simp only [firstGuess, fmin_real, hp]
  rw [sign_abs one_pos]
  refine le_trans (le_min ?_ (le_trans (by norm_num) hm)) (le_abs_self _)
  split
  · norm_num
  · rename_i hn
    rw [Bool.or_eq_true, real_lt, real_lt, not_or, not_lt, not_lt] at hn
    obtain ⟨g0, g1⟩ := hn
    have hp1 : 0 < initNorm p y f0 := lt_of_lt_of_le (by norm_num) g1
    have : (1e-26 : ℝ) ≤ Real.sqrt (initNorm p y y / initNorm p y f0) := by
      apply Real.le_sqrt_of_sq_le
      rw [le_div_iff₀ hp1]
      calc (1e-26 : ℝ) ^ 2 * initNorm p y f0 ≤ (1e-26) ^ 2 * (3 * 1e20 ^ 2) :=
            mul_le_mul_of_nonneg_left hd1 (by positivity)
        _ ≤ 1e-10 := by norm_num
        _ ≤ _ := g0
    rw [real_sqrt]
    calc (1e-28 : ℝ) = 0.01 * 1e-26 := by norm_num
      _ ≤ _ := mul_le_mul_of_nonneg_left this (by norm_num)

theorem secondGuess_lower {p : Problem ℝ} (hp : p.posneg = 1) (hm : 1e-10 ≤ p.hMax) {y f0 f1 : V3 ℝ} {h : ℝ}
    (hh : 1e-28 ≤ h) (hd1 : initNorm p y f0 ≤ 3 * 1e20 ^ 2) (hd2 : initNorm p y (sub3 f1 f0) ≤ 3 * (1e24 * h) ^ 2) :
    1e-26 ≤ secondGuess p y f0 f1 h ∧ secondGuess p y f0 f1 h ≤ p.hMax := by
  have hm' : (0 : ℝ) < p.hMax := lt_of_lt_of_le (by norm_num) hm
  have hpos : (0 : ℝ) < h := lt_of_lt_of_le (by norm_num) hh
  have hs1 : Real.sqrt (initNorm p y f0) ≤ 2e24 := by
    rw [Real.sqrt_le_left (by norm_num)]
    exact hd1.trans (by norm_num)
  have hs2 : Real.sqrt (initNorm p y (sub3 f1 f0)) / h ≤ 2e24 := by
    rw [div_le_iff₀ hpos, Real.sqrt_le_left (by positivity)]
    refine hd2.trans ?_
    have := sq_nonneg h
    nlinarith
  simp only [secondGuess, fmin_real, fmax_real, hp]
  rw [sign_abs one_pos]
  have hlow : (1e-26 : ℝ) ≤ min (100.0 * Scalar.abs h) (min (if Scalar.le (max (Scalar.sqrt (initNorm p y f0))
      (Scalar.abs (Scalar.sqrt (initNorm p y (sub3 f1 f0)) / h))) 1e-15 = true then max 1e-6 (Scalar.abs h * 1e-3)
      else HasPowf.powf (0.01 / max (Scalar.sqrt (initNorm p y f0)) (Scalar.sqrt (initNorm p y (sub3 f1 f0)) / h))
        (1.0 / 5.0)) p.hMax) := by
    refine le_min ?_ (le_min ?_ (le_trans (by norm_num) hm))
    · rw [real_abs, abs_of_pos hpos]
      calc (1e-26 : ℝ) = 100.0 * 1e-28 := by norm_num
        _ ≤ _ := mul_le_mul_of_nonneg_left hh (by norm_num)
    · split
      · exact le_trans (by norm_num) (le_max_left _ _)
      · rename_i hn
        rw [real_le, not_le, real_abs, real_sqrt, real_sqrt,
          abs_of_nonneg (div_nonneg (Real.sqrt_nonneg _) hpos.le)] at hn
        have hM : (0 : ℝ) < max (Real.sqrt (initNorm p y f0)) (Real.sqrt (initNorm p y (sub3 f1 f0)) / h) :=
          lt_trans (by norm_num) hn
        have hb : (1e-26 : ℝ) ^ 5 ≤ 0.01 / max (Real.sqrt (initNorm p y f0))
            (Real.sqrt (initNorm p y (sub3 f1 f0)) / h) := by
          rw [le_div_iff₀ hM]
          calc _ ≤ (1e-26 : ℝ) ^ 5 * 2e24 := mul_le_mul_of_nonneg_left (max_le hs1 hs2) (by positivity)
            _ ≤ _ := by norm_num
        have e : (1e-26 : ℝ) = ((1e-26 : ℝ) ^ 5) ^ ((1.0 : ℝ) / 5.0) := by
          rw [← Real.rpow_natCast, ← Real.rpow_mul (by norm_num)]
          norm_num
        calc (1e-26 : ℝ) = ((1e-26 : ℝ) ^ 5) ^ ((1.0 : ℝ) / 5.0) := e
          _ ≤ _ := Real.rpow_le_rpow (by positivity) hb (by norm_num)
  rw [abs_of_pos (lt_of_lt_of_le (by norm_num) hlow)]
  exact ⟨hlow, (min_le_right _ _).trans (min_le_right _ _)⟩

end

/-- **C86**, the integrator.  Suppose the rates it is answered are bounded by `M` and Lipschitz with constant `C`
in the state and `C K` in time, and the error allowed per step in each variable is at least `σ` wherever it asks.  If
`C (25 M + K) T² ≤ 10⁴ σ`, over a time `T` that is not absurdly short or long and with rates that are not absurd
compared to `σ`, the integrator does not give up: no step size underflow, no stiffness, no exhausted passes. -/
theorem C86_integrator (outs : Nat) (xEnd dx rtol atol : ℝ) (y : V3 ℝ) (A : ℝ → V3 ℝ → V3 ℝ → Prop) {M C K σ : ℝ}
    (hC : 0 ≤ C) (hK : 0 ≤ K) (hA : Gentle A M C K) (hσ : 0 < σ) (hr : 0 ≤ rtol)
    (hs : ∀ t y k, A t y k → σ ≤ atol + |y.y0| * rtol ∧ σ ≤ atol + |y.y1| * rtol ∧ σ ≤ atol + |y.y2| * rtol)
    (hx : 1e-10 ≤ xEnd) (hx' : xEnd ≤ 1e6) (hd : 0 < dx) (ho : xEnd < outs * dx) (hM : M ≤ 1e20 * σ)
    (hT : C * (25 * M + K) * xEnd ^ 2 ≤ 1e4 * σ) (qs : List (ℝ × V3 ℝ × V3 ℝ)) (hq : ∀ q ∈ qs, A q.1 q.2.1 q.2.2) :
    ¬Reaches (dopri5.solve (outs + 1) 0.0 xEnd dx y rtol atol) qs (.done none) := by
  intro h
  unfold dopri5.solve at h
  set p : Problem ℝ := { xEnd, dx, rtol, atol, hMax := Scalar.abs (xEnd - 0.0)
                         posneg := dopri5.sign 1.0 (xEnd - 0.0) } with hp
  have hx0 : 0 < xEnd := lt_of_lt_of_le (by norm_num) hx
  have hpos : p.posneg = 1 := by
    show dopri5.sign 1.0 (xEnd - 0.0) = 1
    rw [sign_abs (by rw [lit_0]; linarith)]
    norm_num
  have hmax : p.hMax = xEnd := by
    show |xEnd - 0.0| = xEnd
    rw [lit_0, sub_zero]; exact abs_of_pos hx0
  replace hq : Answered A qs := hq
  simp only [hinit] at h
  obtain ⟨f0, _, h, hq, a0⟩ := reaches_eval h hq
  obtain ⟨f1, _, h, hq, a1⟩ := reaches_eval h hq
  obtain ⟨k0, _, h, hq, ak⟩ := reaches_eval h hq
  obtain ⟨s0, s1, s2⟩ := hs _ _ _ a0
  have hM0 : 0 ≤ M := (norm_nonneg _).trans (hA.bound _ _ _ a0)
  have hd1 : initNorm p y f0 ≤ 3 * 1e20 ^ 2 :=
    initNorm_scaled hσ s0 s1 s2 ((hA.bound _ _ _ a0).trans hM)
  have b1 := firstGuess_lower hpos (hmax ▸ hx) hd1
  set g := firstGuess p y f0 with hg
  have hg0 : 0 < g := lt_of_lt_of_le (by norm_num) b1
  have hd2 : initNorm p y (sub3 f1 f0) ≤ 3 * (1e24 * g) ^ 2 := by
    refine initNorm_scaled hσ s0 s1 s2 ?_
    have e1 : vec (sub3 f1 f0) = vec f1 - vec f0 := rfl
    have e2 : vec (add3 y (scale3 f0 g)) - vec y = g • vec f0 := by
      simp only [add3, scale3, zip3, vec, Prod.smul_mk, Prod.mk_sub_mk, smul_eq_mul, Prod.mk.injEq]
      refine ⟨?_, ?_, ?_⟩ <;> ring
    have h1 := hA.lip _ _ _ _ _ _ a1 a0
    rw [e2, norm_smul, Real.norm_eq_abs, add_sub_cancel_left, abs_of_pos hg0] at h1
    rw [e1]
    refine h1.trans ?_
    have h2 : C * (g * ‖vec f0‖ + K * g) ≤ C * (25 * M + K) * g := by
      have : g * ‖vec f0‖ ≤ g * (25 * M) := mul_le_mul_of_nonneg_left (by linarith [hA.bound _ _ _ a0]) hg0.le
      have := mul_le_mul_of_nonneg_left (show g * ‖vec f0‖ + K * g ≤ (25 * M + K) * g by linarith) hC
      linarith
    have h3 : C * (25 * M + K) ≤ 1e24 * σ := by
      have h4 : C * (25 * M + K) * 1e-10 ^ 2 ≤ C * (25 * M + K) * xEnd ^ 2 :=
        mul_le_mul_of_nonneg_left (pow_le_pow_left₀ (by norm_num) hx 2) (by positivity)
      have := h4.trans hT
      norm_num at this ⊢
      linarith
    have h5 := mul_le_mul_of_nonneg_right h3 hg0.le
    linarith
  obtain ⟨b2, b3⟩ := secondGuess_lower hpos (hmax ▸ hx) b1 hd1 hd2
  rw [hmax] at b3
  set h0 := secondGuess p y f0 f1 g with hh0
  have hh : 0 < h0 := lt_of_lt_of_le (by norm_num) b2
  refine loop_goes_on hpos hmax hd outs ho (A := A) ?_ 100001 833 40 _ k0 _ ?_ ?_ le_rfl ?_ ?_ (by norm_num) hq h
  · intro x u z k hu hk0 hk
    obtain ⟨c0, c1, c2⟩ := hs _ _ _ hk0
    obtain ⟨e0, e1⟩ := err_le hC hK hA (p := p) hσ hr hu c0 c1 c2 hk0 hk
    refine ⟨e0, e1.trans ?_⟩
    show _ ≤ (u / (xEnd / 40)) ^ 2
    have e : (u / (xEnd / 40)) ^ 2 = 1600 * u ^ 2 / xEnd ^ 2 := by field_simp; norm_num
    rw [e, div_le_div_iff₀ hσ (by positivity)]
    have := mul_le_mul_of_nonneg_left hT (show 0 ≤ 0.16 * u ^ 2 by positivity)
    norm_num at this ⊢
    linarith
  · exact ⟨by show (0 : ℝ) ≤ 0.0; norm_num, by show (0.0 : ℝ) < xEnd; rw [lit_0]; exact hx0, hh, b3,
      by show (1e-4 : ℝ) ≤ 1.0e-4; norm_num, ak, le_rfl, rfl⟩
  · by_cases hb : 0.0015 * xEnd ≤ h0
    · right
      refine ⟨hb, ?_⟩
      show xEnd - 0.0 ≤ (833 : ℕ) * (0.0015 * xEnd)
      norm_num
      linarith
    · left
      refine ⟨166, not_le.1 hb, ?_, rfl, ?_, by norm_num⟩
      · show (0.0 : ℝ) ≤ 2 * h0
        rw [lit_0]; linarith
      · show 0.0015 * xEnd ≤ h0 * 1.5 ^ 166
        calc 0.0015 * xEnd ≤ 0.0015 * 1e6 := mul_le_mul_of_nonneg_left hx' (by norm_num)
          _ ≤ 1e-26 * 1.5 ^ 166 := by norm_num
          _ ≤ _ := mul_le_mul_of_nonneg_right b2 (by positivity)
  · show h0 ≤ xEnd * _
    simpa using b3
  · show 0 + 833 < 1000
    norm_num

/-! ## The crate's use of it -/

/-- Questions asked in order, the answers being right. -/
theorem reaches_prefix {st : Stepper ℝ} {qs : List (ℝ × V3 ℝ × V3 ℝ)} {out : Option (List ℝ × List (V3 ℝ))}
    (h : Reaches st qs (.done out)) (j : Nat) (hj : j < qs.length) :
    ∃ k, Reaches st (qs.take j) (.eval qs[j].1 qs[j].2.1 k) := by
  generalize hst : Stepper.done out = st' at h
  induction h generalizing j with
  | refl st => simp at hj
  | @step t y k dy qs st' h ih =>
    cases j with
    | zero => exact ⟨k, .refl _⟩
    | succ j =>
      obtain ⟨k', h'⟩ := ih j (by simpa using hj) hst
      exact ⟨k', by simpa using Reaches.step (t := t) (y := y) h'⟩

theorem goodLog_take {cycle : Cycle ℝ} {first : FlowDirection} {log : List (Evaluation ℝ)}
    (h : GoodLog cycle first log) (j : Nat) : GoodLog cycle first (log.take j) := by
  intro n e he
  rw [List.getElem?_take] at he
  split at he
  · rename_i hn
    obtain ⟨h1, h2⟩ := h n e he
    refine ⟨h1, ?_⟩
    rcases h2 with h2 | ⟨m, p, h3, h4, h5⟩
    · exact .inl h2
    · exact .inr ⟨m, p, h3, by rw [List.getElem?_take, if_pos (by omega)]; exact h4, h5⟩
  · cases he

theorem answered_rates {r : Run ℝ} {L : Limits} {log : List (Evaluation ℝ)} {first : FlowDirection}
    (hg : GoodLog r.toCycle first log) (hw : ∀ e ∈ log, WithinLimits r L e.time e.conditions) :
    ∀ q ∈ log.map question, runRates r L q.1 q.2.1 q.2.2 := by
  intro q hq
  obtain ⟨e, he, rfl⟩ := List.mem_map.1 hq
  obtain ⟨j, hj, rfl⟩ := List.mem_iff_getElem.1 he
  obtain ⟨g, -⟩ := hg j _ (List.getElem?_eq_getElem hj)
  exact ⟨hw _ he, _, _, g.solved, g.deriv⟩

theorem within_scale {r : Run ℝ} {L : Limits} {tol : OdeTolerance ℝ} (hr : 0 ≤ tol.rel) {t : ℝ} {y k : V3 ℝ}
    (h : runRates r L t y k) : leastAllowed tol L ≤ tol.abs + |y.y0| * tol.rel ∧
      leastAllowed tol L ≤ tol.abs + |y.y1| * tol.rel ∧ leastAllowed tol L ≤ tol.abs + |y.y2| * tol.rel := by
  obtain ⟨w, -⟩ := h
  have a0 : L.Pmin ≤ y.y0 := w.pres.1
  have a1 : 100 ≤ y.y1 := w.comp_temp.1
  have a2 : 100 ≤ y.y2 := w.exp_temp.1
  have key : ∀ a : ℝ, min L.Pmin 100 ≤ a → leastAllowed tol L ≤ tol.abs + |a| * tol.rel := fun a ha =>
    add_le_add le_rfl (mul_le_mul_of_nonneg_right (ha.trans (le_abs_self _)) hr)
  exact ⟨key _ ((min_le_left _ _).trans a0), key _ ((min_le_right _ _).trans a1), key _ ((min_le_right _ _).trans a2)⟩

/-- The integration succeeds, with the constants of the rates given. -/
theorem gentle_succeeds {r : Run ℝ} {n : GasName} (hf : r.fluid = (IdealGas.new n).toFluid) (hs : SaneRun r)
    (hT : Sound r.solver) (hc : Complete r.solver) {L : Limits} {M C K : ℝ} (hC : 0 ≤ C) (hK : 0 ≤ K) (hA : Gentle (runRates r L) M C K)
    (hp : 1e-10 ≤ r.period) (hp' : r.period < 1e6 - 1) {outs : Nat} {env : Env ℝ} {ic : Conditions ℝ} {num : UInt32}
    {tol : OdeTolerance ℝ} (ho : env.ode = dopri5.solve outs) (hn : 2 ≤ num.toNat)
    (hres : ((num.toNat : ℝ) - 1) * 1e-14 < r.period) (hout : num.toNat + 2 ≤ outs) (hr : 0 ≤ tol.rel)
    (hσ : 0 < leastAllowed tol L) (hM : M ≤ 1e20 * leastAllowed tol L)
    (hτ : C * (25 * M + K) * (r.period + 1e-14) ^ 2 ≤ 1e4 * leastAllowed tol L)
    (hw : StaysWithin env r L ic num tol) : ∃ pts, integrationTryFrom env r.toCycle ic num tol = .ok pts := by
  have hn1 : (1 : ℝ) < num.toNat := by exact_mod_cast hn
  have hp0 : 0 < r.period := lt_of_lt_of_le (by norm_num) hp
  obtain ⟨dx, hdx⟩ : ∃ dx, timeStep env.build r.period num = .ok dx := by
    have hne : num ≠ 0 := by rintro rfl; exact absurd hn (by decide)
    unfold timeStep pointsMinusOne
    cases env.build
    · simp [hne]
    · exact ⟨_, rfl⟩
  have hdx' := timeStep_eq hn hdx
  have hd : 1e-14 < dx := by
    rw [hdx', lt_div_iff₀ (by linarith)]; linarith
  have hd0 : 0 < dx := lt_trans (by norm_num) hd
  obtain ⟨outs, rfl⟩ : ∃ o, outs = o + 1 := ⟨outs - 1, by omega⟩
  have hfit : r.period + 1e-14 < outs * dx := by
    have e : ((num.toNat : ℝ) - 1) * dx = r.period := by
      rw [hdx']; field_simp [show (num.toNat : ℝ) - 1 ≠ 0 by linarith]
    have : (num.toNat : ℝ) + 1 ≤ outs := by exact_mod_cast (by omega : num.toNat + 1 ≤ outs)
    have := mul_le_mul_of_nonneg_right this hd0.le
    linarith
  have hdx2 : timeStep env.build r.toCycle.period num = .ok dx := hdx
  cases hrun : (startStepper env r.toCycle ic dx tol).run r.toCycle FlowDirection.default with
  | error f =>
    obtain ⟨-, log, t, y, k, err, h2, h3, h4⟩ := run_error _ _ _ _ hrun
    have w := hw dx log t y k hdx h2 h3
    obtain ⟨s, hs'⟩ := C59_run_solve r n hf hT hc t _ (physical_of_within hs w)
    have h5 : solve r.solver (r.calculate_inputs t (conditionsOf y)) (dirAfter FlowDirection.default log)
      = .error err := h4
    rw [hs'] at h5
    cases h5
  | ok v =>
    obtain ⟨out, log⟩ := v
    obtain ⟨h1, h2⟩ := (run_ok_iff _ _ _ _ _).1 hrun
    have hlog : ∀ e ∈ log, WithinLimits r L e.time e.conditions := by
      intro e he
      obtain ⟨j, hj, rfl⟩ := List.mem_iff_getElem.1 he
      obtain ⟨k, hk⟩ := reaches_prefix h1 j (by simpa using hj)
      rw [← List.map_take] at hk
      have := hw dx (log.take j) _ _ k hdx hk (goodLog_take h2 j)
      simpa [question, stateVector, conditionsOf] using this
    cases out with
    | some o => exact ⟨_, by unfold integrationTryFrom; rw [hdx2]; simp only [hrun]; rfl⟩
    | none =>
      refine absurd h1 ?_
      unfold startStepper
      rw [ho]
      exact C86_integrator outs (r.period + 1e-14) dx tol.rel tol.abs _ (runRates r L) hC hK hA hσ hr
        (fun t y k h => within_scale hr h) (by linarith) (by norm_num at hp' ⊢; linarith) hd0 hfit hM hτ _ (answered_rates h2 hlog)

/-- **C86.** Within given limits there is a tolerance `τ`, depending only on the run, the limits and the drive,
such that the integration of one cycle succeeds whenever it only asks about states within the limits and allows an
error of at least `τ` per step: neither does the solver fail, nor does the integrator give up. -/
theorem C86_succeeds {r : Run ℝ} {n : GasName} (hf : r.fluid = (IdealGas.new n).toFluid) (hs : SaneRun r)
    (hT : Sound r.solver) (hc : Complete r.solver) (L : Limits) {K : ℝ} (hK : 0 ≤ K) (hd : SteadyDrive r K)
    (hp : 1e-10 ≤ r.period) (hp' : r.period < 1e6 - 1) : ∃ τ, 0 < τ ∧
      ∀ (outs : Nat) (env : Env ℝ) (ic : Conditions ℝ) (num : UInt32) (tol : OdeTolerance ℝ),
      env.ode = dopri5.solve outs → 2 ≤ num.toNat → ((num.toNat : ℝ) - 1) * 1e-14 < r.period → num.toNat + 2 ≤ outs →
      0 ≤ tol.rel → τ ≤ leastAllowed tol L → StaysWithin env r L ic num tol →
      ∃ pts, integrationTryFrom env r.toCycle ic num tol = .ok pts := by
  obtain ⟨M, C, hM, hC, hA⟩ := runRates_tame hf hs hT L hK hd
  have hp0 : 0 < r.period := lt_of_lt_of_le (by norm_num) hp
  refine ⟨M + C * (25 * M + 1) * (r.period + 1e-14) ^ 2, by positivity, ?_⟩
  intro outs env ic num tol ho hn hres hout hr hτ hw
  have h1 : 0 < C * (25 * M + 1) * (r.period + 1e-14) ^ 2 := by positivity
  exact gentle_succeeds hf hs hT hc hC.le zero_le_one hA.gentle hp hp' ho hn hres hout hr (by linarith)
    (by norm_num; linarith) (by norm_num at hτ h1 ⊢; linarith) hw

end Sett
