import Verif.Props.SameCycle
import Mathlib.Tactic.NormNum.Pow
import Mathlib.Tactic.Ring

/-! # Rates that are cubic in time are integrated exactly (C74) -/

namespace Sett

open Spec state_equations dopri5

/-- A polynomial of degree at most four. -/
structure Quartic where
  a0 : ℝ
  a1 : ℝ
  a2 : ℝ
  a3 : ℝ
  a4 : ℝ

/-- Its value. -/
noncomputable def Quartic.eval (q : Quartic) (t : ℝ) : ℝ :=
  q.a0 + q.a1 * t + q.a2 * t ^ 2 + q.a3 * t ^ 3 + q.a4 * t ^ 4

/-- The value of its derivative. -/
noncomputable def Quartic.deriv (q : Quartic) (t : ℝ) : ℝ :=
  q.a1 + 2 * q.a2 * t + 3 * q.a3 * t ^ 2 + 4 * q.a4 * t ^ 3

/-- A curve with three such coordinates. -/
noncomputable def curve (q : V3 Quartic) (t : ℝ) : V3 ℝ := ⟨q.y0.eval t, q.y1.eval t, q.y2.eval t⟩
/-- Its velocity. -/
noncomputable def speed (q : V3 Quartic) (t : ℝ) : V3 ℝ := ⟨q.y0.deriv t, q.y1.deriv t, q.y2.deriv t⟩

theorem V3.ext' {a b : V3 ℝ} (h0 : a.y0 = b.y0) (h1 : a.y1 = b.y1) (h2 : a.y2 = b.y2) : a = b := by
  cases a; cases b; cases h0; cases h1; cases h2; rfl

/-- The derivatives of a step along the curve. -/
noncomputable def along (q : V3 Quartic) (x h : ℝ) : Ks ℝ :=
  { k0 := speed q x, k1 := speed q (x + h * c2), k2 := speed q (x + h * c3), k3 := speed q (x + h * c4)
    k4 := speed q (x + h * c5), k5 := speed q (x + h * c6), k6 := speed q (x + h * c7) }

theorem along_next (q : V3 Quartic) (x h : ℝ) : (along q x h).next (curve q x) h = curve q (x + h) := by
  simp only [Ks.next, along, stage, a7, List.zip_cons_cons, List.zip_nil_left, List.foldl_cons,
    List.foldl_nil, add3, zip3, scale3, curve, speed, c2, c3, c4, c5, c6]
  apply V3.ext' <;>
  · simp only [Quartic.eval, Quartic.deriv]
    norm_num
    ring

theorem along_err (q : V3 Quartic) (x h : ℝ) :
    weighted [(along q x h).k0, (along q x h).k2, (along q x h).k3, (along q x h).k4, (along q x h).k5,
      (along q x h).k6] dopri5.e = ⟨0, 0, 0⟩ := by
  simp only [weighted, dopri5.e, along, List.zip_cons_cons, List.zip_nil_left, List.foldl_cons,
    List.foldl_nil, add3, zip3, scale3, speed, c3, c4, c5, c6, c7]
  apply V3.ext' <;>
  · simp only [Quartic.deriv]
    norm_num
    ring

theorem along_interpolate (q : V3 Quartic) (p : Problem ℝ) (s : dopri5.State ℝ) (h θ : ℝ) (st : Nat × Nat)
    (hy : s.y = curve q s.x) :
    interpolate ((along q s.x h).advance p s h st) θ = curve q (s.x + θ * h) := by
  simp only [interpolate, Ks.advance, advance, along_next, hy]
  simp only [along, weighted, dopri5.d, List.zip_cons_cons, List.zip_nil_left, List.foldl_cons,
    List.foldl_nil, add3, sub3, zip3, scale3, curve, speed, c3, c4, c5, c6, c7]
  apply V3.ext' <;>
  · simp only [Quartic.eval, Quartic.deriv]
    norm_num
    ring

/-- The answers of a step are those along the curve. -/
theorem answer_along {q : V3 Quartic} {k : Ks ℝ} {x h : ℝ} {y : V3 ℝ} (h0 : k.k0 = speed q x)
    (hk : k.Answer (fun t _ dy => dy = speed q t) x y h) : k = along q x h := by
  obtain ⟨h1, h2, h3, h4, h5, h6⟩ := hk
  cases k
  simp only at h0 h1 h2 h3 h4 h5 h6
  rw [along, h0, h1, h2, h3, h4, h5, h6]

/-- Before a pass: on the curve, and every point emitted is on it. -/
structure OnCurve (q : V3 Quartic) (xEnd : ℝ) (s : dopri5.State ℝ) (k0 : V3 ℝ) : Prop where
  before : s.x < xEnd
  step : 0 < s.h
  y : s.y = curve q s.x
  k0 : k0 = speed q s.x
  out : s.yOut = s.xOut.map (curve q)

/-- **C74**, the integrator.  If the derivatives answered are those of a curve whose coordinates are
polynomials in time of degree at most four, every value reported is exactly on the curve, whatever the step
sizes and the output interval. -/
theorem C74_exact (outs : Nat) (xEnd dx rtol atol : ℝ) (q : V3 Quartic) (hx : 0 < xEnd)
    (qs : List (ℝ × V3 ℝ × V3 ℝ)) (hA : ∀ r ∈ qs, r.2.2 = speed q r.1) (xs : List ℝ) (ys : List (V3 ℝ))
    (h : Reaches (dopri5.solve outs 0.0 xEnd dx (curve q 0) rtol atol) qs (.done (some (xs, ys)))) :
    ys = xs.map (curve q) := by
  unfold dopri5.solve at h
  set p : Problem ℝ := { xEnd, dx, rtol, atol, hMax := Scalar.abs (xEnd - 0.0)
                         posneg := dopri5.sign 1.0 (xEnd - 0.0) } with hp
  have hpos : p.posneg = 1 := by
    show dopri5.sign 1.0 (xEnd - 0.0) = 1
    unfold dopri5.sign
    rw [if_pos ((real_lt _ _).2 (by rw [lit_0]; linarith))]
    norm_num
  have hmax : 0 < p.hMax := by
    show 0 < |xEnd - 0.0|
    rw [lit_0, sub_zero]; exact abs_pos.2 hx.ne'
  replace hA : Answered (fun t _ dy => dy = speed q t) qs := hA
  obtain ⟨h0, qs', hh0, hA, h⟩ := hinit_pos hpos hmax hA h
  obtain ⟨k0, qs', h, hA, hk0⟩ := reaches_eval h hA
  have key := fun hI => reaches_loop p outs (fun t _ dy => dy = speed q t)
    (fun s k0 => OnCurve q xEnd s k0) (fun s => s.yOut = s.xOut.map (curve q))
    (by
      intro s k st s' hNew hI hpr hans hacc hout
      have htr : 0 < tried p s := by
        unfold tried
        split
        · exact sub_pos.2 hI.before
        · exact hI.step
      have hn := accept_pos hpos hmax htr hacc
      have hk := answer_along hI.k0 hans
      subst hk
      have hi := fun θ => along_interpolate q p s (tried p s) θ st hI.y
      obtain ⟨⟨e1, e2, e3, e4, e5, e6⟩, -⟩ := output_invariant p
        (fun t => t.x = s.x + tried p s ∧ t.y = curve q (s.x + tried p s) ∧ t.xOld = s.x ∧
          t.hOld = tried p s ∧ (∀ θ, interpolate t θ = curve q (s.x + θ * tried p s)) ∧
          t.yOut = t.xOut.map (curve q))
        (by
          rintro t ⟨e1, e2, e3, e4, e5, e6⟩ - -
          refine ⟨e1, e2, e3, e4, e5, ?_⟩
          show t.yOut ++ [interpolate t ((t.xd - t.xOld) / t.hOld)] = _
          rw [List.map_append, e6, e5, e3, e4, div_mul_cancel₀ _ htr.ne']
          simp) outs _ s'
        ⟨rfl, by show Ks.next _ _ _ = _; rw [hI.y, along_next], rfl, rfl, hi, hI.out⟩ hout
      split
      · exact e6
      · rename_i hl
        have ht : tried p s = s.h := by unfold tried; rw [if_neg hl]
        unfold isLast at hl
        rw [real_lt, hpos, mul_one, lit_0, not_lt] at hl
        refine ⟨?_, hn, by rw [e2, e1], ?_, e6⟩
        · show s'.x < xEnd
          rw [e1, ht]
          have := hI.step
          change s.x + 1.01 * s.h - xEnd ≤ 0 at hl
          norm_num at hl
          linarith
        · show speed q (s.x + tried p s * c7) = speed q s'.x
          rw [e1, c7, lit_1, mul_one])
    (by
      intro s k hNew hI hpr _ hacc
      have htr : 0 < tried p s := by
        unfold tried
        split
        · exact sub_pos.2 hI.before
        · exact hI.step
      exact ⟨hI.before, accept_pos hpos hmax htr hacc, hI.y, hI.k0, hI.out⟩)
    _ _ _ _ _ _ hI hA h
  obtain ⟨s', h1, h2, h3⟩ := key ⟨by show (0.0 : ℝ) < xEnd; rw [lit_0]; exact hx, hh0,
      by show curve q 0 = curve q 0.0; rw [lit_0], hk0, rfl⟩
  rw [h2, h3, h1]

/-! ## And the integration succeeds -/

/-- Asked for derivatives and answered by `f`, the integrator finishes with `out`. -/
def Yields {α : Type} (f : α → V3 α) (st : Stepper α) (out : Option (List α × List (V3 α))) : Prop :=
  ∃ qs, Reaches st qs (.done out) ∧ ∀ r ∈ qs, r.2.2 = f r.1

theorem yields_eval {α : Type} {f : α → V3 α} {t : α} {y : V3 α} {k : V3 α → Stepper α}
    {out : Option (List α × List (V3 α))} (h : Yields f (k (f t)) out) : Yields f (.eval t y k) out := by
  obtain ⟨qs, h1, h2⟩ := h
  refine ⟨_, .step h1, ?_⟩
  intro r hr
  rcases List.mem_cons.1 hr with rfl | hr
  · rfl
  · exact h2 r hr

theorem yields_done {α : Type} {f : α → V3 α} {out : Option (List α × List (V3 α))} : Yields f (.done out) out :=
  ⟨[], .refl _, by simp⟩

theorem output_succeeds (p : Problem ℝ) (hd : 0 < p.dx) (outs : Nat) : ∀ s : dopri5.State ℝ,
    0 ≤ s.xOld → 0 ≤ s.x → s.xOld ≤ s.xd → s.x < s.xd + outs * p.dx →
    ∃ s', output p (outs + 1) s = some s' := by
  induction outs with
  | zero =>
    intro s h0 h1 h2 h3
    unfold output
    rw [if_neg]
    · exact ⟨_, rfl⟩
    · rw [real_le, real_abs, real_abs, abs_of_nonneg h1, abs_of_nonneg (h0.trans h2), not_le]
      simpa using h3
  | succ n ih =>
    intro s h0 h1 h2 h3
    unfold output
    split
    · rename_i h4
      rw [if_pos]
      · refine ih _ h0 h1 ?_ ?_
        · show s.xOld ≤ s.xd + p.dx
          linarith
        · show s.x < s.xd + p.dx + n * p.dx
          push_cast at h3
          linarith
      · rw [Bool.and_eq_true]
        refine ⟨?_, h4⟩
        rw [real_le, real_abs, real_abs, abs_of_nonneg h0, abs_of_nonneg (h0.trans h2)]
        exact h2
    · exact ⟨_, rfl⟩

/-- A step without error is accepted and the next may be ten times as long, within `hMax`. -/
theorem accept_zero {p : Problem ℝ} (hp : p.posneg = 1) (facOld h : ℝ) :
    accept p facOld false 0 h = (true, if p.hMax < |10 * h| then p.hMax else 10 * h) := by
  have e0 : HasPowf.powf (0 : ℝ) (0.2 - 0.04 * 0.75) = 0 :=
    Real.zero_rpow (by norm_num)
  have e1 : max ((1.0 : ℝ) / 10.0) (min (1.0 / 0.2) (0 / 0.9)) = 1 / 10 := by norm_num
  simp only [accept, e0, zero_mul, fmax_real, fmin_real, e1]
  rw [if_pos ((real_le _ _).2 (by norm_num)), hp, one_mul]
  have e2 : h / (1 / 10) = 10 * h := by ring
  simp only [e2, Bool.false_eq_true, ↓reduceIte, Prod.mk.injEq, true_and]
  rw [one_mul]
  congr 1
  exact propext (real_lt _ _)

/-- Before a pass of an integration without error. -/
structure Errorless (q : V3 Quartic) (p : Problem ℝ) (s : dopri5.State ℝ) : Prop where
  nonneg : 0 ≤ s.x
  before : s.x < p.xEnd
  step : 0 < s.h
  size : s.x ≤ 2 * s.h
  y : s.y = curve q s.x
  due : s.x ≤ s.xd
  reject : s.reject = false
  iasti : s.iasti = 0

theorem errorNorm_zero (p : Problem ℝ) (y yNext : V3 ℝ) : errorNorm p y yNext ⟨0, 0, 0⟩ = 0 := by
  simp only [errorNorm, scaled, zero_div, real_sqrt]
  norm_num [lit_0]

theorem along_errorNorm (q : V3 Quartic) (p : Problem ℝ) (x h : ℝ) (y : V3 ℝ) :
    (along q x h).err p y h = 0 := by
  unfold Ks.err
  rw [along_err]
  have : scale3 (⟨0, 0, 0⟩ : V3 ℝ) h = ⟨0, 0, 0⟩ := by simp [scale3]
  rw [this, errorNorm_zero]

theorem pass_succeeds (q : V3 Quartic) (p : Problem ℝ) (outs : Nat) (hp : p.posneg = 1)
    (hm : p.hMax = p.xEnd) (hd : 0 < p.dx) (ho : p.xEnd < outs * p.dx) (s : dopri5.State ℝ)
    (hI : Errorless q p s) (hacc : s.accepted < 999) (M : Nat) :
    (isLast p s = true → ∃ out, Yields (speed q) (loop p (outs + 1) (M + 1) s (speed q s.x)) (some out)) ∧
    (isLast p s = false → ∃ s', Errorless q p s' ∧ s'.accepted = s.accepted + 1 ∧
      (p.xEnd ≤ s'.h ∨ s'.h = 10 * s.h) ∧
      ∀ out, Yields (speed q) (loop p (outs + 1) M s' (speed q s'.x)) out →
        Yields (speed q) (loop p (outs + 1) (M + 1) s (speed q s.x)) out) := by
  have htr : 0 < tried p s := by
    unfold tried
    split
    · exact sub_pos.2 hI.before
    · exact hI.step
  have hlast : isLast p s = true ↔ 0 < s.x + 1.01 * s.h - p.xEnd := by
    unfold isLast
    rw [real_lt, hp, mul_one, lit_0]
  have hend : s.x + tried p s ≤ p.xEnd := by
    unfold tried
    split
    · linarith
    · rename_i hl
      rw [hlast, not_lt] at hl
      norm_num at hl
      linarith [hI.step]
  have hpr : ¬Scalar.le (0.1 * Scalar.abs s.h) (2.220446049250313e-16 * Scalar.abs s.x) = true := by
    rw [real_le, real_abs, real_abs, abs_of_nonneg hI.nonneg, abs_of_pos hI.step, not_le]
    have h1 := hI.size
    have h2 := hI.step
    norm_num
    linarith
  have hst : stiffness { s with accepted := s.accepted + 1 } (tried p s) (along q s.x (tried p s)).k6
      (along q s.x (tried p s)).k5 ((along q s.x (tried p s)).next s.y (tried p s))
      (stage s.y (tried p s) [(along q s.x (tried p s)).k0, (along q s.x (tried p s)).k1,
        (along q s.x (tried p s)).k2, (along q s.x (tried p s)).k3, (along q s.x (tried p s)).k4] a6)
      = some (0, s.nonStiff) := by
    unfold stiffness
    rw [if_neg, hI.iasti]
    show ¬((s.accepted + 1) % 1000 = 0 ∨ 0 < s.iasti)
    rw [hI.iasti]
    omega
  obtain ⟨s', hs'⟩ := output_succeeds p hd outs
    ((along q s.x (tried p s)).advance p s (tried p s) (0, s.nonStiff)) hI.nonneg
    (by show 0 ≤ s.x + tried p s; linarith [hI.nonneg]) hI.due
    (by
      show s.x + tried p s < s.xd + outs * p.dx
      linarith [hI.due, hI.nonneg])
  obtain ⟨⟨e1, e2, e3, e4, e5⟩, e6⟩ := output_invariant p
    (fun t => t.x = s.x + tried p s ∧ t.y = curve q (s.x + tried p s) ∧ t.reject = false ∧
      t.iasti = 0 ∧ t.accepted = s.accepted + 1 ∧ 0 ≤ t.xd)
    (by
      rintro t ⟨e1, e2, e3, e4, e5, e6⟩ - -
      refine ⟨e1, e2, e3, e4, e5, ?_⟩
      show 0 ≤ t.xd + p.dx
      linarith) (outs + 1) ((along q s.x (tried p s)).advance p s (tried p s) (0, s.nonStiff)) s'
    ⟨rfl, by show Ks.next _ _ _ = _; rw [hI.y, along_next], rfl, rfl, rfl, hI.nonneg.trans hI.due⟩ hs'
  have hone : ∀ out, Yields (speed q) (if isLast p s = true then .done (some (s'.xOut, s'.yOut)) else
      loop p (outs + 1) M { s' with h := if p.hMax < |10 * tried p s| then p.hMax else 10 * tried p s }
        (along q s.x (tried p s)).k6) out →
      Yields (speed q) (loop p (outs + 1) (M + 1) s (speed q s.x)) out := by
    intro out h
    unfold loop
    rw [if_neg hpr]
    simp only [stages]
    iterate 6 refine yields_eval ?_
    refine Eq.subst (motive := fun st => Yields (speed q) st out)
      (conclude_accepted (k := along q s.x (tried p s)) (next := loop p (outs + 1) M) (last := isLast p s)
        (hNew := if p.hMax < |10 * tried p s| then p.hMax else 10 * tried p s) ?_ hst hs').symm h
    rw [along_errorNorm, hI.reject, accept_zero hp]
  refine ⟨fun hl => ⟨_, hone _ (by rw [if_pos hl]; exact yields_done)⟩, fun hl => ?_⟩
  have ht : tried p s = s.h := by unfold tried; rw [hl]; rfl
  rw [hl, if_neg Bool.false_ne_true, ht] at hone
  rw [ht] at e1 e2
  have hl' := hl
  rw [← Bool.not_eq_true, hlast, not_lt] at hl'
  norm_num at hl'
  have hs := hI.step
  have h0 := hI.nonneg
  have hx : s'.x < p.xEnd := by rw [e1]; linarith
  have hxd : s'.x ≤ s'.xd := by
    rw [real_le, real_abs, real_abs, abs_of_nonneg e5.2, e1, abs_of_nonneg (by linarith), not_le] at e6
    rw [e1]; exact e6.le
  have hh : (if p.hMax < |10 * s.h| then p.hMax else 10 * s.h)
      = if p.xEnd < 10 * s.h then p.xEnd else 10 * s.h := by
    rw [hm, abs_of_pos (by linarith)]
  refine ⟨{ s' with h := if p.hMax < |10 * s.h| then p.hMax else 10 * s.h },
    ⟨?_, hx, ?_, ?_, ?_, hxd, e3, e4⟩, e5.1, ?_, ?_⟩
  · show 0 ≤ s'.x
    rw [e1]; linarith
  · show 0 < _
    rw [hh]
    split <;> linarith
  · show s'.x ≤ 2 * _
    rw [hh]
    split
    · linarith
    · rw [e1]; linarith [hI.size]
  · show s'.y = curve q s'.x
    rw [e1, e2]
  · show p.xEnd ≤ _ ∨ _ = 10 * s.h
    rw [hh]
    split
    · exact .inl le_rfl
    · exact .inr rfl
  · intro out h
    refine hone out ?_
    have : (along q s.x s.h).k6 = speed q s'.x := by
      show speed q (s.x + s.h * c7) = _
      rw [e1, c7, lit_1, mul_one]
    rw [this]
    exact h

theorem loop_succeeds (q : V3 Quartic) (p : Problem ℝ) (outs : Nat) (hp : p.posneg = 1)
    (hm : p.hMax = p.xEnd) (hd : 0 < p.dx) (ho : p.xEnd < outs * p.dx) (N : Nat) : ∀ (M : Nat) (s),
    Errorless q p s → s.accepted + N < 999 → p.xEnd ≤ s.h * 10 ^ N → N < M →
    ∃ out, Yields (speed q) (loop p (outs + 1) M s (speed q s.x)) (some out) := by
  induction N with
  | zero =>
    intro M s hI ha hh hM
    obtain ⟨M, rfl⟩ : ∃ m, M = m + 1 := ⟨M - 1, by omega⟩
    refine (pass_succeeds q p outs hp hm hd ho s hI (by omega) M).1 ?_
    unfold isLast
    rw [real_lt, hp, mul_one, lit_0]
    have h1 := hI.nonneg
    have h2 := hI.step
    norm_num at hh ⊢
    linarith
  | succ N ih =>
    intro M s hI ha hh hM
    obtain ⟨M, rfl⟩ : ∃ m, M = m + 1 := ⟨M - 1, by omega⟩
    obtain ⟨h1, h2⟩ := pass_succeeds q p outs hp hm hd ho s hI (by omega) M
    cases hl : isLast p s with
    | true => exact h1 hl
    | false =>
      obtain ⟨s', g1, g2, g3, g4⟩ := h2 hl
      obtain ⟨out, g5⟩ := ih M s' g1 (by omega) (by
        rcases g3 with g3 | g3
        · exact g3.trans (le_mul_of_one_le_right g1.step.le (one_le_pow₀ (by norm_num)))
        · rw [g3]
          calc p.xEnd ≤ s.h * 10 ^ (N + 1) := hh
            _ = _ := by ring) (by omega)
      exact ⟨out, g4 _ g5⟩

theorem sign_abs {a b : ℝ} (hb : 0 < b) : dopri5.sign a b = |a| := by
  unfold dopri5.sign
  rw [if_pos ((real_lt _ _).2 (by rw [lit_0]; exact hb))]
  rfl

/-- Scaled norm of a vector whose coordinates are at most `B * atol`. -/
theorem initNorm_le {p : Problem ℝ} (ha : 0 < p.atol) (hr : 0 ≤ p.rtol) {B : ℝ} (y v : V3 ℝ)
    (h0 : |v.y0| ≤ B * p.atol) (h1 : |v.y1| ≤ B * p.atol) (h2 : |v.y2| ≤ B * p.atol) :
    initNorm p y v ≤ 3 * B ^ 2 := by
  have key : ∀ y v : ℝ, |v| ≤ B * p.atol → (v / (p.atol + |y| * p.rtol)) ^ 2 ≤ B ^ 2 := by
    intro y v h
    have hs : p.atol ≤ p.atol + |y| * p.rtol := le_add_of_nonneg_right (by positivity)
    have hs0 : 0 < p.atol + |y| * p.rtol := lt_of_lt_of_le ha hs
    have : |v / (p.atol + |y| * p.rtol)| ≤ B := by
      rw [abs_div, abs_of_pos hs0, div_le_iff₀ hs0]
      have hB : 0 ≤ B := by
        by_contra hB
        have := mul_neg_of_neg_of_pos (not_le.1 hB) ha
        linarith [abs_nonneg v]
      exact h.trans (mul_le_mul_of_nonneg_left hs hB)
    rw [← sq_abs]
    exact pow_le_pow_left₀ (abs_nonneg _) this 2
  have a := key y.y0 v.y0 h0
  have b := key y.y1 v.y1 h1
  have c := key y.y2 v.y2 h2
  simp only [initNorm, lit_0, Scalar.powi2, real_abs]
  linarith

theorem initNorm_nonneg (p : Problem ℝ) (y v : V3 ℝ) : 0 ≤ initNorm p y v := by
  simp only [initNorm, lit_0, Scalar.powi2]
  positivity

theorem firstGuess_bounds {p : Problem ℝ} (hp : p.posneg = 1) (ha : 0 < p.atol) (hr : 0 ≤ p.rtol)
    (hm : 1e-14 ≤ p.hMax) (y f0 : V3 ℝ) (h0 : |f0.y0| ≤ 1e100 * p.atol) (h1 : |f0.y1| ≤ 1e100 * p.atol)
    (h2 : |f0.y2| ≤ 1e100 * p.atol) :
    (1e-108 : ℝ) ≤ firstGuess p y f0 ∧ firstGuess p y f0 ≤ p.hMax := by
  have hd1 := initNorm_le ha hr y f0 h0 h1 h2
  have hm' : (0 : ℝ) < p.hMax := lt_of_lt_of_le (by norm_num) hm
  simp only [firstGuess, fmin_real, hp]
  rw [sign_abs one_pos]
  have hg : (1e-108 : ℝ) ≤ if (Scalar.lt (initNorm p y y) (1e-10 : ℝ) || Scalar.lt (initNorm p y f0) (1e-10 : ℝ)) = true
      then (1e-6 : ℝ) else 0.01 * Scalar.sqrt (initNorm p y y / initNorm p y f0) := by
    split
    · norm_num
    · rename_i hn
      rw [Bool.or_eq_true, real_lt, real_lt, not_or, not_lt, not_lt] at hn
      obtain ⟨g0, g1⟩ := hn
      have hp1 : 0 < initNorm p y f0 := lt_of_lt_of_le (by norm_num) g1
      have : (1e-106 : ℝ) ≤ Real.sqrt (initNorm p y y / initNorm p y f0) := by
        apply Real.le_sqrt_of_sq_le
        rw [le_div_iff₀ hp1]
        calc (1e-106 : ℝ) ^ 2 * initNorm p y f0 ≤ (1e-106) ^ 2 * (3 * 1e100 ^ 2) :=
              mul_le_mul_of_nonneg_left hd1 (by positivity)
          _ ≤ 1e-10 := by norm_num
          _ ≤ _ := g0
      rw [real_sqrt]
      calc (1e-108 : ℝ) = 0.01 * 1e-106 := by norm_num
        _ ≤ _ := mul_le_mul_of_nonneg_left this (by norm_num)
  have hpos : (0 : ℝ) < min (if (Scalar.lt (initNorm p y y) (1e-10 : ℝ) || Scalar.lt (initNorm p y f0) (1e-10 : ℝ)) = true
      then (1e-6 : ℝ) else 0.01 * Scalar.sqrt (initNorm p y y / initNorm p y f0)) p.hMax :=
    lt_min (lt_of_lt_of_le (by norm_num) hg) hm'
  rw [abs_of_pos hpos]
  exact ⟨le_min hg (le_trans (by norm_num) hm), min_le_right _ _⟩

theorem secondGuess_bounds {p : Problem ℝ} (hp : p.posneg = 1) (ha : 0 < p.atol) (hr : 0 ≤ p.rtol)
    (hm : 1e-14 ≤ p.hMax) (y f0 f1 : V3 ℝ) (h0 : |f0.y0| ≤ 1e100 * p.atol) (h1 : |f0.y1| ≤ 1e100 * p.atol)
    (h2 : |f0.y2| ≤ 1e100 * p.atol) (g0 : |f1.y0| ≤ 1e100 * p.atol) (g1 : |f1.y1| ≤ 1e100 * p.atol)
    (g2 : |f1.y2| ≤ 1e100 * p.atol) {h : ℝ} (hh : 1e-108 ≤ h) :
    (1e-106 : ℝ) ≤ secondGuess p y f0 f1 h := by
  have hd1 := initNorm_le ha hr y f0 h0 h1 h2
  have hd2 : initNorm p y (sub3 f1 f0) ≤ 3 * (2e100) ^ 2 := by
    have key : ∀ a b : ℝ, |a| ≤ 1e100 * p.atol → |b| ≤ 1e100 * p.atol → |a - b| ≤ 2e100 * p.atol := by
      intro a b h1 h2
      calc |a - b| ≤ |a| + |b| := abs_sub _ _
        _ ≤ 1e100 * p.atol + 1e100 * p.atol := add_le_add h1 h2
        _ = _ := by rw [← add_mul]; norm_num
    exact initNorm_le ha hr y _ (key _ _ g0 h0) (key _ _ g1 h1) (key _ _ g2 h2)
  have hm' : (0 : ℝ) < p.hMax := lt_of_lt_of_le (by norm_num) hm
  have hpos : (0 : ℝ) < h := lt_of_lt_of_le (by norm_num) hh
  have hs1 : Real.sqrt (initNorm p y f0) ≤ 4e208 := by
    rw [Real.sqrt_le_left (by norm_num)]
    refine hd1.trans (by norm_num)
  have hs2 : Real.sqrt (initNorm p y (sub3 f1 f0)) / h ≤ 4e208 := by
    rw [div_le_iff₀ hpos]
    have : Real.sqrt (initNorm p y (sub3 f1 f0)) ≤ 4e100 := by
      rw [Real.sqrt_le_left (by norm_num)]
      exact hd2.trans (by norm_num)
    calc _ ≤ (4e100 : ℝ) := this
      _ = 4e208 * 1e-108 := by norm_num
      _ ≤ _ := mul_le_mul_of_nonneg_left hh (by norm_num)
  simp only [secondGuess, fmin_real, fmax_real, hp]
  rw [sign_abs one_pos]
  refine le_trans ?_ (le_abs_self _)
  refine le_min ?_ (le_min ?_ (le_trans (by norm_num) hm))
  · rw [real_abs, abs_of_pos hpos]
    calc (1e-106 : ℝ) = 100.0 * 1e-108 := by norm_num
      _ ≤ _ := mul_le_mul_of_nonneg_left hh (by norm_num)
  · split
    · exact le_trans (by norm_num) (le_max_left _ _)
    · rename_i hn
      rw [real_le, not_le, real_abs, real_sqrt, real_sqrt,
        abs_of_nonneg (div_nonneg (Real.sqrt_nonneg _) hpos.le)] at hn
      have hM : (0 : ℝ) < max (Real.sqrt (initNorm p y f0)) (Real.sqrt (initNorm p y (sub3 f1 f0)) / h) :=
        lt_trans (by norm_num) hn
      have hb : (1e-106 : ℝ) ^ 5 ≤ 0.01 / max (Real.sqrt (initNorm p y f0))
          (Real.sqrt (initNorm p y (sub3 f1 f0)) / h) := by
        rw [le_div_iff₀ hM]
        calc _ ≤ (1e-106 : ℝ) ^ 5 * 4e208 := mul_le_mul_of_nonneg_left (max_le hs1 hs2) (by positivity)
          _ ≤ _ := by norm_num
      have e : (1e-106 : ℝ) = ((1e-106 : ℝ) ^ 5) ^ ((1.0 : ℝ) / 5.0) := by
        rw [← Real.rpow_natCast, ← Real.rpow_mul (by norm_num)]
        norm_num
      calc (1e-106 : ℝ) = ((1e-106 : ℝ) ^ 5) ^ ((1.0 : ℝ) / 5.0) := e
        _ ≤ _ := Real.rpow_le_rpow (by positivity) hb (by norm_num)

/-- **C74**, the integrator succeeds.  If the derivatives are those of such a curve, and of a size that is not
absurd compared to the absolute tolerance, the integration does not fail. -/
theorem C74_succeeds (outs : Nat) (xEnd dx rtol atol : ℝ) (q : V3 Quartic) (hx : 1e-14 ≤ xEnd)
    (hx' : xEnd ≤ 1e100) (hd : 0 < dx) (ho : xEnd < outs * dx) (ha : 0 < atol) (hr : 0 ≤ rtol)
    (hb : ∀ t, 0 ≤ t → t ≤ xEnd → |(speed q t).y0| ≤ 1e100 * atol ∧ |(speed q t).y1| ≤ 1e100 * atol ∧
      |(speed q t).y2| ≤ 1e100 * atol) :
    ∃ qs xs ys, (∀ r ∈ qs, r.2.2 = speed q r.1) ∧
      Reaches (dopri5.solve (outs + 1) 0.0 xEnd dx (curve q 0) rtol atol) qs (.done (some (xs, ys))) := by
  have hx0 : 0 < xEnd := lt_of_lt_of_le (by norm_num) hx
  set p : Problem ℝ := { xEnd, dx, rtol, atol, hMax := Scalar.abs (xEnd - 0.0)
                         posneg := dopri5.sign 1.0 (xEnd - 0.0) } with hp
  have hpos : p.posneg = 1 := by
    show dopri5.sign 1.0 (xEnd - 0.0) = 1
    rw [sign_abs (by rw [lit_0]; linarith)]
    norm_num
  have hmax : p.hMax = xEnd := by
    show |xEnd - 0.0| = xEnd
    rw [lit_0, sub_zero]; exact abs_of_pos hx0
  have hstart := hb 0 le_rfl hx0.le
  obtain ⟨b1, b2⟩ := firstGuess_bounds (p := p) hpos ha hr (hmax ▸ hx) (curve q 0) (speed q 0)
    hstart.1 hstart.2.1 hstart.2.2
  rw [hmax] at b2
  have hnext := hb _ (le_trans (by norm_num) b1) b2
  have b3 := secondGuess_bounds (p := p) hpos ha hr (hmax ▸ hx) (curve q 0) (speed q 0)
    (speed q (firstGuess p (curve q 0) (speed q 0))) hstart.1 hstart.2.1 hstart.2.2
    hnext.1 hnext.2.1 hnext.2.2 b1
  have : ∃ out, Yields (speed q) (dopri5.solve (outs + 1) 0.0 xEnd dx (curve q 0) rtol atol) (some out) := by
    unfold dopri5.solve
    simp only
    rw [← hp]
    have e0 : (0.0 : ℝ) = 0 := lit_0
    simp only [e0, zero_add, hinit]
    obtain ⟨out, h⟩ := loop_succeeds q p outs hpos hmax hd ho 210 100001
      { x := 0, xOld := 0, xd := 0, h := secondGuess p (curve q 0) (speed q 0)
          (speed q (firstGuess p (curve q 0) (speed q 0))) (firstGuess p (curve q 0) (speed q 0))
        hOld := secondGuess p (curve q 0) (speed q 0)
          (speed q (firstGuess p (curve q 0) (speed q 0))) (firstGuess p (curve q 0) (speed q 0))
        y := curve q 0
        rcont0 := ⟨0, 0, 0⟩, rcont1 := ⟨0, 0, 0⟩, rcont2 := ⟨0, 0, 0⟩, rcont3 := ⟨0, 0, 0⟩
        rcont4 := ⟨0, 0, 0⟩, facOld := 1.0e-4, reject := false, accepted := 0, iasti := 0, nonStiff := 0
        xOut := [], yOut := [] }
      ⟨le_rfl, hx0, lt_of_lt_of_le (by norm_num) b3,
        mul_nonneg zero_le_two (le_trans (by norm_num) b3), rfl, le_rfl, rfl, rfl⟩
      (by show 0 + 210 < 999; norm_num)
      (calc xEnd ≤ 1e100 := hx'
        _ ≤ 1e-106 * 10 ^ 210 := by norm_num
        _ ≤ _ := mul_le_mul_of_nonneg_right b3 (by positivity)) (by norm_num)
    exact ⟨out, yields_eval (yields_eval (yields_eval h))⟩
  obtain ⟨⟨xs, ys⟩, qs, h1, h2⟩ := this
  exact ⟨qs, xs, ys, h2, h1⟩

/-! ## The crate's use of it -/

/-- The rates of a cycle are a given function of time alone: at every time, state and hint the state equations
have a solution with these rates. -/
def Spec.Driven {α : Type} [Scalar α] (cycle : Cycle α) (f : α → V3 α) : Prop :=
  ∀ (t : α) (c : Conditions α) (hint : FlowDirection), ∃ s : Solution α,
    solve cycle.Solver (cycle.calculate_inputs t c) hint = .ok s ∧
      (⟨s.dP_dt, s.dTc_dt, s.dTe_dt⟩ : V3 α) = f t

theorem driven_run {α : Type} [Scalar α] {cycle : Cycle α} {f : α → V3 α} (hf : Spec.Driven cycle f) {st st' : Stepper α}
    {qs : List (α × V3 α × V3 α)} (h : Reaches st qs st') : ∀ (dir : FlowDirection)
    (out : Option (List α × List (V3 α))), st' = .done out → (∀ r ∈ qs, r.2.2 = f r.1) →
    ∃ log, st.run cycle dir = .ok (out, log) := by
  induction h with
  | refl st =>
    rintro dir out rfl -
    exact ⟨[], rfl⟩
  | @step t y k dy qs st' h ih =>
    intro dir out ho hq
    obtain ⟨s, h1, h2⟩ := hf t ⟨y.y0, y.y1, y.y2⟩ dir
    have e : dy = f t := hq _ List.mem_cons_self
    obtain ⟨log, hl⟩ := ih (FlowDirection.from_solution s) out ho
      (fun r hr => hq r (List.mem_cons_of_mem _ hr))
    unfold Stepper.run system
    simp only [h1]
    rw [h2, ← e, hl]
    exact ⟨_, rfl⟩

theorem driven_log {α : Type} [Scalar α] {cycle : Cycle α} {f : α → V3 α} (hf : Spec.Driven cycle f) {first : FlowDirection}
    {log : List (Evaluation α)} (hl : GoodLog cycle first log) :
    ∀ r ∈ log.map question, r.2.2 = f r.1 := by
  intro r hr
  obtain ⟨e, he, rfl⟩ := List.mem_map.1 hr
  obtain ⟨n, hn, rfl⟩ := List.mem_iff_getElem.1 he
  obtain ⟨g, -⟩ := hl n _ (List.getElem?_eq_getElem hn)
  obtain ⟨s, h1, h2⟩ := hf log[n].time log[n].conditions log[n].hint
  rw [g.solved] at h1
  injection h1 with h1
  show log[n].dy = f log[n].time
  rw [g.deriv, h1, h2]

/-- **C74**.  A cycle whose rates of pressure and temperatures are polynomials in time of degree at most
three is integrated successfully, and each of the `n` points has exactly the pressure and temperatures of the
exact solution. -/
theorem C74_integration (outs : Nat) (env : Env ℝ) (ho : env.ode = dopri5.solve outs) (cycle : Cycle ℝ)
    (q : V3 Quartic) (hf : Spec.Driven cycle (speed q)) (n : UInt32) (tol : OdeTolerance ℝ)
    (hn : 2 ≤ n.toNat) (hT : ((n.toNat : ℝ) - 1) * 1e-14 < cycle.period) (hT' : cycle.period ≤ 1e99)
    (hout : n.toNat + 2 ≤ outs) (ha : 0 < tol.abs) (hr : 0 ≤ tol.rel)
    (hb : ∀ t, 0 ≤ t → t ≤ cycle.period + 1e-14 → |(speed q t).y0| ≤ 1e100 * tol.abs ∧
      |(speed q t).y1| ≤ 1e100 * tol.abs ∧ |(speed q t).y2| ≤ 1e100 * tol.abs) :
    integrationTryFrom env cycle ⟨(curve q 0).y0, (curve q 0).y1, (curve q 0).y2⟩ n tol = .ok
      ((List.range n.toNat).map fun k : Nat =>
        let t : ℝ := k * (cycle.period / ((n.toNat : ℝ) - 1))
        ⟨t, ⟨(curve q t).y0, (curve q t).y1, (curve q t).y2⟩⟩) := by
  have hn1 : (1 : ℝ) < n.toNat := by exact_mod_cast hn
  have hT0 : 0 < cycle.period := lt_trans (mul_pos (by linarith) (by norm_num)) hT
  obtain ⟨dx, hdx⟩ : ∃ dx, timeStep env.build cycle.period n = .ok dx := by
    have hne : n ≠ 0 := by rintro rfl; exact absurd hn (by decide)
    unfold timeStep pointsMinusOne
    cases env.build
    · simp [hne]
    · exact ⟨_, rfl⟩
  have hdx' := timeStep_eq hn hdx
  have hd : 1e-14 < dx := by
    rw [hdx', lt_div_iff₀ (by linarith)]; linarith
  have hd0 : 0 < dx := lt_trans (by norm_num) hd
  obtain ⟨outs, rfl⟩ : ∃ o, outs = o + 1 := ⟨outs - 1, by omega⟩
  have hfit : cycle.period + 1e-14 < outs * dx := by
    have e : ((n.toNat : ℝ) - 1) * dx = cycle.period := by
      rw [hdx']; field_simp [show (n.toNat : ℝ) - 1 ≠ 0 by linarith]
    have : (n.toNat : ℝ) + 1 ≤ outs := by exact_mod_cast (by omega : n.toNat + 1 ≤ outs)
    have := mul_le_mul_of_nonneg_right this hd0.le
    linarith
  obtain ⟨qs, xs, ys, h1, h2⟩ := C74_succeeds outs (cycle.period + 1e-14) dx tol.rel tol.abs q
    (le_add_of_nonneg_left hT0.le) (by norm_num at hT' ⊢; linarith) hd0 hfit ha hr hb
  obtain ⟨log, hl⟩ := driven_run hf h2 ⟨.Unknown, .Unknown, .Unknown, .Unknown⟩ _ rfl h1
  obtain ⟨pts, hpts⟩ : ∃ pts, integrationTryFrom env cycle
      ⟨(curve q 0).y0, (curve q 0).y1, (curve q 0).y2⟩ n tol = .ok pts := by
    refine ⟨toPoints xs ys, ?_⟩
    unfold integrationTryFrom startStepper
    rw [hdx, ho]
    have hl' : Stepper.run cycle (dopri5.solve (outs + 1) 0.0 (cycle.period + 1e-14) dx
        ⟨(curve q 0).y0, (curve q 0).y1, (curve q 0).y2⟩ tol.rel tol.abs) FlowDirection.default
        = .ok (some (xs, ys), log) := hl
    simp only [hl']
  obtain ⟨e1, -, -⟩ := C72_integration (outs + 1) env ho cycle _ n tol hn hT pts hpts
  obtain ⟨dx', log', xs', ys', g1, g2, g3, g4, g5⟩ := (C32_integration_ok_iff _ _ _ _ _ _).1 hpts
  rw [ho] at g2
  have hy := C74_exact (outs + 1) _ dx' _ _ q (add_pos hT0 (by norm_num)) _ (driven_log hf g3) xs' ys' g2
  rw [hpts]
  congr 1
  apply List.ext_getElem
  · have := congrArg List.length e1
    simpa using this
  · intro k hk hk'
    obtain ⟨a, b⟩ := g5 k _ (List.getElem?_eq_getElem hk)
    rw [hy, List.getElem?_map, a, Option.map_some, Option.some.injEq] at b
    have ht : pts[k].time = k * (cycle.period / ((n.toNat : ℝ) - 1)) := by
      have hk2 : k < (pts.map (·.time)).length := by simpa using hk
      have : (pts.map (·.time))[k] = ((List.range n.toNat).map
        (fun k : Nat => (k : ℝ) * (cycle.period / ((n.toNat : ℝ) - 1))))[k]'(by rw [← e1]; exact hk2) := by
        congr 1
      simpa using this
    rw [List.getElem_map, List.getElem_range]
    simp only
    rw [← ht, b]
    rfl

end Sett
