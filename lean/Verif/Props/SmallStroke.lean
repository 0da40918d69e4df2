import Verif.Props.Succeeds
import Mathlib.Analysis.Real.Cardinality

/-! # C86: an integration that cannot leave its limits succeeds -/

namespace Sett

open Spec dopri5 state_equations

/-- Whatever it is answered in the sense of `A`, the integrator only asks about times and states with `P`. -/
def OnlyAsks (A : ℝ → V3 ℝ → V3 ℝ → Prop) (P : ℝ → V3 ℝ → Prop) (st : Stepper ℝ) : Prop :=
  ∀ qs t y k, Reaches st qs (.eval t y k) → (∀ q ∈ qs, A q.1 q.2.1 q.2.2) → P t y

section
variable {A : ℝ → V3 ℝ → V3 ℝ → Prop} {P : ℝ → V3 ℝ → Prop}

theorem onlyAsks_done (out : Option (List ℝ × List (V3 ℝ))) : OnlyAsks A P (.done out) := by
  intro qs t y k h; cases h

theorem onlyAsks_eval {t : ℝ} {y : V3 ℝ} {k : V3 ℝ → Stepper ℝ} (h : P t y) (hk : ∀ dy, A t y dy → OnlyAsks A P (k dy)) :
    OnlyAsks A P (.eval t y k) := by
  intro qs t' y' k' hr hA
  cases hr with
  | refl => exact h
  | @step _ _ _ dy qs _ hr =>
    exact hk dy (hA _ List.mem_cons_self) _ _ _ _ hr (fun q hq => hA q (List.mem_cons_of_mem _ hq))

variable {p : Problem ℝ} {y0 : V3 ℝ} {M : ℝ}

/-- Near the start and during the cycle. -/
def NearStart (y0 : V3 ℝ) (M T : ℝ) (t : ℝ) (y : V3 ℝ) : Prop :=
  0 ≤ t ∧ t ≤ T ∧ ‖vec y - vec y0‖ ≤ 25 * M * T

theorem vec_zero : ‖vec ⟨0, 0, 0⟩‖ = 0 := by simp [vec]

theorem stage_near {k : Ks ℝ} (h0 : ‖vec k.k0‖ ≤ M) (h1 : ‖vec k.k1‖ ≤ M) (h2 : ‖vec k.k2‖ ≤ M) (h3 : ‖vec k.k3‖ ≤ M)
    (h4 : ‖vec k.k4‖ ≤ M) (h5 : ‖vec k.k5‖ ≤ M) (h6 : ‖vec k.k6‖ ≤ M) {x h : ℝ} {y : V3 ℝ} (hh : 0 < h) {T : ℝ}
    (hx : 0 ≤ x) (hxh : x + h ≤ T) (hy : ‖vec y - vec y0‖ ≤ 2 * M * x) {c : ℝ} (hc0 : 0 ≤ c) (hc1 : c ≤ 1)
    (w1 w2 w3 w4 w5 w6 w7 : ℝ) (hw : |w1| + |w2| + |w3| + |w4| + |w5| + |w6| + |w7| ≤ 25) :
    NearStart y0 M T (x + h * c) ((asStep k x y h).go w1 w2 w3 w4 w5 w6 w7) := by
  have hM0 : 0 ≤ M := (norm_nonneg _).trans h0
  have g := go_near (s := asStep k x y h) ⟨h0, h1, h2, h3, h4, h5, h6⟩ hh w1 w2 w3 w4 w5 w6 w7 hw
  have hhc : h * c ≤ h := mul_le_of_le_one_right hh.le hc1
  refine ⟨by positivity, by linarith, ?_⟩
  have t := norm_sub_le_norm_sub_add_norm_sub (vec ((asStep k x y h).go w1 w2 w3 w4 w5 w6 w7)) (vec y) (vec y0)
  change ‖vec ((asStep k x y h).go w1 w2 w3 w4 w5 w6 w7) - vec y‖ ≤ 25 * M * h at g
  have : 25 * M * (x + h) ≤ 25 * M * T := mul_le_mul_of_nonneg_left hxh (by positivity)
  have := mul_nonneg hM0 hx
  nlinarith

/-- The stage arguments are those of the method, whatever the slopes not yet known. -/
theorem stage_go (k : Ks ℝ) (x : ℝ) (y : V3 ℝ) (h : ℝ) :
    stage y h [k.k0] a2 = (asStep k x y h).go (1 / 5) 0 0 0 0 0 0 ∧
    stage y h [k.k0, k.k1] a3 = (asStep k x y h).go (3 / 40) (9 / 40) 0 0 0 0 0 ∧
    stage y h [k.k0, k.k1, k.k2] a4 = (asStep k x y h).go (44 / 45) (-56 / 15) (32 / 9) 0 0 0 0 ∧
    stage y h [k.k0, k.k1, k.k2, k.k3] a5
      = (asStep k x y h).go (19372 / 6561) (-25360 / 2187) (64448 / 6561) (-212 / 729) 0 0 0 ∧
    stage y h [k.k0, k.k1, k.k2, k.k3, k.k4] a6
      = (asStep k x y h).go (9017 / 3168) (-355 / 33) (46732 / 5247) (49 / 176) (-5103 / 18656) 0 0 ∧
    stage y h [k.k0, k.k1, k.k2, k.k3, k.k4, k.k5] a7
      = (asStep k x y h).go (35 / 384) 0 (500 / 1113) (125 / 192) (-2187 / 6784) (11 / 84) 0 := by
  refine ⟨?_, ?_, ?_, ?_, ?_, ?_⟩ <;>
  · simp only [stage, a2, a3, a4, a5, a6, a7, List.zip_cons_cons, List.zip_nil_left, List.foldl_cons,
      List.foldl_nil, add3, zip3, scale3, Step.go, Step.slope, asStep]
    apply V3.ext3 <;>
    · norm_num
      ring

theorem next_near {k : Ks ℝ} (h0 : ‖vec k.k0‖ ≤ M) (h1 : ‖vec k.k1‖ ≤ M) (h2 : ‖vec k.k2‖ ≤ M) (h3 : ‖vec k.k3‖ ≤ M)
    (h4 : ‖vec k.k4‖ ≤ M) (h5 : ‖vec k.k5‖ ≤ M) {x h : ℝ} {y : V3 ℝ} (hh : 0 < h)
    (hy : ‖vec y - vec y0‖ ≤ 2 * M * x) : ‖vec (k.next y h) - vec y0‖ ≤ 2 * M * (x + h) := by
  have hM0 : 0 ≤ M := (norm_nonneg _).trans h0
  have e : vec (k.next y h) - vec y = h • ((35 / 384 : ℝ) • vec k.k0 + (0 : ℝ) • vec k.k1 + (500 / 1113 : ℝ) • vec k.k2
      + (125 / 192 : ℝ) • vec k.k3 + (-2187 / 6784 : ℝ) • vec k.k4 + (11 / 84 : ℝ) • vec k.k5 + (0 : ℝ) • vec k.k5) := by
    have := (stage_go k x y h).2.2.2.2.2
    rw [Ks.next, this, vec_go, asStep]
    simp
  have g := norm_comb h0 h1 h2 h3 h4 h5 h5 (35 / 384) 0 (500 / 1113) (125 / 192) (-2187 / 6784) (11 / 84) 0
  have hw : |(35 / 384 : ℝ)| + |0| + |500 / 1113| + |125 / 192| + |-2187 / 6784| + |11 / 84| + |0| ≤ 2 := by
    norm_num [abs_of_pos, abs_of_neg]
  have t := norm_sub_le_norm_sub_add_norm_sub (vec (k.next y h)) (vec y) (vec y0)
  rw [e, norm_smul, Real.norm_eq_abs, abs_of_pos hh] at t
  have := mul_le_mul_of_nonneg_left (g.trans (mul_le_mul_of_nonneg_right hw hM0)) hh.le
  linarith

theorem loop_asks (hp : p.posneg = 1) (hm : 0 < p.hMax) (hd : 0 < p.dx) (outs : Nat)
    (hb : ∀ t y k, A t y k → NearStart y0 M p.xEnd t y → ‖vec k‖ ≤ M) (passes : Nat) :
    ∀ (s : dopri5.State ℝ) (k0 : V3 ℝ), 0 ≤ s.x → s.x < p.xEnd → 0 < s.h → ‖vec k0‖ ≤ M →
      ‖vec s.y - vec y0‖ ≤ 2 * M * s.x → s.x ≤ s.xd →
      OnlyAsks A (NearStart y0 M p.xEnd) (loop p outs passes s k0) := by
  induction passes with
  | zero => intro s k0 _ _ _ _ _ _; exact onlyAsks_done _
  | succ passes ih =>
    intro s k0 hx0 hxE hh hk0 hy hxd
    unfold loop
    split
    · exact onlyAsks_done _
    have hlast : isLast p s = true ↔ 0 < s.x + 1.01 * s.h - p.xEnd := by
      unfold isLast
      rw [real_lt, hp, mul_one, lit_0]
    have htr : 0 < tried p s := by
      unfold tried
      split
      · exact sub_pos.2 hxE
      · exact hh
    have hend : s.x + tried p s ≤ p.xEnd := by
      unfold tried
      split
      · linarith
      · rename_i hl
        rw [hlast, not_lt] at hl
        norm_num at hl
        linarith
    change OnlyAsks A (NearStart y0 M p.xEnd) (stages s (tried p s) k0 fun k2 k3 k4 k5 k6 yStiff yNext =>
        conclude p outs (loop p outs passes) s (isLast p s) (tried p s) k0 k2 k3 k4 k5 k6 yStiff yNext)
    have hM0 : 0 ≤ M := (norm_nonneg _).trans hk0
    have z : ‖vec (⟨0, 0, 0⟩ : V3 ℝ)‖ ≤ M := by rw [vec_zero]; exact hM0
    unfold stages
    have n1 : NearStart y0 M p.xEnd (s.x + tried p s * c2) (stage s.y (tried p s) [k0] a2) := by
      have := (stage_go ⟨k0, ⟨0, 0, 0⟩, ⟨0, 0, 0⟩, ⟨0, 0, 0⟩, ⟨0, 0, 0⟩, ⟨0, 0, 0⟩, ⟨0, 0, 0⟩⟩ s.x s.y (tried p s)).1
      rw [this]
      exact stage_near hk0 z z z z z z htr hx0 hend hy (by norm_num [c2]) (by norm_num [c2]) _ _ _ _ _ _ _ (by norm_num [abs_of_pos, abs_of_neg])
    refine onlyAsks_eval n1 fun k1 q1 => ?_
    have b1 := hb _ _ _ q1 n1
    have n2 : NearStart y0 M p.xEnd (s.x + tried p s * c3) (stage s.y (tried p s) [k0, k1] a3) := by
      have := (stage_go ⟨k0, k1, ⟨0, 0, 0⟩, ⟨0, 0, 0⟩, ⟨0, 0, 0⟩, ⟨0, 0, 0⟩, ⟨0, 0, 0⟩⟩ s.x s.y (tried p s)).2.1
      rw [this]
      exact stage_near hk0 b1 z z z z z htr hx0 hend hy (by norm_num [c3]) (by norm_num [c3]) _ _ _ _ _ _ _ (by norm_num [abs_of_pos, abs_of_neg])
    refine onlyAsks_eval n2 fun k2 q2 => ?_
    have b2 := hb _ _ _ q2 n2
    have n3 : NearStart y0 M p.xEnd (s.x + tried p s * c4) (stage s.y (tried p s) [k0, k1, k2] a4) := by
      have := (stage_go ⟨k0, k1, k2, ⟨0, 0, 0⟩, ⟨0, 0, 0⟩, ⟨0, 0, 0⟩, ⟨0, 0, 0⟩⟩ s.x s.y (tried p s)).2.2.1
      rw [this]
      exact stage_near hk0 b1 b2 z z z z htr hx0 hend hy (by norm_num [c4]) (by norm_num [c4]) _ _ _ _ _ _ _ (by norm_num [abs_of_pos, abs_of_neg])
    refine onlyAsks_eval n3 fun k3 q3 => ?_
    have b3 := hb _ _ _ q3 n3
    have n4 : NearStart y0 M p.xEnd (s.x + tried p s * c5) (stage s.y (tried p s) [k0, k1, k2, k3] a5) := by
      have := (stage_go ⟨k0, k1, k2, k3, ⟨0, 0, 0⟩, ⟨0, 0, 0⟩, ⟨0, 0, 0⟩⟩ s.x s.y (tried p s)).2.2.2.1
      rw [this]
      exact stage_near hk0 b1 b2 b3 z z z htr hx0 hend hy (by norm_num [c5]) (by norm_num [c5]) _ _ _ _ _ _ _ (by norm_num [abs_of_pos, abs_of_neg])
    refine onlyAsks_eval n4 fun k4 q4 => ?_
    have b4 := hb _ _ _ q4 n4
    have n5 : NearStart y0 M p.xEnd (s.x + tried p s * c6) (stage s.y (tried p s) [k0, k1, k2, k3, k4] a6) := by
      have := (stage_go ⟨k0, k1, k2, k3, k4, ⟨0, 0, 0⟩, ⟨0, 0, 0⟩⟩ s.x s.y (tried p s)).2.2.2.2.1
      rw [this]
      exact stage_near hk0 b1 b2 b3 b4 z z htr hx0 hend hy (by norm_num [c6]) (by norm_num [c6]) _ _ _ _ _ _ _ (by norm_num [abs_of_pos, abs_of_neg])
    refine onlyAsks_eval n5 fun k5 q5 => ?_
    have b5 := hb _ _ _ q5 n5
    have n6 : NearStart y0 M p.xEnd (s.x + tried p s * c7) (stage s.y (tried p s) [k0, k1, k2, k3, k4, k5] a7) := by
      have := (stage_go ⟨k0, k1, k2, k3, k4, k5, ⟨0, 0, 0⟩⟩ s.x s.y (tried p s)).2.2.2.2.2
      rw [this]
      exact stage_near hk0 b1 b2 b3 b4 b5 z htr hx0 hend hy (by norm_num [c7]) (by norm_num [c7]) _ _ _ _ _ _ _ (by norm_num [abs_of_pos, abs_of_neg])
    refine onlyAsks_eval n6 fun k6 q6 => ?_
    have b6 := hb _ _ _ q6 n6
    set k : Ks ℝ := ⟨k0, k1, k2, k3, k4, k5, k6⟩ with hk
    change OnlyAsks A _ (conclude p outs (loop p outs passes) s (isLast p s) (tried p s) k.k0 k.k2 k.k3 k.k4 k.k5 k.k6
      _ (k.next s.y (tried p s)))
    cases hacc : accept p s.facOld s.reject (k.err p s.y (tried p s)) (tried p s) with
    | mk b hNew =>
      have hn0 : 0 < hNew := accept_pos hp hm htr hacc
      cases b with
      | false =>
        rw [conclude_rejected hacc]
        exact ih _ _ hx0 hxE hn0 hk0 hy hxd
      | true =>
        cases hst : stiffness { s with accepted := s.accepted + 1 } (tried p s) k.k6 k.k5 (k.next s.y (tried p s))
            (stage s.y (tried p s) [k0, k1, k2, k3, k4] a6) with
        | none =>
          unfold Ks.err at hacc
          simp only [conclude, hacc, hst]
          exact onlyAsks_done _
        | some st =>
          cases hs' : output p outs (k.advance p s (tried p s) st) with
          | none =>
            unfold Ks.err at hacc
            unfold Ks.advance Ks.err at hs'
            simp only [conclude, hacc, hst, hs']
            exact onlyAsks_done _
          | some s' =>
            rw [conclude_accepted hacc hst hs']
            cases hl : isLast p s with
            | true => exact onlyAsks_done _
            | false =>
              rw [if_neg Bool.false_ne_true]
              obtain ⟨ts, -, g2, g3⟩ := output_points (p := p) hd outs (k.advance p s (tried p s) st) s'
                (by show 0 ≤ s.x + tried p s; linarith) (by show 0 ≤ s.xd; linarith) hs'
              have e1 : s'.x = s.x + tried p s := by rw [g2]; rfl
              have e2 : s'.y = k.next s.y (tried p s) := by rw [g2]; rfl
              have ht : tried p s = s.h := by unfold tried; rw [hl]; rfl
              rw [← Bool.not_eq_true, hlast, not_lt] at hl
              norm_num at hl
              refine ih _ _ ?_ ?_ hn0 b6 ?_ ?_
              · show 0 ≤ s'.x
                rw [e1]; linarith
              · show s'.x < p.xEnd
                rw [e1, ht]; linarith
              · show ‖vec s'.y - vec y0‖ ≤ 2 * M * s'.x
                rw [e1, e2]
                exact next_near hk0 b1 b2 b3 b4 b5 htr hy
              · show s'.x ≤ s'.xd
                rw [e1]
                exact le_of_lt g3

theorem firstGuess_upper (hp : p.posneg = 1) (hm : 0 < p.hMax) (y f0 : V3 ℝ) : firstGuess p y f0 ≤ p.hMax := by
  have h0 := firstGuess_pos hp hm y f0
  simp only [firstGuess, fmin_real, hp] at h0 ⊢
  rw [sign_abs one_pos] at h0 ⊢
  refine abs_le.2 ⟨?_, min_le_right _ _⟩
  refine le_min ?_ (by linarith)
  split
  · have : (0 : ℝ) < 1e-6 := by norm_num
    linarith
  · have : (0 : ℝ) ≤ 0.01 * Scalar.sqrt (initNorm p y y / initNorm p y f0) :=
      mul_nonneg (by norm_num) (Real.sqrt_nonneg _)
    linarith

/-- What the integrator asks about, if the rates are at most `M` as long as it asks near the start. -/
theorem solve_asks (outs : Nat) {xEnd dx : ℝ} (rtol atol : ℝ) (hx : 0 < xEnd) (hd : 0 < dx)
    (hM : 0 ≤ M) (hb : ∀ t y k, A t y k → NearStart y0 M xEnd t y → ‖vec k‖ ≤ M) :
    OnlyAsks A (NearStart y0 M xEnd) (dopri5.solve outs 0.0 xEnd dx y0 rtol atol) := by
  unfold dopri5.solve
  set p : Problem ℝ := { xEnd, dx, rtol, atol, hMax := Scalar.abs (xEnd - 0.0)
                         posneg := dopri5.sign 1.0 (xEnd - 0.0) } with hp
  have hpos : p.posneg = 1 := by
    show dopri5.sign 1.0 (xEnd - 0.0) = 1
    rw [sign_abs (by rw [lit_0]; linarith)]
    norm_num
  have hmax : p.hMax = xEnd := by
    show |xEnd - 0.0| = xEnd
    rw [lit_0, sub_zero]; exact abs_of_pos hx
  have hmax0 : 0 < p.hMax := hmax ▸ hx
  have n0 : NearStart y0 M xEnd 0.0 y0 := by
    rw [lit_0]
    refine ⟨le_rfl, hx.le, ?_⟩
    rw [sub_self, norm_zero]
    positivity
  simp only [hinit]
  refine onlyAsks_eval n0 fun f0 a0 => ?_
  have b0 := hb _ _ _ a0 n0
  have g0 := firstGuess_pos hpos hmax0 y0 f0
  have g1 := firstGuess_upper hpos hmax0 y0 f0
  rw [hmax] at g1
  refine onlyAsks_eval ⟨?_, ?_, ?_⟩ fun f1 a1 => onlyAsks_eval n0 fun k0 ak => ?_
  · rw [lit_0]; linarith
  · rw [lit_0]; linarith
  · have e2 : vec (add3 y0 (scale3 f0 (firstGuess p y0 f0))) - vec y0 = firstGuess p y0 f0 • vec f0 := by
      simp only [add3, scale3, zip3, vec, Prod.smul_mk, Prod.mk_sub_mk, smul_eq_mul, Prod.mk.injEq]
      refine ⟨?_, ?_, ?_⟩ <;> ring
    rw [e2, norm_smul, Real.norm_eq_abs, abs_of_pos g0]
    have := mul_le_mul g1 b0 (norm_nonneg _) hx.le
    have := mul_nonneg hM hx.le
    linarith
  · refine loop_asks hpos hmax0 hd outs hb 100001 _ _ ?_ ?_ (secondGuess_pos hpos hmax0 _ _ _ g0) (hb _ _ _ ak n0) ?_ le_rfl
    · show (0 : ℝ) ≤ 0.0
      norm_num
    · show (0.0 : ℝ) < xEnd
      rw [lit_0]; exact hx
    · show ‖vec y0 - vec y0‖ ≤ 2 * M * 0.0
      rw [sub_self, norm_zero, lit_0, mul_zero]

end

section
variable {r : Run ℝ} {n : GasName}

/-- **C86**, staying within limits.  If the rates are at most `M` within the limits, and all states whose pressure
and temperatures differ from the initial ones by no more than `25 M` times the duration are within the limits, the
integration never asks about a state outside the limits. -/
theorem C86_stays {L : Limits} {M : ℝ} (hM : 0 ≤ M) (hb : RatesUpTo r L M) (hp : 0 < r.period) {outs : Nat}
    {env : Env ℝ} {ic : Conditions ℝ} {num : UInt32} {tol : OdeTolerance ℝ} (ho : env.ode = dopri5.solve outs)
    (hn : 2 ≤ num.toNat)
    (hw : ∀ t y, 0 ≤ t → t ≤ r.period + 1e-14 → |y.P - ic.P| ≤ 25 * M * (r.period + 1e-14) →
      |y.T_c - ic.T_c| ≤ 25 * M * (r.period + 1e-14) → |y.T_e - ic.T_e| ≤ 25 * M * (r.period + 1e-14) →
      WithinLimits r L t y) : StaysWithin env r L ic num tol := by
  intro dx log t y k hdx hr hg
  have hn1 : (1 : ℝ) < num.toNat := by exact_mod_cast hn
  have hdx0 : 0 < dx := by
    rw [timeStep_eq hn hdx]
    exact div_pos hp (by linarith)
  have near : ∀ t y, NearStart (stateVector ic) M (r.period + 1e-14) t y → WithinLimits r L t (conditionsOf y) := by
    rintro t y ⟨h1, h2, h3⟩
    simp only [vec, stateVector, Prod.mk_sub_mk, Prod.norm_mk, Real.norm_eq_abs, max_le_iff] at h3
    exact hw t _ h1 h2 h3.1 h3.2.1 h3.2.2
  rw [ho] at hr
  refine near t y (solve_asks (A := fun t y k => WithinLimits r L t (conditionsOf y) → ‖vec k‖ ≤ M) outs tol.rel tol.abs
    (add_pos hp (by norm_num)) hdx0 hM (fun t y k h1 h2 => h1 (near t y h2)) _ t y k hr ?_)
  intro q hq w
  obtain ⟨e, he, rfl⟩ := List.mem_map.1 hq
  obtain ⟨j, hj, rfl⟩ := List.mem_iff_getElem.1 he
  obtain ⟨g, -⟩ := hg j _ (List.getElem?_eq_getElem hj)
  obtain ⟨b1, b2, b3⟩ := hb _ _ _ _ w g.solved
  show ‖vec log[j].dy‖ ≤ M
  rw [g.deriv]
  exact norm_vec_le b1 b2 b3

/-- The evaluations of an integration that stays within the limits are within the limits. -/
theorem log_within {L : Limits} {env : Env ℝ} {ic : Conditions ℝ} {num : UInt32} {tol : OdeTolerance ℝ}
    (hw : StaysWithin env r L ic num tol) {dx : ℝ} (hdx : timeStep env.build r.period num = .ok dx)
    {log : List (Evaluation ℝ)} {out : Option (List ℝ × List (V3 ℝ))}
    (h1 : Reaches (env.ode 0.0 (r.period + 1e-14) dx (stateVector ic) tol.rel tol.abs) (log.map question) (.done out))
    (h2 : GoodLog r.toCycle ⟨.Unknown, .Unknown, .Unknown, .Unknown⟩ log) :
    ∀ e ∈ log, WithinLimits r L e.time e.conditions := by
  intro e he
  obtain ⟨j, hj, rfl⟩ := List.mem_iff_getElem.1 he
  obtain ⟨k, hk⟩ := reaches_prefix h1 j (by simpa using hj)
  rw [← List.map_take] at hk
  have := hw dx (log.take j) _ _ k hdx hk (goodLog_take h2 j)
  simpa [question, stateVector, conditionsOf] using this

/-- Steps with slopes up to `M` start no further than `2 M` times the elapsed time from the start of the first. -/
theorem leads_near {y0 : V3 ℝ} {M : ℝ} {l : List Step} {t t' : ℝ} {y y' : V3 ℝ} (hl : Leads t y l t' y')
    (hf : ∀ s ∈ l, 0 < s.h) (hs : ∀ s ∈ l, SmallSlopes s M) (hy : ‖vec y - vec y0‖ ≤ 2 * M * t) :
    ∀ s ∈ l, ‖vec s.y - vec y0‖ ≤ 2 * M * s.t := by
  induction l generalizing t y with
  | nil => intro s hm; cases hm
  | cons a l ih =>
    intro s hm
    obtain ⟨e1, e2, hl⟩ := hl
    rcases List.mem_cons.1 hm with rfl | hm
    · rw [e1, e2]; exact hy
    · refine ih hl (fun b hb => hf b (List.mem_cons_of_mem _ hb)) (fun b hb => hs b (List.mem_cons_of_mem _ hb)) ?_ s hm
      have sm := hs a List.mem_cons_self
      have hh := hf a List.mem_cons_self
      have hM0 : 0 ≤ M := (norm_nonneg _).trans sm.k1
      have g := norm_comb sm.k1 sm.k2 sm.k3 sm.k4 sm.k5 sm.k6 sm.k7 (35 / 384) 0 (500 / 1113) (125 / 192) (-2187 / 6784)
        (11 / 84) 0
      have hw : |(35 / 384 : ℝ)| + |0| + |500 / 1113| + |125 / 192| + |-2187 / 6784| + |11 / 84| + |0| ≤ 2 := by
        norm_num [abs_of_pos, abs_of_neg]
      have t := norm_sub_le_norm_sub_add_norm_sub (vec a.finish) (vec a.y) (vec y0)
      rw [show vec a.finish - vec a.y = a.h • _ from by rw [Step.finish, vec_go, add_sub_cancel_left], norm_smul,
        Real.norm_eq_abs, abs_of_pos hh] at t
      have := mul_le_mul_of_nonneg_left (g.trans (mul_le_mul_of_nonneg_right hw hM0)) hh.le
      rw [e2] at t
      linarith

/-- What an integration that stays within the limits reports is near the start. -/
theorem reported_near {L : Limits} {M : ℝ} (hM : 0 ≤ M) (hb : RatesUpTo r L M) (hp : 0 < r.period) {outs : Nat}
    {env : Env ℝ} {ic : Conditions ℝ} {num : UInt32} {tol : OdeTolerance ℝ} (ho : env.ode = dopri5.solve outs)
    (hn : 2 ≤ num.toNat) (hw : StaysWithin env r L ic num tol) {pts : List (Point ℝ)}
    (h : integrationTryFrom env r.toCycle ic num tol = .ok pts) : ∀ p ∈ pts, 0 ≤ p.time ∧ p.time ≤ r.period + 1e-14 ∧
      |p.conditions.P - ic.P| ≤ 25 * M * (r.period + 1e-14) ∧
      |p.conditions.T_c - ic.T_c| ≤ 25 * M * (r.period + 1e-14) ∧
      |p.conditions.T_e - ic.T_e| ≤ 25 * M * (r.period + 1e-14) := by
  obtain ⟨dx, log, xs, ys, h1, h2, h3, h4, h5⟩ := (C32_integration_ok_iff _ _ _ _ _ _).1 h
  have hn1 : (1 : ℝ) < num.toNat := by exact_mod_cast hn
  have hdx0 : 0 < dx := by
    rw [timeStep_eq hn h1]
    exact div_pos hp (by linarith)
  have hlog := log_within (r := r) hw h1 h2 h3
  rw [ho] at h2
  have hx : 0 < r.period + 1e-14 := add_pos hp (by norm_num)
  obtain ⟨l, hl, hlen, hon⟩ := C82_steps outs (r.period + 1e-14) dx tol.rel tol.abs _ hx hdx0 (runRates r L) _
    (answered_rates h3 hlog) xs ys h2
  have hbound : ∀ t y k, runRates r L t y k → ‖vec k‖ ≤ M := by
    rintro t y k ⟨w, hint, s, e, rfl⟩
    obtain ⟨b1, b2, b3⟩ := hb t _ hint s w e
    exact norm_vec_le b1 b2 b3
  have small : ∀ s ∈ l, SmallSlopes s M := fun s hs =>
    have q := hl.slopes s hs
    ⟨hbound _ _ _ q.k1, hbound _ _ _ q.k2, hbound _ _ _ q.k3, hbound _ _ _ q.k4, hbound _ _ _ q.k5, hbound _ _ _ q.k6,
      hbound _ _ _ q.k7⟩
  obtain ⟨y', hj⟩ := hl.joined
  have starts := leads_near (y0 := stateVector ic) hj hl.forward small (by rw [sub_self, norm_zero, mul_zero])
  intro p hp
  obtain ⟨j, hj', rfl⟩ := List.mem_iff_getElem.1 hp
  obtain ⟨g1, g2⟩ := h5 j _ (List.getElem?_eq_getElem hj')
  have hz : (pts[j].time, stateVector pts[j].conditions) ∈ xs.zip ys := by
    refine List.mem_iff_getElem?.2 ⟨j, ?_⟩
    rw [List.getElem?_zip_eq_some]
    exact ⟨g1, g2⟩
  obtain ⟨s, hs, t1, t2, e⟩ := hon _ hz
  obtain ⟨u1, u2⟩ := leads_mem hj hl.forward hs
  have hh := hl.forward s hs
  have d := dense_near (small s hs) hh (θ := (pts[j].time - s.t) / s.h) (div_nonneg (by linarith) hh.le)
    ((div_le_one hh).2 (by linarith))
  rw [← e] at d
  have t := norm_sub_le_norm_sub_add_norm_sub (vec (stateVector pts[j].conditions)) (vec s.y) (vec (stateVector ic))
  have st := starts s hs
  have : 25 * M * (s.t + s.h) ≤ 25 * M * (r.period + 1e-14) := mul_le_mul_of_nonneg_left u1 (by positivity)
  have := mul_nonneg hM u2
  have tot : ‖vec (stateVector pts[j].conditions) - vec (stateVector ic)‖ ≤ 25 * M * (r.period + 1e-14) := by linarith
  simp only [vec, stateVector, Prod.mk_sub_mk, Prod.norm_mk, Real.norm_eq_abs, max_le_iff] at tot
  exact ⟨u2.trans t1, t2.trans u1, tot.1, tot.2.1, tot.2.2⟩

/-! ## Drives of a given engine -/

/-- There is a drive that passes through every position and speed of the pistons. -/
theorem universal_drive : ∃ D : ℝ → ws.CompVolume ℝ × ws.ExpVolume ℝ,
    (∀ t, 0 < (D t).1.value ∧ 0 < (D t).2.value) ∧
    ∀ v : ws.CompVolume ℝ × ws.ExpVolume ℝ, 0 < v.1.value → 0 < v.2.value → ∃ t, D t = v := by
  have hc : Cardinal.mk ((ℝ × ℝ) × (ℝ × ℝ)) ≤ Cardinal.mk ℝ := by
    simp only [Cardinal.mk_prod, Cardinal.lift_id, Cardinal.mk_real, Cardinal.continuum_mul_self]
    exact le_rfl
  obtain ⟨e⟩ := hc
  have hs := Function.invFun_surjective e.injective
  set g := Function.invFun e
  refine ⟨fun t => if 0 < (g t).1.1 ∧ 0 < (g t).2.1 then (⟨(g t).1.1, (g t).1.2⟩, ⟨(g t).2.1, (g t).2.2⟩) else
    (⟨1, 0⟩, ⟨1, 0⟩), ?_, ?_⟩
  · intro t
    dsimp only
    split
    · assumption
    · exact ⟨one_pos, one_pos⟩
  · rintro ⟨⟨a, b⟩, ⟨c, d⟩⟩ h1 h2
    obtain ⟨t, ht⟩ := hs ((a, b), (c, d))
    refine ⟨t, ?_⟩
    dsimp only at h1 h2 ⊢
    rw [ht, if_pos ⟨h1, h2⟩]

/-- With resting pistons and no parasitic heat nothing moves. -/
theorem rest_solution (i : Inputs ℝ) (hi : Stable i) (h1 : i.comp.dV_dt = 0) (h2 : i.exp.dV_dt = 0)
    (h3 : i.comp.Q_dot = 0) (h4 : i.exp.Q_dot = 0) (s : Solution ℝ) (hs : Balances i (upwind i s) s) :
    s = ⟨0, 0, 0, 0, 0, 0, 0, 0, 0, 0⟩ := by
  refine consistent_unique hi hs ?_
  constructor <;> simp [compMass, compEnergy, chxMass, chxEnergy, regenMass, regenEnergy, hhxMass, hhxEnergy, expMass,
    expEnergy, massRate, energyRate, h1, h2, h3, h4]

/-- The state equations see of the drive only where the pistons are and how fast they go. -/
theorem same_inputs {r r' : Run ℝ} (h : SameEngine r r') {D : ℝ → ws.CompVolume ℝ × ws.ExpVolume ℝ} {t u : ℝ}
    (hd : D u = r'.ws_vol_fn t) (y : Conditions ℝ) :
    r'.calculate_inputs t y = ({ r with ws_vol_fn := D } : Run ℝ).calculate_inputs u y := by
  rw [h]
  show _ = (_ : Inputs ℝ)
  simp only [Run.calculate_inputs, Run.comp_inputs, Run.chx_inputs, Run.regen_inputs, Run.hhx_inputs, Run.exp_inputs, hd]

theorem same_solver {r r' : Run ℝ} (h : SameEngine r r') : r'.solver = r.solver := by rw [h]

theorem same_fluid {r r' : Run ℝ} (h : SameEngine r r') : r'.fluid = r.fluid := by rw [h]

theorem same_sane {r r' : Run ℝ} (h : SameEngine r r') (hs : SaneRun r) {L : Limits} {w : ℝ} (hd : SlowDrive r' L w) :
    SaneRun r' := by
  refine ⟨?_, fun t => L.Vmin_pos.trans_le (hd.comp_vol t).1, fun t => L.Vmin_pos.trans_le (hd.exp_vol t).1, ?_, ?_, ?_,
    ?_, ?_, ?_⟩ <;> rw [h]
  exacts [hs.norm, hs.chx_vol, hs.regen_vol, hs.hhx_vol, hs.regen_temp, hs.chx_temp, hs.hhx_temp]

/-- **C86**, one constant for all drives: within given limits the three rates of an engine with no parasitic heat
are at most `C` times the speeds of the pistons, and Lipschitz in state, positions and speeds with constant `C`,
whatever the drive. -/
theorem C86_speeds (hf : r.fluid = (IdealGas.new n).toFluid) (hs : SaneRun r) (hT : Sound r.solver)
    (hc : Complete r.solver) (hq : NoParasiticHeat r) (L : Limits) : ∃ C, 0 < C ∧ ∀ r', SameEngine r r' → SaneRun r' →
      ∀ t y hint s, WithinLimits r' L t y → solve r'.solver (r'.calculate_inputs t y) hint = .ok s →
      solutionGap s ⟨0, 0, 0, 0, 0, 0, 0, 0, 0, 0⟩ ≤ C * (|(r'.ws_vol_fn t).1.deriv| + |(r'.ws_vol_fn t).2.deriv|) ∧
      ∀ t' y' hint' s', WithinLimits r' L t' y' → solve r'.solver (r'.calculate_inputs t' y') hint' = .ok s' →
        solutionGap s s' ≤ C * (stateGap y y' + driveGap r' t t') := by
  obtain ⟨D, hD, hall⟩ := universal_drive
  set u : Run ℝ := { r with ws_vol_fn := D } with hu
  have hsu : SaneRun u := ⟨hs.norm, fun t => (hD t).1, fun t => (hD t).2, hs.chx_vol, hs.regen_vol, hs.hhx_vol,
    hs.regen_temp, hs.chx_temp, hs.hhx_temp⟩
  obtain ⟨C, hC, hl⟩ := C70_lipschitz (r := u) hf hsu hT L
  refine ⟨C + 1, by positivity, ?_⟩
  intro r' hr hs' t y hint s w e
  have move : ∀ t, ∃ v, D v = r'.ws_vol_fn t := fun t => hall _ (hs'.comp_vol t) (hs'.exp_vol t)
  have within : ∀ {t v : ℝ} {y : Conditions ℝ}, D v = r'.ws_vol_fn t → WithinLimits r' L t y → WithinLimits u L v y := by
    intro t v y hv w
    have hv' : u.ws_vol_fn v = r'.ws_vol_fn t := hv
    exact ⟨w.pres, w.comp_temp, w.exp_temp, hv' ▸ w.comp_vol, hv' ▸ w.exp_vol, hv' ▸ w.comp_rate, hv' ▸ w.exp_rate⟩
  have solved : ∀ {t v : ℝ} {y : Conditions ℝ} {hint : FlowDirection} {s : Solution ℝ}, D v = r'.ws_vol_fn t →
      solve r'.solver (r'.calculate_inputs t y) hint = .ok s → solve u.solver (u.calculate_inputs v y) hint = .ok s := by
    intro t v y hint s hv e
    rw [same_inputs hr hv, same_solver hr] at e
    exact e
  have grow : ∀ {x g : ℝ}, 0 ≤ g → x ≤ C * g → x ≤ (C + 1) * g := by
    intro x g hg hx
    linarith
  obtain ⟨v, hv⟩ := move t
  refine ⟨?_, ?_⟩
  · obtain ⟨z, hz⟩ := hall (⟨(r'.ws_vol_fn t).1.value, 0⟩, ⟨(r'.ws_vol_fn t).2.value, 0⟩) (hs'.comp_vol t) (hs'.exp_vol t)
    have hz' : u.ws_vol_fn z = (⟨(r'.ws_vol_fn t).1.value, 0⟩, ⟨(r'.ws_vol_fn t).2.value, 0⟩) := hz
    have hv' : u.ws_vol_fn v = r'.ws_vol_fn t := hv
    have wz : WithinLimits u L z y := by
      have h0 : 0 ≤ L.Wmax := (abs_nonneg _).trans w.comp_rate
      refine ⟨w.pres, w.comp_temp, w.exp_temp, ?_, ?_, ?_, ?_⟩ <;> rw [hz']
      · exact w.comp_vol
      · exact w.exp_vol
      · simpa using h0
      · simpa using h0
    obtain ⟨s0, h0⟩ := C59_run_solve u n hf hT hc z y (physical_of_within hsu wz)
    have hb := C07_upwind_balances _ hT _ hsu.norm _ s0 (h0 hint)
    have hst := C58_ideal_gas_stable u n hf z y (physical_of_within hsu wz)
    have e0 := rest_solution (u.calculate_inputs z y) hst (by
      show (u.ws_vol_fn z).1.deriv = 0
      rw [hz']) (by
      show (u.ws_vol_fn z).2.deriv = 0
      rw [hz']) hq.comp hq.exp s0 hb
    have := hl v z y y hint hint s s0 (within hv w) wz (solved hv e) (h0 hint)
    rw [e0] at this
    refine grow (by positivity) (this.trans (le_of_eq ?_))
    simp [stateGap, driveGap, hv', hz']
  · intro t' y' hint' s' w' e'
    obtain ⟨v', hv'⟩ := move t'
    have := hl v v' y y' hint hint' s s' (within hv w) (within hv' w') (solved hv e) (solved hv' e')
    have eg : driveGap u v v' = driveGap r' t t' := by
      show _ = (_ : ℝ)
      have a : u.ws_vol_fn v = r'.ws_vol_fn t := hv
      have b : u.ws_vol_fn v' = r'.ws_vol_fn t' := hv'
      simp only [driveGap, a, b]
    rw [eg] at this
    refine grow ?_ this
    unfold stateGap driveGap
    positivity

/-- The rates of all slow drives, within limits on pressure, temperatures and volumes. -/
theorem slow_rates (hf : r.fluid = (IdealGas.new n).toFluid) (hs : SaneRun r) (hT : Sound r.solver)
    (hc : Complete r.solver) (hq : NoParasiticHeat r) (L : Limits) : ∃ C, 0 < C ∧ ∀ w, 0 < w → w ≤ 1 → ∀ r',
      SameEngine r r' → SlowDrive r' L w → RatesUpTo r' { L with Wmax := 1 } (2 * C * w) ∧
        Gentle (runRates r' { L with Wmax := 1 }) (2 * C * w) (3 * C) w := by
  obtain ⟨C, hC, hall⟩ := C86_speeds hf hs hT hc hq { L with Wmax := 1 }
  refine ⟨C, hC, ?_⟩
  intro w hw0 hw1 r' hr hd
  have hs' := same_sane hr hs hd
  have small : ∀ t, |(r'.ws_vol_fn t).1.deriv| + |(r'.ws_vol_fn t).2.deriv| ≤ 2 * w := by
    intro t
    linarith [hd.comp_rate t, hd.exp_rate t]
  have hM0 : 0 ≤ 2 * C * w := by positivity
  have rates : RatesUpTo r' { L with Wmax := 1 } (2 * C * w) := by
    intro t y hint s hw e
    have h := (hall r' hr hs' t y hint s hw e).1.trans (mul_le_mul_of_nonneg_left (small t) hC.le)
    simp only [solutionGap, sub_zero] at h
    have h0 := abs_nonneg s.m_dot_ck; have h1 := abs_nonneg s.m_dot_kr; have h2 := abs_nonneg s.m_dot_rl
    have h3 := abs_nonneg s.m_dot_le; have h4 := abs_nonneg s.Q_dot_k; have h5 := abs_nonneg s.Q_dot_r
    have h6 := abs_nonneg s.Q_dot_l; have h7 := abs_nonneg s.dTc_dt; have h8 := abs_nonneg s.dTe_dt
    have h9 := abs_nonneg s.dP_dt
    refine ⟨?_, ?_, ?_⟩ <;> linarith
  refine ⟨rates, ?_⟩
  refine ⟨?_, ?_⟩
  · rintro t y k ⟨hw, hint, s, e, rfl⟩
    obtain ⟨b1, b2, b3⟩ := rates t _ hint s hw e
    exact norm_vec_le b1 b2 b3
  · rintro t y k t' y' k' ⟨hw, hint, s, e, rfl⟩ ⟨hw', hint', s', e', rfl⟩
    have h := (hall r' hr hs' t _ hint s hw e).2 t' _ hint' s' hw' e'
    have hg : stateGap (conditionsOf y) (conditionsOf y') ≤ 3 * ‖vec y - vec y'‖ := stateGap_le _ _
    have h1 := mul_le_mul_of_nonneg_left (add_le_add hg (hd.steady t t')) hC.le
    have h2 : 0 ≤ C * (w * |t - t'|) := by positivity
    have h3 : ‖vec ⟨s.dP_dt, s.dTc_dt, s.dTe_dt⟩ - vec ⟨s'.dP_dt, s'.dTc_dt, s'.dTe_dt⟩‖ ≤ solutionGap s s' := by
      unfold solutionGap
      have h0 := abs_nonneg (s.m_dot_ck - s'.m_dot_ck); have h1 := abs_nonneg (s.m_dot_kr - s'.m_dot_kr)
      have h2 := abs_nonneg (s.m_dot_rl - s'.m_dot_rl); have h3 := abs_nonneg (s.m_dot_le - s'.m_dot_le)
      have h4 := abs_nonneg (s.Q_dot_k - s'.Q_dot_k); have h5 := abs_nonneg (s.Q_dot_r - s'.Q_dot_r)
      have h6 := abs_nonneg (s.Q_dot_l - s'.Q_dot_l); have h7 := abs_nonneg (s.dTc_dt - s'.dTc_dt)
      have h8 := abs_nonneg (s.dTe_dt - s'.dTe_dt); have h9 := abs_nonneg (s.dP_dt - s'.dP_dt)
      simp only [vec, Prod.mk_sub_mk, Prod.norm_mk, Real.norm_eq_abs]
      refine max_le ?_ (max_le ?_ ?_) <;> linarith
    linarith

/-- What remains to be checked of a drive with given bounds on its rates. -/
theorem quiet_cycle {r : Run ℝ} {n : GasName} (hf : r.fluid = (IdealGas.new n).toFluid) (hs : SaneRun r)
    (hT : Sound r.solver) (hc : Complete r.solver) {L : Limits} (hd : DriveWithin r L) {M C K δ : ℝ} (hM : 0 ≤ M)
    (hC : 0 ≤ C) (hK : 0 ≤ K) (rates : RatesUpTo r L M) (gentle : Gentle (runRates r L) M C K)
    (hp : 1e-10 ≤ r.period) (hp' : r.period < 1e6 - 1) (hδ : 25 * M * (r.period + 1e-14) ≤ δ)
    {outs : Nat} {env : Env ℝ} {ic : Conditions ℝ} {num : UInt32} {tol : OdeTolerance ℝ}
    (ho : env.ode = dopri5.solve outs) (hn : 2 ≤ num.toNat) (hres : ((num.toNat : ℝ) - 1) * 1e-14 < r.period)
    (hout : num.toNat + 2 ≤ outs) (hr : 0 ≤ tol.rel) (hσ : 0 < leastAllowed tol L) (hMσ : M ≤ 1e20 * leastAllowed tol L)
    (hτ : C * (25 * M + K) * (r.period + 1e-14) ^ 2 ≤ 1e4 * leastAllowed tol L) (hin : Inside L δ ic) :
    ∃ pts, integrationTryFrom env r.toCycle ic num tol = .ok pts ∧ ∀ p ∈ pts,
      WithinLimits r L p.time p.conditions ∧ Nearby δ ic p.conditions := by
  have hp0 : 0 < r.period := lt_of_lt_of_le (by norm_num) hp
  have near : ∀ t (y : Conditions ℝ), |y.P - ic.P| ≤ 25 * M * (r.period + 1e-14) →
      |y.T_c - ic.T_c| ≤ 25 * M * (r.period + 1e-14) → |y.T_e - ic.T_e| ≤ 25 * M * (r.period + 1e-14) →
      WithinLimits r L t y := by
    intro t y hP hTc hTe
    have a1 := abs_le.1 (hP.trans hδ); have a2 := abs_le.1 (hTc.trans hδ); have a3 := abs_le.1 (hTe.trans hδ)
    refine ⟨⟨?_, ?_⟩, ⟨?_, ?_⟩, ⟨?_, ?_⟩, hd.comp_vol t, hd.exp_vol t, hd.comp_rate t, hd.exp_rate t⟩
    · linarith [hin.pres.1]
    · linarith [hin.pres.2]
    · linarith [hin.comp_temp.1]
    · linarith [hin.comp_temp.2]
    · linarith [hin.exp_temp.1]
    · linarith [hin.exp_temp.2]
  have stays : StaysWithin env r L ic num tol := C86_stays hM rates hp0 ho hn fun t y _ _ => near t y
  obtain ⟨pts, h⟩ := gentle_succeeds hf hs hT hc hC hK gentle hp hp' ho hn hres hout hr hσ hMσ hτ stays
  refine ⟨pts, h, fun p hp => ?_⟩
  obtain ⟨-, -, h1, h2, h3⟩ := reported_near hM rates hp0 ho hn stays h p hp
  exact ⟨near _ _ h1 h2 h3, h1.trans hδ, h2.trans hδ, h3.trans hδ⟩

/-- **C86**, slow engines.  Whatever the tolerance (an error of `σ > 0` per step), the limits on pressure, temperatures
and volumes, and the distance `δ` the initial state keeps from them, there is a `w > 0` such that for every drive of the
engine with speeds and accelerations up to `w` the integration of one cycle succeeds, and reports states no further
than `δ` from the initial one. -/
theorem C86_slow (hf : r.fluid = (IdealGas.new n).toFluid) (hs : SaneRun r) (hT : Sound r.solver)
    (hc : Complete r.solver) (hq : NoParasiticHeat r) (L : Limits) {δ σ : ℝ} (hδ : 0 < δ) (hσ : 0 < σ) :
    ∃ w, 0 < w ∧ w ≤ 1 ∧ ∀ r', SameEngine r r' → SlowDrive r' L w → 1e-10 ≤ r'.period → r'.period < 1e6 - 1 →
      ∀ (outs : Nat) (env : Env ℝ) (ic : Conditions ℝ) (num : UInt32) (tol : OdeTolerance ℝ),
      env.ode = dopri5.solve outs → 2 ≤ num.toNat → ((num.toNat : ℝ) - 1) * 1e-14 < r'.period → num.toNat + 2 ≤ outs →
      0 ≤ tol.rel → σ ≤ leastAllowed tol L → Inside L δ ic →
      ∃ pts, integrationTryFrom env r'.toCycle ic num tol = .ok pts ∧ ∀ p ∈ pts,
        WithinLimits r' { L with Wmax := 1 } p.time p.conditions ∧ Nearby δ ic p.conditions := by
  obtain ⟨C, hC, hall⟩ := slow_rates hf hs hT hc hq L
  obtain ⟨w, hw0, hw1, hwδ, hwM, hwσ⟩ : ∃ w : ℝ, 0 < w ∧ w ≤ 1 ∧ 25 * (2 * C * w) * 1e6 ≤ δ ∧ 2 * C * w ≤ 1e20 * σ ∧
      3 * C * (25 * (2 * C * w) + w) * 1e6 ^ 2 ≤ 1e4 * σ := by
    have key : ∀ a b : ℝ, 0 < a → 0 < b → ∃ w, 0 < w ∧ ∀ x, 0 < x → x ≤ w → a * x ≤ b := by
      intro a b ha hb
      refine ⟨b / a, by positivity, fun x _ hx => ?_⟩
      rw [le_div_iff₀ ha] at hx
      linarith
    obtain ⟨w1, p1, h1⟩ := key (25 * (2 * C) * 1e6) δ (by positivity) hδ
    obtain ⟨w2, p2, h2⟩ := key (2 * C) (1e20 * σ) (by positivity) (by positivity)
    obtain ⟨w3, p3, h3⟩ := key (3 * C * (25 * (2 * C) + 1) * 1e6 ^ 2) (1e4 * σ) (by positivity) (by positivity)
    have hp : 0 < min 1 (min w1 (min w2 w3)) := by positivity
    refine ⟨min 1 (min w1 (min w2 w3)), hp, min_le_left _ _, ?_, ?_, ?_⟩
    · have := h1 _ hp ((min_le_right _ _).trans (min_le_left _ _))
      linarith
    · exact h2 _ hp ((min_le_right _ _).trans ((min_le_right _ _).trans (min_le_left _ _)))
    · have := h3 _ hp ((min_le_right _ _).trans ((min_le_right _ _).trans (min_le_right _ _)))
      linarith
  refine ⟨w, hw0, hw1, ?_⟩
  intro r' hr hd hp hp' outs env ic num tol ho hn hres hout hrel htol hin
  have hs' := same_sane hr hs hd
  have hf' : r'.fluid = (IdealGas.new n).toFluid := (same_fluid hr).trans hf
  have hTs : Sound r'.solver := (same_solver hr) ▸ hT
  have hcs : Complete r'.solver := (same_solver hr) ▸ hc
  obtain ⟨rates, gentle⟩ := hall w hw0 hw1 r' hr hd
  have hp0 : 0 < r'.period := lt_of_lt_of_le (by norm_num) hp
  have hlen : r'.period + 1e-14 ≤ 1e6 := by norm_num at hp' ⊢; linarith
  have hM0 : 0 ≤ 2 * C * w := by positivity
  have hD : 0 ≤ 3 * C * (25 * (2 * C * w) + w) := by positivity
  refine quiet_cycle (L := { L with Wmax := 1 }) hf' hs' hTs hcs ⟨hd.comp_vol, hd.exp_vol, fun t => (hd.comp_rate t).trans hw1,
    fun t => (hd.exp_rate t).trans hw1⟩ hM0 (by positivity) hw0.le rates gentle hp hp'
    (le_trans (mul_le_mul_of_nonneg_left hlen (by positivity)) hwδ) ho hn hres hout hrel (hσ.trans_le htol) ?_ ?_
    ⟨hin.pres, hin.comp_temp, hin.exp_temp⟩
  · exact hwM.trans (mul_le_mul_of_nonneg_left htol (by norm_num))
  · refine le_trans (le_trans (mul_le_mul_of_nonneg_left (pow_le_pow_left₀ (by positivity) hlen 2) hD) hwσ) ?_
    exact mul_le_mul_of_nonneg_left htol (by norm_num)

end

end Sett
