import Verif.Props.Grid

/-! # The two integrations of a converged cycle agree (C73)

The inner loop tests convergence on an integration that reports two points and then integrates again with
the requested number of points (`src/state_equations/cycle.rs:52-58`). -/

namespace Sett

open Spec state_equations dopri5

/-- Two interaction trees that ask the same questions in the same order, whatever they are answered, until
one of them fails; results they both reach are related by `R`. -/
inductive Alongside {α : Type} (R : List α × List (V3 α) → List α × List (V3 α) → Prop) :
    Stepper α → Stepper α → Prop
  | done {a b} : R a b → Alongside R (.done (some a)) (.done (some b))
  | eval {t y k k'} : (∀ dy, Alongside R (k dy) (k' dy)) → Alongside R (.eval t y k) (.eval t y k')
  | left {st} : Alongside R (.done none) st
  | right {st} : Alongside R st (.done none)

theorem run_alongside {α : Type} [Scalar α] {R : List α × List (V3 α) → List α × List (V3 α) → Prop}
    {st st' : Stepper α} (h : Alongside R st st') (cycle : Cycle α) (d : FlowDirection)
    {a b : List α × List (V3 α)} {l l' : List (Evaluation α)} (ha : st.run cycle d = .ok (some a, l))
    (hb : st'.run cycle d = .ok (some b, l')) : R a b := by
  induction h generalizing d l l' with
  | done h => cases ha; cases hb; exact h
  | @eval t y k k' h ih =>
    unfold Stepper.run at ha hb
    cases hs : system cycle d t y with
    | error e => rw [hs] at ha; cases ha
    | ok ev =>
      rw [hs] at ha hb
      simp only at ha hb
      split at ha
      · cases ha
      · rename_i out log h1
        cases ha
        split at hb
        · cases hb
        · rename_i out' log' h2
          cases hb
          exact ih _ _ h1 h2
  | left => cases ha
  | right => cases hb

/-- The values reported for a common time are the same. -/
def Agree (a b : List ℝ × List (V3 ℝ)) : Prop :=
  ∀ q ∈ a.1.zip a.2, ∀ q' ∈ b.1.zip b.2, q.1 = q'.1 → q.2 = q'.2

/-- The points emitted after a step: times past the end of the step before, values of one function of
time. -/
theorem output_points {p : Problem ℝ} (hd : 0 < p.dx) (outs : Nat) : ∀ (s s' : dopri5.State ℝ),
    0 ≤ s.x → 0 ≤ s.xd → output p outs s = some s' →
    ∃ ts : List ℝ, (∀ t ∈ ts, s.xd ≤ t ∧ t ≤ s.x) ∧
      s' = { s with
        xd := s'.xd
        xOut := s.xOut ++ ts
        yOut := s.yOut ++ ts.map fun t => interpolate s ((t - s.xOld) / s.hOld) } ∧
      s.x < s'.xd := by
  induction outs with
  | zero => intro s s' _ _ h; cases h
  | succ n ih =>
    intro s s' hx hxd h
    unfold output at h
    split at h
    · rename_i h1
      rw [real_le, real_abs, real_abs, abs_of_nonneg hx, abs_of_nonneg hxd] at h1
      split at h
      · obtain ⟨ts, g1, g2, g3⟩ := ih { s with
            xd := s.xd + p.dx
            xOut := s.xOut ++ [s.xd]
            yOut := s.yOut ++ [interpolate s ((s.xd - s.xOld) / s.hOld)] } s' hx (by show 0 ≤ s.xd + p.dx; linarith) h
        refine ⟨s.xd :: ts, ?_, ?_, g3⟩
        · intro t ht
          rcases List.mem_cons.1 ht with rfl | ht
          · exact ⟨le_rfl, h1⟩
          · obtain ⟨a, b⟩ := g1 t ht
            simp only at a b
            exact ⟨by linarith, b⟩
        · rw [g2]
          simp only [List.map_cons, List.append_assoc, List.cons_append, List.nil_append]
          rfl
      · cases h
    · rename_i h1
      cases h
      rw [real_le, real_abs, real_abs, abs_of_nonneg hx, abs_of_nonneg hxd, not_le] at h1
      exact ⟨[], by simp, by simp, h1⟩

/-- Two states that differ only in what they have reported: everything reported lies in the past, what is due
lies ahead, and the reports agree. -/
structure Twins (xEnd : ℝ) (s : dopri5.State ℝ) (xd' : ℝ) (xs' : List ℝ) (ys' : List (V3 ℝ)) :
    Prop where
  nonneg : 0 ≤ s.x
  before : s.x < xEnd
  step : 0 < s.h
  len : s.xOut.length = s.yOut.length
  len' : xs'.length = ys'.length
  agree : Agree (s.xOut, s.yOut) (xs', ys')
  past : ∀ t ∈ s.xOut, t ≤ s.x
  past' : ∀ t ∈ xs', t ≤ s.x
  ahead : (s.x < s.xd ∧ s.x < xd') ∨ (s.x ≤ s.xd ∧ s.x ≤ xd' ∧ s.xOut = [] ∧ xs' = [])

theorem agree_append {xs xs' ts ts' : List ℝ} {ys ys' : List (V3 ℝ)} {f : ℝ → V3 ℝ}
    (hl : xs.length = ys.length) (hl' : xs'.length = ys'.length) (h : Agree (xs, ys) (xs', ys'))
    (h1 : ∀ t ∈ ts, ∀ u ∈ xs', t ≠ u) (h2 : ∀ t ∈ xs, ∀ u ∈ ts', t ≠ u) :
    Agree (xs ++ ts, ys ++ ts.map f) (xs' ++ ts', ys' ++ ts'.map f) := by
  have hz : ∀ (ts : List ℝ) q, q ∈ ts.zip (ts.map f) → q.1 ∈ ts ∧ q.2 = f q.1 := by
    intro ts q hq
    rw [List.mem_iff_getElem] at hq
    obtain ⟨i, hi, rfl⟩ := hq
    simp only [List.getElem_zip, List.getElem_map]
    exact ⟨List.getElem_mem _, trivial⟩
  intro q hq q' hq' he
  rw [List.zip_append hl, List.mem_append] at hq
  rw [List.zip_append hl', List.mem_append] at hq'
  rcases hq with hq | hq <;> rcases hq' with hq' | hq'
  · exact h q hq q' hq' he
  · exact absurd he (h2 _ (List.of_mem_zip (a := q.1) (b := q.2) hq).1 _ (hz _ _ hq').1)
  · exact absurd he (h1 _ (hz _ _ hq).1 _ (List.of_mem_zip (a := q'.1) (b := q'.2) hq').1)
  · rw [(hz _ _ hq).2, (hz _ _ hq').2, he]

theorem conclude_alongside (p : Problem ℝ) (dx' : ℝ) (outs : Nat) (hd : 0 < p.dx) (hd' : 0 < dx')
    (hpos : p.posneg = 1) (hmax : 0 < p.hMax) (next next' : dopri5.State ℝ → V3 ℝ → Stepper ℝ)
    (hnext : ∀ s xd' xs' ys' k0, Twins p.xEnd s xd' xs' ys' →
      Alongside Agree (next s k0) (next' { s with xd := xd', xOut := xs', yOut := ys' } k0))
    (s : dopri5.State ℝ) (xd' : ℝ) (xs' : List ℝ) (ys' : List (V3 ℝ)) (hI : Twins p.xEnd s xd' xs' ys')
    (k0 k2 k3 k4 k5 k6 yStiff yNext : V3 ℝ) :
    Alongside Agree
      (conclude p outs next s (isLast p s) (tried p s) k0 k2 k3 k4 k5 k6 yStiff yNext)
      (conclude { p with dx := dx' } outs next' { s with xd := xd', xOut := xs', yOut := ys' }
        (isLast p s) (tried p s) k0 k2 k3 k4 k5 k6 yStiff yNext) := by
  have htr : 0 < tried p s := by
    unfold tried
    split
    · exact sub_pos.2 hI.before
    · exact hI.step
  unfold conclude
  have ea : ∀ a b c d, accept { p with dx := dx' } a b c d = accept p a b c d := fun _ _ _ _ => rfl
  have ee : ∀ a b c, errorNorm { p with dx := dx' } a b c = errorNorm p a b c := fun _ _ _ => rfl
  have es : stiffness { s with xd := xd', xOut := xs', yOut := ys', accepted := s.accepted + 1 }
      (tried p s) k6 k5 yNext yStiff
      = stiffness { s with accepted := s.accepted + 1 } (tried p s) k6 k5 yNext yStiff := rfl
  simp only [ea, ee, es]
  generalize errorNorm p s.y yNext (scale3 (weighted [k0, k2, k3, k4, k5, k6] e) (tried p s)) = err
  cases hacc : accept p s.facOld s.reject err (tried p s) with
  | mk b hNew =>
    have hn := accept_pos hpos hmax htr hacc
    cases b with
    | false =>
      simp only
      exact hnext { s with h := hNew, reject := true } xd' xs' ys' k0
        ⟨hI.nonneg, hI.before, hn, hI.len, hI.len', hI.agree, hI.past, hI.past', hI.ahead⟩
    | true =>
      simp only
      cases stiffness { s with accepted := s.accepted + 1 } (tried p s) k6 k5 yNext yStiff with
      | none => exact .left
      | some st =>
        simp only
        cases h1 : output p outs (advance s (tried p s) err k0 k2 k3 k4 k5 k6 yNext st) with
        | none => exact .left
        | some s1 =>
          cases h2 : output { p with dx := dx' } outs (advance
              { s with xd := xd', xOut := xs', yOut := ys' } (tried p s) err k0 k2 k3 k4 k5 k6 yNext st) with
          | none => exact .right
          | some s2 =>
            simp only
            have hx : 0 ≤ s.x + tried p s := by linarith [hI.nonneg]
            have a1 : s.x ≤ s.xd := by rcases hI.ahead with h | h <;> linarith [h.1]
            have a2 : s.x ≤ xd' := by
              rcases hI.ahead with h | h
              · exact h.2.le
              · exact h.2.1
            obtain ⟨ts, g1, g2, g3⟩ := output_points hd outs _ _ (by exact hx)
              (by show 0 ≤ s.xd; linarith [hI.nonneg]) h1
            obtain ⟨ts', g1', g2', g3'⟩ := output_points (p := { p with dx := dx' }) hd' outs _ _
              (by exact hx) (by show 0 ≤ xd'; linarith [hI.nonneg]) h2
            have ag : Agree (s1.xOut, s1.yOut) (s2.xOut, s2.yOut) := by
              rw [g2, g2']
              refine agree_append hI.len hI.len' hI.agree ?_ ?_
              · intro t ht u hu
                rcases hI.ahead with h | h
                · have := (g1 t ht).1
                  have : s.xd ≤ t := this
                  exact (lt_of_le_of_lt (hI.past' u hu) (lt_of_lt_of_le h.1 this)).ne'
                · have hu' : u ∈ xs' := hu
                  rw [h.2.2.2] at hu'; cases hu'
              · intro t ht u hu
                rcases hI.ahead with h | h
                · have : xd' ≤ u := (g1' u hu).1
                  exact (lt_of_le_of_lt (hI.past t ht) (lt_of_lt_of_le h.2 this)).ne
                · have ht' : t ∈ s.xOut := ht
                  rw [h.2.2.1] at ht'; cases ht'
            split
            · exact .done ag
            · rename_i hl
              have ht : tried p s = s.h := by unfold tried; rw [if_neg hl]
              have hlast : isLast p s = true ↔ 0 < s.x + 1.01 * s.h - p.xEnd := by
                unfold isLast
                rw [real_lt, hpos, mul_one, lit_0]
              rw [hlast, not_lt] at hl
              have e1 : s1.x = s.x + tried p s := by rw [g2]; rfl
              have hs := hI.step
              have := hnext { s1 with h := hNew } s2.xd s2.xOut s2.yOut k6
                ⟨by rw [e1]; exact hx, by
                    show s1.x < p.xEnd
                    rw [e1, ht]; norm_num at hl; linarith,
                  hn, by
                    show s1.xOut.length = s1.yOut.length
                    rw [g2]; simpa [advance] using hI.len, by
                    rw [g2']; simpa [advance] using hI.len', ag, by
                    show ∀ t ∈ s1.xOut, t ≤ s1.x
                    rw [e1, g2]
                    intro t ht
                    rcases List.mem_append.1 ht with ht | ht
                    · linarith [hI.past t ht]
                    · exact (g1 t ht).2, by
                    show ∀ t ∈ s2.xOut, t ≤ s1.x
                    rw [e1, g2']
                    intro t ht
                    rcases List.mem_append.1 ht with ht | ht
                    · linarith [hI.past' t ht]
                    · exact (g1' t ht).2,
                  .inl ⟨by show s1.x < s1.xd; rw [e1]; exact g3, by
                    show s1.x < s2.xd; rw [e1]; exact g3'⟩⟩
              have e2 : { s2 with h := hNew }
                  = { s1 with h := hNew, xd := s2.xd, xOut := s2.xOut, yOut := s2.yOut } := by
                rw [g2, g2']; rfl
              rw [e2]
              exact this

theorem loop_alongside (p : Problem ℝ) (dx' : ℝ) (outs : Nat) (hd : 0 < p.dx) (hd' : 0 < dx')
    (hpos : p.posneg = 1) (hmax : 0 < p.hMax) (passes : Nat) :
    ∀ (s : dopri5.State ℝ) (xd' : ℝ) (xs' : List ℝ) (ys' : List (V3 ℝ)) (k0 : V3 ℝ),
      Twins p.xEnd s xd' xs' ys' →
      Alongside Agree (loop p outs passes s k0)
        (loop { p with dx := dx' } outs passes { s with xd := xd', xOut := xs', yOut := ys' } k0) := by
  induction passes with
  | zero => intros; exact .left
  | succ n ih =>
    intro s xd' xs' ys' k0 hI
    unfold loop
    split
    · exact .left
    · simp only [stages]
      exact .eval fun k1 => .eval fun k2 => .eval fun k3 => .eval fun k4 => .eval fun k5 =>
        .eval fun k6 => conclude_alongside p dx' outs hd hd' hpos hmax _ _ ih s xd' xs' ys' hI
          k0 k2 k3 k4 k5 k6 _ _

theorem solve_alongside (outs : Nat) (xEnd dx dx' rtol atol : ℝ) (y : V3 ℝ) (hx : 0 < xEnd)
    (hd : 0 < dx) (hd' : 0 < dx') :
    Alongside Agree (dopri5.solve outs 0.0 xEnd dx y rtol atol)
      (dopri5.solve outs 0.0 xEnd dx' y rtol atol) := by
  unfold dopri5.solve
  set p : Problem ℝ := { xEnd, dx, rtol, atol, hMax := Scalar.abs (xEnd - 0.0)
                         posneg := dopri5.sign 1.0 (xEnd - 0.0) } with hp
  have hpos : p.posneg = 1 := by
    show dopri5.sign 1.0 (xEnd - 0.0) = 1
    unfold dopri5.sign
    rw [if_pos ((real_lt _ _).2 (by rw [lit_0]; linarith))]
    norm_num
  have hmax : 0 < p.hMax := by
    show 0 < |xEnd - 0.0|
    rw [lit_0, sub_zero]; exact abs_pos.2 hx.ne'
  unfold hinit
  refine .eval fun f0 => .eval fun f1 => .eval fun k0 => ?_
  refine loop_alongside p dx' outs hd hd' hpos hmax _ _ 0.0 [] [] k0
    ⟨le_of_eq lit_0.symm, by rw [lit_0]; exact hx,
      secondGuess_pos hpos hmax _ _ _ (firstGuess_pos hpos hmax _ _), rfl, rfl, ?_, ?_, ?_,
      .inr ⟨le_rfl, le_rfl, rfl, rfl⟩⟩
  · intro q hq; cases hq
  · intro t ht; cases ht
  · intro t ht; cases ht

/-- **C73**, integrations of the same cycle that report different numbers of points report the same
conditions at the end of the cycle, and at every other time they both report. -/
theorem C73_same_cycle (outs : Nat) (env : Env ℝ) (ho : env.ode = dopri5.solve outs) (cycle : Cycle ℝ)
    (ic : Conditions ℝ) (n n' : UInt32) (tol : OdeTolerance ℝ) (hn : 2 ≤ n.toNat) (hn' : 2 ≤ n'.toNat)
    (hT : ((n.toNat : ℝ) - 1) * 1e-14 < cycle.period) (hT' : ((n'.toNat : ℝ) - 1) * 1e-14 < cycle.period)
    (pts pts' : List (Point ℝ)) (h : integrationTryFrom env cycle ic n tol = .ok pts)
    (h' : integrationTryFrom env cycle ic n' tol = .ok pts') :
    (pts.getLast?.map (·.conditions)) = (pts'.getLast?.map (·.conditions)) ∧
    ∀ q ∈ pts, ∀ q' ∈ pts', q.time = q'.time → q.conditions = q'.conditions := by
  have key : ∀ q ∈ pts, ∀ q' ∈ pts', q.time = q'.time → q.conditions = q'.conditions := by
    have hT0 : 0 < cycle.period := lt_trans (mul_pos (by
      have : (1 : ℝ) < n.toNat := by exact_mod_cast hn
      linarith) (by norm_num)) hT
    have step : ∀ (n : UInt32), 2 ≤ n.toNat → ∀ pts, integrationTryFrom env cycle ic n tol = .ok pts →
        ∃ dx xs ys log, 0 < dx ∧ (dopri5.solve outs 0.0 (cycle.period + 1e-14) dx
          ⟨ic.P, ic.T_c, ic.T_e⟩ tol.rel tol.abs).run cycle FlowDirection.default
            = .ok (some (xs, ys), log) ∧ pts = toPoints xs ys := by
      intro n hn pts h
      unfold integrationTryFrom at h
      split at h
      · cases h
      · rename_i dx hdx
        split at h
        · cases h
        · cases h
        · rename_i xs ys log hr
          cases h
          unfold startStepper at hr
          rw [ho] at hr
          refine ⟨dx, xs, ys, log, ?_, hr, rfl⟩
          rw [timeStep_eq hn hdx]
          have : (1 : ℝ) < n.toNat := by exact_mod_cast hn
          exact div_pos hT0 (by linarith)
    obtain ⟨dx, xs, ys, log, hd, h1, rfl⟩ := step n hn pts h
    obtain ⟨dx', xs', ys', log', hd', h1', rfl⟩ := step n' hn' pts' h'
    have hx : (0 : ℝ) < cycle.period + 1e-14 := add_pos hT0 (by norm_num)
    have ag := run_alongside (solve_alongside outs _ dx dx' _ _ _ hx hd hd') cycle _ h1 h1'
    intro q hq q' hq' he
    unfold toPoints at hq hq'
    obtain ⟨r, hr, rfl⟩ := List.mem_map.1 hq
    obtain ⟨r', hr', rfl⟩ := List.mem_map.1 hq'
    have := ag r hr r' hr' he
    simp only
    rw [this]
  refine ⟨?_, key⟩
  obtain ⟨-, -, e⟩ := C72_integration outs env ho cycle ic n tol hn hT pts h
  obtain ⟨-, -, e'⟩ := C72_integration outs env ho cycle ic n' tol hn' hT' pts' h'
  cases ha : pts.getLast? with
  | none => rw [ha] at e; cases e
  | some a =>
    cases hb : pts'.getLast? with
    | none => rw [hb] at e'; cases e'
    | some b =>
      rw [ha, Option.map_some, Option.some.injEq] at e
      rw [hb, Option.map_some, Option.some.injEq] at e'
      rw [Option.map_some, Option.map_some,
        key a (List.mem_of_getLast? ha) b (List.mem_of_getLast? hb) (e.trans e'.symm)]

/-- **C73**, a run.  The series of a successful run close: the temperatures of both spaces at the end of the
reported cycle are within the inner tolerance of those at its start. -/
theorem C73_reported_cycle_closes (outs : Nat) (env : Env ℝ) (ho : env.ode = dopri5.solve outs)
    (U : MatrixDecomposition ℝ) (c : Components ℝ) (fluid : Fluid ℝ) (inputs : RunInputs ℝ)
    (settings : RunSettings ℝ) (hc : Spec.Turning c settings.resolution) (e : Engine ℝ)
    (h : Engine.run env U c fluid inputs settings = .ok e) :
    (∃ a b, e.values.T_c.head? = some a ∧ e.values.T_c.getLast? = some b ∧
      |b - a| < settings.loop_tol.inner.abs ∧ |(b - a) / a| < settings.loop_tol.inner.rel) ∧
    (∃ a b, e.values.T_e.head? = some a ∧ e.values.T_e.getLast? = some b ∧
      |b - a| < settings.loop_tol.inner.abs ∧ |(b - a) / a| < settings.loop_tol.inner.rel) := by
  obtain ⟨n, ic, vs, -, -, ⟨⟨first, last, ⟨pts, h1, h2, h3⟩, h4⟩, pts', h5, h6⟩, h7, -⟩ :=
    C36_values_are_steady env U c fluid inputs settings e h
  have hT : (Run.new U c e.state).toCycle.period = 1 / c.ws.frequency ⟨e.state.pres⟩ := by
    show 1.0 / c.ws.frequency ⟨e.state.pres⟩ = _
    rw [lit_1]
  have hT' : ((settings.resolution.toNat : ℝ) - 1) * 1e-14 < (Run.new U c e.state).toCycle.period := by
    rw [hT, lt_div_iff₀ (hc.positive _)]
    exact hc.interval _
  have hT2 : (((2 : UInt32).toNat : ℝ) - 1) * 1e-14 < (Run.new U c e.state).toCycle.period := by
    refine lt_of_le_of_lt (mul_le_mul_of_nonneg_right ?_ (by norm_num)) hT'
    have : (2 : ℝ) ≤ settings.resolution.toNat := by exact_mod_cast hc.resolution
    rw [show (2 : UInt32).toNat = 2 from rfl]
    push_cast
    linarith
  obtain ⟨k1, -⟩ := C73_same_cycle outs env ho _ ic 2 settings.resolution _ (by decide) hc.resolution
    hT2 hT' pts pts' h1 h5
  obtain ⟨-, k2, -⟩ := C72_integration outs env ho _ ic 2 _ (by decide) hT2 pts h1
  obtain ⟨-, k3, -⟩ := C72_integration outs env ho _ ic settings.resolution _ hc.resolution hT' pts' h5
  obtain ⟨k4, -⟩ := C32_values_self_consistent _ _ _ h6
  have e1 : first = ic := by rw [k2] at h2; exact (Option.some.inj h2).symm
  rw [h3] at k1
  rw [← k4] at k1 k3
  have e2 : vs.head?.map (·.conditions) = some first := by
    rw [e1, ← k3, List.head?_map, Option.map_map]; rfl
  have e3 : vs.getLast?.map (·.conditions) = some last := by
    rw [k1, List.getLast?_map, Option.map_map]; rfl
  obtain ⟨⟨w1, w2⟩, w3, w4⟩ := h4
  rw [real_lt] at w1 w2 w3 w4
  rw [h7, ofStateValues_eq]
  have f2 : ∀ g : Conditions ℝ → ℝ, (vs.map fun v => g v.conditions).head? = some (g first) := by
    intro g
    rw [List.head?_map, show (fun v : state_equations.Values ℝ => g v.conditions)
      = g ∘ (·.conditions) from rfl, ← Option.map_map, e2]; rfl
  have f3 : ∀ g : Conditions ℝ → ℝ, (vs.map fun v => g v.conditions).getLast? = some (g last) := by
    intro g
    rw [List.getLast?_map, show (fun v : state_equations.Values ℝ => g v.conditions)
      = g ∘ (·.conditions) from rfl, ← Option.map_map, e3]; rfl
  exact ⟨⟨_, _, f2 (·.T_c), f3 (·.T_c), w1, w2⟩, _, _, f2 (·.T_e), f3 (·.T_e), w3, w4⟩

end Sett
