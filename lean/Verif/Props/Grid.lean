import Verif.Proofs.Dopri5
import Verif.Proofs.Lits
import Verif.Props.Engine
import Mathlib.Tactic.Linarith
import Mathlib.Tactic.Positivity
import Mathlib.Tactic.FieldSimp

/-! # The points a successful integration reports (C72) -/

namespace Sett

open Spec state_equations dopri5

/-! ## The step size stays positive, exact arithmetic -/

theorem fmax_real (a b : ℝ) : fmax a b = max a b := by
  unfold fmax
  split
  · rename_i h
    rw [real_lt] at h
    exact (max_eq_right h.le).symm
  · rename_i h
    rw [real_lt, not_lt] at h
    rw [if_pos ((real_le a a).2 le_rfl)]
    exact (max_eq_left h).symm

theorem fmin_real (a b : ℝ) : fmin a b = min a b := by
  unfold fmin
  split
  · rename_i h
    rw [real_lt] at h
    exact (min_eq_right h.le).symm
  · rename_i h
    rw [real_lt, not_lt] at h
    rw [if_pos ((real_le a a).2 le_rfl)]
    exact (min_eq_left h).symm

theorem sign_pos {a b : ℝ} (ha : a ≠ 0) (hb : 0 < b) : 0 < dopri5.sign a b := by
  unfold dopri5.sign
  rw [if_pos ((real_lt _ _).2 (by rw [lit_0]; exact hb))]
  exact abs_pos.2 ha

theorem accept_pos {p : Problem ℝ} {facOld err h hNew : ℝ} {reject b : Bool} (hp : p.posneg = 1)
    (hm : 0 < p.hMax) (hh : 0 < h) (he : accept p facOld reject err h = (b, hNew)) : 0 < hNew := by
  unfold accept at he
  simp only [fmax_real, fmin_real] at he
  split at he
  · injection he with _ he
    rw [hp] at he
    set f := max (1.0 / 10.0) (min (1.0 / 0.2)
      (HasPowf.powf err (0.2 - 0.04 * 0.75) * HasPowf.powf facOld (-0.04) / 0.9)) with hf
    have hf0 : (0 : ℝ) < f := lt_of_lt_of_le (by norm_num) (le_max_left _ _)
    have h1 : 0 < h / f := div_pos hh hf0
    have h2 : 0 < (if Scalar.lt p.hMax (Scalar.abs (h / f)) then 1 * p.hMax else h / f) := by
      split
      · linarith
      · exact h1
    rw [← he]
    split
    · rw [one_mul]
      exact lt_min (abs_pos.2 h2.ne') (abs_pos.2 hh.ne')
    · exact h2
  · rename_i hn
    injection he with _ he
    rw [real_le] at hn
    have : (1 : ℝ) < err := by rw [lit_1] at hn; linarith
    rw [← he]
    refine div_pos hh (lt_min (by norm_num) (div_pos ?_ (by norm_num)))
    exact Real.rpow_pos_of_pos (by linarith) _

theorem firstGuess_pos {p : Problem ℝ} (hp : p.posneg = 1) (hm : 0 < p.hMax) (y f0 : V3 ℝ) :
    0 < firstGuess p y f0 := by
  simp only [firstGuess, fmin_real, hp]
  refine sign_pos (lt_min ?_ hm).ne' one_pos
  split
  · norm_num
  · rename_i hn
    rw [Bool.or_eq_true, real_lt, real_lt, not_or, not_lt, not_lt] at hn
    have h0 : 0 < initNorm p y y := lt_of_lt_of_le (by norm_num) hn.1
    have h1 : 0 < initNorm p y f0 := lt_of_lt_of_le (by norm_num) hn.2
    exact mul_pos (by norm_num) (Real.sqrt_pos.2 (div_pos h0 h1))

theorem secondGuess_pos {p : Problem ℝ} (hp : p.posneg = 1) (hm : 0 < p.hMax) (y f0 f1 : V3 ℝ) {h0 : ℝ}
    (h : 0 < h0) : 0 < secondGuess p y f0 f1 h0 := by
  simp only [secondGuess, fmin_real, fmax_real, hp]
  refine sign_pos (lt_min (mul_pos (by norm_num) (abs_pos.2 h.ne')) (lt_min ?_ hm)).ne' one_pos
  split
  · exact lt_of_lt_of_le (by norm_num) (le_max_left _ _)
  · rename_i hn
    rw [real_le, not_le] at hn
    refine Real.rpow_pos_of_pos (div_pos (by norm_num) ?_) _
    rw [real_abs, real_sqrt (initNorm p y (sub3 f1 f0)),
      abs_of_nonneg (div_nonneg (Real.sqrt_nonneg _) h.le)] at hn
    exact lt_trans (by norm_num) hn

theorem hinit_pos {p : Problem ℝ} {s : dopri5.State ℝ} (hp : p.posneg = 1) (hm : 0 < p.hMax)
    {k : ℝ → Stepper ℝ} {qs : List (ℝ × V3 ℝ × V3 ℝ)} {out : Option (List ℝ × List (V3 ℝ))}
    {A : ℝ → V3 ℝ → V3 ℝ → Prop} (hA : Answered A qs) (h : Reaches (hinit p s k) qs (.done out)) :
    ∃ h0 qs', 0 < h0 ∧ Answered A qs' ∧ Reaches (k h0) qs' (.done out) := by
  obtain ⟨f0, _, h, hA, -⟩ := reaches_eval h hA
  obtain ⟨f1, qs', h, hA, -⟩ := reaches_eval h hA
  exact ⟨_, qs', secondGuess_pos hp hm _ _ _ (firstGuess_pos hp hm _ _), hA, h⟩

/-! ## The points -/

/-- Points emitted so far: the first `m` of the grid, the first of them at the starting value `y0`. -/
structure Emitted (dx : ℝ) (y0 : V3 ℝ) (m : Nat) (s : dopri5.State ℝ) : Prop where
  xd : s.xd = m * dx
  xOut : s.xOut = (List.range m).map fun k : Nat => (k : ℝ) * dx
  yOut : s.yOut.length = m
  head : m ≠ 0 → s.yOut.head? = some y0

theorem interpolate_zero (s : dopri5.State ℝ) : interpolate s 0 = s.rcont0 := by
  unfold interpolate
  simp [add3, zip3, scale3]

/-- Before a pass. -/
structure Underway (p : Problem ℝ) (y0 : V3 ℝ) (s : dopri5.State ℝ) : Prop where
  nonneg : 0 ≤ s.x
  before : s.x < p.xEnd
  step : 0 < s.h
  emitted : ∃ m, Emitted p.dx y0 m s ∧ (m = 0 → s.x = 0 ∧ s.y = y0) ∧
    (m ≠ 0 → ((m - 1 : ℕ) : ℝ) * p.dx ≤ s.x)

theorem output_emitted {p : Problem ℝ} {y0 : V3 ℝ} (hd : 0 < p.dx) {outs : Nat} {s s' : dopri5.State ℝ}
    (hx : 0 ≤ s.x) {m : Nat} (he : Emitted p.dx y0 m s) (hm : m = 0 → s.xOld = 0 ∧ s.rcont0 = y0)
    (hl : m ≠ 0 → ((m - 1 : ℕ) : ℝ) * p.dx ≤ s.x) (h : output p outs s = some s') :
    s'.x = s.x ∧ s'.y = s.y ∧ ∃ m', Emitted p.dx y0 m' s' ∧ s.x < m' * p.dx ∧ m' ≠ 0 ∧
      ((m' - 1 : ℕ) : ℝ) * p.dx ≤ s.x := by
  obtain ⟨⟨h1, h2, m', h3, -, h4⟩, h5⟩ := output_invariant p
    (fun t => t.x = s.x ∧ t.y = s.y ∧ ∃ m', Emitted p.dx y0 m' t ∧
      (m' = 0 → t.xOld = 0 ∧ t.rcont0 = y0) ∧
      (m' ≠ 0 → ((m' - 1 : ℕ) : ℝ) * p.dx ≤ s.x))
    (by
      rintro t ⟨h1, h2, m', h3, h4, h5⟩ h6 h7
      have hxd : 0 ≤ t.xd := by rw [h3.xd]; positivity
      rw [real_le, real_abs, real_abs, h1, abs_of_nonneg hx, abs_of_nonneg hxd] at h6
      refine ⟨h1, h2, m' + 1, ⟨?_, ?_, ?_, ?_⟩, by simp, fun _ => ?_⟩
      · show t.xd + p.dx = _
        rw [h3.xd]; push_cast; ring
      · show t.xOut ++ [t.xd] = _
        rw [h3.xOut, h3.xd, List.range_succ, List.map_append]
        rfl
      · show (t.yOut ++ [_]).length = _
        rw [List.length_append, h3.yOut]; rfl
      · intro _
        show (t.yOut ++ [interpolate t ((t.xd - t.xOld) / t.hOld)]).head? = _
        by_cases h0 : m' = 0
        · subst h0
          have : t.yOut = [] := List.length_eq_zero_iff.1 h3.yOut
          rw [this, h3.xd, (h4 rfl).1]
          simp [interpolate_zero, (h4 rfl).2]
        · rw [List.head?_append, h3.head h0]
          rfl
      · rw [Nat.add_sub_cancel, ← h3.xd]; exact h6)
    outs s s' ⟨rfl, rfl, m, he, hm, hl⟩ h
  rw [real_le, real_abs, real_abs, h1, abs_of_nonneg hx, not_le, h3.xd,
    abs_of_nonneg (by positivity)] at h5
  have h0 : m' ≠ 0 := by
    rintro rfl
    rw [Nat.cast_zero, zero_mul] at h5
    linarith
  exact ⟨h1, h2, m', h3, h5, h0, h4 h0⟩

/-- The reported times are exactly the multiples of `dx` from zero up to `xEnd`. -/
def Spec.Grid (dx xEnd : ℝ) (xs : List ℝ) : Prop :=
  ∀ k : ℕ, (∀ h : k < xs.length, xs[k] = k * dx) ∧ (k < xs.length ↔ k * dx ≤ xEnd)

/-- **C72**, the integrator.  Whatever derivatives it is answered, a successful integration from zero reports
the multiples of the output interval up to the end, one value for each, the first being the starting value. -/
theorem C72_dopri5_grid (outs : Nat) (xEnd dx rtol atol : ℝ) (y : V3 ℝ) (hx : 0 < xEnd) (hd : 0 < dx)
    (qs : List (ℝ × V3 ℝ × V3 ℝ)) (xs : List ℝ) (ys : List (V3 ℝ))
    (h : Reaches (dopri5.solve outs 0.0 xEnd dx y rtol atol) qs (.done (some (xs, ys)))) :
    Spec.Grid dx xEnd xs ∧ ys.length = xs.length ∧ ys.head? = some y := by
  unfold dopri5.solve at h
  set p : Problem ℝ := { xEnd, dx, rtol, atol, hMax := Scalar.abs (xEnd - 0.0)
                         posneg := dopri5.sign 1.0 (xEnd - 0.0) } with hp
  have hpos : p.posneg = 1 := by
    show dopri5.sign 1.0 (xEnd - 0.0) = 1
    unfold dopri5.sign
    rw [if_pos ((real_lt _ _).2 (by rw [lit_0]; linarith))]
    norm_num
  have hmax : 0 < p.hMax := by
    show 0 < |xEnd - 0.0|
    rw [lit_0, sub_zero]; exact abs_pos.2 hx.ne'
  have hA : Answered (fun _ _ _ => True) qs := fun _ _ => trivial
  obtain ⟨h0, qs', hh0, hA, h⟩ := hinit_pos hpos hmax hA h
  obtain ⟨k0, qs', h, hA, -⟩ := reaches_eval h hA
  obtain ⟨s', ⟨m, h2, h1, h3, h4⟩, h5, h6⟩ := reaches_loop p outs (fun _ _ _ => True)
    (fun s _ => Underway p y s)
    (fun s => ∃ m, Emitted dx y m s ∧ xEnd < m * dx ∧ m ≠ 0 ∧
      ((m - 1 : ℕ) : ℝ) * dx ≤ xEnd)
    (by
      intro s k st s' hNew hI hpr _ hacc hout
      have htr : 0 < tried p s := by
        unfold tried
        split
        · exact sub_pos.2 hI.before
        · exact hI.step
      have hn := accept_pos hpos hmax htr hacc
      obtain ⟨m, he, hm, hl⟩ := hI.emitted
      obtain ⟨e1, e2, m', e3, e4, e5, e6⟩ := output_emitted (y0 := y) (p := p) hd
        (s := k.advance p s (tried p s) st) (m := m)
        (by show 0 ≤ s.x + tried p s; linarith [hI.nonneg]) ⟨he.xd, he.xOut, he.yOut, he.head⟩
        (fun h0 => hm h0) (fun h0 => (hl h0).trans (by show s.x ≤ s.x + tried p s; linarith)) hout
      have ex : s'.x = s.x + tried p s := e1
      have hlast : isLast p s = true ↔ 0 < s.x + 1.01 * s.h - xEnd := by
        unfold isLast
        rw [real_lt, hpos, mul_one, lit_0]
      split
      · rename_i hl
        have ht : s.x + tried p s = xEnd := by
          unfold tried
          rw [if_pos hl]
          show s.x + (xEnd - s.x) = xEnd
          ring
        exact ⟨m', e3, by rw [← ht]; exact e4, e5, by rw [← ht]; exact e6⟩
      · rename_i hl
        have ht : tried p s = s.h := by unfold tried; rw [if_neg hl]
        rw [hlast, not_lt] at hl
        have hs := hI.step
        refine ⟨?_, ?_, hn, m', ⟨e3.xd, e3.xOut, e3.yOut, e3.head⟩, fun h => absurd h e5, fun _ => ?_⟩
        · show 0 ≤ s'.x
          rw [ex]; linarith [hI.nonneg]
        · show s'.x < xEnd
          rw [ex, ht]
          norm_num at hl
          linarith
        · show _ ≤ s'.x
          rw [ex]; exact e6)
    (by
      intro s k hNew hI hpr _ hacc
      have htr : 0 < tried p s := by
        unfold tried
        split
        · exact sub_pos.2 hI.before
        · exact hI.step
      obtain ⟨m, he, hm, hl⟩ := hI.emitted
      exact ⟨hI.nonneg, hI.before, accept_pos hpos hmax htr hacc, m,
        ⟨he.xd, he.xOut, he.yOut, he.head⟩, hm, hl⟩)
    _ _ _ _ _ _ ⟨le_of_eq lit_0.symm, by rw [lit_0]; exact hx, hh0, 0,
      ⟨by simp [lit_0], rfl, rfl, by simp⟩, fun _ => ⟨lit_0, rfl⟩, fun h => absurd rfl h⟩ hA h
  subst h5 h6
  refine ⟨fun k => ⟨fun hk => ?_, ?_⟩, ?_, h2.head h3⟩
  · simp only [h2.xOut, List.getElem_map, List.getElem_range]
  · rw [h2.xOut, List.length_map, List.length_range]
    constructor
    · intro hk
      refine le_trans (mul_le_mul_of_nonneg_right ?_ hd.le) h4
      exact_mod_cast (by omega : k ≤ m - 1)
    · intro hk
      by_contra hc
      have : (m : ℝ) ≤ k := by exact_mod_cast (by omega : m ≤ k)
      linarith [mul_le_mul_of_nonneg_right this hd.le]
  · rw [h2.yOut, h2.xOut, List.length_map, List.length_range]

/-! ## The crate's use of it -/

theorem timeStep_eq {build : Build} {T dx : ℝ} {n : UInt32} (hn : 2 ≤ n.toNat)
    (h : timeStep build T n = .ok dx) : dx = T / ((n.toNat : ℝ) - 1) := by
  have hne : n ≠ 0 := by rintro rfl; exact absurd hn (by decide)
  have : pointsMinusOne build n = .ok (n - 1) := by
    unfold pointsMinusOne
    cases build
    · simp [hne]
    · rfl
  unfold timeStep at h
  rw [this] at h
  injection h with h
  rw [← h, real_ofNat, UInt32.toNat_sub_of_le _ _ (UInt32.le_iff_toNat_le.2 (by
    rw [show (1 : UInt32).toNat = 1 from rfl]; omega)), show (1 : UInt32).toNat = 1 from rfl,
    Nat.cast_sub (by omega), Nat.cast_one]

/-- **C72**, an integration over a cycle.  A successful integration asked for `n ≥ 2` points returns exactly
`n`, evenly spaced from time zero to the period, the first with the initial conditions. -/
theorem C72_integration (outs : Nat) (env : Env ℝ) (ho : env.ode = dopri5.solve outs) (cycle : Cycle ℝ)
    (ic : Conditions ℝ) (n : UInt32) (tol : OdeTolerance ℝ) (hn : 2 ≤ n.toNat)
    (hT : ((n.toNat : ℝ) - 1) * 1e-14 < cycle.period) (pts : List (Point ℝ))
    (h : integrationTryFrom env cycle ic n tol = .ok pts) :
    pts.map (·.time) = (List.range n.toNat).map (fun k : Nat => k * (cycle.period / ((n.toNat : ℝ) - 1)))
      ∧ (pts.head?.map (·.conditions)) = some ic
      ∧ (pts.getLast?.map (·.time)) = some cycle.period := by
  obtain ⟨dx, log, xs, ys, h1, h2, -, h4, h5⟩ := (C32_integration_ok_iff _ _ _ _ _ _).1 h
  have hn1 : (1 : ℝ) < n.toNat := by exact_mod_cast hn
  have hT0 : 0 < cycle.period := lt_trans (mul_pos (by linarith) (by norm_num)) hT
  have hdx : dx = cycle.period / ((n.toNat : ℝ) - 1) := timeStep_eq hn h1
  have hd : 1e-14 < dx := by
    rw [hdx, lt_div_iff₀ (by linarith)]; linarith
  have hd0 : 0 < dx := lt_trans (by norm_num) hd
  rw [ho] at h2
  have hx : (0 : ℝ) < cycle.period + 1e-14 := add_pos hT0 (by norm_num)
  obtain ⟨hg, hl, hh⟩ := C72_dopri5_grid outs _ dx _ _ _ hx hd0 _ xs ys h2
  have hlen : xs.length = n.toNat := by
    have e : ((n.toNat : ℝ) - 1) * dx = cycle.period := by
      rw [hdx]; field_simp [show (n.toNat : ℝ) - 1 ≠ 0 by linarith]
    have a := ((hg (n.toNat - 1)).2).2 (by
      rw [Nat.cast_sub (by omega), Nat.cast_one, e]
      exact (le_add_of_nonneg_right (by norm_num)))
    have b : ¬n.toNat < xs.length := fun hc => by
      have := ((hg n.toNat).2).1 hc
      have : (n.toNat : ℝ) * dx = cycle.period + dx := by rw [← e]; ring
      linarith
    omega
  have hlp : pts.length = n.toNat := by rw [h4, hl, hlen, min_self]
  have ht : pts.map (·.time)
      = (List.range n.toNat).map (fun k : Nat => k * (cycle.period / ((n.toNat : ℝ) - 1))) := by
    apply List.ext_getElem
    · simp [hlp]
    · intro k hk1 hk2
      have hk : k < pts.length := by simpa using hk1
      have hkx : k < xs.length := by rw [hlen, ← hlp]; exact hk
      have e1 := (h5 k _ (List.getElem?_eq_getElem hk)).1
      rw [List.getElem?_eq_getElem hkx, (hg k).1 hkx, Option.some.injEq] at e1
      simp only [List.getElem_map, List.getElem_range]
      rw [← e1, hdx]
  refine ⟨ht, ?_, ?_⟩
  · have h0 : 0 < pts.length := by omega
    have e1 := (h5 0 _ (List.getElem?_eq_getElem h0)).2
    rw [← List.head?_eq_getElem?, hh, Option.some.injEq] at e1
    rw [List.head?_eq_getElem?, List.getElem?_eq_getElem h0, Option.map_some, Option.some.injEq]
    have a := congrArg V3.y0 e1
    have b := congrArg V3.y1 e1
    have c := congrArg V3.y2 e1
    simp only [stateVector] at a b c
    cases ic
    cases hq : pts[0].conditions
    rw [hq] at a b c
    simp only at a b c
    rw [a, b, c]
  · rw [← List.getLast?_map, ht, List.getLast?_map, List.getLast?_range, if_neg (by omega),
      Option.map_some, Option.some.injEq, Nat.cast_sub (by omega), Nat.cast_one]
    field_simp [show (n.toNat : ℝ) - 1 ≠ 0 by linarith]

/-- **C72**, "`self.points` is never empty" (`src/state_equations/integrator.rs:67,76,82`): neither the
convergence test nor the restart of the inner loop panics on a successful integration. -/
theorem C72_never_empty (outs : Nat) (env : Env ℝ) (ho : env.ode = dopri5.solve outs) (cycle : Cycle ℝ)
    (ic : Conditions ℝ) (n : UInt32) (tol : OdeTolerance ℝ) (hn : 2 ≤ n.toNat)
    (hT : ((n.toNat : ℝ) - 1) * 1e-14 < cycle.period) (pts : List (Point ℝ))
    (h : integrationTryFrom env cycle ic n tol = .ok pts) (ctol : ConvergenceTolerance ℝ) :
    (∃ b, integrationIsConverged pts ctol = .ok b) ∧ ∃ c, finalConditions pts = .ok c := by
  obtain ⟨-, h1, h2⟩ := C72_integration outs env ho cycle ic n tol hn hT pts h
  unfold integrationIsConverged finalConditions
  cases ha : pts.head? with
  | none => rw [ha] at h1; cases h1
  | some a =>
    cases hb : pts.getLast? with
    | none => rw [hb] at h2; cases h2
    | some b => exact ⟨⟨_, rfl⟩, _, rfl⟩

/-- The drive never stands still, and a sampling interval is longer than `1e-14` seconds. -/
structure Spec.Turning (c : Components ℝ) (n : UInt32) : Prop where
  positive : ∀ q, 0 < c.ws.frequency q
  resolution : 2 ≤ n.toNat
  interval : ∀ q, ((n.toNat : ℝ) - 1) * 1e-14 * c.ws.frequency q < 1

theorem inner_grid (outs : Nat) (env : Env ℝ) (ho : env.ode = dopri5.solve outs)
    (U : MatrixDecomposition ℝ) (c : Components ℝ) (settings : RunSettings ℝ)
    (hc : Spec.Turning c settings.resolution) (s : Sett.State ℝ)
    (vs : List (state_equations.Values ℝ)) (h : Engine.inner env U c settings s = .ok vs) :
    vs.map (·.time) = (List.range settings.resolution.toNat).map (fun k : Nat =>
        k * (1 / c.ws.frequency ⟨s.pres⟩ / ((settings.resolution.toNat : ℝ) - 1)))
      ∧ vs.head?.map (·.conditions.P) = some s.pres.t_zero
      ∧ vs.getLast?.map (·.time) = some (1 / c.ws.frequency ⟨s.pres⟩) := by
  obtain ⟨m, ic, -, g2, -, pts, g3, g4⟩ := (C33_ok_iff _ _ _ _).1 h
  obtain ⟨h6, -⟩ := C32_values_self_consistent _ _ _ g4
  have hic : ic.P = s.pres.t_zero := by cases g2 <;> rfl
  have hT : (Run.new U c s).toCycle.period = 1 / c.ws.frequency ⟨s.pres⟩ := by
    show 1.0 / c.ws.frequency ⟨s.pres⟩ = _
    rw [lit_1]
  obtain ⟨e1, e2, e3⟩ := C72_integration outs env ho _ ic _ _ hc.resolution (by
    rw [hT, lt_div_iff₀ (hc.positive _)]
    exact hc.interval _) pts g3
  rw [hT] at e1 e3
  rw [← h6] at e1 e2 e3
  refine ⟨?_, ?_, ?_⟩
  · rw [← e1, List.map_map]; rfl
  · cases vs with
    | nil => cases e2
    | cons v vs =>
      simp only [List.map_cons, List.head?_cons, Option.map_some, Option.some.injEq] at e2 ⊢
      rw [e2, hic]
  · rw [← e3, List.getLast?_map, Option.map_map]; rfl

/-- **C72**, a run.  The series of a successful run have exactly the requested number of samples, evenly
spaced from time zero to one period of the drive, and start at the requested pressure, which is also the one
reported. -/
theorem C72_run (outs : Nat) (env : Env ℝ) (ho : env.ode = dopri5.solve outs) (U : MatrixDecomposition ℝ)
    (c : Components ℝ) (fluid : Fluid ℝ) (inputs : RunInputs ℝ) (settings : RunSettings ℝ)
    (hc : Spec.Turning c settings.resolution) (e : Engine ℝ)
    (h : Engine.run env U c fluid inputs settings = .ok e) :
    e.values.time = (List.range settings.resolution.toNat).map (fun k : Nat =>
        k * (1 / c.ws.frequency ⟨e.state.pres⟩ / ((settings.resolution.toNat : ℝ) - 1)))
      ∧ e.values.time.getLast? = some (1 / c.ws.frequency ⟨e.state.pres⟩)
      ∧ e.values.P.head? = some inputs.pres_zero ∧ e.state.pres.t_zero = inputs.pres_zero := by
  obtain ⟨n, vs, s', -, h2, h3, h4, -⟩ := (C36_ok_iff env U c fluid inputs settings e).1 h
  obtain ⟨e1, e2, e3⟩ := inner_grid outs env ho U c settings hc _ _ h3
  have hz : ∀ n s, Visited env U c settings (State.new_hint c fluid inputs) n s →
      s.pres.t_zero = inputs.pres_zero := by
    intro n s hs
    induction hs with
    | start => rfl
    | next hs h1 h2 h3 ih =>
      obtain ⟨-, g, -⟩ := inner_grid outs env ho U c settings hc _ _ h1
      have := pressure_t_zero h2.pres
      rw [head_P, g, Option.some.injEq] at this
      rw [← this, ih]
  refine ⟨?_, ?_, ?_, hz _ _ h2⟩
  · rw [h4, ofStateValues_eq]; exact e1
  · rw [h4, ofStateValues_eq, ← e3, List.getLast?_map]
  · rw [h4, head_P, e2, hz _ _ h2]

end Sett
