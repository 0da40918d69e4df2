import Verif.Props.Grid
import Verif.Props.FixedApproach

/-! # Engines turned backwards (C93)

Nothing in the crate rejects a negative frequency.  The period is then negative, and the `1e-14` added to it
(`src/state_equations/integrator.rs:38`) shortens the integration instead of lengthening it. -/

namespace Sett

open Spec state_equations dopri5

/-! ## The step size stays negative -/

theorem sign_of_neg {a b : ℝ} (hb : b < 0) : dopri5.sign a b = -|a| := by
  unfold dopri5.sign
  rw [if_neg (by rw [real_lt, lit_0]; exact not_lt.2 hb.le)]
  rfl

theorem accept_neg {p : Problem ℝ} {facOld err h hNew : ℝ} {reject b : Bool} (hp : p.posneg = -1)
    (hm : 0 < p.hMax) (hh : h < 0) (he : accept p facOld reject err h = (b, hNew)) : hNew < 0 := by
  unfold accept at he
  simp only [fmax_real, fmin_real] at he
  split at he
  · injection he with _ he
    rw [hp] at he
    set f := max (1.0 / 10.0) (min (1.0 / 0.2)
      (HasPowf.powf err (0.2 - 0.04 * 0.75) * HasPowf.powf facOld (-0.04) / 0.9)) with hf
    have hf0 : (0 : ℝ) < f := lt_of_lt_of_le (by norm_num) (le_max_left _ _)
    have h1 : h / f < 0 := div_neg_of_neg_of_pos hh hf0
    have h2 : (if Scalar.lt p.hMax (Scalar.abs (h / f)) then -1 * p.hMax else h / f) < 0 := by
      split
      · linarith
      · exact h1
    rw [← he]
    split
    · have := lt_min (abs_pos.2 h2.ne) (abs_pos.2 hh.ne)
      rw [neg_one_mul]
      exact neg_neg_of_pos this
    · exact h2
  · rename_i hn
    injection he with _ he
    rw [real_le] at hn
    have : (1 : ℝ) < err := by rw [lit_1] at hn; linarith
    rw [← he]
    refine div_neg_of_neg_of_pos hh (lt_min (by norm_num) (div_pos ?_ (by norm_num)))
    exact Real.rpow_pos_of_pos (by linarith) _

theorem secondGuess_nonpos {p : Problem ℝ} (hp : p.posneg = -1) (y f0 f1 : V3 ℝ) (h0 : ℝ) :
    secondGuess p y f0 f1 h0 ≤ 0 := by
  simp only [secondGuess, hp]
  rw [sign_of_neg (by norm_num)]
  exact neg_nonpos.2 (abs_nonneg _)

theorem hinit_nonpos {p : Problem ℝ} {s : dopri5.State ℝ} (hp : p.posneg = -1)
    {k : ℝ → Stepper ℝ} {qs : List (ℝ × V3 ℝ × V3 ℝ)} {out : Option (List ℝ × List (V3 ℝ))}
    {A : ℝ → V3 ℝ → V3 ℝ → Prop} (hA : Answered A qs) (h : Reaches (hinit p s k) qs (.done out)) :
    ∃ h0 qs', h0 ≤ 0 ∧ Answered A qs' ∧ Reaches (k h0) qs' (.done out) := by
  obtain ⟨f0, _, h, hA, -⟩ := reaches_eval h hA
  obtain ⟨f1, qs', h, hA, -⟩ := reaches_eval h hA
  exact ⟨_, qs', secondGuess_nonpos hp _ _ _ _, hA, h⟩

theorem proceeds_ne_zero {s : dopri5.State ℝ} (h : Proceeds s) : s.h ≠ 0 := by
  intro h0
  refine h ?_
  rw [real_le, h0]
  simp only [real_abs, abs_zero, mul_zero]
  exact mul_nonneg (by norm_num) (abs_nonneg _)

/-! ## The points -/

/-- Before a pass. -/
structure UnderwayBack (p : Problem ℝ) (y0 : V3 ℝ) (s : dopri5.State ℝ) : Prop where
  nonpos : s.x ≤ 0
  before : p.xEnd < s.x
  step : s.h ≤ 0
  emitted : ∃ m, Emitted p.dx y0 m s ∧ (m = 0 → s.x = 0 ∧ s.y = y0) ∧
    (m ≠ 0 → s.x ≤ ((m - 1 : ℕ) : ℝ) * p.dx)

theorem UnderwayBack.tried_neg {p : Problem ℝ} {y0 : V3 ℝ} {s : dopri5.State ℝ} (h : UnderwayBack p y0 s)
    (hp : Proceeds s) : tried p s < 0 := by
  unfold tried
  split
  · exact sub_neg.2 h.before
  · exact lt_of_le_of_ne h.step (proceeds_ne_zero hp)

theorem output_emitted_back {p : Problem ℝ} {y0 : V3 ℝ} (hd : p.dx < 0) {outs : Nat} {s s' : dopri5.State ℝ}
    (hx : s.x ≤ 0) {m : Nat} (he : Emitted p.dx y0 m s) (hm : m = 0 → s.xOld = 0 ∧ s.rcont0 = y0)
    (hl : m ≠ 0 → s.x ≤ ((m - 1 : ℕ) : ℝ) * p.dx) (h : output p outs s = some s') :
    s'.x = s.x ∧ s'.y = s.y ∧ ∃ m', Emitted p.dx y0 m' s' ∧ m' * p.dx < s.x ∧ m' ≠ 0 ∧
      s.x ≤ ((m' - 1 : ℕ) : ℝ) * p.dx := by
  have hneg : ∀ k : ℕ, (k : ℝ) * p.dx ≤ 0 := fun k => mul_nonpos_of_nonneg_of_nonpos (Nat.cast_nonneg _) hd.le
  obtain ⟨⟨h1, h2, m', h3, -, h4⟩, h5⟩ := output_invariant p
    (fun t => t.x = s.x ∧ t.y = s.y ∧ ∃ m', Emitted p.dx y0 m' t ∧
      (m' = 0 → t.xOld = 0 ∧ t.rcont0 = y0) ∧
      (m' ≠ 0 → s.x ≤ ((m' - 1 : ℕ) : ℝ) * p.dx))
    (by
      rintro t ⟨h1, h2, m', h3, h4, h5⟩ h6 h7
      have hxd : t.xd ≤ 0 := by rw [h3.xd]; exact hneg _
      rw [real_le, real_abs, real_abs, h1, abs_of_nonpos hx, abs_of_nonpos hxd] at h6
      refine ⟨h1, h2, m' + 1, ⟨?_, ?_, ?_, ?_⟩, by simp, fun _ => ?_⟩
      · show t.xd + p.dx = _
        rw [h3.xd]; push_cast; ring
      · show t.xOut ++ [t.xd] = _
        rw [h3.xOut, h3.xd, List.range_succ, List.map_append]
        rfl
      · show (t.yOut ++ [_]).length = _
        rw [List.length_append, h3.yOut]; rfl
      · intro _
        show (t.yOut ++ [interpolate t ((t.xd - t.xOld) / t.hOld)]).head? = _
        by_cases h0 : m' = 0
        · subst h0
          have : t.yOut = [] := List.length_eq_zero_iff.1 h3.yOut
          rw [this, h3.xd, (h4 rfl).1]
          simp [interpolate_zero, (h4 rfl).2]
        · rw [List.head?_append, h3.head h0]
          rfl
      · rw [Nat.add_sub_cancel, ← h3.xd]; linarith)
    outs s s' ⟨rfl, rfl, m, he, hm, hl⟩ h
  rw [real_le, real_abs, real_abs, h1, abs_of_nonpos hx, not_le, h3.xd, abs_of_nonpos (hneg _)] at h5
  have h0 : m' ≠ 0 := by
    rintro rfl
    rw [Nat.cast_zero, zero_mul] at h5
    linarith
  exact ⟨h1, h2, m', h3, by linarith, h0, h4 h0⟩

/-- **C93**, the integrator run backwards.  Whatever derivatives it is answered, a successful integration from
zero to a negative end reports the multiples of the (negative) output interval that are not beyond the end,
one value for each, the first being the starting value. -/
theorem C93_dopri5_grid (outs : Nat) (xEnd dx rtol atol : ℝ) (y : V3 ℝ) (hx : xEnd < 0) (hd : dx < 0)
    (qs : List (ℝ × V3 ℝ × V3 ℝ)) (xs : List ℝ) (ys : List (V3 ℝ))
    (h : Reaches (dopri5.solve outs 0.0 xEnd dx y rtol atol) qs (.done (some (xs, ys)))) :
    (∀ k : ℕ, (∀ h : k < xs.length, xs[k] = k * dx) ∧ (k < xs.length ↔ xEnd ≤ k * dx)) ∧
      ys.length = xs.length ∧ ys.head? = some y := by
  unfold dopri5.solve at h
  set p : Problem ℝ := { xEnd, dx, rtol, atol, hMax := Scalar.abs (xEnd - 0.0)
                         posneg := dopri5.sign 1.0 (xEnd - 0.0) } with hp
  have hpos : p.posneg = -1 := by
    show dopri5.sign 1.0 (xEnd - 0.0) = -1
    rw [sign_of_neg (by rw [lit_0]; linarith)]
    norm_num
  have hmax : 0 < p.hMax := by
    show 0 < |xEnd - 0.0|
    rw [lit_0, sub_zero]; exact abs_pos.2 hx.ne
  have hA : Answered (fun _ _ _ => True) qs := fun _ _ => trivial
  obtain ⟨h0, qs', hh0, hA, h⟩ := hinit_nonpos hpos hA h
  obtain ⟨k0, qs', h, hA, -⟩ := reaches_eval h hA
  obtain ⟨s', ⟨m, h2, h1, h3, h4⟩, h5, h6⟩ := reaches_loop p outs (fun _ _ _ => True)
    (fun s _ => UnderwayBack p y s)
    (fun s => ∃ m, Emitted dx y m s ∧ m * dx < xEnd ∧ m ≠ 0 ∧
      xEnd ≤ ((m - 1 : ℕ) : ℝ) * dx)
    (by
      intro s k st s' hNew hI hpr _ hacc hout
      have htr := hI.tried_neg hpr
      have hn := accept_neg hpos hmax htr hacc
      obtain ⟨m, he, hm, hl⟩ := hI.emitted
      obtain ⟨e1, e2, m', e3, e4, e5, e6⟩ := output_emitted_back (y0 := y) (p := p) hd
        (s := k.advance p s (tried p s) st) (m := m)
        (by show s.x + tried p s ≤ 0; linarith [hI.nonpos]) ⟨he.xd, he.xOut, he.yOut, he.head⟩
        (fun h0 => hm h0)
        (fun h0 => le_trans (by show s.x + tried p s ≤ s.x; linarith) (hl h0)) hout
      have ex : s'.x = s.x + tried p s := e1
      have hlast : isLast p s = true ↔ 0 < -(s.x + 1.01 * s.h - xEnd) := by
        unfold isLast
        rw [real_lt, hpos, mul_neg_one, lit_0]
      split
      · rename_i hl
        have ht : s.x + tried p s = xEnd := by
          unfold tried
          rw [if_pos hl]
          show s.x + (xEnd - s.x) = xEnd
          ring
        exact ⟨m', e3, by rw [← ht]; exact e4, e5, by rw [← ht]; exact e6⟩
      · rename_i hl
        have ht : tried p s = s.h := by unfold tried; rw [if_neg hl]
        rw [hlast, not_lt] at hl
        have hs : s.h < 0 := ht ▸ htr
        refine ⟨?_, ?_, hn.le, m', ⟨e3.xd, e3.xOut, e3.yOut, e3.head⟩, fun h => absurd h e5, fun _ => ?_⟩
        · show s'.x ≤ 0
          rw [ex]; linarith [hI.nonpos]
        · show xEnd < s'.x
          rw [ex, ht]
          norm_num at hl
          linarith
        · show s'.x ≤ _
          rw [ex]; exact e6)
    (by
      intro s k hNew hI hpr _ hacc
      obtain ⟨m, he, hm, hl⟩ := hI.emitted
      exact ⟨hI.nonpos, hI.before, (accept_neg hpos hmax (hI.tried_neg hpr) hacc).le, m,
        ⟨he.xd, he.xOut, he.yOut, he.head⟩, hm, hl⟩)
    _ _ _ _ _ _ ⟨le_of_eq lit_0, by rw [lit_0]; exact hx, hh0, 0,
      ⟨by simp [lit_0], rfl, rfl, by simp⟩, fun _ => ⟨lit_0, rfl⟩, fun h => absurd rfl h⟩ hA h
  subst h5 h6
  refine ⟨fun k => ⟨fun hk => ?_, ?_⟩, ?_, h2.head h3⟩
  · simp only [h2.xOut, List.getElem_map, List.getElem_range]
  · rw [h2.xOut, List.length_map, List.length_range]
    constructor
    · intro hk
      refine le_trans h4 (mul_le_mul_of_nonpos_right ?_ hd.le)
      exact_mod_cast (by omega : k ≤ m - 1)
    · intro hk
      by_contra hc
      have : (m : ℝ) ≤ k := by exact_mod_cast (by omega : m ≤ k)
      linarith [mul_le_mul_of_nonpos_right this hd.le]
  · rw [h2.yOut, h2.xOut, List.length_map, List.length_range]

/-! ## The crate's use of it -/

/-- **C93**, an integration over a cycle of negative period.  Asked for `n ≥ 2` points it returns one fewer:
the point at which the cycle is complete is never among them. -/
theorem C93_integration (outs : Nat) (env : Env ℝ) (ho : env.ode = dopri5.solve outs) (cycle : Cycle ℝ)
    (ic : Conditions ℝ) (n : UInt32) (tol : OdeTolerance ℝ) (hn : 2 ≤ n.toNat)
    (hT : cycle.period < -(((n.toNat : ℝ) - 1) * 1e-14)) (pts : List (Point ℝ))
    (h : integrationTryFrom env cycle ic n tol = .ok pts) :
    pts.map (·.time)
        = (List.range (n.toNat - 1)).map (fun k : Nat => k * (cycle.period / ((n.toNat : ℝ) - 1)))
      ∧ (pts.head?.map (·.conditions)) = some ic := by
  obtain ⟨dx, log, xs, ys, h1, h2, -, h4, h5⟩ := (C32_integration_ok_iff _ _ _ _ _ _).1 h
  have hn1 : (1 : ℝ) < n.toNat := by exact_mod_cast hn
  have hn2 : (2 : ℝ) ≤ n.toNat := by exact_mod_cast hn
  have hdx : dx = cycle.period / ((n.toNat : ℝ) - 1) := timeStep_eq hn h1
  have e : ((n.toNat : ℝ) - 1) * dx = cycle.period := by
    rw [hdx]; field_simp [show (n.toNat : ℝ) - 1 ≠ 0 by linarith]
  have hd : dx < -1e-14 := by
    rw [hdx, div_lt_iff₀ (by linarith)]; linarith
  have hd0 : dx < 0 := lt_trans hd (by norm_num)
  rw [ho] at h2
  have hx : cycle.period + 1e-14 < 0 := by
    rw [← e]
    nlinarith
  obtain ⟨hg, hl, hh⟩ := C93_dopri5_grid outs _ dx _ _ _ hx hd0 _ xs ys h2
  have hlen : xs.length = n.toNat - 1 := by
    have a := ((hg (n.toNat - 2)).2).2 (by
      rw [Nat.cast_sub (by omega), Nat.cast_ofNat, ← e]
      have : ((n.toNat : ℝ) - 1) * dx = (n.toNat - 2) * dx + dx := by ring
      linarith)
    have b : ¬n.toNat - 1 < xs.length := fun hc => by
      have h6 := ((hg (n.toNat - 1)).2).1 hc
      rw [Nat.cast_sub (by omega), Nat.cast_one, e] at h6
      norm_num at h6
    omega
  have hlp : pts.length = n.toNat - 1 := by rw [h4, hl, hlen, min_self]
  refine ⟨?_, ?_⟩
  · apply List.ext_getElem
    · simp [hlp]
    · intro k hk1 hk2
      have hk : k < pts.length := by simpa using hk1
      have hkx : k < xs.length := by rw [hlen, ← hlp]; exact hk
      have e1 := (h5 k _ (List.getElem?_eq_getElem hk)).1
      rw [List.getElem?_eq_getElem hkx, (hg k).1 hkx, Option.some.injEq] at e1
      simp only [List.getElem_map, List.getElem_range]
      rw [← e1, hdx]
  · have h0 : 0 < pts.length := by omega
    have e1 := (h5 0 _ (List.getElem?_eq_getElem h0)).2
    rw [← List.head?_eq_getElem?, hh, Option.some.injEq] at e1
    rw [List.head?_eq_getElem?, List.getElem?_eq_getElem h0, Option.map_some, Option.some.injEq]
    have a := congrArg V3.y0 e1
    have b := congrArg V3.y1 e1
    have c := congrArg V3.y2 e1
    simp only [stateVector] at a b c
    cases ic
    cases hq : pts[0].conditions
    rw [hq] at a b c
    simp only at a b c
    rw [a, b, c]

/-- **C93**, the test for a steady cycle compares the start of the cycle with itself. -/
theorem C93_cycle_end_is_start (outs : Nat) (env : Env ℝ) (ho : env.ode = dopri5.solve outs) (cycle : Cycle ℝ)
    (hT : cycle.period < -1e-14) (i : SteadyStateInputs ℝ) (ic first last : Conditions ℝ)
    (h : OneCycle env cycle i ic first last) : first = ic ∧ last = ic := by
  obtain ⟨pts, h1, h2, h3⟩ := h
  obtain ⟨e1, e2⟩ := C93_integration outs env ho cycle ic 2 i.ode_tol (by decide)
    (by rw [show (2 : UInt32).toNat = 2 from rfl]; norm_num at hT ⊢; exact hT) pts h1
  have hlen : pts.length = 1 := by simpa using congrArg List.length e1
  obtain ⟨a, rfl⟩ := List.length_eq_one_iff.1 hlen
  simp only [List.head?_cons, List.getLast?_singleton, Option.map_some, Option.some.injEq] at h2 h3 e2
  exact ⟨h2.symm.trans e2, h3.symm.trans e2⟩

/-- **C93**, no search for the steady cycle.  With positive tolerances the values reported start from the
temperatures handed in as a first guess, whatever the gas does over the cycle. -/
theorem C93_guess_kept (outs : Nat) (env : Env ℝ) (ho : env.ode = dopri5.solve outs) (cycle : Cycle ℝ)
    (i : SteadyStateInputs ℝ) (hn : 2 ≤ i.num_points.toNat)
    (hT : cycle.period < -(((i.num_points.toNat : ℝ) - 1) * 1e-14))
    (ha : 0 < i.conv_tol.abs) (hr : 0 < i.conv_tol.rel) (vs : List (state_equations.Values ℝ))
    (h : findSteadyState env cycle i = .ok vs) :
    vs.length = i.num_points.toNat - 1 ∧
      vs.head?.map (·.conditions) = some ⟨i.pres_zero, i.temp_comp_hint, i.temp_exp_hint⟩ := by
  have hn2 : (2 : ℝ) ≤ i.num_points.toNat := by exact_mod_cast hn
  have hT1 : cycle.period < -1e-14 := by norm_num at hT ⊢; linarith
  obtain ⟨n, ic, -, g2, -, pts, g3, g4⟩ := (C33_ok_iff _ _ _ _).1 h
  obtain ⟨h6, -⟩ := C32_values_self_consistent _ _ _ g4
  have hic : ic = ⟨i.pres_zero, i.temp_comp_hint, i.temp_exp_hint⟩ := by
    cases g2 with
    | hints => rfl
    | next hs h1 h2 =>
      obtain ⟨rfl, rfl⟩ := C93_cycle_end_is_start outs env ho cycle hT1 i _ _ _ h1
      exact absurd ⟨within_self _ ha hr _, within_self _ ha hr _⟩ h2
  obtain ⟨e1, e2⟩ := C93_integration outs env ho cycle ic _ _ hn hT pts g3
  rw [← h6] at e1 e2
  refine ⟨by simpa using congrArg List.length e1, ?_⟩
  rw [← hic, ← e2, List.head?_map, Option.map_map]
  rfl

/-- The drive turns backwards, and a sampling interval is longer than `1e-14` seconds. -/
structure Spec.Backward (c : Components ℝ) (n : UInt32) : Prop where
  negative : ∀ q, c.ws.frequency q < 0
  resolution : 2 ≤ n.toNat
  interval : ∀ q, ((n.toNat : ℝ) - 1) * 1e-14 * -c.ws.frequency q < 1

/-- **C93**, a run.  An engine with a negative frequency is not rejected: if its run succeeds, the series have
one sample fewer than requested, none of them at the end of the cycle, and the gas in the spaces starts from
the temperatures of the exchangers next to them, not from those of a steady cycle. -/
theorem C93_run (outs : Nat) (env : Env ℝ) (ho : env.ode = dopri5.solve outs) (U : MatrixDecomposition ℝ)
    (c : Components ℝ) (fluid : Fluid ℝ) (inputs : RunInputs ℝ) (settings : RunSettings ℝ)
    (hc : Spec.Backward c settings.resolution) (ha : 0 < settings.loop_tol.inner.abs)
    (hr : 0 < settings.loop_tol.inner.rel) (e : Engine ℝ)
    (h : Engine.run env U c fluid inputs settings = .ok e) :
    e.values.time.length = settings.resolution.toNat - 1 ∧
      e.values.T_c.head? = some e.state.temp.chx ∧ e.values.T_e.head? = some e.state.temp.hhx := by
  obtain ⟨n, vs, s', -, -, h3, h4, -⟩ := (C36_ok_iff env U c fluid inputs settings e).1 h
  have hT : (Run.new U c e.state).toCycle.period = 1 / c.ws.frequency ⟨e.state.pres⟩ := by
    show 1.0 / c.ws.frequency ⟨e.state.pres⟩ = _
    rw [lit_1]
  obtain ⟨e1, e2⟩ := C93_guess_kept outs env ho _ (Engine.steadyInputs settings e.state) hc.resolution (by
    rw [hT, div_lt_iff_of_neg (hc.negative _)]
    have := hc.interval ⟨e.state.pres⟩
    show -(((settings.resolution.toNat : ℝ) - 1) * 1e-14) * _ < 1
    linarith) ha hr vs h3
  rw [h4, ofStateValues_eq]
  cases vs with
  | nil => cases e2
  | cons v vs =>
    simp only [List.head?_cons, Option.map_some, Option.some.injEq] at e2
    refine ⟨by rw [List.length_map]; exact e1, ?_, ?_⟩
    · simp only [List.map_cons, List.head?_cons, e2]; rfl
    · simp only [List.map_cons, List.head?_cons, e2]; rfl

end Sett
