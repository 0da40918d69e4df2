import Verif.Proofs.Dopri5Ieee
import Verif.Props.Grid

/-! # The points a successful integration reports, in binary64 (C76) -/

namespace Sett

open Float64 Raw Spec state_equations dopri5

variable {L : Libm}

/-- Output times: zero, then each the rounded sum of the one before and the output interval. -/
noncomputable def Spec.tick (dx : F64 L) : ℕ → F64 L
  | 0 => 0.0
  | k + 1 => Spec.tick dx k + dx

theorem up_tick {dx : F64 L} (hd : Up dx) (k : ℕ) : Up (Spec.tick dx k) := by
  induction k with
  | zero => exact up_lit
  | succ k ih => exact up_add ih hd

/-- Points emitted so far: the first `m` ticks. -/
structure Ticked (dx : F64 L) (m : ℕ) (s : dopri5.State (F64 L)) : Prop where
  xd : s.xd = Spec.tick dx m
  xOut : s.xOut = (List.range m).map (Spec.tick dx)
  yOut : s.yOut.length = m

/-- The number is finite and at most `b`. -/
def AtMost (a : F64 L) (b : ℝ) : Prop := a.raw.Finite ∧ a.raw.real ≤ b

theorem output_ticked {p : Problem (F64 L)} (hd : Up p.dx) {outs : ℕ} {s s' : dopri5.State (F64 L)}
    (hf : s.x.raw.Finite) (hx : Up s.x) {m : ℕ} (he : Ticked p.dx m s)
    (hl : m ≠ 0 → AtMost (Spec.tick p.dx (m - 1)) s.x.raw.real) (h : output p outs s = some s') :
    s'.x = s.x ∧ s'.facOld = s.facOld ∧ ∃ m', Ticked p.dx m' s' ∧ m' ≠ 0 ∧
      AtMost (Spec.tick p.dx (m' - 1)) s.x.raw.real ∧ ¬AtMost (Spec.tick p.dx m') s.x.raw.real := by
  obtain ⟨⟨h1, h2, m', h3, h4⟩, h5⟩ := output_invariant p
    (fun t => t.x = s.x ∧ t.facOld = s.facOld ∧ ∃ m', Ticked p.dx m' t ∧
      (m' ≠ 0 → AtMost (Spec.tick p.dx (m' - 1)) s.x.raw.real))
    (by
      rintro t ⟨h1, h2, m', h3, h4⟩ h6 -
      rw [h1, h3.xd] at h6
      have h6 := (le_abs_iff (up_tick hd m') hx hf).1 h6
      refine ⟨h1, h2, m' + 1, ⟨?_, ?_, ?_⟩, fun _ => ?_⟩
      · show t.xd + p.dx = _
        rw [h3.xd]; rfl
      · show t.xOut ++ [t.xd] = _
        rw [h3.xOut, h3.xd, List.range_succ, List.map_append]
        rfl
      · show (t.yOut ++ [_]).length = _
        rw [List.length_append, h3.yOut]; rfl
      · exact h6)
    outs s s' ⟨rfl, rfl, m, he, hl⟩ h
  rw [h1, h3.xd] at h5
  have h5 : ¬AtMost (Spec.tick p.dx m') s.x.raw.real := fun hc =>
    h5 ((le_abs_iff (up_tick hd m') hx hf).2 hc)
  have h0 : m' ≠ 0 := by
    rintro rfl
    refine h5 ⟨?_, ?_⟩
    · show (0.0 : F64 L).raw.Finite
      rw [ieee_zero]; trivial
    · show (0.0 : F64 L).raw.real ≤ _
      rw [ieee_zero]; exact real_nonneg hx
  exact ⟨h1, h2, m', h3, h0, h4 h0, h5⟩

/-- Before a pass. -/
structure UnderwayIeee (p : Problem (F64 L)) (s : dopri5.State (F64 L)) : Prop where
  finite : s.x.raw.Finite
  up : Up s.x
  before : s.x.raw.real ≤ p.xEnd.raw.real
  step : Up s.h
  fac : Up s.facOld
  emitted : ∃ m, Ticked p.dx m s ∧ (m ≠ 0 → AtMost (Spec.tick p.dx (m - 1)) s.x.raw.real)

variable [HasPowf (F64 L)]

/-- **C76**, the integrator.  In binary64, whatever derivatives it is answered, a successful integration from
zero reports the repeated sums of the output interval that do not exceed the time it reached, one value for
each; and the time it reached is the end up to three rounding errors. -/
theorem C76_dopri5_ticks (hw : Spec.PowfSign L) (outs : ℕ) (xEnd dx rtol atol : F64 L) (y : V3 (F64 L))
    (hX : xEnd.raw.Finite) (hmin : (2 : ℝ) ^ (-1022 : ℤ) ≤ xEnd.raw.real)
    (hmax : xEnd.raw.real ≤ 2 ^ 1000) (hd : Up dx) (qs : List (F64 L × V3 (F64 L) × V3 (F64 L)))
    (xs : List (F64 L)) (ys : List (V3 (F64 L)))
    (h : Reaches (dopri5.solve outs 0.0 xEnd dx y rtol atol) qs (.done (some (xs, ys)))) :
    ys.length = xs.length ∧ xs = (List.range xs.length).map (Spec.tick dx) ∧
      ∃ reached : ℝ, |reached - xEnd.raw.real| ≤ 3 * 2 ^ (-53 : ℤ) * xEnd.raw.real ∧
        xs.length ≠ 0 ∧ AtMost (Spec.tick dx (xs.length - 1)) reached ∧
        ¬AtMost (Spec.tick dx xs.length) reached := by
  have hX0 : 0 < xEnd.raw.real := (two_pow_pos _).trans_le hmin
  have sX : Up xEnd := by
    show xEnd.raw.sign = false
    rcases (Raw.finite_iff xEnd.raw).1 hX with ⟨s, hs⟩ | ⟨z, hz, hs⟩ <;> rw [hs] at hX0 ⊢
    · exact absurd hX0 (lt_irrefl _)
    · exact decide_eq_false (not_lt.2 hX0.le)
  unfold dopri5.solve at h
  set p : Problem (F64 L) := { xEnd, dx, rtol, atol, hMax := Scalar.abs (xEnd - 0.0)
                               posneg := dopri5.sign 1.0 (xEnd - 0.0) } with hp
  have hpos : p.posneg = (one : Raw) := by
    show dopri5.sign 1.0 (xEnd - 0.0) = (one : Raw)
    have h1 : Scalar.lt (0.0 : F64 L) (xEnd - 0.0) = true := by
      rw [ieee_zero]
      show (zero false).lt (sub xEnd.raw (zero false)) = true
      obtain ⟨a, b⟩ := sub_unsigned hX (b := zero false) trivial sX rfl
      rw [zero_lt_finite a, b]
      exact rne_sub_pos (Raw.rep_real _).1 (Raw.rep_real (zero false)).1 hX0
    unfold dopri5.sign
    rw [if_pos h1, ieee_one]
    exact abs_of_sign (decide_eq_false (by norm_num))
  have hposlt : Scalar.lt (0.0 : F64 L) p.posneg = true := by
    rw [hpos, ieee_zero]
    exact (zero_lt_finite (a := one) trivial).2 one_pos
  have hpu : Up p.posneg := by
    rw [hpos]; exact decide_eq_false (by norm_num)
  have hA : Answered (fun _ _ _ => True) qs := fun _ _ => trivial
  obtain ⟨h0, qs', hh0, hA, h⟩ := hinit_up hposlt hA h
  obtain ⟨k0, qs', h, hA, -⟩ := reaches_eval h hA
  have hlast : ∀ s : dopri5.State (F64 L), isLast p s =
      (zero false).lt (mul (sub (add s.x (mul (1.01 : F64 L).raw s.h)) xEnd.raw) one) := by
    intro s
    unfold isLast
    rw [hpos, ieee_zero]
    rfl
  obtain ⟨s', ⟨m, h2, h3, r, h4, h5, h6⟩, e1, e2⟩ := reaches_loop p outs (fun _ _ _ => True)
    (fun s _ => UnderwayIeee p s)
    (fun s => ∃ m, Ticked dx m s ∧ m ≠ 0 ∧
      ∃ reached : ℝ, |reached - xEnd.raw.real| ≤ 3 * 2 ^ (-53 : ℤ) * xEnd.raw.real ∧
        AtMost (Spec.tick dx (m - 1)) reached ∧ ¬AtMost (Spec.tick dx m) reached)
    (by
      intro s k st s' hNew hI hpr _ hacc hout
      have hnn : (tried p s).raw ≠ nan := accept_not_nan hacc
      have hs := last_step hI.finite hI.up hX hI.before hmin hmax
      have hut : Up (tried p s) := by
        unfold tried
        split
        · exact hs.1
        · exact hI.step
      have hn : Up hNew := up_accept hw hpu (up_abs _) hI.fac (up_errorNorm _ _ _ _) hut hacc
      obtain ⟨m, he, hl⟩ := hI.emitted
      have hup : Up (s.x + tried p s) := up_add hI.up hut
      have hfin : (s.x + tried p s).raw.Finite ∧
          (¬isLast p s = true → (s.x + tried p s).raw.real ≤ xEnd.raw.real) ∧
          s.x.raw.real ≤ (s.x + tried p s).raw.real := by
        have mono : (s.x + tried p s).raw.Finite → s.x.raw.real ≤ (s.x + tried p s).raw.real := by
          intro hf
          obtain ⟨-, g2, g3⟩ := add_finite_iff (a := s.x.raw) (b := (tried p s).raw) hf
          show _ ≤ (add s.x.raw (tried p s).raw).real
          rw [g3]
          have := rne_mono (le_add_of_nonneg_right (a := s.x.raw.real) (real_nonneg hut))
          rwa [rne_rep (Raw.rep_real _)] at this
        by_cases hl : isLast p s = true
        · have : tried p s = p.xEnd - s.x := by unfold tried; rw [if_pos hl]
          have g : (s.x + tried p s).raw.Finite := by rw [this]; exact hs.2.1
          exact ⟨g, fun hc => absurd hl hc, mono g⟩
        · have e : tried p s = s.h := by unfold tried; rw [if_neg hl]
          rw [e] at hnn
          have hl' := hl
          rw [hlast] at hl'
          have g := not_last (L := L) hI.finite hI.up hX sX hI.step hnn hl'
          have g1 : (s.x + tried p s).raw.Finite := by rw [e]; exact g.1
          exact ⟨g1, fun _ => by rw [e]; exact g.2, mono g1⟩
      obtain ⟨e1, e2, m', e3, e4, e5, e6⟩ := output_ticked (p := p) hd
        (s := k.advance p s (tried p s) st) (m := m) hfin.1 hup ⟨he.xd, he.xOut, he.yOut⟩
        (fun h0 => ⟨(hl h0).1, (hl h0).2.trans hfin.2.2⟩) hout
      have ex : s'.x = s.x + tried p s := e1
      split
      · rename_i hl
        refine ⟨m', e3, e4, (s.x + tried p s).raw.real, ?_, e5, e6⟩
        have : tried p s = p.xEnd - s.x := by unfold tried; rw [if_pos hl]
        rw [this]
        exact hs.2.2
      · rename_i hl
        refine ⟨?_, ?_, ?_, hn, ?_, m', ⟨e3.xd, e3.xOut, e3.yOut⟩, fun _ => ?_⟩
        · show s'.x.raw.Finite
          rw [ex]; exact hfin.1
        · show Up s'.x
          rw [ex]; exact hup
        · show s'.x.raw.real ≤ xEnd.raw.real
          rw [ex]; exact hfin.2.1 hl
        · show Up s'.facOld
          rw [e2]
          exact up_fmax (up_errorNorm _ _ _ _) up_lit
        · show AtMost _ s'.x.raw.real
          rw [ex]; exact e5)
    (by
      intro s k hNew hI hpr _ hacc
      have hs := last_step hI.finite hI.up hX hI.before hmin hmax
      have hut : Up (tried p s) := by
        unfold tried
        split
        · exact hs.1
        · exact hI.step
      have hn : Up hNew := up_accept hw hpu (up_abs _) hI.fac (up_errorNorm _ _ _ _) hut hacc
      obtain ⟨m, he, hl⟩ := hI.emitted
      exact ⟨hI.finite, hI.up, hI.before, hn, hI.fac, m, ⟨he.xd, he.xOut, he.yOut⟩, hl⟩)
    _ _ _ _ _ _
    ⟨show (0.0 : F64 L).raw.Finite by rw [ieee_zero]; trivial, up_lit,
      show (0.0 : F64 L).raw.real ≤ _ by rw [ieee_zero]; exact hX0.le, hh0, up_lit, 0,
      ⟨rfl, rfl, rfl⟩, fun h => absurd rfl h⟩ hA h
  have hlen : xs.length = m := by rw [e1, h2.xOut, List.length_map, List.length_range]
  refine ⟨by rw [e2, h2.yOut, hlen], by rw [hlen, e1, h2.xOut], r, h4, by rw [hlen]; exact h3,
    by rw [hlen]; exact h5, by rw [hlen]; exact h6⟩

/-! ## How far the ticks stray -/

omit [HasPowf (F64 L)] in
theorem tick_error {dx : F64 L} (hf : dx.raw.Finite) (hd : Up dx) {B : ℝ} (hB : (2 : ℝ) ^ (-1022 : ℤ) ≤ B)
    (hmax : B ≤ 2 ^ 1000) (m : ℕ) (hm : m * dx.raw.real + m * (2 ^ (-53 : ℤ) * B) ≤ B) :
    ∀ k ≤ m, (Spec.tick dx k).raw.Finite ∧
      |(Spec.tick dx k).raw.real - k * dx.raw.real| ≤ k * (2 ^ (-53 : ℤ) * B) := by
  have hB0 : 0 < B := (two_pow_pos _).trans_le hB
  have hD := real_nonneg hd
  have r1000 : Rep ((2 : ℝ) ^ (1000 : ℕ)) := by
    refine ⟨⟨1, 1000, by norm_num, by norm_num, ?_⟩, ?_⟩
    · rw [Int.cast_one, one_mul]; exact (zpow_natCast _ _).symm
    · rw [abs_of_pos (by positivity)]
      exact pow_lt_pow_right₀ (by norm_num) (by norm_num)
  set u : ℝ := 2 ^ (-53 : ℤ) * B
  have hu : 0 ≤ u := mul_nonneg (two_pow_pos _).le hB0.le
  intro k
  induction k with
  | zero =>
    intro _
    refine ⟨?_, ?_⟩
    · show (0.0 : F64 L).raw.Finite
      rw [ieee_zero]; trivial
    · show |(0.0 : F64 L).raw.real - _| ≤ _
      rw [ieee_zero]
      show |(0 : ℝ) - _| ≤ _
      simp
  | succ k ih =>
    intro hk
    obtain ⟨h1, h2⟩ := ih (by omega)
    have h2' := abs_le.1 h2
    have h0 := real_nonneg (up_tick hd k)
    have hle : (Spec.tick dx k).raw.real + dx.raw.real ≤ B := by
      have : ((k : ℝ) + 1) ≤ m := by exact_mod_cast hk
      have a := mul_le_mul_of_nonneg_right this hD
      have b := mul_le_mul_of_nonneg_right this hu
      linarith [h2'.2]
    have e := rne_error (x := (Spec.tick dx k).raw.real + dx.raw.real) (by linarith) hle hB
    obtain ⟨g1, g2⟩ := Raw.add_finite h1 hf (rne_lt_of_le r1000 (by
      rw [abs_of_nonneg (by linarith)]
      exact hle.trans hmax))
    refine ⟨g1, ?_⟩
    show |(add (Spec.tick dx k).raw dx.raw).real - _| ≤ _
    rw [g2]
    have e' := abs_le.1 e
    push_cast
    rw [abs_le]
    constructor <;> linarith [e'.1, e'.2, h2'.1, h2'.2]

/-! ## The crate's use of it -/

omit [HasPowf (F64 L)] in
theorem lit_small : ∃ t : ℝ, (1e-14 : F64 L).raw.Finite ∧ (1e-14 : F64 L).raw.real = t ∧
    |t - 1e-14| ≤ 2 ^ (-53 : ℤ) * 1e-14 := by
  obtain ⟨h1, h2⟩ := pack_finite false (x := (1e-14 : ℝ)) (rne_lt_of_le rep_one.1 (by
    rw [abs_of_pos (by norm_num)]; norm_num))
  refine ⟨_, h1, h2, rne_error (by norm_num) le_rfl ?_⟩
  calc (2 : ℝ) ^ (-1022 : ℤ) ≤ 2 ^ (-100 : ℤ) := zpow_le_zpow_right₀ (by norm_num) (by norm_num)
    _ ≤ 1e-14 := by norm_num

omit [HasPowf (F64 L)] in
theorem timeStep_ieee {build : Build} {T dx : F64 L} {n : UInt32} (hn : 2 ≤ n.toNat)
    (h : timeStep build T n = .ok dx) :
    ∃ hr, dx.raw = Raw.div T.raw (fin ((n.toNat : ℝ) - 1) hr) := by
  have hne : n ≠ 0 := by rintro rfl; exact absurd hn (by decide)
  have : pointsMinusOne build n = .ok (n - 1) := by
    unfold pointsMinusOne
    cases build
    · simp [hne]
    · rfl
  unfold timeStep at h
  rw [this] at h
  injection h with h
  have e : (n - 1).toNat = n.toNat - 1 := by
    rw [UInt32.toNat_sub_of_le _ _ (UInt32.le_iff_toNat_le.2 (by
      rw [show (1 : UInt32).toNat = 1 from rfl]; omega))]
    rfl
  have hc : ((n.toNat - 1 : ℕ) : ℝ) = (n.toNat : ℝ) - 1 := by
    rw [Nat.cast_sub (by omega), Nat.cast_one]
  have hr : Rep ((n.toNat : ℝ) - 1) ∧ (n.toNat : ℝ) - 1 ≠ 0 := by
    have h2 : (2 : ℝ) ≤ n.toNat := by exact_mod_cast hn
    refine ⟨?_, by intro hc; linarith⟩
    rw [← hc]
    exact rep_nat (by have := n.toNat_lt; omega)
  refine ⟨hr, ?_⟩
  rw [← h, e]
  show Raw.div T.raw (pack false ((n.toNat - 1 : ℕ) : ℝ)) = _
  rw [hc, pack_fin false hr]

theorem tiny {z : ℝ} (hz : 1e-14 ≤ z) : (2 : ℝ) ^ (-1022 : ℤ) ≤ z :=
  ((zpow_le_zpow_right₀ (by norm_num) (by norm_num) : (2 : ℝ) ^ (-1022 : ℤ) ≤ 2 ^ (-100 : ℤ)).trans
    (by norm_num : (2 : ℝ) ^ (-100 : ℤ) ≤ 1e-14)).trans hz

theorem huge {z : ℝ} (hz : z ≤ 2048) : z ≤ 2 ^ 1000 := by
  refine hz.trans ?_
  calc (2048 : ℝ) ≤ 2 ^ 11 := by norm_num
    _ ≤ 2 ^ 1000 := pow_le_pow_right₀ (by norm_num) (by norm_num)

omit [HasPowf (F64 L)] in
theorem up_of_pos {a : F64 L} (hf : a.raw.Finite) (hp : 0 < a.raw.real) : Up a := by
  show a.raw.sign = false
  rcases (Raw.finite_iff a.raw).1 hf with ⟨s, hs⟩ | ⟨z, hz, hs⟩ <;> rw [hs] at hp ⊢
  · exact absurd hp (lt_irrefl _)
  · exact decide_eq_false (not_lt.2 hp.le)

omit [HasPowf (F64 L)] in
/-- The rounded output interval. -/
theorem interval_ieee {build : Build} {period dx : F64 L} {n : UInt32} (hn : 2 ≤ n.toNat)
    (hf : period.raw.Finite) (hT : period.raw.real ≤ 12)
    (hs : ((n.toNat : ℝ) - 1) * 1e-12 ≤ period.raw.real) (h : timeStep build period n = .ok dx) :
    dx.raw.Finite ∧ Up dx ∧ |dx.raw.real - period.raw.real / ((n.toNat : ℝ) - 1)|
      ≤ 2 ^ (-53 : ℤ) * (period.raw.real / ((n.toNat : ℝ) - 1)) := by
  have hn2 : (2 : ℝ) ≤ n.toNat := by exact_mod_cast hn
  obtain ⟨hr, hdx⟩ := timeStep_ieee hn h
  generalize (n.toNat : ℝ) = N at *
  have hq1 : 1e-12 ≤ period.raw.real / (N - 1) := by
    rw [le_div_iff₀ (by linarith)]; linarith
  have hT0 : 0 ≤ period.raw.real := le_trans (mul_nonneg (by linarith) (by norm_num)) hs
  have hq2 : period.raw.real / (N - 1) ≤ period.raw.real := div_le_self hT0 (by linarith)
  obtain ⟨d1, d2⟩ := Raw.div_finite hf (b := fin (N - 1) hr) trivial hr.2 (rne_lt_of_le rep_2048 (by
    show |period.raw.real / (N - 1)| ≤ 2048
    rw [abs_of_nonneg (by linarith)]; linarith))
  rw [← hdx] at d1 d2
  change dx.raw.real = rne (period.raw.real / (N - 1)) at d2
  generalize period.raw.real / (N - 1) = q at *
  have d3 := rne_error (x := q) (by linarith) le_rfl (tiny (by linarith))
  rw [← d2] at d3
  refine ⟨d1, up_of_pos d1 ?_, d3⟩
  have u1 : (2 : ℝ) ^ (-53 : ℤ) ≤ 1 / 2 := by norm_num
  generalize (2 : ℝ) ^ (-53 : ℤ) = u at *
  have h0 : 0 < q := lt_of_lt_of_le (by norm_num) hq1
  have := mul_le_mul_of_nonneg_right u1 h0.le
  linarith [(abs_le.1 d3).1]

omit [HasPowf (F64 L)] in
/-- The rounded end of the integration. -/
theorem end_ieee {period : F64 L} (hf : period.raw.Finite) (hT : period.raw.real ≤ 12)
    (h0 : 1e-12 ≤ period.raw.real) :
    (period + 1e-14 : F64 L).raw.Finite ∧ |(period + 1e-14 : F64 L).raw.real - (period.raw.real + 1e-14)|
      ≤ 2 ^ (-53 : ℤ) * (period.raw.real + 3e-14) := by
  obtain ⟨t, t1, t2, t3⟩ := lit_small (L := L)
  have t3' := abs_le.1 t3
  have u1 : (2 : ℝ) ^ (-53 : ℤ) ≤ 0.1 := by norm_num
  have ht : 0.9e-14 ≤ t ∧ t ≤ 1.1e-14 := by
    norm_num at t3' ⊢
    constructor <;> linarith [t3'.1, t3'.2]
  have ht0 : 0 ≤ t := le_trans (by norm_num) ht.1
  obtain ⟨x1, x2⟩ := Raw.add_finite hf t1 (rne_lt_of_le rep_2048 (by
    rw [t2, abs_of_nonneg (by linarith)]
    linarith))
  rw [t2] at x2
  refine ⟨x1, ?_⟩
  show |(add period.raw (1e-14 : F64 L).raw).real - _| ≤ _
  rw [x2]
  have e := rne_error (x := period.raw.real + t) (by linarith) le_rfl (tiny (by linarith))
  have u0 := two_pow_pos (-53)
  generalize (2 : ℝ) ^ (-53 : ℤ) = u at *
  calc |rne (period.raw.real + t) - (period.raw.real + 1e-14)|
      = |(rne (period.raw.real + t) - (period.raw.real + t)) + (t - 1e-14)| := by congr 1; ring
    _ ≤ |rne (period.raw.real + t) - (period.raw.real + t)| + |t - 1e-14| := abs_add_le _ _
    _ ≤ u * (period.raw.real + t) + u * 1e-14 := add_le_add e t3
    _ = u * (period.raw.real + t + 1e-14) := by ring
    _ ≤ u * (period.raw.real + 3e-14) := mul_le_mul_of_nonneg_left (by linarith) u0.le

omit [HasPowf (F64 L)] in
theorem tick_atMost {dx : F64 L} (hd : Up dx) {r : ℝ} {i j : ℕ} (h : i ≤ j)
    (hj : AtMost (Spec.tick dx j) r) : AtMost (Spec.tick dx i) r := by
  induction j with
  | zero => rwa [Nat.le_zero.1 h]
  | succ j ih =>
    rcases Nat.lt_or_ge i (j + 1) with hl | hg
    · obtain ⟨h1, h2⟩ := hj
      obtain ⟨g1, -, g3⟩ := add_finite_iff (a := (Spec.tick dx j).raw) (b := dx.raw) h1
      refine ih (by omega) ⟨g1, le_trans ?_ h2⟩
      show _ ≤ (add (Spec.tick dx j).raw dx.raw).real
      rw [g3]
      have := rne_mono (le_add_of_nonneg_right (a := (Spec.tick dx j).raw.real) (real_nonneg hd))
      rwa [rne_rep (Raw.rep_real _)] at this
    · rwa [show i = j + 1 by omega]

/-- The arithmetic behind the count. -/
theorem count_arith {N T D u X r a b : ℝ} (hu0 : 0 < u) (hu : u ≤ 1.1103e-16) (hN : 2 ≤ N)
    (hlong : (N + 6) * T ≤ 89) (hshort : (N - 1) * 1e-12 ≤ T)
    (hD : |D - T / (N - 1)| ≤ u * (T / (N - 1))) (hX : |X - (T + 1e-14)| ≤ u * (T + 3e-14))
    (hr : |r - X| ≤ 3 * u * X) (ha : |a - (N - 1) * D| ≤ (N - 1) * (u * (1.01 * T)))
    (hb : |b - N * D| ≤ N * (u * (2.1 * T))) : a ≤ r ∧ r < b := by
  have hq : (N - 1) * (T / (N - 1)) = T := by field_simp [show N - 1 ≠ 0 by linarith]
  have hq1 : 1e-12 ≤ T / (N - 1) := by
    rw [le_div_iff₀ (by linarith)]; linarith
  generalize T / (N - 1) = q at *
  have hq0 : 0 < q := lt_of_lt_of_le (by norm_num) hq1
  have hT0 : 0 < T := by rw [← hq]; exact mul_pos (by linarith) hq0
  have hD' := abs_le.1 hD
  have hX' := abs_le.1 hX
  have hr' := abs_le.1 hr
  have ha' := abs_le.1 ha
  have hb' := abs_le.1 hb
  -- products
  have w0 : 0 < u * T := mul_pos hu0 hT0
  have hw : (N + 6) * (u * T) ≤ 89 * 1.1103e-16 := by
    calc (N + 6) * (u * T) = u * ((N + 6) * T) := by ring
      _ ≤ u * 89 := mul_le_mul_of_nonneg_left hlong hu0.le
      _ ≤ 89 * 1.1103e-16 := by linarith
  have hNw : N * (u * (2.1 * T)) = 2.1 * (N * (u * T)) := by ring
  have hNw1 : (N - 1) * (u * (1.01 * T)) = 1.01 * (N * (u * T)) - 1.01 * (u * T) := by ring
  have hDN1 : (N - 1) * D ≤ T + u * T := by
    have := mul_le_mul_of_nonneg_left hD'.2 (show 0 ≤ N - 1 by linarith)
    rw [mul_sub, hq, mul_left_comm, hq] at this
    linarith
  have hDN2 : T - u * T ≤ (N - 1) * D := by
    have := mul_le_mul_of_nonneg_left hD'.1 (show 0 ≤ N - 1 by linarith)
    rw [mul_sub, hq, mul_neg, mul_left_comm, hq] at this
    linarith
  have hND : N * D = (N - 1) * D + D := by ring
  have hDq : 0.5e-12 ≤ D := by
    have : u * q ≤ 0.5 * q := mul_le_mul_of_nonneg_right (by linarith) hq0.le
    linarith [hD'.1]
  have hX1 : X ≤ 1.0001 * T + 2e-14 := by
    have : u * T ≤ 0.0001 * T := mul_le_mul_of_nonneg_right (by linarith) hT0.le
    nlinarith [hX'.2]
  have huX : u * X ≤ 1.0001 * (u * T) + u * 2e-14 := by
    have := mul_le_mul_of_nonneg_left hX1 hu0.le
    linarith
  have e : 3 * u * X = 3 * (u * X) := by ring
  have e2 : u * (T + 3e-14) = u * T + u * 3e-14 := by ring
  rw [e] at hr'
  rw [e2] at hX'
  rw [hNw1] at ha'
  rw [hNw, hND] at hb'
  have hNw0 : 2 * (u * T) ≤ N * (u * T) := mul_le_mul_of_nonneg_right hN w0.le
  constructor
  · linarith [ha'.2, hr'.1, hX'.1]
  · linarith [hb'.1, hr'.2, hX'.2]

/-- **C76**, an integration over a cycle, in binary64.  If the number of points (plus six) times the period is
at most 89 seconds and the output interval at least a picosecond, a successful integration asked for `n ≥ 2`
points returns exactly `n`, each within `1e-14` seconds of its place in the cycle. -/
theorem C76_integration (hw : Spec.PowfSign L) (outs : ℕ) (env : Env (F64 L))
    (ho : env.ode = dopri5.solve outs) (cycle : Cycle (F64 L)) (ic : Conditions (F64 L)) (n : UInt32)
    (tol : OdeTolerance (F64 L)) (hn : 2 ≤ n.toNat) (hf : cycle.period.raw.Finite)
    (hlong : ((n.toNat : ℝ) + 6) * cycle.period.raw.real ≤ 89)
    (hshort : ((n.toNat : ℝ) - 1) * 1e-12 ≤ cycle.period.raw.real) (pts : List (Point (F64 L)))
    (h : integrationTryFrom env cycle ic n tol = .ok pts) :
    pts.length = n.toNat ∧ ∀ k : ℕ, ∀ hk : k < pts.length, pts[k].time.raw.Finite ∧
      |pts[k].time.raw.real - k * (cycle.period.raw.real / ((n.toNat : ℝ) - 1))| ≤ 1e-14 := by
  obtain ⟨dx, log, xs, ys, h1, h2, -, h4, h5⟩ := (C32_integration_ok_iff _ _ _ _ _ _).1 h
  have hn2 : (2 : ℝ) ≤ n.toNat := by exact_mod_cast hn
  have hn32 : (n.toNat : ℝ) ≤ 2 ^ 32 := by
    have := n.toNat_lt
    exact_mod_cast this.le
  have hcast : ((n.toNat - 1 : ℕ) : ℝ) = (n.toNat : ℝ) - 1 := by
    rw [Nat.cast_sub (by omega), Nat.cast_one]
  have hT0 : 1e-12 ≤ cycle.period.raw.real := by
    refine le_trans ?_ hshort
    norm_num
    linarith
  have hTp : 0 < cycle.period.raw.real := lt_of_lt_of_le (by norm_num) hT0
  have hT12 : cycle.period.raw.real ≤ 12 := by
    have := mul_le_mul_of_nonneg_right (show (8 : ℝ) ≤ (n.toNat : ℝ) + 6 by linarith) hTp.le
    linarith
  obtain ⟨d1, d2, d3⟩ := interval_ieee hn hf hT12 hshort h1
  obtain ⟨x1, x2⟩ := end_ieee hf hT12 hT0
  have u0 := two_pow_pos (-53)
  have u1 : (2 : ℝ) ^ (-53 : ℤ) ≤ 1.1103e-16 := by norm_num
  have hX : 1e-14 ≤ (cycle.period + 1e-14 : F64 L).raw.real ∧
      (cycle.period + 1e-14 : F64 L).raw.real ≤ 13 := by
    have x2' := abs_le.1 x2
    generalize (2 : ℝ) ^ (-53 : ℤ) = u at *
    have : u * (cycle.period.raw.real + 3e-14) ≤ 0.001 * (cycle.period.raw.real + 3e-14) :=
      mul_le_mul_of_nonneg_right (by linarith) (by linarith)
    constructor
    · linarith [x2'.1]
    · linarith [x2'.2]
  rw [ho] at h2
  obtain ⟨g1, g2, r, g3, g4, g5, g6⟩ := C76_dopri5_ticks hw outs _ dx _ _ _ x1 (tiny hX.1)
    (huge (by linarith [hX.2])) d2 _ xs ys h2
  have hDN : ((n.toNat : ℝ) - 1) * dx.raw.real ≤ cycle.period.raw.real + 1e-15 * cycle.period.raw.real ∧
      dx.raw.real ≤ 1.001 * cycle.period.raw.real ∧
      ∀ k : ℕ, k ≤ n.toNat - 1 → |k * dx.raw.real - k * (cycle.period.raw.real / ((n.toNat : ℝ) - 1))|
        ≤ 2 ^ (-53 : ℤ) * cycle.period.raw.real := by
    have hq : ((n.toNat : ℝ) - 1) * (cycle.period.raw.real / ((n.toNat : ℝ) - 1)) = cycle.period.raw.real := by
      field_simp [show (n.toNat : ℝ) - 1 ≠ 0 by linarith]
    have hq2 : cycle.period.raw.real / ((n.toNat : ℝ) - 1) ≤ cycle.period.raw.real :=
      div_le_self hTp.le (by linarith)
    have hq0 : 0 ≤ cycle.period.raw.real / ((n.toNat : ℝ) - 1) := div_nonneg hTp.le (by linarith)
    have key : ∀ k : ℕ, k ≤ n.toNat - 1 →
        |k * dx.raw.real - k * (cycle.period.raw.real / ((n.toNat : ℝ) - 1))|
          ≤ 2 ^ (-53 : ℤ) * cycle.period.raw.real := by
      intro k hk
      have hk' : (k : ℝ) ≤ (n.toNat : ℝ) - 1 := by
        rw [← hcast]; exact_mod_cast hk
      rw [← mul_sub, abs_mul, abs_of_nonneg (Nat.cast_nonneg k)]
      calc (k : ℝ) * |_| ≤ ((n.toNat : ℝ) - 1) * (2 ^ (-53 : ℤ) *
            (cycle.period.raw.real / ((n.toNat : ℝ) - 1))) :=
            mul_le_mul hk' d3 (abs_nonneg _) (by linarith)
        _ = 2 ^ (-53 : ℤ) * cycle.period.raw.real := by rw [mul_left_comm, hq]
    have k1 := (abs_le.1 (key (n.toNat - 1) le_rfl)).2
    rw [hcast, hq] at k1
    have d3' := (abs_le.1 d3).2
    refine ⟨?_, ?_, key⟩
    · generalize (2 : ℝ) ^ (-53 : ℤ) = u at *
      have := mul_le_mul_of_nonneg_right u1 hTp.le
      linarith
    · generalize (2 : ℝ) ^ (-53 : ℤ) = u at *
      have := mul_le_mul_of_nonneg_right u1 hq0
      linarith
  have hNu : (n.toNat : ℝ) * 2 ^ (-53 : ℤ) ≤ 1e-6 := by
    have := mul_le_mul hn32 u1 u0.le (by norm_num)
    refine this.trans (by norm_num)
  have E1 := tick_error d1 d2 (B := 1.01 * cycle.period.raw.real) (tiny (by linarith))
    (huge (by linarith)) (n.toNat - 1) (by
      rw [hcast]
      generalize (2 : ℝ) ^ (-53 : ℤ) = u at *
      have a := mul_le_mul_of_nonneg_right hNu (show 0 ≤ 1.01 * cycle.period.raw.real by linarith)
      have b : 0 ≤ u * (1.01 * cycle.period.raw.real) := mul_nonneg u0.le (by linarith)
      have c : ((n.toNat : ℝ) - 1) * (u * (1.01 * cycle.period.raw.real))
        = n.toNat * u * (1.01 * cycle.period.raw.real) - u * (1.01 * cycle.period.raw.real) := by ring
      rw [c]
      linarith [hDN.1])
  have E2 := tick_error d1 d2 (B := 2.1 * cycle.period.raw.real) (tiny (by linarith))
    (huge (by linarith)) n.toNat (by
      generalize (2 : ℝ) ^ (-53 : ℤ) = u at *
      have a := mul_le_mul_of_nonneg_right hNu (show 0 ≤ 2.1 * cycle.period.raw.real by linarith)
      have c : (n.toNat : ℝ) * (u * (2.1 * cycle.period.raw.real))
        = n.toNat * u * (2.1 * cycle.period.raw.real) := by ring
      rw [c]
      linarith [hDN.1, hDN.2.1])
  have E3 := E1 (n.toNat - 1) le_rfl
  have E4 := E2 n.toNat le_rfl
  rw [hcast] at E3
  obtain ⟨c1, c2⟩ := count_arith u0 u1 hn2 hlong hshort d3 x2 g3 E3.2 E4.2
  have hlen : xs.length = n.toNat := by
    by_contra hne
    rcases lt_or_gt_of_ne hne with hlt | hgt
    · exact g6 (tick_atMost d2 (j := n.toNat - 1) (by omega) ⟨E3.1, c1⟩)
    · exact absurd (tick_atMost d2 (i := n.toNat) (j := xs.length - 1) (by omega) g5).2 (not_le.2 c2)
  have hlp : pts.length = n.toNat := by rw [h4, g1, hlen, min_self]
  refine ⟨hlp, fun k hk => ?_⟩
  have hkx : k < xs.length := by rw [hlen, ← hlp]; exact hk
  have e1 := (h5 k _ (List.getElem?_eq_getElem hk)).1
  have e2 : xs[k]? = some (Spec.tick dx k) := by
    rw [g2]; simp [hkx]
  rw [e2, Option.some.injEq] at e1
  have hkn : k ≤ n.toNat - 1 := by omega
  obtain ⟨f1, f2⟩ := E1 k hkn
  rw [← e1]
  refine ⟨f1, ?_⟩
  have f3 := hDN.2.2 k hkn
  have hk' : (k : ℝ) ≤ (n.toNat : ℝ) - 1 := by
    rw [← hcast]; exact_mod_cast hkn
  generalize (2 : ℝ) ^ (-53 : ℤ) = u at *
  have w0 : 0 < u * cycle.period.raw.real := mul_pos u0 hTp
  calc |(Spec.tick dx k).raw.real - k * (cycle.period.raw.real / ((n.toNat : ℝ) - 1))|
      = |((Spec.tick dx k).raw.real - k * dx.raw.real)
          + (k * dx.raw.real - k * (cycle.period.raw.real / ((n.toNat : ℝ) - 1)))| := by congr 1; ring
    _ ≤ _ := abs_add_le _ _
    _ ≤ k * (u * (1.01 * cycle.period.raw.real)) + u * cycle.period.raw.real := add_le_add f2 f3
    _ ≤ ((n.toNat : ℝ) - 1) * (u * (1.01 * cycle.period.raw.real)) + u * cycle.period.raw.real := by
        have := mul_le_mul_of_nonneg_right hk' (show 0 ≤ u * (1.01 * cycle.period.raw.real) by
          exact mul_nonneg u0.le (by linarith))
        linarith
    _ ≤ 1.01 * (((n.toNat : ℝ) + 6) * (u * cycle.period.raw.real)) := by linarith
    _ ≤ 1.01 * (89 * 1.1103e-16) := by
        have : ((n.toNat : ℝ) + 6) * (u * cycle.period.raw.real)
            = u * (((n.toNat : ℝ) + 6) * cycle.period.raw.real) := by ring
        rw [this]
        have := mul_le_mul u1 hlong (by positivity) (by norm_num)
        linarith
    _ ≤ 1e-14 := by norm_num

end Sett
