import Verif.Proofs.Float64
import Verif.Props.FixedApproach

/-! # IEEE-754 behaviour: C02, C22, C25, C51, C54, and the machine versions of C01, C03, C39

Everything here is about `F64 L`: binary64 with rounding and special values, and any mathematics library
`L`. -/

namespace Sett

open Float64 Raw Spec

variable {L : Libm}

/-! ## The convergence test -/

theorem finite_of_abs_lt {a t : Raw} (h : a.abs.lt t = true) :
    a.Finite ∧ ∃ x, t.ext = some x ∧ 0 < x := by
  rw [Raw.lt_iff] at h
  obtain ⟨x, y, h1, h2, h3⟩ := h
  cases a with
  | nan => cases h1
  | inf s => cases h1; exact absurd h3 not_top_lt
  | zero s => cases h1; exact ⟨trivial, y, h2, h3⟩
  | fin z hz =>
    cases h1
    refine ⟨trivial, y, h2, lt_of_le_of_lt ?_ h3⟩
    show (0 : EReal) ≤ ((|z| : ℝ) : EReal)
    exact_mod_cast abs_nonneg z

theorem pack_finite_iff (neg : Bool) (x : ℝ) : (pack neg x).Finite ↔ |rne x| < 2 ^ 1024 := by
  refine ⟨fun h => ?_, fun h => (pack_finite neg h).1⟩
  by_contra hc
  have h0 : rne x ≠ 0 := by
    intro h0; rw [h0, abs_zero] at hc; exact hc (by positivity)
  unfold pack at h
  rw [dif_neg h0, dif_neg hc] at h
  exact h

/-- A finite sum comes from finite operands and is the rounded sum. -/
theorem add_finite_iff {a b : Raw} (h : (add a b).Finite) :
    a.Finite ∧ b.Finite ∧ (add a b).real = rne (a.real + b.real) := by
  have key : a.Finite ∧ b.Finite := by
    cases a with
    | nan => rw [Raw.nan_add] at h; exact absurd h id
    | inf s => cases b with
      | nan => exact absurd h id
      | inf t => cases s <;> cases t <;> exact absurd h id
      | zero t => exact absurd h id
      | fin y hy => exact absurd h id
    | zero s => cases b with
      | nan => exact absurd h id
      | inf t => exact absurd h id
      | zero t => exact ⟨trivial, trivial⟩
      | fin y hy => exact ⟨trivial, trivial⟩
    | fin x hx => cases b with
      | nan => exact absurd h id
      | inf t => exact absurd h id
      | zero t => exact ⟨trivial, trivial⟩
      | fin y hy => exact ⟨trivial, trivial⟩
  refine ⟨key.1, key.2, ?_⟩
  have hr : |rne (a.real + b.real)| < 2 ^ 1024 := by
    rcases (Raw.finite_iff a).1 key.1 with ⟨s, rfl⟩ | ⟨x, hx, rfl⟩ <;>
    rcases (Raw.finite_iff b).1 key.2 with ⟨t, rfl⟩ | ⟨y, hy, rfl⟩
    · show |rne (0 + 0)| < _
      rw [add_zero, rne_zero, abs_zero]; positivity
    all_goals exact (pack_finite_iff false _).1 h
  exact (Raw.add_finite key.1 key.2 hr).2

/-- A finite difference comes from finite operands and is the rounded difference. -/
theorem sub_finite_iff {a b : Raw} (h : (sub a b).Finite) :
    a.Finite ∧ b.Finite ∧ (sub a b).real = rne (a.real - b.real) := by
  obtain ⟨h1, h2, h3⟩ := add_finite_iff (a := a) (b := b.neg) h
  refine ⟨h1, by cases b <;> exact h2, ?_⟩
  rw [Raw.neg_real, ← sub_eq_add_neg] at h3
  exact h3

/-- A finite quotient of a finite number has a non-zero divisor and is the rounded quotient, if the divisor
is finite. -/
theorem div_finite_iff {a b : Raw} (ha : a.Finite) (hb : b.Finite) (h : (div a b).Finite) :
    b.real ≠ 0 ∧ (div a b).real = rne (a.real / b.real) := by
  rcases (Raw.finite_iff b).1 hb with ⟨t, rfl⟩ | ⟨y, hy, rfl⟩
  · rcases (Raw.finite_iff a).1 ha with ⟨s, rfl⟩ | ⟨x, hx, rfl⟩ <;> exact absurd h id
  · refine ⟨hy.2, ?_⟩
    have hr : |rne (a.real / y)| < 2 ^ 1024 := by
      rcases (Raw.finite_iff a).1 ha with ⟨s, rfl⟩ | ⟨x, hx, rfl⟩ <;> exact (pack_finite_iff _ _).1 h
    exact (Raw.div_finite ha hb hy.2 hr).2

/-- The test on machine numbers, unfolded. -/
theorem is_converged_raw (tol : ConvergenceTolerance (F64 L)) (old new : F64 L) :
    tol.is_converged old new = true ↔
      (Raw.sub new.raw old.raw).abs.lt tol.abs.raw = true ∧
        ((Raw.sub new.raw old.raw).div old.raw).abs.lt tol.rel.raw = true := by
  simp only [ConvergenceTolerance.is_converged, Bool.and_eq_true]
  exact Iff.rfl

/-- A number that is not NaN and greater than zero. -/
def Spec.Positive (t : F64 L) : Prop := ∃ x, t.raw.ext = some x ∧ 0 < x

/-- **C02.** The convergence test accepts only finite values, a non-zero reference and positive
tolerances. -/
theorem C02_accepts_only_sane (tol : ConvergenceTolerance (F64 L)) (old new : F64 L)
    (h : tol.is_converged old new = true) :
    old.raw.Finite ∧ new.raw.Finite ∧ old.raw.real ≠ 0 ∧ Positive tol.abs ∧ Positive tol.rel := by
  obtain ⟨h1, h2⟩ := (is_converged_raw tol old new).1 h
  obtain ⟨f1, p1⟩ := finite_of_abs_lt h1
  obtain ⟨f2, p2⟩ := finite_of_abs_lt h2
  obtain ⟨g1, g2, -⟩ := sub_finite_iff f1
  exact ⟨g2, g1, (div_finite_iff f1 g2 f2).1, p1, p2⟩

/-- **C02**, as stated: the rejected cases one by one. -/
theorem C02_rejects (tol : ConvergenceTolerance (F64 L)) (old new : F64 L)
    (h : old.raw = .nan ∨ (∃ s, old.raw = .inf s) ∨ (∃ s, old.raw = .zero s) ∨ new.raw = .nan ∨
      (∃ s, new.raw = .inf s) ∨
      tol.abs.raw = .nan ∨ tol.abs.raw = .inf true ∨ (∃ s, tol.abs.raw = .zero s) ∨
        (∃ x hx, tol.abs.raw = .fin x hx ∧ x < 0) ∨
      tol.rel.raw = .nan ∨ tol.rel.raw = .inf true ∨ (∃ s, tol.rel.raw = .zero s) ∨
        (∃ x hx, tol.rel.raw = .fin x hx ∧ x < 0)) :
    tol.is_converged old new = false := by
  rw [Bool.eq_false_iff]
  intro hc
  obtain ⟨h1, h2, h3, h4, h5⟩ := C02_accepts_only_sane tol old new hc
  have pos : ∀ t : F64 L, Positive t → t.raw ≠ .nan ∧ t.raw ≠ .inf true ∧ (∀ s, t.raw ≠ .zero s) ∧
      ∀ x hx, t.raw = .fin x hx → ¬x < 0 := by
    rintro t ⟨x, hx, h0⟩
    refine ⟨fun e => ?_, fun e => ?_, fun s e => ?_, fun y hy e hlt => ?_⟩
    · rw [e] at hx; cases hx
    · rw [e] at hx; cases hx; exact absurd h0 not_lt_bot
    · rw [e] at hx; cases hx; exact absurd h0 (lt_irrefl _)
    · rw [e] at hx; cases hx
      have : (0 : ℝ) < y := by exact_mod_cast h0
      linarith
  obtain ⟨a1, a2, a3, a4⟩ := pos _ h4
  obtain ⟨b1, b2, b3, b4⟩ := pos _ h5
  rcases h with h | ⟨s, h⟩ | ⟨s, h⟩ | h | ⟨s, h⟩ | h | h | ⟨s, h⟩ | ⟨x, hx, h, h'⟩ | h | h | ⟨s, h⟩ |
    ⟨x, hx, h, h'⟩
  · rw [h] at h1; exact h1
  · rw [h] at h1; exact h1
  · rw [h] at h3; exact h3 rfl
  · rw [h] at h2; exact h2
  · rw [h] at h2; exact h2
  · exact a1 h
  · exact a2 h
  · exact a3 s h
  · exact a4 x hx h h'
  · exact b1 h
  · exact b2 h
  · exact b3 s h
  · exact b4 x hx h h'

/-- **C03** on machine numbers: loosening the tolerances (in the IEEE order) keeps acceptance. -/
theorem C03_tolerance_monotone_ieee (t t' : ConvergenceTolerance (F64 L)) (old new : F64 L)
    (ha : Scalar.le t.abs t'.abs = true) (hr : Scalar.le t.rel t'.rel = true)
    (h : t.is_converged old new = true) : t'.is_converged old new = true := by
  rw [is_converged_raw] at h ⊢
  exact ⟨Raw.lt_of_lt_of_le h.1 ha, Raw.lt_of_lt_of_le h.2 hr⟩

/-- **C01** on machine numbers.  With finite tolerances and `rel` at most one half, acceptance means that
the *exact* difference is below the absolute tolerance and below the relative tolerance times the
reference: rounding never makes the test accept too much. -/
theorem C01_accepted_exact_ieee (tol : ConvergenceTolerance (F64 L)) (old new : F64 L)
    (ha : tol.abs.raw.Finite) (hr : tol.rel.raw.Finite) (hr2 : tol.rel.raw.real ≤ 1 / 2)
    (h : tol.is_converged old new = true) :
    |new.raw.real - old.raw.real| < tol.abs.raw.real ∧
      |new.raw.real - old.raw.real| < tol.rel.raw.real * |old.raw.real| := by
  obtain ⟨ho, hn, h0, -, -⟩ := C02_accepts_only_sane tol old new h
  obtain ⟨h1, h2⟩ := (is_converged_raw tol old new).1 h
  obtain ⟨f1, -⟩ := finite_of_abs_lt h1
  obtain ⟨f2, -⟩ := finite_of_abs_lt h2
  have e1 := (sub_finite_iff f1).2.2
  have e2 := (div_finite_iff f1 ho f2).2
  rw [Raw.lt_finite (Raw.abs_finite f1) ha, Raw.abs_real, e1] at h1
  rw [Raw.lt_finite (Raw.abs_finite f2) hr, Raw.abs_real, e2, e1] at h2
  have hpos : 0 < |old.raw.real| := abs_pos.2 h0
  have h3 := lt_of_rne_lt (Raw.rep_real tol.rel.raw).1 h2
  have h4 : |rne (new.raw.real - old.raw.real)| < tol.rel.raw.real * |old.raw.real| := by
    rwa [abs_div, div_lt_iff₀ hpos] at h3
  have h5 : rne (new.raw.real - old.raw.real) = new.raw.real - old.raw.real := by
    apply sub_exact (Raw.rep_real _).1 (Raw.rep_real _).1
    refine h4.trans_le ?_
    have := mul_le_mul_of_nonneg_right hr2 hpos.le
    linarith
  exact ⟨lt_of_rne_lt (Raw.rep_real tol.abs.raw).1 h1, by rwa [h5] at h4⟩

/-- Equal finite non-zero values pass every positive tolerance. -/
theorem within_self_ieee (tol : ConvergenceTolerance (F64 L)) (x : F64 L) (hx : x.raw.Finite)
    (h0 : x.raw.real ≠ 0) (ha : Positive tol.abs) (hr : Positive tol.rel) : Within tol x x := by
  have hs : Raw.sub x x = zero false := Raw.sub_self hx
  have hz : ∀ t : F64 L, Positive t → (zero false).lt t = true := by
    rintro t ⟨y, hy, hy0⟩
    exact (Raw.lt_iff _ _).2 ⟨0, y, rfl, hy, hy0⟩
  constructor
  · show (Raw.sub x x).abs.lt tol.abs = true
    rw [hs]; exact hz _ ha
  · show ((Raw.sub x x).div x).abs.lt tol.rel = true
    rw [hs]
    rcases (Raw.finite_iff x).1 hx with ⟨s, rfl⟩ | ⟨y, hy, rfl⟩
    · exact absurd rfl h0
    · have : Raw.div (zero false) (fin y hy) = zero (false ^^ (fin y hy).sign) := by
        show pack _ (0 / y) = _
        rw [zero_div, pack_zero]
        rfl
      rw [this]
      exact hz _ hr

/-! ## Literals -/

theorem ieee_zero : (0.0 : F64 L) = (zero false : Raw) := by
  show pack false (0.0 : ℝ) = _
  rw [lit_0, pack_zero]

theorem ieee_one : (1.0 : F64 L) = (one : Raw) := by
  show pack false (1.0 : ℝ) = _
  rw [lit_1, pack_fin _ rep_one]; rfl

theorem rep_nat {n : ℕ} (h : n ≤ 2 ^ 53) : Rep (n : ℝ) := by
  refine ⟨⟨n, 0, ?_, by norm_num, by simp⟩, ?_⟩
  · rw [abs_of_nonneg (by positivity)]; exact_mod_cast h
  · rw [abs_of_nonneg (by positivity)]
    have h1 : (n : ℝ) ≤ 2 ^ 53 := by exact_mod_cast h
    exact h1.trans_lt (pow_lt_pow_right₀ (by norm_num) (by norm_num))

theorem rep_two : Rep 2 ∧ (2 : ℝ) ≠ 0 := ⟨by exact_mod_cast rep_nat (n := 2) (by norm_num), by norm_num⟩

theorem ieee_two : (2.0 : F64 L) = (fin 2 rep_two : Raw) := by
  show pack false (2.0 : ℝ) = _
  rw [lit_2, pack_fin _ rep_two]

/-! ## C25 -/

/-- Any number times a zero is a zero or NaN. -/
theorem mul_zero_cases (a : Raw) (s : Bool) :
    mul a (zero s) = nan ∨ ∃ t, mul a (zero s) = zero t := by
  cases a with
  | nan => exact .inl rfl
  | inf t => exact .inl rfl
  | zero t => exact .inr ⟨t ^^ s, by show pack _ (0 * 0) = _; rw [mul_zero, pack_zero]; rfl⟩
  | fin x hx => exact .inr ⟨_, by show pack _ (x * 0) = _; rw [mul_zero, pack_zero]⟩

/-- A positive number divided by zero is the infinity of the zero's sign. -/
theorem positive_div_zero {a : F64 L} (h : Positive a) (t : Bool) : Raw.div a.raw (zero t) = inf t := by
  obtain ⟨x, hx, h0⟩ := h
  generalize a.raw = a at *
  cases a with
  | nan => cases hx
  | inf s =>
    cases s with
    | true => cases hx; exact absurd h0 not_lt_bot
    | false => show inf (false ^^ t) = _; simp
  | zero s => cases hx; exact absurd h0 (lt_irrefl _)
  | fin y hy =>
    cases hx
    have : (0 : ℝ) < y := by exact_mod_cast h0
    show inf (decide (y < 0) ^^ t) = _
    rw [decide_eq_false (not_lt.2 this.le), Bool.false_xor]

/-- Anything divided by zero is infinite or NaN. -/
theorem div_zero_cases (a : Raw) (t : Bool) : div a (zero t) = nan ∨ ∃ s, div a (zero t) = inf s := by
  cases a with
  | nan => exact .inl rfl
  | inf s => exact .inr ⟨_, rfl⟩
  | zero s => exact .inl rfl
  | fin x hx => exact .inr ⟨_, rfl⟩

/-- The approach formula shared by the two fluid heat exchangers, on machine numbers. -/
theorem exchanger_zero_flow (UA Q C : F64 L) (hU : Positive UA) :
    (C.raw = zero false → (Q / C * (1.0 / (1.0 - Scalar.exp (-(UA / C))) - 1.0) : F64 L).raw = nan) ∧
    ((C.raw = nan ∨ ∃ t, C.raw = zero t) →
      ¬(Q / C * (1.0 / (1.0 - Scalar.exp (-(UA / C))) - 1.0) : F64 L).raw.Finite) := by
  have unf : (Q / C * (1.0 / (1.0 - Scalar.exp (-(UA / C))) - 1.0) : F64 L).raw
      = mul (div Q.raw C.raw)
        (sub (div one (sub one (L.exp (neg (div UA.raw C.raw))))) one) := by
    rw [ieee_one]; rfl
  rw [unf]
  have hpos : C.raw = zero false → mul (div Q.raw C.raw)
        (sub (div one (sub one (L.exp (neg (div UA.raw C.raw))))) one) = nan := by
    intro hC
    rw [hC, positive_div_zero hU]
    have e1 : L.exp (neg (inf false)) = zero false := L.exp_neg_inf
    have e2 : sub one (zero false) = one := by
      show pack false (1 + 0) = _
      rw [add_zero, pack_fin _ rep_one]; rfl
    have e3 : div one one = one := Raw.div_self rep_one
    have e4 : sub one one = zero false := Raw.sub_self (a := one) trivial
    rw [e1, e2, e3, e4]
    rcases div_zero_cases Q.raw false with h | ⟨s, h⟩ <;> rw [h] <;> rfl
  refine ⟨hpos, ?_⟩
  rintro (hC | ⟨t, hC⟩)
  · rw [hC, Raw.div_nan, Raw.nan_mul]; exact id
  · cases t with
    | false => rw [hpos hC]; exact id
    | true =>
      rw [hC, positive_div_zero hU]
      have e1 : L.exp (neg (inf true)) = inf false := L.exp_inf
      have e2 : sub one (inf false) = inf true := rfl
      have e3 : div one (inf true) = zero true := by
        show zero (decide ((1 : ℝ) < 0) ^^ true) = _
        simp [show ¬((1 : ℝ) < 0) by norm_num]
      have e4 : sub (zero true) one = fin (-1) (rep_neg rep_one) := by
        show pack false (0 + -1) = _
        rw [zero_add, pack_fin _ (rep_neg rep_one)]
      rw [e1, e2, e3, e4]
      rcases div_zero_cases Q.raw true with h | ⟨s, h⟩ <;> rw [h] <;> exact id

/-- **C25**, cold exchanger: without flow the approach is never a finite number, and it is NaN when the
heat capacity rate is +0 (flow +0 and a positive heat capacity). -/
theorem C25_chx (x : chx.FixedConductance (F64 L)) (s : chx.State (F64 L)) (hU : Positive x.UA)
    (b : Bool) (hm : s.hxr.m_dot.raw = zero b) :
    ¬(x.approach s).raw.Finite ∧
      ((s.hxr.cp * s.hxr.m_dot : F64 L).raw = zero false → (x.approach s).raw = nan) := by
  obtain ⟨h1, h2⟩ := exchanger_zero_flow x.UA s.hxr.Q_dot (s.hxr.cp * s.hxr.m_dot) hU
  refine ⟨h2 ?_, h1⟩
  have := mul_zero_cases s.hxr.cp.raw b
  rw [← hm] at this
  exact this

/-- **C25**, hot exchanger. -/
theorem C25_hhx (x : hhx.FixedConductance (F64 L)) (s : hhx.State (F64 L)) (hU : Positive x.UA)
    (b : Bool) (hm : s.hxr.m_dot.raw = zero b) :
    ¬(x.approach s).raw.Finite ∧
      ((s.hxr.cp * s.hxr.m_dot : F64 L).raw = zero false → (x.approach s).raw = nan) := by
  obtain ⟨h1, h2⟩ := exchanger_zero_flow x.UA s.hxr.Q_dot (s.hxr.cp * s.hxr.m_dot) hU
  refine ⟨h2 ?_, h1⟩
  have := mul_zero_cases s.hxr.cp.raw b
  rw [← hm] at this
  exact this

/-- **C25**, regenerator: without flow the approach is NaN, whatever the signs of the zeros. -/
theorem C25_regen (x : regen.FixedConductance (F64 L)) (s : regen.State (F64 L)) (hU : Positive x.UA)
    (b : Bool) (hm : s.hxr.m_dot.raw = zero b) : (x.approach s).raw = nan := by
  have unf : (x.approach s).raw = mul
      (sub one (div (div (div x.UA.raw (mul s.hxr.cp.raw s.hxr.m_dot.raw)) (fin 2 rep_two))
        (add one (div (div x.UA.raw (mul s.hxr.cp.raw s.hxr.m_dot.raw)) (fin 2 rep_two)))))
      (sub s.temp_hhx.raw s.temp_chx.raw) := by
    unfold regen.FixedConductance.approach
    rw [ieee_one, ieee_two]; rfl
  rw [unf, hm]
  rcases mul_zero_cases s.hxr.cp.raw b with h | ⟨t, h⟩ <;> rw [h]
  · rw [Raw.div_nan, Raw.nan_div, Raw.nan_div, Raw.sub_nan, Raw.nan_mul]
  · rw [positive_div_zero hU]
    have e1 : div (inf t) (fin 2 rep_two) = inf t := by
      show inf (t ^^ decide ((2 : ℝ) < 0)) = _
      simp [show ¬((2 : ℝ) < 0) by norm_num]
    have e2 : add one (inf t) = inf t := rfl
    have e3 : div (inf t) (inf t) = nan := rfl
    rw [e1, e2, e3, Raw.sub_nan, Raw.nan_mul]

/-- A sum or difference with a non-finite right operand is not finite. -/
theorem shifted_not_finite (a b : F64 L) (hb : ¬b.raw.Finite) :
    ¬(a + b : F64 L).raw.Finite ∧ ¬(a - b : F64 L).raw.Finite :=
  ⟨fun h => hb (add_finite_iff (a := a.raw) (b := b.raw) h).2.1,
    fun h => hb (sub_finite_iff (a := a.raw) (b := b.raw) h).2.1⟩

theorem regen_cold_not_finite (i : RegenImbalance (F64 L)) (tc th a : F64 L) (ha : ¬a.raw.Finite) :
    ¬(i.regen_temp tc th a).cold.raw.Finite := by
  intro h
  have h2 : (if Scalar.le 0.0 i.val then a else a - i.val : F64 L).raw.Finite :=
    (add_finite_iff (a := tc.raw) h).2.1
  by_cases hi : Scalar.le 0.0 i.val = true
  · rw [if_pos hi] at h2; exact ha h2
  · rw [if_neg hi] at h2
    exact ha (sub_finite_iff (a := a.raw) (b := i.val.raw) h2).1

/-- **C02**, consequence for runs: the temperatures of a returned engine, and those its last cycle implies,
are all finite and the returned ones are non-zero. -/
theorem C02_run_ok_finite (env : Env (F64 L)) (U : MatrixDecomposition (F64 L))
    (c : Components (F64 L)) (fluid : Fluid (F64 L)) (inputs : RunInputs (F64 L))
    (settings : RunSettings (F64 L)) (e : Engine (F64 L))
    (h : Engine.run env U c fluid inputs settings = .ok e) :
    ∃ s', Recomputed c e.state e.values s' ∧
      ∀ t ∈ [(e.state.temp.chx, s'.temp.chx), (e.state.temp.hhx, s'.temp.hhx),
          (e.state.temp.regen.cold, s'.temp.regen.cold), (e.state.temp.regen.avg, s'.temp.regen.avg),
          (e.state.temp.regen.hot, s'.temp.regen.hot)],
        t.1.raw.Finite ∧ t.2.raw.Finite ∧ t.1.raw.real ≠ 0 := by
  obtain ⟨n, vs, s', -, -, -, -, -, h6, h7⟩ := (C36_ok_iff env U c fluid inputs settings e).1 h
  refine ⟨s', h6, ?_⟩
  have key : ∀ a b : F64 L, Within settings.loop_tol.outer a b →
      a.raw.Finite ∧ b.raw.Finite ∧ a.raw.real ≠ 0 := by
    intro a b hw
    obtain ⟨h1, h2, h3, -, -⟩ := C02_accepts_only_sane _ _ _ (within_iff.2 hw)
    exact ⟨h1, h2, h3⟩
  intro t ht
  simp only [List.mem_cons, List.not_mem_nil, or_false] at ht
  rcases ht with rfl | rfl | rfl | rfl | rfl
  · exact key _ _ h7.chx
  · exact key _ _ h7.hhx
  · exact key _ _ h7.cold
  · exact key _ _ h7.avg
  · exact key _ _ h7.hot

/-- **C25**, the convergence test rejects it: a run with a fixed-conductance exchanger (positive
conductance) succeeds only if the mean mass flow through that exchanger is not zero. -/
theorem C25_never_converges (env : Env (F64 L)) (U : MatrixDecomposition (F64 L))
    (c : Components (F64 L)) (fluid : Fluid (F64 L)) (inputs : RunInputs (F64 L))
    (settings : RunSettings (F64 L)) (e : Engine (F64 L))
    (h : Engine.run env U c fluid inputs settings = .ok e) :
    ∃ m, MassFlows.from_values e.values = .ok m ∧
      (∀ x : chx.FixedConductance (F64 L), Positive x.UA → c.chx = x.toColdHeatExchanger →
        ∀ b, m.chx.raw ≠ zero b) ∧
      (∀ x : regen.FixedConductance (F64 L), Positive x.UA → c.regen = x.toRegenerator →
        ∀ b, m.regen.raw ≠ zero b) ∧
      ∀ x : hhx.FixedConductance (F64 L), Positive x.UA → c.hhx = x.toHotHeatExchanger →
        ∀ b, m.hhx.raw ≠ zero b := by
  obtain ⟨s', h6, h7⟩ := C02_run_ok_finite env U c fluid inputs settings e h
  refine ⟨s'.mass_flow, h6.mass_flow, ?_, ?_, ?_⟩
  · intro x hx hc b hb
    have h1 := (h7 _ (by simp : (e.state.temp.chx, s'.temp.chx) ∈ _)).2.1
    rw [h6.chx, hc] at h1
    exact (shifted_not_finite _ _ (C25_chx x _ hx b hb).1).1 h1
  · intro x hx hc b hb
    have h1 := (h7 _ (by simp : (e.state.temp.regen.cold, s'.temp.regen.cold) ∈ _)).2.1
    rw [h6.regen, hc] at h1
    refine regen_cold_not_finite e.state.regen_imbalance s'.temp.chx s'.temp.hhx _ ?_ h1
    have hn : (x.toRegenerator.approach (regenView e.state.fluid e.state.temp s'.pres s'.mass_flow s'.heat_flow)).raw = nan :=
      C25_regen x _ hx b hb
    rw [hn]; exact id
  · intro x hx hc b hb
    have h1 := (h7 _ (by simp : (e.state.temp.hhx, s'.temp.hhx) ∈ _)).2.1
    rw [h6.hhx, hc] at h1
    exact (shifted_not_finite _ _ (C25_hhx x _ hx b hb).1).2 h1

/-! ## C22 -/

/-- Equal as IEEE numbers (`==`; the two zeros are equal), or both NaN. -/
def Spec.Coincide (a b : F64 L) : Prop := a.raw.ext = b.raw.ext

/-- The effective hot end of the regenerator: the hot exchanger temperature less half the hot-side
approach. -/
noncomputable def Spec.effectiveHot (imbalance th approach : F64 L) : F64 L :=
  th - 0.5 * (if Scalar.le 0.0 imbalance then approach + imbalance else approach)
/-- The effective cold end: the cold exchanger temperature plus half the cold-side approach. -/
noncomputable def Spec.effectiveCold (imbalance tc approach : F64 L) : F64 L :=
  tc + 0.5 * (if Scalar.le 0.0 imbalance then approach else approach - imbalance)

/-- The ratio of coinciding numbers is one or NaN. -/
theorem div_coincide {a b : Raw} (h : a.ext = b.ext) : div a b = one ∨ div a b = nan := by
  cases a with
  | nan => exact .inr (Raw.nan_div b)
  | inf s =>
    cases b with
    | nan => exact .inr rfl
    | inf t => exact .inr rfl
    | zero t => cases s <;> cases h
    | fin y hy => cases s <;> cases h
  | zero s =>
    cases b with
    | nan => exact .inr rfl
    | inf t => cases t <;> cases h
    | zero t => exact .inr rfl
    | fin y hy =>
      have : ((0 : ℝ) : EReal) = ((y : ℝ) : EReal) := Option.some.inj h
      exact absurd (EReal.coe_eq_coe_iff.1 this).symm hy.2
  | fin x hx =>
    cases b with
    | nan => cases h
    | inf t => cases t <;> cases h
    | zero t =>
      have : ((x : ℝ) : EReal) = ((0 : ℝ) : EReal) := Option.some.inj h
      exact absurd (EReal.coe_eq_coe_iff.1 this) hx.2
    | fin y hy =>
      have : ((x : ℝ) : EReal) = ((y : ℝ) : EReal) := Option.some.inj h
      have := EReal.coe_eq_coe_iff.1 this
      subst this
      exact .inl (Raw.div_self hx)

/-- **C22**, the average.  If the effective end temperatures coincide, the average regenerator temperature
is not a finite number; it is NaN if the numerator comes out as zero (as in exact arithmetic). -/
theorem C22_average_not_finite (i : RegenImbalance (F64 L)) (tc th a : F64 L)
    (h : Coincide (effectiveHot i.val th a) (effectiveCold i.val tc a)) :
    ¬(i.regen_temp tc th a).avg.raw.Finite ∧
    ∀ n : F64 L, (i.regen_temp tc th a).avg = n / Scalar.ln
        (effectiveHot i.val th a / effectiveCold i.val tc a) →
      (∃ s, n.raw = zero s) → (i.regen_temp tc th a).avg.raw = nan := by
  have hl : ∀ n : Raw, (div n (L.ln (div (effectiveHot i.val th a).raw (effectiveCold i.val tc a).raw))
      = nan ∨ ∃ s, div n (L.ln (div (effectiveHot i.val th a).raw (effectiveCold i.val tc a).raw))
        = inf s) ∧ ((∃ s, n = zero s) →
        div n (L.ln (div (effectiveHot i.val th a).raw (effectiveCold i.val tc a).raw)) = nan) := by
    intro n
    rcases div_coincide h with h | h <;> rw [h]
    · rw [L.ln_one]
      refine ⟨div_zero_cases n false, ?_⟩
      rintro ⟨s, rfl⟩; rfl
    · rw [L.ln_nan, Raw.div_nan]
      exact ⟨.inl rfl, fun _ => rfl⟩
  refine ⟨?_, fun n hn hs => ?_⟩
  · have e : (i.regen_temp tc th a).avg.raw = div
        (th - 0.5 * (if Scalar.le 0.0 i.val then a + i.val else a) - tc
          - 0.5 * (if Scalar.le 0.0 i.val then a else a - i.val) : F64 L).raw
        (L.ln (div (effectiveHot i.val th a).raw (effectiveCold i.val tc a).raw)) := rfl
    rw [e]
    rcases (hl (th - 0.5 * (if Scalar.le 0.0 i.val then a + i.val else a) - tc
          - 0.5 * (if Scalar.le 0.0 i.val then a else a - i.val) : F64 L).raw).1 with h | ⟨s, h⟩ <;>
      rw [h] <;> exact id
  · rw [hn]
    exact (hl n.raw).2 hs

/-- **C22**, the run.  The regenerator temperatures of a returned engine come from some approach for which
the effective ends do not coincide, whatever the limits, tolerances, components, decomposition and
integrator. -/
theorem C22_ok_not_degenerate (env : Env (F64 L)) (U : MatrixDecomposition (F64 L))
    (c : Components (F64 L)) (fluid : Fluid (F64 L)) (inputs : RunInputs (F64 L))
    (settings : RunSettings (F64 L)) (e : Engine (F64 L))
    (h : Engine.run env U c fluid inputs settings = .ok e) :
    (∃ a, e.state.temp.regen
      = e.state.regen_imbalance.regen_temp e.state.temp.chx e.state.temp.hhx a) ∧
    ∀ a, e.state.temp.regen
        = e.state.regen_imbalance.regen_temp e.state.temp.chx e.state.temp.hhx a →
      ¬Coincide (effectiveHot e.state.regen_imbalance.val e.state.temp.hhx a)
        (effectiveCold e.state.regen_imbalance.val e.state.temp.chx a) := by
  constructor
  · obtain ⟨n, vs, s', -, h2, -, -, -, -, -⟩ := (C36_ok_iff env U _ fluid inputs settings e).1 h
    clear h
    generalize e.state = st at h2
    cases h2 with
    | start => exact ⟨_, rfl⟩
    | next h1 h2 h3 h4 => exact ⟨_, by rw [h3.regen, h3.imbalance]⟩
  · intro a ha hc
    obtain ⟨s', h6, h7⟩ := C02_run_ok_finite env U c fluid inputs settings e h
    have h1 := (h7 _ (by simp : (e.state.temp.regen.avg, s'.temp.regen.avg) ∈ _)).1
    rw [ha] at h1
    exact (C22_average_not_finite _ _ _ _ hc).1 h1

/-- **C22**, as stated, for engines whose end temperatures are fixed by constant approaches: if the
effective ends coincide, no run of the engine returns `Ok`. -/
theorem C22_never_ok (env : Env (F64 L)) (U : MatrixDecomposition (F64 L)) (w : ws.WorkingSpaces (F64 L))
    (k : chx.FixedApproach (F64 L)) (r : regen.FixedApproach (F64 L)) (l : hhx.FixedApproach (F64 L))
    (fluid : Fluid (F64 L)) (inputs : RunInputs (F64 L)) (settings : RunSettings (F64 L))
    (hc : Coincide (effectiveHot 0.0 (inputs.temp_source - l.approach) r.approach)
      (effectiveCold 0.0 (inputs.temp_sink + k.approach) r.approach)) (e : Engine (F64 L)) :
    Engine.run env U (fixedApproachEngine w k r l) fluid inputs settings ≠ .ok e := by
  intro h
  obtain ⟨n, vs, s', -, h2, -, -, -, h6, -⟩ := (C36_ok_iff env U _ fluid inputs settings e).1 h
  obtain ⟨-, g2, g3, g4, -⟩ := C37_visited_invariant env U _ fluid inputs settings n _ h2
  have key : e.state.temp.regen = e.state.regen_imbalance.regen_temp e.state.temp.chx e.state.temp.hhx
      r.approach ∧ e.state.temp.chx = inputs.temp_sink + k.approach ∧
      e.state.temp.hhx = inputs.temp_source - l.approach := by
    clear h g2 g3 g4 h6
    generalize e.state = st at h2
    cases h2 with
    | start => exact ⟨rfl, rfl, rfl⟩
    | next h1 h2 h3 h4 =>
      obtain ⟨-, a2, a3, -, -⟩ := C37_visited_invariant env U _ fluid inputs settings _ _ h1
      refine ⟨?_, ?_, ?_⟩
      · rw [h3.regen, h3.imbalance]; rfl
      · rw [h3.chx, a2]; rfl
      · rw [h3.hhx, a3]; rfl
  obtain ⟨k1, k2, k3⟩ := key
  refine (C22_ok_not_degenerate env U _ fluid inputs settings e h).2 _ k1 ?_
  rw [k2, k3, g4]
  exact hc

/-! ## C39 on machine numbers -/

/-- **C39** in IEEE arithmetic: positive tolerances and finite non-zero temperatures suffice. -/
theorem C39_ieee (env : Env (F64 L)) (U : MatrixDecomposition (F64 L)) (w : ws.WorkingSpaces (F64 L))
    (k : chx.FixedApproach (F64 L)) (r : regen.FixedApproach (F64 L)) (l : hhx.FixedApproach (F64 L))
    (fluid : Fluid (F64 L)) (inputs : RunInputs (F64 L)) (settings : RunSettings (F64 L))
    (vs : List (state_equations.Values (F64 L))) (hm : 1 ≤ settings.max_iters.outer)
    (ha : Positive settings.loop_tol.outer.abs) (hr : Positive settings.loop_tol.outer.rel)
    (ht : ∀ t ∈ [inputs.temp_sink + k.approach, inputs.temp_source - l.approach,
        inputs.temp_sink + k.approach + r.approach,
        ((⟨0.0⟩ : RegenImbalance (F64 L)).regen_temp (inputs.temp_sink + k.approach)
          (inputs.temp_source - l.approach) r.approach).avg,
        inputs.temp_source - l.approach - (r.approach + 0.0)],
      t.raw.Finite ∧ t.raw.real ≠ 0)
    (hi : Engine.inner env U (fixedApproachEngine w k r l) settings
      (State.new_hint (fixedApproachEngine w k r l) fluid inputs) = .ok vs) (hv : vs ≠ []) :
    ∃ e log, Engine.runLogged env U (fixedApproachEngine w k r l) fluid inputs settings
        = (.ok e, log) ∧ log.length = 1 ∧ e.values = Values.ofStateValues vs ∧
      e.state.temp.chx = inputs.temp_sink + k.approach ∧
      e.state.temp.hhx = inputs.temp_source - l.approach ∧
      e.state.temp.regen.cold = inputs.temp_sink + k.approach + r.approach ∧
      e.state.temp.regen.hot = inputs.temp_source - l.approach - (r.approach + 0.0) := by
  have h0 : Scalar.le (0.0 : F64 L) 0.0 = true := by
    rw [ieee_zero]
    exact (Raw.le_finite (a := zero false) (b := zero false) trivial trivial).2 le_rfl
  obtain ⟨-, -, h1, h2, h3, h4⟩ := C39_temperatures w k r l fluid inputs h0
  have ws : ∀ t : F64 L, t.raw.Finite ∧ t.raw.real ≠ 0 → Within settings.loop_tol.outer t t :=
    fun t h => within_self_ieee _ t h.1 h.2 ha hr
  refine ⟨_, _, C39_one_iteration env U w k r l fluid inputs settings vs hm hi hv
    ⟨?_, ?_, ?_, ?_, ?_⟩, rfl, rfl, h1, h2, h3, h4⟩
  · rw [h1]; exact ws _ (ht _ (by simp))
  · rw [h2]; exact ws _ (ht _ (by simp))
  · rw [h3]; exact ws _ (ht _ (by simp))
  · exact ws _ (ht _ (by simp; exact .inr (.inr (.inr (.inl rfl)))))
  · rw [h4]; exact ws _ (ht _ (by simp))

end Sett
