import Verif.Proofs.Dopri5
import Verif.Props.Ieee

/-! # The Dormand-Prince stepper in binary64: signs, times and rounding errors -/

namespace Sett

open Float64 Raw Spec dopri5

/-! ## Signs -/

theorem sign_pack {neg : Bool} {x : ℝ} (hn : neg = false) (hx : 0 ≤ x) : (pack neg x).sign = false := by
  subst hn
  have hr := rne_nonneg hx
  unfold pack
  split_ifs <;> simp [Raw.sign, hx, hr]

theorem real_nonneg {a : Raw} (h : a.sign = false) : 0 ≤ a.real := by
  cases a with
  | fin x hx => exact not_lt.1 (of_decide_eq_false h)
  | _ => exact le_rfl

theorem sign_of_abs (a : Raw) : a.abs.sign = false := by
  cases a <;> simp [Raw.abs, Raw.sign]

theorem abs_of_sign {a : Raw} (h : a.sign = false) : a.abs = a := by
  cases a with
  | nan => rfl
  | inf s => rw [show s = false from h]; rfl
  | zero s => rw [show s = false from h]; rfl
  | fin x hx => exact Raw.ext_eq (abs_of_nonneg (real_nonneg h))

theorem sign_add {a b : Raw} (ha : a.sign = false) (hb : b.sign = false) : (add a b).sign = false := by
  have h1 := real_nonneg ha
  have h2 := real_nonneg hb
  cases a <;> cases b <;> simp only [Raw.sign] at ha hb <;> try subst ha
  all_goals try subst hb
  all_goals first | rfl | exact sign_pack rfl (add_nonneg h1 h2)

theorem sign_mul {a b : Raw} (ha : a.sign = false) (hb : b.sign = false) : (mul a b).sign = false := by
  have h1 := real_nonneg ha
  have h2 := real_nonneg hb
  have hx : (a.sign ^^ b.sign) = false := by rw [ha, hb]; rfl
  have key : (pack (a.sign ^^ b.sign) (a.real * b.real)).sign = false := sign_pack hx (mul_nonneg h1 h2)
  cases a <;> cases b <;> first | rfl | exact hx | exact key

theorem sign_sq (a : Raw) : (mul a a).sign = false := by
  have key : (pack (a.sign ^^ a.sign) (a.real * a.real)).sign = false :=
    sign_pack (by simp) (mul_self_nonneg _)
  cases a with
  | nan => rfl
  | inf s => show (s ^^ s) = false; simp
  | zero s => exact key
  | fin x hx => exact key

theorem sign_div {a b : Raw} (ha : a.sign = false) (hb : b.sign = false) : (div a b).sign = false := by
  have h1 := real_nonneg ha
  have h2 := real_nonneg hb
  have hx : (a.sign ^^ b.sign) = false := by rw [ha, hb]; rfl
  have key : (pack (a.sign ^^ b.sign) (a.real / b.real)).sign = false := sign_pack hx (div_nonneg h1 h2)
  cases a <;> cases b <;> first | rfl | exact hx | exact key

theorem sign_sqrt {a : Raw} (ha : a.sign = false) : (Raw.sqrt a).sign = false := by
  have h1 := real_nonneg ha
  cases a with
  | nan => rfl
  | inf s => rw [show s = false from ha]; rfl
  | zero s => exact ha
  | fin x hx =>
    show (if x < 0 then nan else pack false (Real.sqrt x)).sign = false
    rw [if_neg (not_lt.2 (show 0 ≤ x from h1))]
    exact sign_pack rfl (Real.sqrt_nonneg _)

variable {L : Libm}

/-- The sign bit of a machine number is clear (NaN: irrelevant). -/
def Up (a : F64 L) : Prop := a.raw.sign = false

theorem up_lit {m : ℕ} {s : Bool} {e : ℕ} : Up (OfScientific.ofScientific m s e : F64 L) :=
  sign_pack rfl (by
    rw [NNRatCast.toOfScientific_def]
    exact NNRat.cast_nonneg _)

theorem up_add {a b : F64 L} (ha : Up a) (hb : Up b) : Up (a + b) := sign_add ha hb
theorem up_mul {a b : F64 L} (ha : Up a) (hb : Up b) : Up (a * b) := sign_mul ha hb
theorem up_div {a b : F64 L} (ha : Up a) (hb : Up b) : Up (a / b) := sign_div ha hb
theorem up_abs (a : F64 L) : Up (Scalar.abs a) := sign_of_abs a
theorem up_sqrt {a : F64 L} (ha : Up a) : Up (Scalar.sqrt a) := sign_sqrt ha
theorem up_sq (a : F64 L) : Up (Scalar.powi2 a) := sign_sq a

theorem up_fmax {a b : F64 L} (ha : Up a) (hb : Up b) : Up (fmax a b) := by
  unfold fmax
  split_ifs <;> assumption

theorem up_fmin {a b : F64 L} (ha : Up a) (hb : Up b) : Up (fmin a b) := by
  unfold fmin
  split_ifs <;> assumption

theorem up_errorNorm (p : Problem (F64 L)) (y yNext err : V3 (F64 L)) : Up (errorNorm p y yNext err) :=
  up_sqrt (up_div (up_add (up_add (up_add up_lit (up_sq _)) (up_sq _)) (up_sq _)) up_lit)

/-- All that is needed of `powf`: a base without a sign gives a result without a sign. -/
def Spec.PowfSign (L : Libm) [HasPowf (F64 L)] : Prop := ∀ a b : F64 L, Up a → Up (HasPowf.powf a b)

variable [HasPowf (F64 L)]

theorem up_accept (hw : Spec.PowfSign L) {p : Problem (F64 L)} {facOld err h hNew : F64 L}
    {reject b : Bool} (hp : Up p.posneg) (hm : Up p.hMax) (hf : Up facOld) (he : Up err) (hh : Up h)
    (ha : accept p facOld reject err h = (b, hNew)) : Up hNew := by
  unfold accept at ha
  have f1 : Up (HasPowf.powf err (0.2 - 0.04 * 0.75)) := hw _ _ he
  have f2 : Up (fmax (1.0 / 10.0) (fmin (1.0 / 0.2)
      (HasPowf.powf err (0.2 - 0.04 * 0.75) * HasPowf.powf facOld (-0.04) / 0.9))) :=
    up_fmax (up_div up_lit up_lit) (up_fmin (up_div up_lit up_lit)
      (up_div (up_mul f1 (hw _ _ hf)) up_lit))
  simp only at ha
  split at ha
  · injection ha with _ ha
    have h1 := up_div hh f2
    have h2 : Up (if Scalar.lt p.hMax (Scalar.abs (h / fmax (1.0 / 10.0) (fmin (1.0 / 0.2)
      (HasPowf.powf err (0.2 - 0.04 * 0.75) * HasPowf.powf facOld (-0.04) / 0.9))))
      then p.posneg * p.hMax else h / fmax (1.0 / 10.0) (fmin (1.0 / 0.2)
      (HasPowf.powf err (0.2 - 0.04 * 0.75) * HasPowf.powf facOld (-0.04) / 0.9))) := by
      split
      · exact up_mul hp hm
      · exact h1
    rw [← ha]
    split
    · exact up_mul hp (up_fmin (up_abs _) (up_abs _))
    · exact h2
  · injection ha with _ ha
    rw [← ha]
    exact up_div hh (up_fmin (up_div up_lit up_lit) (up_div f1 up_lit))

omit [HasPowf (F64 L)] in
theorem nan_over {a b : F64 L} (h : a.raw = nan) : (a / b).raw = nan :=
  (congrArg (fun x => Raw.div x b) h).trans (Raw.nan_div _)
omit [HasPowf (F64 L)] in
theorem nan_plus {a b : F64 L} (h : a.raw = nan) : (a + b).raw = nan :=
  (congrArg (fun x => Raw.add x b) h).trans (Raw.nan_add _)
omit [HasPowf (F64 L)] in
theorem plus_nan {a b : F64 L} (h : b.raw = nan) : (a + b).raw = nan :=
  (congrArg (fun x => Raw.add a x) h).trans (Raw.add_nan _)
omit [HasPowf (F64 L)] in
theorem nan_sq {a : F64 L} (h : a.raw = nan) : (Scalar.powi2 a).raw = nan :=
  (congrArg (fun x => Raw.mul x x) h).trans (Raw.nan_mul _)

/-- An accepted step has a size: NaN is rejected. -/
theorem accept_not_nan {p : Problem (F64 L)} {facOld h hNew : F64 L} {reject : Bool}
    {y yNext v : V3 (F64 L)}
    (ha : accept p facOld reject (errorNorm p y yNext (scale3 v h)) h = (true, hNew)) : h.raw ≠ nan := by
  intro hn
  have hv : (scale3 v h).y0.raw = nan := (congrArg (Raw.mul v.y0) hn).trans (Raw.mul_nan _)
  have h1 : (scaled p y.y0 yNext.y0 (scale3 v h).y0).raw = nan := nan_sq (nan_over hv)
  have h2 : errorNorm p y yNext (scale3 v h) = (nan : Raw) :=
    congrArg Raw.sqrt (nan_over (b := (3.0 : F64 L)) (nan_plus (nan_plus (plus_nan h1))))
  unfold accept at ha
  rw [h2] at ha
  simp only at ha
  split at ha
  · rename_i hle
    have : Raw.le nan (1.0 : F64 L).raw = true := hle
    rw [Raw.nan_le] at this
    cases this
  · cases ha

omit [HasPowf (F64 L)] in
theorem up_sign {a b : F64 L} (hb : Scalar.lt 0.0 b = true) : Up (dopri5.sign a b) := by
  unfold dopri5.sign
  rw [if_pos hb]
  exact up_abs _

theorem hinit_up {p : Problem (F64 L)} {s : dopri5.State (F64 L)} (hp : Scalar.lt 0.0 p.posneg = true)
    {k : F64 L → Stepper (F64 L)} {qs : List (F64 L × V3 (F64 L) × V3 (F64 L))}
    {out : Option (List (F64 L) × List (V3 (F64 L)))}
    {A : F64 L → V3 (F64 L) → V3 (F64 L) → Prop} (hA : Answered A qs)
    (h : Reaches (hinit p s k) qs (.done out)) :
    ∃ h0 qs', Up h0 ∧ Answered A qs' ∧ Reaches (k h0) qs' (.done out) := by
  obtain ⟨f0, _, h, hA, -⟩ := reaches_eval h hA
  obtain ⟨f1, qs', h, hA, -⟩ := reaches_eval h hA
  exact ⟨_, qs', up_sign hp, hA, h⟩

/-! ## Rounding errors -/

theorem place_mono {x y : ℝ} (hx : 0 ≤ x) (h : x ≤ y) : x = 0 ∨ place x ≤ place y := by
  rcases eq_or_lt_of_le hx with h0 | h0
  · exact .inl h0.symm
  refine .inr ?_
  unfold place
  have : Int.log 2 |x| ≤ Int.log 2 |y| := by
    apply Int.log_mono_right (abs_pos.2 h0.ne')
    rw [abs_of_nonneg hx, abs_of_nonneg (hx.trans h)]; exact h
  have := max_le_max_right (-1022) this
  omega

/-- Rounding moves a number by at most 2⁻⁵³ of any normal number at least as large. -/
theorem rne_error {x X : ℝ} (hx : 0 ≤ x) (h : x ≤ X) (hX : (2 : ℝ) ^ (-1022 : ℤ) ≤ X) :
    |rne x - x| ≤ 2 ^ (-53 : ℤ) * X := by
  have hX0 : 0 < X := (two_pow_pos _).trans_le hX
  rcases place_mono hx h with h0 | hp
  · rw [h0, rne_zero, sub_zero, abs_zero]
    positivity
  refine (rne_near x).trans ?_
  have h1 : (2 : ℝ) ^ (place X + 52) ≤ X := by
    rcases eq_or_lt_of_le (place_ge X) with he | he
    · rw [← he]; exact hX
    · have := place_le X hX0.ne' he
      rwa [abs_of_pos hX0] at this
  calc (2 : ℝ) ^ (place x - 1) ≤ 2 ^ (place X - 1) := zpow_le_zpow_right₀ (by norm_num) (by omega)
    _ = 2 ^ (-53 : ℤ) * 2 ^ (place X + 52) := by rw [← zpow_add₀ (by norm_num)]; congr 1; omega
    _ ≤ 2 ^ (-53 : ℤ) * X := mul_le_mul_of_nonneg_left h1 (two_pow_pos _).le

theorem rep_multiple {x : ℝ} (h : Fits x) : ∃ k : ℤ, x = k * 2 ^ (-1074 : ℤ) := by
  obtain ⟨m, e, -, he, rfl⟩ := h
  obtain ⟨k, hk⟩ := sub_multiple (m := 0) (n := m) he
  refine ⟨-k, ?_⟩
  push_cast at hk ⊢
  linarith

/-- The rounded difference of two doubles has the sign of the difference. -/
theorem rne_sub_pos {x y : ℝ} (hx : Fits x) (hy : Fits y) (h : y < x) : 0 < rne (x - y) := by
  obtain ⟨m, hm⟩ := rep_multiple hx
  obtain ⟨n, hn⟩ := rep_multiple hy
  have h2 := two_pow_pos (-1074)
  have hmn : n < m := by
    rw [hm, hn] at h
    exact_mod_cast lt_of_mul_lt_mul_right h h2.le
  have h1 : (2 : ℝ) ^ (-1074 : ℤ) ≤ x - y := by
    rw [hm, hn, ← sub_mul]
    have : (1 : ℝ) ≤ m - n := by
      have : n + 1 ≤ m := hmn
      have : (n : ℝ) + 1 ≤ m := by exact_mod_cast this
      linarith
    exact le_mul_of_one_le_left h2.le this
  have h3 := rne_mono h1
  rw [rne_fits ⟨1, -1074, by norm_num, le_rfl, by simp⟩] at h3
  exact h2.trans_le h3

/-! ## Comparisons of unsigned numbers -/

theorem le_abs_iff {a b : Raw} (ha : a.sign = false) (hb : b.sign = false) (hf : b.Finite) :
    a.abs.le b.abs = true ↔ a.Finite ∧ a.real ≤ b.real := by
  rw [abs_of_sign ha, abs_of_sign hb]
  constructor
  · intro h
    have hfa : a.Finite := by
      rw [Raw.le_iff, ext_of_finite hf] at h
      obtain ⟨x, y, h1, h2, h3⟩ := h
      cases h2
      cases a with
      | nan => cases h1
      | inf s =>
        rw [show s = false from ha] at h1
        cases h1
        exact absurd h3 (not_le.2 (EReal.coe_lt_top _))
      | zero s => trivial
      | fin x hx => trivial
    exact ⟨hfa, (Raw.le_finite hfa hf).1 h⟩
  · rintro ⟨h1, h2⟩
    exact (Raw.le_finite h1 hf).2 h2

theorem not_nan_not_finite {a : Raw} (ha : a.sign = false) (hn : a ≠ nan) (hf : ¬a.Finite) :
    a = inf false := by
  cases a with
  | nan => exact absurd rfl hn
  | inf s => rw [show s = false from ha]
  | zero s => exact absurd trivial hf
  | fin x hx => exact absurd trivial hf

/-! ## The end of a step -/

theorem zero_lt_finite {a : Raw} (ha : a.Finite) : (zero false).lt a = true ↔ 0 < a.real :=
  Raw.lt_finite (show (zero false).Finite from trivial) ha

theorem mul_one_finite {a : Raw} (ha : a.Finite) : (mul a one).Finite ∧ (mul a one).real = a.real := by
  have e : a.real * one.real = a.real := mul_one _
  have hr := rne_rep (Raw.rep_real a)
  obtain ⟨h1, h2⟩ := Raw.mul_finite (a := a) (b := one) ha trivial (by
    rw [e, hr]; exact (Raw.rep_real a).2)
  exact ⟨h1, by rw [h2, e, hr]⟩

/-- The difference of two unsigned finite numbers does not overflow. -/
theorem sub_unsigned {a b : Raw} (ha : a.Finite) (hb : b.Finite) (sa : a.sign = false)
    (sb : b.sign = false) : (sub a b).Finite ∧ (sub a b).real = rne (a.real - b.real) := by
  have h1 := real_nonneg sa
  have h2 := real_nonneg sb
  apply Raw.sub_finite ha hb
  rcases le_total a.real b.real with h | h
  · exact rne_lt_of_le (Raw.rep_real b) (by rw [abs_le]; constructor <;> linarith)
  · exact rne_lt_of_le (Raw.rep_real a) (by rw [abs_le]; constructor <;> linarith)

/-- The sum of two unsigned finite numbers is infinite or the rounded sum. -/
theorem add_unsigned {a b : Raw} (ha : a.Finite) (hb : b.Finite) (sa : a.sign = false)
    (sb : b.sign = false) : add a b = inf false ∨
      ((add a b).Finite ∧ (add a b).real = rne (a.real + b.real)) := by
  by_cases h : (add a b).Finite
  · exact .inr ⟨h, (add_finite_iff h).2.2⟩
  · refine .inl (not_nan_not_finite (sign_add sa sb) ?_ h)
    rcases (Raw.finite_iff a).1 ha with ⟨s, rfl⟩ | ⟨x, hx, rfl⟩ <;>
    rcases (Raw.finite_iff b).1 hb with ⟨t, rfl⟩ | ⟨y, hy, rfl⟩
    · exact fun h => by cases h
    all_goals exact pack_ne_nan _ _

theorem inf_add {a : Raw} (ha : a.Finite) : add (inf false) a = inf false ∧ add a (inf false) = inf false := by
  rcases (Raw.finite_iff a).1 ha with ⟨s, rfl⟩ | ⟨x, hx, rfl⟩ <;> exact ⟨rfl, rfl⟩

omit [HasPowf (F64 L)] in
theorem lit_101 : ∃ c : ℝ, ∃ h : Rep c ∧ c ≠ 0, 1 ≤ c ∧ (1.01 : F64 L) = (fin c h : Raw) := by
  have h1 : (1 : ℝ) ≤ rne 1.01 := by
    have := rne_mono (show (1 : ℝ) ≤ 1.01 by norm_num)
    rwa [rne_rep rep_one.1] at this
  have h2 : |rne (1.01 : ℝ)| < 2 ^ 1024 :=
    rne_lt_of_le rep_two.1 (by norm_num [abs_of_pos])
  refine ⟨rne 1.01, ⟨⟨fits_rne _, h2⟩, by linarith⟩, h1, ?_⟩
  show pack false (1.01 : ℝ) = _
  unfold pack
  rw [dif_neg (by linarith), dif_pos h2]

omit [HasPowf (F64 L)] in
/-- A step that is not the last does not pass the end. -/
theorem not_last {x h X : Raw} (hx : x.Finite) (sx : x.sign = false) (hX : X.Finite)
    (sX : X.sign = false) (sh : h.sign = false) (hn : h ≠ nan)
    (hl : ¬(zero false).lt (mul (sub (add x (mul (1.01 : F64 L).raw h)) X) one) = true) :
    (add x h).Finite ∧ (add x h).real ≤ X.real := by
  obtain ⟨c, hc, h1, e⟩ := lit_101 (L := L)
  rw [show (1.01 : F64 L).raw = fin c hc from e] at hl
  have c0 : (fin c hc).sign = false := decide_eq_false (by linarith)
  -- an infinite intermediate result would have made it the last
  have inf_last : (zero false).lt (mul (sub (inf false) X) one) = true := by
    rw [show sub (inf false) X = inf false from (inf_add (Raw.neg_finite hX)).1,
      show mul (inf false) one = inf (false ^^ one.sign) from rfl,
      show one.sign = false from decide_eq_false (by norm_num), Raw.lt_iff]
    exact ⟨_, _, rfl, rfl, EReal.coe_lt_top _⟩
  have s1 : (mul (fin c hc) h).sign = false := sign_mul c0 sh
  have h0 := real_nonneg sh
  have hfh : h.Finite := by
    by_contra hc'
    rw [not_nan_not_finite sh hn hc', show mul (fin c hc) (inf false) = inf ((fin c hc).sign ^^ false) from rfl,
      c0, Bool.false_xor, (inf_add hx).2] at hl
    exact hl inf_last
  have hp : mul (fin c hc) h ≠ nan := by
    rcases (Raw.finite_iff h).1 hfh with ⟨s, rfl⟩ | ⟨z, hz, rfl⟩ <;> exact pack_ne_nan _ _
  have hfp : (mul (fin c hc) h).Finite := by
    by_contra hc'
    rw [not_nan_not_finite s1 hp hc', (inf_add hx).2] at hl
    exact hl inf_last
  have hrp : (mul (fin c hc) h).real = rne (c * h.real) := by
    have : |rne (c * h.real)| < 2 ^ 1024 := by
      rcases (Raw.finite_iff h).1 hfh with ⟨s, rfl⟩ | ⟨z, hz, rfl⟩ <;>
        exact (pack_finite_iff _ _).1 hfp
    exact (Raw.mul_finite (a := fin c hc) trivial hfh this).2
  have hge : h.real ≤ (mul (fin c hc) h).real := by
    rw [hrp]
    have := rne_mono (le_mul_of_one_le_left h0 h1)
    rwa [rne_rep (Raw.rep_real h)] at this
  rcases add_unsigned hx hfp sx s1 with hi | ⟨hfb, hrb⟩
  · rw [hi] at hl
    exact absurd inf_last hl
  have s2 := sign_add sx s1
  obtain ⟨hfc, hrc⟩ := sub_unsigned hfb hX s2 sX
  obtain ⟨hfd, hrd⟩ := mul_one_finite hfc
  rw [zero_lt_finite hfd, hrd, hrc, not_lt] at hl
  have hb : (add x (mul (fin c hc) h)).real ≤ X.real := by
    by_contra hc'
    exact absurd hl (not_le.2 (rne_sub_pos (Raw.rep_real _).1 (Raw.rep_real _).1 (not_le.1 hc')))
  have hle : rne (x.real + h.real) ≤ X.real := by
    refine (rne_mono ?_).trans (hrb.symm.le.trans hb)
    linarith
  have hx0 := real_nonneg sx
  obtain ⟨g1, g2⟩ := Raw.add_finite hx hfh (by
    rw [abs_of_nonneg (rne_nonneg (by linarith))]
    exact hle.trans_lt ((le_abs_self _).trans_lt (Raw.rep_real X).2))
  exact ⟨g1, by rw [g2]; exact hle⟩

/-- The last step ends within three roundings of the end. -/
theorem last_step {x X : Raw} (hx : x.Finite) (sx : x.sign = false) (hX : X.Finite)
    (hxX : x.real ≤ X.real) (hmin : (2 : ℝ) ^ (-1022 : ℤ) ≤ X.real) (hmax : X.real ≤ 2 ^ 1000) :
    (sub X x).sign = false ∧ (add x (sub X x)).Finite ∧
      |(add x (sub X x)).real - X.real| ≤ 3 * 2 ^ (-53 : ℤ) * X.real := by
  have hX0 : 0 < X.real := (two_pow_pos _).trans_le hmin
  have hx0 := real_nonneg sx
  have sX : X.sign = false := by
    rcases (Raw.finite_iff X).1 hX with ⟨s, rfl⟩ | ⟨z, hz, rfl⟩
    · exact absurd hX0 (lt_irrefl _)
    · exact decide_eq_false (not_lt.2 hX0.le)
  obtain ⟨h1, h2⟩ := sub_unsigned hX hx sX sx
  have sh : (sub X x).sign = false := by
    have key : (pack false (X.real + x.neg.real)).sign = false :=
      sign_pack rfl (by rw [Raw.neg_real]; linarith)
    rcases (Raw.finite_iff X).1 hX with ⟨s, rfl⟩ | ⟨z, hz, rfl⟩
    · exact absurd hX0 (lt_irrefl _)
    · rcases (Raw.finite_iff x).1 hx with ⟨t, rfl⟩ | ⟨y, hy, rfl⟩ <;> exact key
  have u0 := two_pow_pos (-53)
  have u1 : (2 : ℝ) ^ (-53 : ℤ) ≤ 1 := by norm_num
  have e1 := rne_error (x := X.real - x.real) (by linarith) (by linarith : _ ≤ X.real) hmin
  rw [← h2] at e1
  have e1' := abs_le.1 e1
  have h0 := real_nonneg sh
  set u : ℝ := 2 ^ (-53 : ℤ)
  set h := (sub X x).real
  have hb : x.real + h ≤ (1 + u) * X.real := by linarith [e1'.2]
  have hX2 : (2 : ℝ) ^ (-1022 : ℤ) ≤ (1 + u) * X.real :=
    hmin.trans (le_mul_of_one_le_left hX0.le (by linarith))
  have e2 := rne_error (x := x.real + h) (by linarith) hb hX2
  have r1001 : Rep ((2 : ℝ) ^ (1001 : ℕ)) := by
    refine ⟨⟨1, 1001, by norm_num, by norm_num, ?_⟩, ?_⟩
    · rw [Int.cast_one, one_mul]; exact (zpow_natCast _ _).symm
    · rw [abs_of_pos (by positivity)]
      exact pow_lt_pow_right₀ (by norm_num) (by norm_num)
  obtain ⟨g1, g2⟩ := Raw.add_finite hx h1 (rne_lt_of_le r1001 (by
    rw [abs_of_nonneg (by linarith : 0 ≤ x.real + (sub X x).real)]
    calc x.real + h ≤ (1 + u) * X.real := hb
      _ ≤ 2 * 2 ^ 1000 := mul_le_mul (by linarith) hmax hX0.le (by norm_num)
      _ = 2 ^ 1001 := by rw [← pow_succ']))
  refine ⟨sh, g1, ?_⟩
  rw [g2]
  have e2' := abs_le.1 e2
  have hu : u * ((1 + u) * X.real) ≤ 2 * u * X.real := by nlinarith [mul_nonneg u0.le hX0.le]
  rw [abs_le]
  constructor <;> linarith [e1'.1, e1'.2, e2'.1, e2'.2]

end Sett
