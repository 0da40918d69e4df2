import Verif.Props.GridLost
import Verif.Props.Exact
import Verif.Props.IeeeExample

/-! # Examples for C76: integrations in binary64 that succeed -/

namespace Sett

open Float64 Raw Spec state_equations dopri5

namespace GridIeeeExample

open IeeeExample (Lib)

/-- A `powf` that always overflows: enough to take the whole cycle in one step. -/
local instance : HasPowf (F64 Lib) := ⟨fun _ _ => (inf false : Raw)⟩

theorem powf : Spec.PowfSign Lib := fun _ _ _ => rfl

/-! ## Exact machine arithmetic -/

/-- The machine number is `r`. -/
def Is (a : F64 Lib) (r : ℝ) : Prop := a.raw.Finite ∧ a.raw.real = r

/-- The machine number is finite and at most `r` in magnitude. -/
def Bd (a : F64 Lib) (r : ℝ) : Prop := a.raw.Finite ∧ |a.raw.real| ≤ r

theorem rep_pow {k : ℤ} (h1 : -1074 ≤ k) (h2 : k < 1024) : Rep ((2 : ℝ) ^ k) := by
  refine ⟨⟨1, k, by norm_num, h1, by simp⟩, ?_⟩
  rw [abs_of_pos (two_pow_pos k), ← zpow_natCast]
  exact zpow_lt_zpow_right₀ (by norm_num) h2

theorem rep_zero : Rep 0 := Raw.rep_real (zero false)

theorem is_bd {a : F64 Lib} {r s : ℝ} (h : Is a r) (hs : |r| ≤ s) : Bd a s := ⟨h.1, by rw [h.2]; exact hs⟩

theorem is_add {a b : F64 Lib} {r s t : ℝ} (ha : Is a r) (hb : Is b s) (e : r + s = t) (ht : Rep t) :
    Is (a + b) t := by
  have e' : a.raw.real + b.raw.real = t := by rw [ha.2, hb.2, e]
  obtain ⟨h1, h2⟩ := Raw.add_finite ha.1 hb.1 (by rw [e', rne_rep ht]; exact ht.2)
  exact ⟨h1, h2.trans (by rw [e', rne_rep ht])⟩

theorem is_sub {a b : F64 Lib} {r s t : ℝ} (ha : Is a r) (hb : Is b s) (e : r - s = t) (ht : Rep t) :
    Is (a - b) t := by
  have e' : a.raw.real - b.raw.real = t := by rw [ha.2, hb.2, e]
  obtain ⟨h1, h2⟩ := Raw.sub_finite ha.1 hb.1 (by rw [e', rne_rep ht]; exact ht.2)
  exact ⟨h1, h2.trans (by rw [e', rne_rep ht])⟩

theorem is_mul {a b : F64 Lib} {r s t : ℝ} (ha : Is a r) (hb : Is b s) (e : r * s = t) (ht : Rep t) :
    Is (a * b) t := by
  have e' : a.raw.real * b.raw.real = t := by rw [ha.2, hb.2, e]
  obtain ⟨h1, h2⟩ := Raw.mul_finite ha.1 hb.1 (by rw [e', rne_rep ht]; exact ht.2)
  exact ⟨h1, h2.trans (by rw [e', rne_rep ht])⟩

theorem is_div {a b : F64 Lib} {r s t : ℝ} (ha : Is a r) (hb : Is b s) (hs : s ≠ 0) (e : r / s = t)
    (ht : Rep t) : Is (a / b) t := by
  have e' : a.raw.real / b.raw.real = t := by rw [ha.2, hb.2, e]
  obtain ⟨h1, h2⟩ := Raw.div_finite ha.1 hb.1 (by rw [hb.2]; exact hs) (by rw [e', rne_rep ht]; exact ht.2)
  exact ⟨h1, h2.trans (by rw [e', rne_rep ht])⟩

theorem is_abs {a : F64 Lib} {r : ℝ} (ha : Is a r) : Is (Scalar.abs a) |r| :=
  ⟨Raw.abs_finite ha.1, (Raw.abs_real a.raw).trans (by rw [ha.2])⟩

theorem sqrt_finite {a : Raw} (ha : a.Finite) (h0 : 0 ≤ a.real) (h : |rne (Real.sqrt a.real)| < 2 ^ 1024) :
    (Raw.sqrt a).Finite ∧ (Raw.sqrt a).real = rne (Real.sqrt a.real) := by
  rcases (Raw.finite_iff a).1 ha with ⟨s, rfl⟩ | ⟨x, hx, rfl⟩
  · refine ⟨trivial, ?_⟩
    show (0 : ℝ) = rne (Real.sqrt 0)
    rw [Real.sqrt_zero, rne_zero]
  · have e : Raw.sqrt (fin x hx) = pack false (Real.sqrt x) := if_neg (not_lt.2 h0)
    rw [e]
    exact pack_finite _ h

theorem is_sqrt {a : F64 Lib} {r t : ℝ} (ha : Is a r) (h0 : 0 ≤ r) (e : Real.sqrt r = t) (ht : Rep t) :
    Is (Scalar.sqrt a) t := by
  have e' : Real.sqrt a.raw.real = t := by rw [ha.2, e]
  obtain ⟨h1, h2⟩ := sqrt_finite ha.1 (by rw [ha.2]; exact h0) (by rw [e', rne_rep ht]; exact ht.2)
  exact ⟨h1, h2.trans (by rw [e', rne_rep ht])⟩

theorem is_zero : Is (0.0 : F64 Lib) 0 := by
  rw [ieee_zero]; exact ⟨trivial, rfl⟩

theorem is_one : Is (1.0 : F64 Lib) 1 := by
  rw [ieee_one]; exact ⟨trivial, rfl⟩

theorem bd_rne {x r : ℝ} (hr : Rep r) (h : |x| ≤ r) : |rne x| ≤ r := by
  have := rne_mono h
  rwa [rne_rep hr, ← abs_rne] at this

theorem bd_add {a b : F64 Lib} {r s t : ℝ} (ha : Bd a r) (hb : Bd b s) (e : r + s ≤ t) (ht : Rep t) :
    Bd (a + b) t := by
  have h : |a.raw.real + b.raw.real| ≤ t :=
    (abs_add_le _ _).trans ((add_le_add ha.2 hb.2).trans e)
  obtain ⟨h1, h2⟩ := Raw.add_finite ha.1 hb.1 (rne_lt_of_le ht h)
  exact ⟨h1, (congrArg (fun r : ℝ => |r|) h2).le.trans (bd_rne ht h)⟩

theorem bd_mul {a b : F64 Lib} {r s t : ℝ} (ha : Bd a r) (hb : Bd b s) (e : r * s ≤ t) (ht : Rep t) :
    Bd (a * b) t := by
  have h : |a.raw.real * b.raw.real| ≤ t := by
    rw [abs_mul]
    exact (mul_le_mul ha.2 hb.2 (abs_nonneg _) ((abs_nonneg _).trans ha.2)).trans e
  obtain ⟨h1, h2⟩ := Raw.mul_finite ha.1 hb.1 (rne_lt_of_le ht h)
  exact ⟨h1, (congrArg (fun r : ℝ => |r|) h2).le.trans (bd_rne ht h)⟩

theorem bd_lit {m : ℕ} {s : Bool} {e : ℕ} {r : ℝ} (h : (OfScientific.ofScientific m s e : ℝ) ≤ r)
    (h0 : 0 ≤ (OfScientific.ofScientific m s e : ℝ)) (hr : Rep r) :
    Bd (OfScientific.ofScientific m s e : F64 Lib) r := by
  have h' : |(OfScientific.ofScientific m s e : ℝ)| ≤ r := by rw [abs_of_nonneg h0]; exact h
  obtain ⟨h1, h2⟩ := pack_finite false (rne_lt_of_le hr h')
  exact ⟨h1, (congrArg (fun r : ℝ => |r|) h2).le.trans (bd_rne hr h')⟩

theorem bd_neg {a : F64 Lib} {r : ℝ} (h : Bd a r) : Bd (-a) r :=
  ⟨Raw.neg_finite h.1, by
    have : (-a : F64 Lib).raw.real = -a.raw.real := Raw.neg_real _
    rw [this, abs_neg]; exact h.2⟩

/-- A quotient by a known positive number. -/
theorem bd_div {a b : F64 Lib} {r s t : ℝ} (ha : Bd a r) (hb : Is b s) (hs : 0 < s) (e : r / s ≤ t)
    (ht : Rep t) : Bd (a / b) t := by
  have h : |a.raw.real / b.raw.real| ≤ t := by
    rw [hb.2, abs_div, abs_of_pos hs]
    exact (div_le_div_of_nonneg_right ha.2 hs.le).trans e
  obtain ⟨h1, h2⟩ := Raw.div_finite ha.1 hb.1 (by rw [hb.2]; exact hs.ne') (rne_lt_of_le ht h)
  exact ⟨h1, (congrArg (fun r : ℝ => |r|) h2).le.trans (bd_rne ht h)⟩

theorem bd_sqrt {a : F64 Lib} {t : ℝ} (ha : Bd a t) (h0 : 0 ≤ a.raw.real) (h1 : 1 ≤ t) (ht : Rep t) :
    Bd (Scalar.sqrt a) t := by
  have h : |Real.sqrt a.raw.real| ≤ t := by
    rw [abs_of_nonneg (Real.sqrt_nonneg _), Real.sqrt_le_left (by linarith)]
    have := (abs_le.1 ha.2).2
    nlinarith
  obtain ⟨h1, h2⟩ := sqrt_finite ha.1 h0 (rne_lt_of_le ht h)
  exact ⟨h1, (congrArg (fun r : ℝ => |r|) h2).le.trans (bd_rne ht h)⟩

theorem is_lit {m : ℕ} {s : Bool} {e : ℕ} {r : ℝ} (h : (OfScientific.ofScientific m s e : ℝ) = r)
    (hr : Rep r) : Is (OfScientific.ofScientific m s e : F64 Lib) r := by
  obtain ⟨h1, h2⟩ := pack_finite false (x := r) (by rw [rne_rep hr]; exact hr.2)
  rw [rne_rep hr] at h2
  rw [← h] at h1 h2
  exact ⟨h1, h2.trans h⟩

theorem is_nat {m : ℕ} {s : Bool} {e : ℕ} (n : ℕ) (h : (OfScientific.ofScientific m s e : ℝ) = n)
    (hn : n ≤ 2 ^ 53) : Is (OfScientific.ofScientific m s e : F64 Lib) n := is_lit h (rep_nat hn)

theorem bd_abs {a : F64 Lib} {r : ℝ} (ha : Bd a r) : Bd (Scalar.abs a) r :=
  ⟨Raw.abs_finite ha.1, by
    have : (Scalar.abs a : F64 Lib).raw.real = |a.raw.real| := Raw.abs_real _
    rw [this, abs_abs]; exact ha.2⟩

theorem is_self {a : F64 Lib} {r : ℝ} (ha : Bd a r) : Is a a.raw.real := ⟨ha.1, rfl⟩

theorem lt_fin {a b : F64 Lib} (ha : a.raw.Finite) (hb : b.raw.Finite) :
    Scalar.lt a b = true ↔ a.raw.real < b.raw.real := Raw.lt_finite ha hb

theorem le_fin {a b : F64 Lib} (ha : a.raw.Finite) (hb : b.raw.Finite) :
    Scalar.le a b = true ↔ a.raw.real ≤ b.raw.real := Raw.le_finite ha hb

/-! ## The step -/

/-- The pressure rate. -/
noncomputable def f : F64 Lib := (pack false ((2 : ℝ) ^ (-16 : ℤ)) : Raw)

theorem rep_f : Rep ((2 : ℝ) ^ (-16 : ℤ)) := rep_pow (by norm_num) (by norm_num)

theorem is_f : Is f ((2 : ℝ) ^ (-16 : ℤ)) := by
  obtain ⟨h1, h2⟩ := pack_finite false (x := (2 : ℝ) ^ (-16 : ℤ)) (by rw [rne_rep rep_f]; exact rep_f.2)
  rw [rne_rep rep_f] at h2
  exact ⟨h1, h2⟩

/-- The rates: constant. -/
noncomputable def rate : V3 (F64 Lib) := ⟨f, 0.0, 0.0⟩

/-- A starting state. -/
structure Start (y : V3 (F64 Lib)) : Prop where
  y0 : Bd y.y0 (2 ^ (10 : ℤ))
  y1 : Bd y.y1 (2 ^ (10 : ℤ))
  y2 : Bd y.y2 (2 ^ (10 : ℤ))
  pos : 1 ≤ y.y0.raw.real

/-- A problem from zero to `X`. -/
structure Posed (p : Problem (F64 Lib)) (X : ℝ) : Prop where
  lo : (2 : ℝ) ^ (-6 : ℤ) ≤ X
  hi : X ≤ 2 ^ (6 : ℤ)
  xEnd : Is p.xEnd X
  hMax : Is p.hMax X
  posneg : p.posneg = (one : Raw)
  rtol : Is p.rtol 0
  atol : Is p.atol 1

theorem scale {p : Problem (F64 Lib)} {X : ℝ} (hp : Posed p X) {a : F64 Lib} (ha : a.raw.Finite) :
    Is (p.atol + a * p.rtol) 1 :=
  is_add hp.atol (is_mul ⟨ha, rfl⟩ hp.rtol (mul_zero _) rep_zero) (add_zero _) rep_one.1

theorem abs_fin {a : F64 Lib} (ha : a.raw.Finite) : (Scalar.abs a).raw.Finite := Raw.abs_finite ha

theorem term {p : Problem (F64 Lib)} {X : ℝ} (hp : Posed p X) {a v : F64 Lib} (ha : a.raw.Finite)
    {k : ℤ} (hk : -500 ≤ k) (hk' : k < 500) (hv : Bd v (2 ^ k)) :
    Bd (Scalar.powi2 (v / (p.atol + a * p.rtol))) (2 ^ (2 * k)) := by
  have h1 : Bd (v / (p.atol + a * p.rtol)) (2 ^ k) :=
    bd_div hv (scale hp ha) one_pos (by rw [div_one]) (rep_pow (by omega) (by omega))
  exact bd_mul h1 h1 (by rw [← zpow_add₀ (by norm_num)]; exact le_of_eq (by congr 1; ring)) (rep_pow (by omega) (by omega))

theorem term_zero {p : Problem (F64 Lib)} {X : ℝ} (hp : Posed p X) {a v : F64 Lib} (ha : a.raw.Finite)
    (hv : Is v 0) : Is (Scalar.powi2 (v / (p.atol + a * p.rtol))) 0 := by
  have h1 := is_div hv (scale hp ha) one_ne_zero (zero_div _) rep_zero
  exact is_mul h1 h1 (zero_mul _) rep_zero

theorem norm_rate {p : Problem (F64 Lib)} {X : ℝ} (hp : Posed p X) {y : V3 (F64 Lib)} (hy : Start y) :
    Is (initNorm p y rate) (2 ^ (-32 : ℤ)) := by
  have h1 : Is (Scalar.powi2 (f / (p.atol + Scalar.abs y.y0 * p.rtol))) (2 ^ (-32 : ℤ)) := by
    have := is_div is_f (scale hp (abs_fin hy.y0.1)) one_ne_zero (div_one _) rep_f
    exact is_mul this this (by norm_num) (rep_pow (by norm_num) (by norm_num))
  have r : Rep ((2 : ℝ) ^ (-32 : ℤ)) := rep_pow (by norm_num) (by norm_num)
  exact is_add (is_add (is_add is_zero h1 (zero_add _) r) (term_zero hp (abs_fin hy.y1.1) is_zero) (add_zero _) r)
    (term_zero hp (abs_fin hy.y2.1) is_zero) (add_zero _) r

theorem norm_still {p : Problem (F64 Lib)} {X : ℝ} (hp : Posed p X) {y : V3 (F64 Lib)} (hy : Start y) :
    Is (initNorm p y (sub3 rate rate)) 0 := by
  have z : ∀ {a : F64 Lib}, a.raw.Finite → Is (a - a) 0 := fun h =>
    is_sub ⟨h, rfl⟩ ⟨h, rfl⟩ (sub_self _) rep_zero
  exact is_add (is_add (is_add is_zero (term_zero hp (abs_fin hy.y0.1) (z is_f.1)) (zero_add _) rep_zero)
    (term_zero hp (abs_fin hy.y1.1) (z is_zero.1)) (add_zero _) rep_zero)
    (term_zero hp (abs_fin hy.y2.1) (z is_zero.1)) (add_zero _) rep_zero

theorem mono_add {a b : F64 Lib} {t : ℝ} (ht : Rep t)
    (h : t ≤ a.raw.real + b.raw.real) (hf : (a + b).raw.Finite) : t ≤ (a + b).raw.real := by
  have e : (a + b).raw.real = rne (a.raw.real + b.raw.real) := (add_finite_iff hf).2.2
  rw [e]
  have := rne_mono h
  rwa [rne_rep ht] at this

theorem sq_nonneg' (a : F64 Lib) : 0 ≤ (Scalar.powi2 a).raw.real := real_nonneg (up_sq a)

theorem norm_start {p : Problem (F64 Lib)} {X : ℝ} (hp : Posed p X) {y : V3 (F64 Lib)} (hy : Start y) :
    Bd (initNorm p y y) (2 ^ (30 : ℤ)) ∧ 1 ≤ (initNorm p y y).raw.real := by
  have t0 := term hp (abs_fin hy.y0.1) (by norm_num) (by norm_num) hy.y0
  have t1 := term hp (abs_fin hy.y1.1) (by norm_num) (by norm_num) hy.y1
  have t2 := term hp (abs_fin hy.y2.1) (by norm_num) (by norm_num) hy.y2
  have r : Rep ((2 : ℝ) ^ (30 : ℤ)) := rep_pow (by norm_num) (by norm_num)
  have r1 : Rep ((2 : ℝ) ^ (21 : ℤ)) := rep_pow (by norm_num) (by norm_num)
  have r2 : Rep ((2 : ℝ) ^ (22 : ℤ)) := rep_pow (by norm_num) (by norm_num)
  have b0 := bd_add (is_bd is_zero (abs_zero.le)) t0 (by norm_num : (0 : ℝ) + 2 ^ (2 * (10 : ℤ)) ≤ 2 ^ (21 : ℤ)) r1
  have b1 := bd_add b0 t1 (by norm_num : (2 : ℝ) ^ (21 : ℤ) + 2 ^ (2 * (10 : ℤ)) ≤ 2 ^ (22 : ℤ)) r2
  have b2 := bd_add b1 t2 (by norm_num : (2 : ℝ) ^ (22 : ℤ) + 2 ^ (2 * (10 : ℤ)) ≤ 2 ^ (30 : ℤ)) r
  refine ⟨b2, ?_⟩
  have q := is_div ⟨hy.y0.1, rfl⟩ (scale hp (abs_fin hy.y0.1)) one_ne_zero (div_one _) (Raw.rep_real _)
  have l : 1 ≤ (Scalar.powi2 (y.y0 / (p.atol + Scalar.abs y.y0 * p.rtol))).raw.real := by
    have e : (Scalar.powi2 (y.y0 / (p.atol + Scalar.abs y.y0 * p.rtol))).raw.real
        = rne (y.y0.raw.real * y.y0.raw.real) := by
      have := Raw.mul_finite q.1 q.1 (rne_lt_of_le (r := 2 ^ (20 : ℤ)) (rep_pow (by norm_num) (by norm_num)) (by
        rw [q.2, abs_mul]
        calc _ ≤ (2 : ℝ) ^ (10 : ℤ) * 2 ^ (10 : ℤ) := mul_le_mul hy.y0.2 hy.y0.2 (abs_nonneg _) (by positivity)
          _ = 2 ^ (20 : ℤ) := by norm_num))
      exact this.2.trans (by rw [q.2])
    rw [e]
    have := rne_mono (show (1 : ℝ) ≤ y.y0.raw.real * y.y0.raw.real by nlinarith [hy.pos])
    rwa [rne_rep rep_one.1] at this
  have l0 := mono_add rep_one.1 (by rw [is_zero.2]; linarith) b0.1
  have l1 := mono_add rep_one.1 (by have := sq_nonneg' (y.y1 / (p.atol + Scalar.abs y.y1 * p.rtol)); linarith) b1.1
  exact mono_add rep_one.1 (by have := sq_nonneg' (y.y2 / (p.atol + Scalar.abs y.y2 * p.rtol)); linarith) b2.1

theorem lit_le {m : ℕ} {s : Bool} {e : ℕ} {r : ℝ} (h : r ≤ (OfScientific.ofScientific m s e : ℝ)) (hr : Rep r)
    (hf : (OfScientific.ofScientific m s e : F64 Lib).raw.Finite) :
    r ≤ (OfScientific.ofScientific m s e : F64 Lib).raw.real := by
  have e' : (OfScientific.ofScientific m s e : F64 Lib).raw.real = rne (OfScientific.ofScientific m s e : ℝ) :=
    (pack_finite false ((pack_finite_iff false _).1 hf)).2
  rw [e']
  have := rne_mono h
  rwa [rne_rep hr] at this

theorem mul_real {a b : F64 Lib} {t : ℝ} (ha : a.raw.Finite) (hb : b.raw.Finite) (ht : Rep t)
    (h : |a.raw.real * b.raw.real| ≤ t) :
    (a * b).raw.Finite ∧ (a * b).raw.real = rne (a.raw.real * b.raw.real) :=
  Raw.mul_finite ha hb (rne_lt_of_le ht h)

theorem sign_is {p : Problem (F64 Lib)} {X r : ℝ} (hp : Posed p X) {a : F64 Lib} (ha : Is a r) (h : 0 ≤ r) :
    Is (dopri5.sign a p.posneg) r := by
  have : Scalar.lt (0.0 : F64 Lib) p.posneg = true := by
    rw [hp.posneg, ieee_zero]
    exact (zero_lt_finite (a := one) trivial).2 one_pos
  unfold dopri5.sign
  rw [if_pos this]
  have := is_abs ha
  rwa [abs_of_nonneg h] at this

theorem first {p : Problem (F64 Lib)} {X : ℝ} (hp : Posed p X) {y : V3 (F64 Lib)} (hy : Start y) :
    Is (firstGuess p y rate) X := by
  have hX : 0 ≤ X := (two_pow_pos _).le.trans hp.lo
  obtain ⟨n0, n1⟩ := norm_start hp hy
  have nr := norm_rate hp hy
  have r33 : Rep ((2 : ℝ) ^ (-33 : ℤ)) := rep_pow (by norm_num) (by norm_num)
  have b : Bd (1e-10 : F64 Lib) (2 ^ (-33 : ℤ)) := bd_lit (by norm_num) (by norm_num) r33
  have hb := (abs_le.1 b.2).2
  have c1 : ¬(Scalar.lt (initNorm p y y) 1e-10 || Scalar.lt (initNorm p y rate) 1e-10) = true := by
    rw [Bool.or_eq_true, lt_fin n0.1 b.1, lt_fin nr.1 b.1, nr.2]
    norm_num at hb ⊢
    constructor <;> linarith
  unfold firstGuess
  simp only
  rw [if_neg c1]
  -- the quotient
  have r62 : Rep ((2 : ℝ) ^ (62 : ℤ)) := rep_pow (by norm_num) (by norm_num)
  have r32 : Rep ((2 : ℝ) ^ (32 : ℤ)) := rep_pow (by norm_num) (by norm_num)
  have q := bd_div n0 nr (two_pow_pos _) (by norm_num : (2 : ℝ) ^ (30 : ℤ) / 2 ^ (-32 : ℤ) ≤ 2 ^ (62 : ℤ)) r62
  have q0 : (2 : ℝ) ^ (32 : ℤ) ≤ (initNorm p y y / initNorm p y rate).raw.real := by
    have e : (initNorm p y y / initNorm p y rate).raw.real
        = rne ((initNorm p y y).raw.real / (initNorm p y rate).raw.real) := by
      refine (Raw.div_finite n0.1 nr.1 (by rw [nr.2]; exact (two_pow_pos _).ne') (rne_lt_of_le r62 ?_)).2
      rw [nr.2, abs_div, abs_of_pos (two_pow_pos _)]
      exact (div_le_div_of_nonneg_right n0.2 (two_pow_pos _).le).trans (by norm_num)
    rw [e, nr.2]
    have := rne_mono (show (2 : ℝ) ^ (32 : ℤ) ≤ (initNorm p y y).raw.real / 2 ^ (-32 : ℤ) by
      rw [le_div_iff₀ (two_pow_pos _)]
      norm_num
      exact n1)
    rwa [rne_rep r32] at this
  have q00 : 0 ≤ (initNorm p y y / initNorm p y rate).raw.real := (two_pow_pos _).le.trans q0
  have s := bd_sqrt q q00 (by norm_num) r62
  have r16 : Rep ((2 : ℝ) ^ (16 : ℤ)) := rep_pow (by norm_num) (by norm_num)
  have s0 : (2 : ℝ) ^ (16 : ℤ) ≤ (Scalar.sqrt (initNorm p y y / initNorm p y rate)).raw.real := by
    have h : |Real.sqrt (initNorm p y y / initNorm p y rate).raw.real| ≤ 2 ^ (62 : ℤ) := by
      rw [abs_of_nonneg (Real.sqrt_nonneg _), Real.sqrt_le_left (by positivity)]
      have := (abs_le.1 q.2).2
      nlinarith
    have e : (Scalar.sqrt (initNorm p y y / initNorm p y rate)).raw.real
        = rne (Real.sqrt (initNorm p y y / initNorm p y rate).raw.real) :=
      (sqrt_finite q.1 q00 (rne_lt_of_le r62 h)).2
    rw [e]
    have := rne_mono (Real.le_sqrt_of_sq_le (show ((2 : ℝ) ^ (16 : ℤ)) ^ 2 ≤ (initNorm p y y / initNorm p y rate).raw.real by
      refine le_trans (by norm_num) q0))
    rwa [rne_rep r16] at this
  have r7 : Rep ((2 : ℝ) ^ (-7 : ℤ)) := rep_pow (by norm_num) (by norm_num)
  have r9 : Rep ((2 : ℝ) ^ (9 : ℤ)) := rep_pow (by norm_num) (by norm_num)
  have l : Bd (0.01 : F64 Lib) 1 := bd_lit (by norm_num) (by norm_num) rep_one.1
  have l0 : (2 : ℝ) ^ (-7 : ℤ) ≤ (0.01 : F64 Lib).raw.real := lit_le (by norm_num) r7 l.1
  have hm : |(0.01 : F64 Lib).raw.real * (Scalar.sqrt (initNorm p y y / initNorm p y rate)).raw.real| ≤ 2 ^ (62 : ℤ) := by
    rw [abs_mul]
    calc _ ≤ (1 : ℝ) * 2 ^ (62 : ℤ) := mul_le_mul l.2 s.2 (abs_nonneg _) zero_le_one
      _ = _ := one_mul _
  obtain ⟨m1, m2⟩ := mul_real l.1 s.1 r62 hm
  have m3 : (2 : ℝ) ^ (9 : ℤ) ≤ (0.01 * Scalar.sqrt (initNorm p y y / initNorm p y rate) : F64 Lib).raw.real := by
    rw [m2]
    have := rne_mono (show (2 : ℝ) ^ (9 : ℤ) ≤ (0.01 : F64 Lib).raw.real
        * (Scalar.sqrt (initNorm p y y / initNorm p y rate)).raw.real from
      calc (2 : ℝ) ^ (9 : ℤ) = 2 ^ (-7 : ℤ) * 2 ^ (16 : ℤ) := by norm_num
        _ ≤ _ := mul_le_mul l0 s0 (two_pow_pos _).le ((two_pow_pos _).le.trans l0))
    rwa [rne_rep r9] at this
  refine sign_is hp ?_ hX
  unfold fmin
  rw [if_pos]
  · exact hp.hMax
  · rw [lt_fin hp.hMax.1 m1, hp.hMax.2]
    exact hp.hi.trans_lt (lt_of_lt_of_le (by norm_num) m3)

theorem second {p : Problem (F64 Lib)} {X : ℝ} (hp : Posed p X) {y : V3 (F64 Lib)} (hy : Start y)
    {h0 : F64 Lib} (hh : Is h0 X) : Is (secondGuess p y rate rate h0) X := by
  have hX : 0 < X := (two_pow_pos _).trans_le hp.lo
  have nr := norm_rate hp hy
  have ns := norm_still hp hy
  have s1 : Is (Scalar.sqrt (initNorm p y rate)) (2 ^ (-16 : ℤ)) :=
    is_sqrt nr (two_pow_pos _).le (by
      rw [Real.sqrt_eq_iff_mul_self_eq (two_pow_pos _).le (two_pow_pos _).le]
      norm_num) rep_f
  have s2 : Is (Scalar.abs (Scalar.sqrt (initNorm p y (sub3 rate rate)) / h0)) 0 := by
    have := is_abs (is_div (is_sqrt ns le_rfl Real.sqrt_zero rep_zero) hh hX.ne' (zero_div _) rep_zero)
    rwa [abs_zero] at this
  have e : fmax (Scalar.sqrt (initNorm p y rate)) (Scalar.abs (Scalar.sqrt (initNorm p y (sub3 rate rate)) / h0))
      = Scalar.sqrt (initNorm p y rate) := by
    unfold fmax
    rw [if_neg, if_pos]
    · rw [le_fin s1.1 s1.1]
    · rw [lt_fin s1.1 s2.1, s1.2, s2.2, not_lt]; exact (two_pow_pos _).le
  have r20 : Rep ((2 : ℝ) ^ (-20 : ℤ)) := rep_pow (by norm_num) (by norm_num)
  have b : Bd (1e-15 : F64 Lib) (2 ^ (-20 : ℤ)) := bd_lit (by norm_num) (by norm_num) r20
  unfold secondGuess
  simp only [e]
  rw [if_neg]
  swap
  · rw [le_fin s1.1 b.1, s1.2, not_le]
    exact (abs_le.1 b.2).2.trans_lt (by norm_num)
  have e1 : fmin (HasPowf.powf (0.01 / fmax (Scalar.sqrt (initNorm p y rate))
      (Scalar.sqrt (initNorm p y (sub3 rate rate)) / h0)) (1.0 / 5.0)) p.hMax = p.hMax := by
    unfold fmin
    rw [if_pos]
    exact (Raw.lt_iff _ _).2 ⟨_, _, Raw.ext_of_finite hp.hMax.1, rfl, EReal.coe_lt_top _⟩
  rw [e1]
  have r13 : Rep ((2 : ℝ) ^ (13 : ℤ)) := rep_pow (by norm_num) (by norm_num)
  have l := is_nat (m := 1000) (s := true) (e := 1) 100 (by norm_num) (by norm_num)
  have ha := is_abs hh
  rw [abs_of_pos hX] at ha
  obtain ⟨m1, m2⟩ := mul_real (a := (100.0 : F64 Lib)) (t := 2 ^ (13 : ℤ)) l.1 ha.1 r13 (by
    rw [l.2, ha.2, abs_of_nonneg (by positivity)]
    have := hp.hi
    norm_num at this ⊢
    linarith)
  have m3 : X < (100.0 * Scalar.abs h0 : F64 Lib).raw.real := by
    rw [m2, l.2, ha.2]
    have hlo : (2 : ℝ) ^ (-1022 : ℤ) ≤ (100 : ℕ) * X := by
      have : (2 : ℝ) ^ (-1022 : ℤ) ≤ 2 ^ (-6 : ℤ) := zpow_le_zpow_right₀ (by norm_num) (by norm_num)
      have := this.trans hp.lo
      push_cast
      linarith
    have := (abs_le.1 (rne_error (x := (100 : ℕ) * X) (by positivity) le_rfl hlo)).1
    have u1 : (2 : ℝ) ^ (-53 : ℤ) ≤ 1 / 2 := by norm_num
    have := mul_le_mul_of_nonneg_right u1 (show 0 ≤ ((100 : ℕ) : ℝ) * X by positivity)
    generalize (2 : ℝ) ^ (-53 : ℤ) = u at *
    push_cast at *
    linarith
  refine sign_is hp ?_ hX.le
  unfold fmin
  rw [if_pos]
  · exact hp.hMax
  · rw [lt_fin hp.hMax.1 m1, hp.hMax.2]
    exact m3

/-- The derivatives of the step: all the same. -/
noncomputable def ks : Ks (F64 Lib) := ⟨rate, rate, rate, rate, rate, rate, rate⟩

/-- Each component of a vector is bounded. -/
structure Bd3 (v : V3 (F64 Lib)) (r : ℝ) : Prop where
  y0 : Bd v.y0 r
  y1 : Bd v.y1 r
  y2 : Bd v.y2 r

theorem bd3_add {a b : V3 (F64 Lib)} {r s t : ℝ} (ha : Bd3 a r) (hb : Bd3 b s) (e : r + s ≤ t) (ht : Rep t) :
    Bd3 (add3 a b) t :=
  ⟨bd_add ha.y0 hb.y0 e ht, bd_add ha.y1 hb.y1 e ht, bd_add ha.y2 hb.y2 e ht⟩

theorem bd3_scale {a : V3 (F64 Lib)} {c : F64 Lib} {r s t : ℝ} (ha : Bd3 a r) (hc : Bd c s) (e : r * s ≤ t)
    (ht : Rep t) : Bd3 (scale3 a c) t :=
  ⟨bd_mul ha.y0 hc e ht, bd_mul ha.y1 hc e ht, bd_mul ha.y2 hc e ht⟩

theorem bd3_rate : Bd3 rate (2 ^ (-16 : ℤ)) :=
  ⟨is_bd is_f (abs_of_pos (two_pow_pos _)).le, is_bd is_zero (by rw [abs_zero]; positivity),
    is_bd is_zero (by rw [abs_zero]; positivity)⟩

/-- The estimate of the error, per unit of time. -/
theorem bd3_error : Bd3 (weighted [rate, rate, rate, rate, rate, rate] (dopri5.e : List (F64 Lib)))
    (2 ^ (-16 : ℤ)) := by
  have r : ∀ {k : ℤ}, -100 ≤ k → k < 100 → Rep ((2 : ℝ) ^ k) := fun h1 h2 => rep_pow (by omega) (by omega)
  have w0 : Bd (71.0 / 57600.0 : F64 Lib) (2 ^ (-4 : ℤ)) :=
    bd_div (is_bd (is_nat 71 (by norm_num) (by norm_num)) le_rfl) (is_nat 57600 (by norm_num) (by norm_num))
      (by norm_num) (by norm_num [abs_of_pos]) (r (by norm_num) (by norm_num))
  have w1 : Bd (-71.0 / 16695.0 : F64 Lib) (2 ^ (-4 : ℤ)) :=
    bd_div (bd_neg (is_bd (is_nat 71 (by norm_num) (by norm_num)) le_rfl)) (is_nat 16695 (by norm_num) (by norm_num))
      (by norm_num) (by norm_num [abs_of_pos]) (r (by norm_num) (by norm_num))
  have w2 : Bd (71.0 / 1920.0 : F64 Lib) (2 ^ (-4 : ℤ)) :=
    bd_div (is_bd (is_nat 71 (by norm_num) (by norm_num)) le_rfl) (is_nat 1920 (by norm_num) (by norm_num))
      (by norm_num) (by norm_num [abs_of_pos]) (r (by norm_num) (by norm_num))
  have w3 : Bd (-17253.0 / 339200.0 : F64 Lib) (2 ^ (-4 : ℤ)) :=
    bd_div (bd_neg (is_bd (is_nat 17253 (by norm_num) (by norm_num)) le_rfl)) (is_nat 339200 (by norm_num) (by norm_num))
      (by norm_num) (by norm_num [abs_of_pos]) (r (by norm_num) (by norm_num))
  have w4 : Bd (22.0 / 525.0 : F64 Lib) (2 ^ (-4 : ℤ)) :=
    bd_div (is_bd (is_nat 22 (by norm_num) (by norm_num)) le_rfl) (is_nat 525 (by norm_num) (by norm_num))
      (by norm_num) (by norm_num [abs_of_pos]) (r (by norm_num) (by norm_num))
  have w5 : Bd (-1.0 / 40.0 : F64 Lib) (2 ^ (-4 : ℤ)) :=
    bd_div (bd_neg (is_bd is_one le_rfl)) (is_nat 40 (by norm_num) (by norm_num))
      (by norm_num) (by norm_num [abs_of_pos]) (r (by norm_num) (by norm_num))
  have t : ∀ {w : F64 Lib}, Bd w (2 ^ (-4 : ℤ)) → Bd3 (scale3 rate w) (2 ^ (-20 : ℤ)) := fun hw =>
    bd3_scale bd3_rate hw (by norm_num) (r (by norm_num) (by norm_num))
  have s1 := bd3_add (t w0) (t w1) (by norm_num : _ ≤ (2 : ℝ) ^ (-19 : ℤ)) (r (by norm_num) (by norm_num))
  have s2 := bd3_add s1 (t w2) (by norm_num : _ ≤ (2 : ℝ) ^ (-18 : ℤ)) (r (by norm_num) (by norm_num))
  have s3 := bd3_add s2 (t w3) (by norm_num : _ ≤ (2 : ℝ) ^ (-17 : ℤ)) (r (by norm_num) (by norm_num))
  have s4 := bd3_add s3 (t w4) (by norm_num : (2 : ℝ) ^ (-17 : ℤ) + 2 ^ (-20 : ℤ) ≤ 9 * 2 ^ (-20 : ℤ)) ?_
  have s5 := bd3_add s4 (t w5) (by norm_num : _ ≤ (2 : ℝ) ^ (-16 : ℤ)) (r (by norm_num) (by norm_num))
  · exact s5
  · refine ⟨⟨9, -20, by norm_num, by norm_num, by norm_num⟩, ?_⟩
    refine lt_of_lt_of_le (b := (1 : ℝ)) (by norm_num [abs_of_pos]) (one_le_pow₀ (by norm_num))

/-- The error of the step is accepted. -/
theorem small_error {p : Problem (F64 Lib)} {X : ℝ} (hp : Posed p X) {y : V3 (F64 Lib)} (hy : Start y)
    {h : F64 Lib} (hh : Is h X) (hn : Bd3 (ks.next y h) (2 ^ (16 : ℤ))) :
    Bd (ks.err p y h) 1 := by
  have hX : 0 < X := (two_pow_pos _).trans_le hp.lo
  have r : ∀ {k : ℤ}, -100 ≤ k → k < 100 → Rep ((2 : ℝ) ^ k) := fun h1 h2 => rep_pow (by omega) (by omega)
  have e := bd3_scale (c := h) (s := 2 ^ (6 : ℤ)) bd3_error (is_bd hh (by rw [abs_of_pos hX]; exact hp.hi))
    (by norm_num : _ ≤ (2 : ℝ) ^ (-10 : ℤ)) (r (by norm_num) (by norm_num))
  have m : ∀ {a b : F64 Lib}, a.raw.Finite → b.raw.Finite → (fmax (Scalar.abs a) (Scalar.abs b)).raw.Finite := by
    intro a b ha hb
    unfold fmax
    split
    · exact abs_fin hb
    · split
      · exact abs_fin ha
      · exact abs_fin hb
  have t0 := term hp (m hy.y0.1 hn.y0.1) (by norm_num) (by norm_num) e.y0
  have t1 := term hp (m hy.y1.1 hn.y1.1) (by norm_num) (by norm_num) e.y1
  have t2 := term hp (m hy.y2.1 hn.y2.1) (by norm_num) (by norm_num) e.y2
  have b0 := bd_add (is_bd is_zero (abs_zero.le)) t0 (by norm_num : _ ≤ (2 : ℝ) ^ (-19 : ℤ)) (r (by norm_num) (by norm_num))
  have b1 := bd_add b0 t1 (by norm_num : _ ≤ (2 : ℝ) ^ (-18 : ℤ)) (r (by norm_num) (by norm_num))
  have b2 := bd_add b1 t2 (by norm_num : _ ≤ (2 : ℝ) ^ (-17 : ℤ)) (r (by norm_num) (by norm_num))
  have b3 := bd_div (b := (3.0 : F64 Lib)) b2 (is_nat 3 (by norm_num) (by norm_num)) (by norm_num) (by norm_num : _ ≤ (1 : ℝ)) rep_one.1
  exact bd_sqrt b3 (real_nonneg (up_div (up_add (up_add (up_add up_lit (up_sq _)) (up_sq _)) (up_sq _)) up_lit)) le_rfl rep_one.1

/-- The weights of the step are bounded. -/
theorem bd_a7 : ∀ w ∈ (a7 : List (F64 Lib)), Bd w 1 := by
  intro w hw
  simp only [a7, List.mem_cons, List.not_mem_nil, or_false] at hw
  rcases hw with rfl | rfl | rfl | rfl | rfl | rfl
  · exact bd_div (is_bd (is_nat 35 (by norm_num) (by norm_num)) le_rfl) (is_nat 384 (by norm_num) (by norm_num))
      (by norm_num) (by norm_num [abs_of_pos]) rep_one.1
  · exact is_bd is_zero (by rw [abs_zero]; exact zero_le_one)
  · exact bd_div (is_bd (is_nat 500 (by norm_num) (by norm_num)) le_rfl) (is_nat 1113 (by norm_num) (by norm_num))
      (by norm_num) (by norm_num [abs_of_pos]) rep_one.1
  · exact bd_div (is_bd (is_nat 125 (by norm_num) (by norm_num)) le_rfl) (is_nat 192 (by norm_num) (by norm_num))
      (by norm_num) (by norm_num [abs_of_pos]) rep_one.1
  · exact bd_div (bd_neg (is_bd (is_nat 2187 (by norm_num) (by norm_num)) le_rfl)) (is_nat 6784 (by norm_num) (by norm_num))
      (by norm_num) (by norm_num [abs_of_pos]) rep_one.1
  · exact bd_div (is_bd (is_nat 11 (by norm_num) (by norm_num)) le_rfl) (is_nat 84 (by norm_num) (by norm_num))
      (by norm_num) (by norm_num [abs_of_pos]) rep_one.1

/-- A vector whose temperatures are those of `y`. -/
structure Same (y v : V3 (F64 Lib)) : Prop where
  y1 : Is v.y1 y.y1.raw.real
  y2 : Is v.y2 y.y2.raw.real

theorem same_add {y a b : V3 (F64 Lib)} (ha : Same y a) (h1 : Is b.y1 0) (h2 : Is b.y2 0) : Same y (add3 a b) :=
  ⟨is_add ha.y1 h1 (add_zero _) (Raw.rep_real _), is_add ha.y2 h2 (add_zero _) (Raw.rep_real _)⟩

theorem zero_mul_is {a b : F64 Lib} (ha : Is a 0) (hb : b.raw.Finite) : Is (a * b) 0 :=
  is_mul ha ⟨hb, rfl⟩ (zero_mul _) rep_zero

theorem next_bd {y : V3 (F64 Lib)} (hy : Start y) {h : F64 Lib} (hh : Bd h (2 ^ (6 : ℤ))) :
    Bd3 (ks.next y h) (2 ^ (16 : ℤ)) ∧ Same y (ks.next y h) := by
  have r : ∀ {k : ℤ}, -100 ≤ k → k < 100 → Rep ((2 : ℝ) ^ k) := fun h1 h2 => rep_pow (by omega) (by omega)
  have t : ∀ w ∈ (a7 : List (F64 Lib)), Bd3 (scale3 (scale3 rate h) w) 1 := fun w hw =>
    bd3_scale (r := 1) (bd3_scale bd3_rate hh (by norm_num) rep_one.1) (bd_a7 w hw) (by norm_num) rep_one.1
  have z1 : ∀ w ∈ (a7 : List (F64 Lib)), Is (scale3 (scale3 rate h) w).y1 0 := fun w hw =>
    zero_mul_is (zero_mul_is is_zero hh.1) (bd_a7 w hw).1
  have z2 : ∀ w ∈ (a7 : List (F64 Lib)), Is (scale3 (scale3 rate h) w).y2 0 := fun w hw =>
    zero_mul_is (zero_mul_is is_zero hh.1) (bd_a7 w hw).1
  have b0 : Bd3 y (2 ^ (10 : ℤ)) := ⟨hy.y0, hy.y1, hy.y2⟩
  have m : ∀ i, (hi : i < (a7 : List (F64 Lib)).length) → (a7 : List (F64 Lib))[i] ∈ (a7 : List (F64 Lib)) :=
    fun i hi => List.getElem_mem hi
  refine ⟨?_, ?_⟩
  · have b1 := bd3_add b0 (t _ (m 0 (by decide))) (by norm_num : _ ≤ (2 : ℝ) ^ (11 : ℤ)) (r (by norm_num) (by norm_num))
    have b2 := bd3_add b1 (t _ (m 1 (by decide))) (by norm_num : _ ≤ (2 : ℝ) ^ (12 : ℤ)) (r (by norm_num) (by norm_num))
    have b3 := bd3_add b2 (t _ (m 2 (by decide))) (by norm_num : _ ≤ (2 : ℝ) ^ (13 : ℤ)) (r (by norm_num) (by norm_num))
    have b4 := bd3_add b3 (t _ (m 3 (by decide))) (by norm_num : _ ≤ (2 : ℝ) ^ (14 : ℤ)) (r (by norm_num) (by norm_num))
    have b5 := bd3_add b4 (t _ (m 4 (by decide))) (by norm_num : _ ≤ (2 : ℝ) ^ (15 : ℤ)) (r (by norm_num) (by norm_num))
    exact bd3_add b5 (t _ (m 5 (by decide))) (by norm_num : _ ≤ (2 : ℝ) ^ (16 : ℤ)) (r (by norm_num) (by norm_num))
  · have s0 : Same y y := ⟨⟨hy.y1.1, rfl⟩, ⟨hy.y2.1, rfl⟩⟩
    have s1 := same_add s0 (z1 _ (m 0 (by decide))) (z2 _ (m 0 (by decide)))
    have s2 := same_add s1 (z1 _ (m 1 (by decide))) (z2 _ (m 1 (by decide)))
    have s3 := same_add s2 (z1 _ (m 2 (by decide))) (z2 _ (m 2 (by decide)))
    have s4 := same_add s3 (z1 _ (m 3 (by decide))) (z2 _ (m 3 (by decide)))
    have s5 := same_add s4 (z1 _ (m 4 (by decide))) (z2 _ (m 4 (by decide)))
    exact same_add s5 (z1 _ (m 5 (by decide))) (z2 _ (m 5 (by decide)))

/-- The loop that emits the points stops at the first tick past the end. -/
theorem output_stops (p : Problem (F64 Lib)) (hd : Up p.dx) {N : ℕ} {X : F64 Lib} (hX : X.raw.Finite) (hu : Up X)
    (hN : ¬AtMost (Spec.tick p.dx N) X.raw.real) : ∀ (outs k : ℕ) (s : dopri5.State (F64 Lib)), s.x = X →
    s.xd = Spec.tick p.dx k → s.xOld = 0.0 → k ≤ N → N < k + outs → ∃ s', output p outs s = some s' := by
  intro outs
  induction outs with
  | zero => intro k s _ _ _ h1 h2; omega
  | succ outs ih =>
    intro k s hx hxd ho h1 h2
    unfold output
    split
    · rename_i h3
      have h3' : AtMost (Spec.tick p.dx k) X.raw.real := by
        rw [hx, hxd] at h3
        exact (le_abs_iff (up_tick hd k) hu hX).1 h3
      have h4 : Scalar.le (Scalar.abs s.xOld) (Scalar.abs s.xd) = true := by
        rw [ho, hxd, le_fin (abs_fin is_zero.1) (abs_fin h3'.1), (is_abs is_zero).2, abs_zero]
        exact real_nonneg (up_abs _)
      rw [if_pos (by rw [h4, h3]; rfl)]
      have hk : k ≠ N := by rintro rfl; exact hN h3'
      exact ih (k + 1) _ hx (by rw [hxd]; rfl) ho (by omega) (by omega)
    · exact ⟨_, rfl⟩

/-- The weights of the dense output are bounded. -/
theorem bd_d : ∀ w ∈ (dopri5.d : List (F64 Lib)), Bd w (2 ^ (3 : ℤ)) := by
  have r : Rep ((2 : ℝ) ^ (3 : ℤ)) := rep_pow (by norm_num) (by norm_num)
  intro w hw
  simp only [dopri5.d, List.mem_cons, List.not_mem_nil, or_false] at hw
  rcases hw with rfl | rfl | rfl | rfl | rfl | rfl
  · exact bd_div (bd_neg (is_bd (is_nat 12715105075 (by norm_num) (by norm_num)) le_rfl))
      (is_nat 11282082432 (by norm_num) (by norm_num)) (by norm_num) (by norm_num [abs_of_pos]) r
  · exact bd_div (is_bd (is_nat 87487479700 (by norm_num) (by norm_num)) le_rfl)
      (is_nat 32700410799 (by norm_num) (by norm_num)) (by norm_num) (by norm_num [abs_of_pos]) r
  · exact bd_div (bd_neg (is_bd (is_nat 10690763975 (by norm_num) (by norm_num)) le_rfl))
      (is_nat 1880347072 (by norm_num) (by norm_num)) (by norm_num) (by norm_num [abs_of_pos]) r
  · exact bd_div (is_bd (is_nat 701980252875 (by norm_num) (by norm_num)) le_rfl)
      (is_nat 199316789632 (by norm_num) (by norm_num)) (by norm_num) (by norm_num [abs_of_pos]) r
  · exact bd_div (bd_neg (is_bd (is_nat 1453857185 (by norm_num) (by norm_num)) le_rfl))
      (is_nat 822651844 (by norm_num) (by norm_num)) (by norm_num) (by norm_num [abs_of_pos]) r
  · exact bd_div (is_bd (is_nat 69997945 (by norm_num) (by norm_num)) le_rfl)
      (is_nat 29380423 (by norm_num) (by norm_num)) (by norm_num) (by norm_num [abs_of_pos]) r

/-- A vector without a temperature part. -/
structure Flat (v : V3 (F64 Lib)) : Prop where
  y1 : Is v.y1 0
  y2 : Is v.y2 0

theorem flat_rate : Flat rate := ⟨is_zero, is_zero⟩

theorem flat_scale {a : V3 (F64 Lib)} {c : F64 Lib} (ha : Flat a) (hc : c.raw.Finite) : Flat (scale3 a c) :=
  ⟨zero_mul_is ha.y1 hc, zero_mul_is ha.y2 hc⟩

theorem flat_add {a b : V3 (F64 Lib)} (ha : Flat a) (hb : Flat b) : Flat (add3 a b) :=
  ⟨is_add ha.y1 hb.y1 (add_zero _) rep_zero, is_add ha.y2 hb.y2 (add_zero _) rep_zero⟩

theorem flat_sub {a b : V3 (F64 Lib)} (ha : Flat a) (hb : Flat b) : Flat (sub3 a b) :=
  ⟨is_sub ha.y1 hb.y1 (sub_zero _) rep_zero, is_sub ha.y2 hb.y2 (sub_zero _) rep_zero⟩

theorem flat_diff {y a b : V3 (F64 Lib)} (ha : Same y a) (hb : Same y b) : Flat (sub3 a b) :=
  ⟨is_sub ha.y1 hb.y1 (sub_self _) rep_zero, is_sub ha.y2 hb.y2 (sub_self _) rep_zero⟩

theorem is_neg_zero {a : F64 Lib} (ha : Is a 0) : Is (-a) 0 :=
  ⟨Raw.neg_finite ha.1, by
    have : (-a : F64 Lib).raw.real = -a.raw.real := Raw.neg_real _
    rw [this, ha.2, neg_zero]⟩

theorem flat_dense : Flat (weighted [rate, rate, rate, rate, rate, rate] (dopri5.d : List (F64 Lib))) := by
  have m : ∀ i, (hi : i < (dopri5.d : List (F64 Lib)).length) → (dopri5.d : List (F64 Lib))[i] ∈ (dopri5.d : List (F64 Lib)) :=
    fun i hi => List.getElem_mem hi
  have t : ∀ i, (hi : i < (dopri5.d : List (F64 Lib)).length) → Flat (scale3 rate (dopri5.d : List (F64 Lib))[i]) :=
    fun i hi => flat_scale flat_rate (bd_d _ (m i hi)).1
  exact flat_add (flat_add (flat_add (flat_add (flat_add (t 0 (by decide)) (t 1 (by decide))) (t 2 (by decide)))
    (t 3 (by decide))) (t 4 (by decide))) (t 5 (by decide))

/-- A state from which the dense output keeps the temperatures of `y`. -/
structure Steady (y : V3 (F64 Lib)) (s : dopri5.State (F64 Lib)) : Prop where
  r0 : Same y s.rcont0
  r1 : Flat s.rcont1
  r2 : Flat s.rcont2
  r3 : Flat s.rcont3
  r4 : Flat s.rcont4

theorem same_interpolate {y : V3 (F64 Lib)} {s : dopri5.State (F64 Lib)} (hs : Steady y s) {θ : F64 Lib}
    (hθ : Bd θ (2 ^ (12 : ℤ))) : Same y (interpolate s θ) := by
  have h1 : (1.0 - θ : F64 Lib).raw.Finite := by
    refine (Raw.sub_finite is_one.1 hθ.1 (rne_lt_of_le (r := 2 ^ (13 : ℤ)) (rep_pow (by norm_num) (by norm_num)) ?_)).1
    rw [is_one.2]
    have := abs_le.1 hθ.2
    rw [abs_le]
    norm_num at this ⊢
    constructor <;> linarith [this.1, this.2]
  have f := flat_scale (flat_add hs.r1 (flat_scale (flat_add hs.r2 (flat_scale (flat_add hs.r3 (flat_scale hs.r4 h1)) hθ.1)) h1)) hθ.1
  exact same_add hs.r0 f.y1 f.y2

/-- A complete integration in one step. -/
theorem one_step {outs N : ℕ} {X dx rtol atol : F64 Lib} {y : V3 (F64 Lib)} (hy : Start y) (hX : X.raw.Finite)
    (lo : (2 : ℝ) ^ (-6 : ℤ) ≤ X.raw.real) (hi : X.raw.real ≤ 2 ^ (6 : ℤ)) (hr : Is rtol 0) (ha : Is atol 1)
    (hd : Up dx) (hN : ¬AtMost (Spec.tick dx N) X.raw.real) (ho : N < outs) :
    ∃ xs ys, Yields (fun _ => rate) (dopri5.solve outs 0.0 X dx y rtol atol) (some (xs, ys)) ∧
      ∀ v ∈ ys, Same y v := by
  have hX0 : 0 < X.raw.real := (two_pow_pos _).trans_le lo
  have hXu : Up X := up_of_pos hX hX0
  have hX1 : Is (X - 0.0) X.raw.real := is_sub ⟨hX, rfl⟩ is_zero (sub_zero _) (Raw.rep_real _)
  have hXb : Bd (X - 0.0) (2 ^ (6 : ℤ)) := is_bd hX1 (by rw [abs_of_pos hX0]; exact hi)
  unfold dopri5.solve
  set p : Problem (F64 Lib) := { xEnd := X, dx, rtol, atol, hMax := Scalar.abs (X - 0.0)
                                 posneg := dopri5.sign 1.0 (X - 0.0) } with hp
  have P : Posed p X.raw.real := by
    refine ⟨lo, hi, ⟨hX, rfl⟩, ?_, ?_, hr, ha⟩
    · have := is_abs hX1
      rwa [abs_of_pos hX0] at this
    · show dopri5.sign 1.0 (X - 0.0) = (one : Raw)
      unfold dopri5.sign
      rw [if_pos ((lt_fin is_zero.1 hX1.1).2 (by rw [is_zero.2, hX1.2]; exact hX0)), ieee_one]
      exact abs_of_sign (decide_eq_false (by norm_num))
  set s0 : dopri5.State (F64 Lib) :=
    { x := 0.0, xOld := 0.0, xd := 0.0, h := 0.0, hOld := 0.0, y
      rcont0 := ⟨0.0, 0.0, 0.0⟩, rcont1 := ⟨0.0, 0.0, 0.0⟩, rcont2 := ⟨0.0, 0.0, 0.0⟩
      rcont3 := ⟨0.0, 0.0, 0.0⟩, rcont4 := ⟨0.0, 0.0, 0.0⟩
      facOld := 1.0e-4, reject := false, accepted := 0, iasti := 0, nonStiff := 0
      xOut := [], yOut := [] } with hs0
  have g2 := second P hy (first P hy)
  set h := secondGuess p y rate rate (firstGuess p y rate) with hh
  set s : dopri5.State (F64 Lib) := { s0 with h := h, hOld := h } with hs
  -- the pass is the last
  have hlast : isLast p s = true := by
    have l : Bd (1.01 : F64 Lib) 2 := bd_lit (by norm_num) (by norm_num) rep_two.1
    have l0 : (1 + 2 ^ (-7 : ℤ) : ℝ) ≤ (1.01 : F64 Lib).raw.real := by
      refine lit_le (by norm_num) ⟨⟨129, -7, by norm_num, by norm_num, by norm_num⟩, ?_⟩ l.1
      exact lt_of_lt_of_le (b := (2 : ℝ)) (by norm_num [abs_of_pos]) (le_self_pow₀ (by norm_num) (by norm_num))
    obtain ⟨m1, m2⟩ := mul_real (t := 2 ^ (7 : ℤ)) l.1 g2.1 (rep_pow (by norm_num) (by norm_num)) (by
      rw [g2.2, abs_mul, abs_of_pos hX0]
      exact (mul_le_mul l.2 hi hX0.le (by norm_num)).trans (by norm_num))
    rw [g2.2] at m2
    generalize (1.01 : F64 Lib).raw.real = c at l0 m2
    have m3 : X.raw.real < (1.01 * h : F64 Lib).raw.real := by
      rw [m2]
      have hc : (2 : ℝ) ^ (-1022 : ℤ) ≤ c * X.raw.real := by
        have h1 : (2 : ℝ) ^ (-1022 : ℤ) ≤ 2 ^ (-6 : ℤ) := zpow_le_zpow_right₀ (by norm_num) (by norm_num)
        refine (h1.trans lo).trans (le_mul_of_one_le_left hX0.le ?_)
        norm_num at l0; linarith
      have h2 := (abs_le.1 (rne_error (x := c * X.raw.real) ((two_pow_pos _).le.trans hc) le_rfl hc)).1
      have u1 : (2 : ℝ) ^ (-53 : ℤ) ≤ 1 / 1024 := by norm_num
      have h3 := mul_le_mul_of_nonneg_right u1 ((two_pow_pos _).le.trans hc)
      have h4 := mul_le_mul_of_nonneg_right l0 hX0.le
      generalize (2 : ℝ) ^ (-53 : ℤ) = u at *
      norm_num at h4
      linarith
    have a1 := is_add (a := (0.0 : F64 Lib)) (b := 1.01 * h) is_zero ⟨m1, rfl⟩ (zero_add _) (Raw.rep_real _)
    have su : Up (0.0 + 1.01 * h : F64 Lib) := up_of_pos a1.1 (by rw [a1.2]; linarith)
    obtain ⟨b1, b2⟩ := sub_unsigned (a := (0.0 + 1.01 * h : F64 Lib).raw) (b := X.raw) a1.1 hX su hXu
    obtain ⟨c1, c2⟩ := mul_one_finite b1
    unfold isLast
    rw [P.posneg, ieee_zero]
    refine (zero_lt_finite c1).2 ?_
    rw [c2, b2, a1.2]
    exact rne_sub_pos (Raw.rep_real _).1 (Raw.rep_real _).1 m3
  have htr : tried p s = X - 0.0 := by
    unfold tried
    rw [if_pos hlast]
  have hpr : Proceeds s := by
    have l : Bd (0.1 : F64 Lib) 1 := bd_lit (by norm_num) (by norm_num) rep_one.1
    have l0 : ((2 : ℝ) ^ (-4 : ℤ)) ≤ (0.1 : F64 Lib).raw.real :=
      lit_le (by norm_num) (rep_pow (by norm_num) (by norm_num)) l.1
    have ga := is_abs g2
    rw [abs_of_pos hX0] at ga
    have r10 : Rep ((2 : ℝ) ^ (-10 : ℤ)) := rep_pow (by norm_num) (by norm_num)
    obtain ⟨m1, m2⟩ := mul_real (t := 2 ^ (6 : ℤ)) l.1 ga.1 (rep_pow (by norm_num) (by norm_num)) (by
      rw [ga.2, abs_mul, abs_of_pos hX0]
      exact (mul_le_mul l.2 hi hX0.le zero_le_one).trans (by norm_num))
    have m3 := rne_mono (show (2 : ℝ) ^ (-10 : ℤ) ≤ (0.1 : F64 Lib).raw.real * (Scalar.abs h).raw.real by
      rw [ga.2]
      calc (2 : ℝ) ^ (-10 : ℤ) = 2 ^ (-4 : ℤ) * 2 ^ (-6 : ℤ) := by norm_num
        _ ≤ _ := mul_le_mul l0 lo (two_pow_pos _).le ((two_pow_pos _).le.trans l0))
    rw [rne_rep r10, ← m2] at m3
    have z0 := is_abs is_zero
    rw [abs_zero] at z0
    have le1 : Bd (2.220446049250313e-16 : F64 Lib) 1 := bd_lit (by norm_num) (by norm_num) rep_one.1
    have z := is_mul ⟨le1.1, rfl⟩ z0 (mul_zero _) rep_zero
    show ¬Scalar.le (0.1 * Scalar.abs h) (2.220446049250313e-16 * Scalar.abs (0.0 : F64 Lib)) = true
    rw [le_fin m1 z.1, z.2, not_le]
    exact (two_pow_pos _).trans_le m3
  have hnx := next_bd hy hXb
  have herr := small_error P hy hX1 hnx.1
  obtain ⟨hNew, hacc⟩ : ∃ hNew, accept p s.facOld s.reject (ks.err p s.y (X - 0.0)) (X - 0.0) = (true, hNew) := by
    unfold accept
    simp only
    rw [if_pos ((le_fin herr.1 is_one.1).2 (by rw [is_one.2]; exact (abs_le.1 herr.2).2))]
    exact ⟨_, rfl⟩
  have hst : stiffness { s with accepted := s.accepted + 1 } (X - 0.0) ks.k6 ks.k5 (ks.next s.y (X - 0.0))
      (stage s.y (X - 0.0) [ks.k0, ks.k1, ks.k2, ks.k3, ks.k4] a6) = some (0, 0) := by
    unfold stiffness
    exact if_neg (show ¬((0 + 1) % 1000 = 0 ∨ 0 < 0) by decide)
  have hx1 : Is (0.0 + (X - 0.0)) X.raw.real := is_add is_zero hX1 (zero_add _) (Raw.rep_real _)
  have hxu : Up (0.0 + (X - 0.0) : F64 Lib) := up_of_pos hx1.1 (by rw [hx1.2]; exact hX0)
  obtain ⟨s', hout⟩ := output_stops p hd (N := N) (X := 0.0 + (X - 0.0)) hx1.1 hxu (by rw [hx1.2]; exact hN) outs 0
    (ks.advance p s (X - 0.0) (0, 0)) rfl rfl rfl (Nat.zero_le _) (by omega)
  have hst' : Steady y (ks.advance p s (X - 0.0) (0, 0)) := by
    have y0 : Same y y := ⟨⟨hy.y1.1, rfl⟩, ⟨hy.y2.1, rfl⟩⟩
    have d := flat_diff hnx.2 y0
    have b := flat_sub (flat_scale flat_rate hX1.1) d
    refine ⟨y0, d, b, ?_, flat_scale flat_dense hX1.1⟩
    exact flat_sub (flat_add (flat_scale ⟨is_neg_zero is_zero, is_neg_zero is_zero⟩ hX1.1) d) b
  have hinv := output_invariant p (fun t => t.x = 0.0 + (X - 0.0) ∧ t.xOld = 0.0 ∧ t.hOld = X - 0.0 ∧ Up t.xd ∧ Steady y t ∧
      ∀ v ∈ t.yOut, Same y v)
    (by
      rintro t ⟨e1, e2, e3, e4, e5, e6⟩ h1 -
      refine ⟨e1, e2, e3, up_add e4 hd, ⟨e5.r0, e5.r1, e5.r2, e5.r3, e5.r4⟩, ?_⟩
      intro v hv
      rcases List.mem_append.1 hv with hv | hv
      · exact e6 v hv
      · rw [List.mem_singleton.1 hv]
        rw [e1] at h1
        obtain ⟨a1, a2⟩ := (le_abs_iff e4 hxu hx1.1).1 h1
        have a2' : t.xd.raw.real ≤ X.raw.real := a2.trans hx1.2.le
        have a0 := real_nonneg e4
        have c := is_sub (a := t.xd) ⟨a1, rfl⟩ is_zero (sub_zero _) (Raw.rep_real _)
        refine same_interpolate e5 ?_
        rw [e2, e3]
        refine bd_div (r := 2 ^ (6 : ℤ)) (is_bd c ?_) hX1 hX0 ?_ (rep_pow (by norm_num) (by norm_num))
        · rw [abs_of_nonneg a0]; exact a2'.trans hi
        · rw [div_le_iff₀ hX0]
          calc (2 : ℝ) ^ (6 : ℤ) = 2 ^ (12 : ℤ) * 2 ^ (-6 : ℤ) := by norm_num
            _ ≤ _ := mul_le_mul_of_nonneg_left lo (two_pow_pos _).le) outs _ s' ⟨rfl, rfl, rfl, up_lit, hst', by simp [ks, Ks.advance, advance, hs, hs0]⟩ hout
  refine ⟨s'.xOut, s'.yOut, ?_, hinv.1.2.2.2.2.2⟩
  refine yields_eval (yields_eval (yields_eval ?_))
  show Yields _ (loop p outs 100001 s rate) _
  unfold loop
  rw [if_neg hpr]
  simp only [stages]
  iterate 6 refine yields_eval ?_
  have hc := conclude_accepted (next := loop p outs 100000) (last := isLast p s) hacc hst hout
  rw [hlast, if_pos rfl] at hc
  have e1 : (Scalar.lt (0.0 : F64 Lib) ((s.x + 1.01 * s.h - p.xEnd) * p.posneg)) = true := hlast
  simp only [e1, if_true]
  exact Eq.subst (motive := fun st => Yields (fun _ => rate) st (some (s'.xOut, s'.yOut))) hc.symm yields_done

/-! ## The crate's use of it -/

/-- A decomposition that answers every system alike: flows from cold to hot, a constant pressure rate, constant
temperatures. -/
noncomputable def vec : Vec10 (F64 Lib) := ![1.0, 1.0, 1.0, 1.0, 0.0, 0.0, 0.0, 0.0, 0.0, f]

noncomputable def alike : MatrixDecomposition (F64 Lib) := fun _ _ => some vec

theorem alike_dir : FlowDirection.from_solution (Solution.ofVec vec) = ⟨.Positive, .Positive, .Positive, .Positive⟩ := by
  have h : Direction.from_value (1.0 : F64 Lib) = .Positive := by
    refine (C54_from_value _).1.2 ⟨1, ?_, zero_le_one⟩
    rw [Raw.ext_of_finite is_one.1, is_one.2]
    rfl
  simp [FlowDirection.from_solution, Solution.ofVec, vec, h]

theorem alike_solve (i : Inputs (F64 Lib)) (d : FlowDirection) : solve alike i d = .ok (Solution.ofVec vec) := by
  rw [C08_ok_iff]
  have hs : ∀ d, (System.new i).solve alike d = some (Solution.ofVec vec) := fun d => rfl
  by_cases h : d = ⟨.Positive, .Positive, .Positive, .Positive⟩
  · subst h
    exact ⟨[_], _, by simp, .here _, hs _, alike_dir⟩
  · exact ⟨[d, _], _, by simp, .step ⟨h, _, hs _, alike_dir⟩ (.here _), hs _, alike_dir⟩

theorem driven {cy : Cycle (F64 Lib)} (hc : cy.Solver = alike) : Spec.Driven cy (fun _ => rate) := by
  intro t c hint
  exact ⟨_, by rw [hc]; exact alike_solve _ _, by simp [Solution.ofVec, vec, rate]⟩

noncomputable def env : Env (F64 Lib) := { ode := dopri5.solve 100, build := .checked }

/-- The tolerances of the example. -/
noncomputable def tol : OdeTolerance (F64 Lib) := { rel := 0.0, abs := 1.0 }

/-- The output times pass the end before the hundredth. -/
structure Fine (T : F64 Lib) (n : UInt32) : Prop where
  finite : (T + 1e-14 : F64 Lib).raw.Finite
  lo : (2 : ℝ) ^ (-6 : ℤ) ≤ (T + 1e-14 : F64 Lib).raw.real
  hi : (T + 1e-14 : F64 Lib).raw.real ≤ 2 ^ (6 : ℤ)
  ticks : ∃ dx N, timeStep .checked T n = .ok dx ∧ Up dx ∧
    ¬AtMost (Spec.tick dx N) (T + 1e-14 : F64 Lib).raw.real ∧ N < 100

/-- A successful integration. -/
theorem integration {cy : Cycle (F64 Lib)} (hc : cy.Solver = alike) {ic : Conditions (F64 Lib)}
    (hy : Start ⟨ic.P, ic.T_c, ic.T_e⟩) {n : UInt32} (hf : Fine cy.period n) :
    ∃ pts, integrationTryFrom env cy ic n tol = .ok pts ∧ pts ≠ [] ∧
      ∀ p ∈ pts, Is p.conditions.T_c ic.T_c.raw.real ∧ Is p.conditions.T_e ic.T_e.raw.real := by
  obtain ⟨dx, N, hdx, hd, hN, ho⟩ := hf.ticks
  obtain ⟨xs, ys, ⟨qs, h1, h2⟩, h3⟩ := one_step (outs := 100) hy hf.finite hf.lo hf.hi (rtol := tol.rel)
    (atol := tol.abs) is_zero is_one hd hN ho
  obtain ⟨log, hl⟩ := driven_run (driven hc) h1 FlowDirection.default _ rfl h2
  obtain ⟨g1, -, r, -, g2, -, -⟩ := C76_dopri5_ticks powf 100 _ dx _ _ _ hf.finite
    ((zpow_le_zpow_right₀ (by norm_num) (by norm_num)).trans hf.lo)
    (hf.hi.trans (by
      rw [← zpow_natCast]
      exact zpow_le_zpow_right₀ (by norm_num) (by norm_num))) hd _ xs ys h1
  refine ⟨toPoints xs ys, ?_, ?_, ?_⟩
  · unfold integrationTryFrom startStepper
    rw [show env.build = .checked from rfl, hdx]
    simp only [show env.ode = dopri5.solve 100 from rfl, hl]
  · intro hnil
    have := congrArg List.length hnil
    simp only [toPoints, List.length_map, List.length_zip, g1, min_self, List.length_nil] at this
    exact g2 this
  · intro p hp
    simp only [toPoints, List.mem_map] at hp
    obtain ⟨q, hq, rfl⟩ := hp
    have := h3 q.2 (List.of_mem_zip (show (q.1, q.2) ∈ _ from hq)).2
    exact ⟨this.y1, this.y2⟩

/-! ## Runs -/

open IeeeExample (num num_real num_positive chx_temp hhx_temp temps_ok cold mid hot fluid runInputs)

theorem is_eq {a b : F64 Lib} {r : ℝ} (ha : Is a r) (hb : Is b r) (h0 : r ≠ 0) : a = b := by
  obtain ⟨a1, a2⟩ := ha
  obtain ⟨b1, b2⟩ := hb
  show a.raw = b.raw
  rcases (Raw.finite_iff a.raw).1 a1 with ⟨s, e⟩ | ⟨x, hx, e⟩
  · rw [e] at a2; exact absurd a2.symm h0
  · rcases (Raw.finite_iff b.raw).1 b1 with ⟨s, e'⟩ | ⟨y, hy, e'⟩
    · rw [e'] at b2; exact absurd b2.symm h0
    · rw [e] at a2 ⊢; rw [e'] at b2 ⊢
      exact Raw.ext_eq (show x = y from a2.trans b2.symm)

noncomputable def drive (freq : F64 Lib) : ws.SinusoidalDrive (F64 Lib) :=
  { IeeeExample.drive with frequency := freq }

noncomputable def components (freq : F64 Lib) : Components (F64 Lib) :=
  fixedApproachEngine (drive freq).toWorkingSpaces cold mid hot

noncomputable def settings (n : UInt32) : RunSettings (F64 Lib) :=
  { resolution := n, loop_tol := ⟨⟨num 1, num 1⟩, ⟨num 1, num 1⟩⟩, ode_tol := tol, max_iters := ⟨3, 2⟩ }

theorem bd_num {n : ℕ} (h : n ≤ 1024) : Bd (num n) (2 ^ (10 : ℤ)) := by
  obtain ⟨h1, h2⟩ := num_real (n := n) (by omega)
  refine ⟨h1, ?_⟩
  rw [h2, abs_of_nonneg (Nat.cast_nonneg _)]
  calc (n : ℝ) ≤ 1024 := by exact_mod_cast h
    _ = _ := by norm_num

theorem values_ok {cy : Cycle (F64 Lib)} (hc : cy.Solver = alike) (d : FlowDirection) (pts : List (Point (F64 Lib))) :
    ∃ vs, stateValuesFrom cy d pts = .ok vs ∧ vs.length = pts.length := by
  induction pts generalizing d with
  | nil => exact ⟨[], rfl, rfl⟩
  | cons q pts ih =>
    obtain ⟨vs, h1, h2⟩ := ih (FlowDirection.from_solution (Solution.ofVec vec))
    simp only [stateValuesFrom, hc, alike_solve, h1]
    exact ⟨_, rfl, by simp [h2]⟩

theorem inner_ok {freq : F64 Lib} {n : UInt32} (h2 : Fine (1.0 / freq) 2) (hn : Fine (1.0 / freq) n)
    (st : Sett.State (F64 Lib)) (hp : st.pres.t_zero = num 5)
    (ht1 : Is st.temp.chx (300 : ℕ)) (ht2 : Is st.temp.hhx (600 : ℕ)) :
    ∃ vs, Engine.inner env alike (components freq) (settings n) st = .ok vs ∧ vs ≠ [] := by
  have p1 := num_positive (n := 1) (by norm_num) (by norm_num)
  have hy : Start ⟨st.pres.t_zero, st.temp.chx, st.temp.hhx⟩ := by
    refine ⟨?_, is_bd ht1 (by norm_num [abs_of_pos]), is_bd ht2 (by norm_num [abs_of_pos]), ?_⟩
    · show Bd st.pres.t_zero _
      rw [hp]; exact bd_num (by norm_num)
    · show 1 ≤ st.pres.t_zero.raw.real
      rw [hp, (num_real (n := 5) (by norm_num)).2]; norm_num
  have hs : (Run.new alike (components freq) st).toCycle.Solver = alike := rfl
  have hT : (Run.new alike (components freq) st).toCycle.period = 1.0 / freq := rfl
  obtain ⟨pa, a1, a2, a3⟩ := integration (ic := ⟨st.pres.t_zero, st.temp.chx, st.temp.hhx⟩) hs hy (hT ▸ h2)
  obtain ⟨pb, b1, b2, b3⟩ := integration (ic := ⟨st.pres.t_zero, st.temp.chx, st.temp.hhx⟩) hs hy (hT ▸ hn)
  obtain ⟨first, hfirst⟩ : ∃ q, pa.head? = some q := by
    cases pa with
    | nil => exact absurd rfl a2
    | cons q _ => exact ⟨q, rfl⟩
  have hlast : pa.getLast? = some (pa.getLast a2) := List.getLast?_eq_some_getLast a2
  have f1 := a3 first (List.mem_of_mem_head? hfirst)
  have f2 := a3 _ (List.getLast_mem a2)
  have e1 : first.conditions.T_c = (pa.getLast a2).conditions.T_c :=
    is_eq f1.1 f2.1 (by rw [ht1.2]; norm_num)
  have e2 : first.conditions.T_e = (pa.getLast a2).conditions.T_e :=
    is_eq f1.2 f2.2 (by rw [ht2.2]; norm_num)
  have hiv : ∃ vs, intoStateValues (Run.new alike (components freq) st).toCycle pb = .ok vs ∧ vs ≠ [] := by
    obtain ⟨vs, v1, v2⟩ := values_ok hs FlowDirection.default pb
    refine ⟨vs, v1, ?_⟩
    rintro rfl
    exact b2 (List.length_eq_zero_iff.1 v2.symm)
  obtain ⟨vs, v1, v2⟩ := hiv
  refine ⟨vs, ?_, v2⟩
  unfold Engine.inner
  rw [C33_ok_iff]
  refine ⟨0, _, ?_, .hints, ⟨first.conditions, (pa.getLast a2).conditions, ⟨_, a1, ?_, ?_⟩, ?_, ?_⟩, _, b1, v1⟩
  · simp [Engine.steadyInputs, settings]
  · rw [hfirst]; rfl
  · rw [hlast]; rfl
  · rw [e1]
    exact within_self_ieee _ _ f2.1.1 (by rw [f2.1.2, ht1.2]; norm_num) p1 p1
  · rw [e2]
    exact within_self_ieee _ _ f2.2.1 (by rw [f2.2.2, ht2.2]; norm_num) p1 p1

theorem run_ok {freq : F64 Lib} {n : UInt32} (h2 : Fine (1.0 / freq) 2) (hn : Fine (1.0 / freq) n) :
    ∃ e, Engine.run env alike (components freq) fluid (runInputs 700) (settings n) = .ok e := by
  have hp := num_positive (n := 1) (by norm_num) (by norm_num)
  obtain ⟨vs, hv, hne⟩ := inner_ok h2 hn (State.new_hint (components freq) fluid (runInputs 700)) rfl chx_temp hhx_temp
  obtain ⟨e, log, h1, -⟩ := C39_ieee env alike (drive freq).toWorkingSpaces cold mid hot fluid
    (runInputs 700) (settings n) vs (by simp [settings]) hp hp temps_ok hv hne
  exact ⟨e, congrArg Prod.fst h1⟩

/-! ### One turn a second -/

theorem timeStep_ok {T : F64 Lib} {n : UInt32} {k : ℕ} (hn : n.toNat = k + 2) {r t : ℝ} (hT : Is T r)
    (e : r / (k + 1) = t) (ht : Rep t) : ∃ dx, timeStep .checked T n = .ok dx ∧ Is dx t := by
  have hne : n ≠ 0 := by rintro rfl; exact absurd hn (by rw [show (0 : UInt32).toNat = 0 from rfl]; omega)
  obtain ⟨dx, h⟩ : ∃ dx, timeStep .checked T n = .ok dx :=
    ⟨T / Scalar.ofNat (n - 1).toNat, by simp [timeStep, pointsMinusOne, hne]⟩
  obtain ⟨hr, h1⟩ := timeStep_ieee (by omega) h
  have hc : (n.toNat : ℝ) - 1 = k + 1 := by rw [hn]; push_cast; ring
  obtain ⟨g1, g2⟩ := Raw.div_finite hT.1 (b := fin _ hr) trivial hr.2 (by
    show |rne (T.raw.real / ((n.toNat : ℝ) - 1))| < _
    rw [hT.2, hc, e, rne_rep ht]; exact ht.2)
  rw [← h1] at g1 g2
  refine ⟨dx, h, g1, g2.trans ?_⟩
  show rne (T.raw.real / ((n.toNat : ℝ) - 1)) = _
  rw [hT.2, hc, e, rne_rep ht]

theorem tick_is {dx : F64 Lib} {t : ℝ} (hd : Is dx t) (k : ℕ) (hk : ∀ j ≤ k, Rep (j * t)) :
    Is (Spec.tick dx k) (k * t) := by
  induction k with
  | zero => rw [Nat.cast_zero, zero_mul]; exact is_zero
  | succ k ih =>
    exact is_add (ih fun j hj => hk j (by omega)) hd (by push_cast; ring) (hk (k + 1) le_rfl)

theorem fine_of {T : F64 Lib} {r t : ℝ} {n : UInt32} {k N : ℕ} (hT : Is T r) (h1 : 1 ≤ r) (h2 : r ≤ 63)
    (hn : n.toNat = k + 2) (e : r / (k + 1) = t) (ht0 : 0 < t) (ht : ∀ j ≤ N, Rep (j * t)) (hN : N < 100)
    (hN1 : 1 ≤ N) (hlt : r + 1 ≤ N * t) : Fine T n := by
  obtain ⟨u, t1, t2, t3⟩ := lit_small (L := Lib)
  have u1 : (2 : ℝ) ^ (-53 : ℤ) ≤ 1 / 2 := by norm_num
  have hu : 0 ≤ u ∧ u ≤ 1 / 2 := by
    have := abs_le.1 t3
    generalize (2 : ℝ) ^ (-53 : ℤ) = v at *
    norm_num at this
    constructor <;> linarith [this.1, this.2]
  obtain ⟨x1, x2⟩ := Raw.add_finite hT.1 t1 (rne_lt_of_le rep_2048 (by
    rw [hT.2, t2, abs_of_nonneg (by linarith)]; linarith))
  rw [hT.2, t2] at x2
  have lo : 1 ≤ rne (r + u) := by
    have := rne_mono (show 1 ≤ r + u by linarith)
    rwa [rne_rep rep_one.1] at this
  have hi : rne (r + u) ≤ 64 := by
    have := rne_mono (show r + u ≤ (64 : ℕ) by push_cast; linarith)
    rw [rne_rep (rep_nat (by norm_num))] at this
    exact this.trans (by norm_num)
  have hi' : rne (r + u) < r + 1 := by
    have hm : (2 : ℝ) ^ (-1022 : ℤ) ≤ r + u := tiny (by norm_num; linarith)
    have := (abs_le.1 (rne_error (x := r + u) (by linarith) le_rfl hm)).2
    have u2 : (2 : ℝ) ^ (-53 : ℤ) ≤ 1 / 1000 := by norm_num
    have := mul_le_mul_of_nonneg_right u2 (show 0 ≤ r + u by linarith)
    generalize (2 : ℝ) ^ (-53 : ℤ) = v at *
    linarith
  obtain ⟨dx, d1, d2⟩ := timeStep_ok hn hT e (by simpa using ht 1 hN1)
  refine ⟨x1, ?_, ?_, dx, N, d1, up_of_pos d2.1 (by rw [d2.2]; exact ht0), ?_, hN⟩
  · exact le_trans (by norm_num) (lo.trans x2.ge)
  · exact x2.le.trans (hi.trans (by norm_num))
  · rintro ⟨-, h⟩
    rw [(tick_is d2 N ht).2] at h
    have := h.trans x2.le
    linarith

theorem second_is : Is (1.0 / num 1 : F64 Lib) 1 :=
  is_div is_one (num_real (n := 1) (by norm_num)) (by norm_num) (by norm_num) rep_one.1

theorem rep_halves {j : ℕ} (h : j ≤ 100) : Rep ((j : ℝ) * (1 / 2)) := by
  refine ⟨⟨j, -1, ?_, by norm_num, by norm_num⟩, ?_⟩
  · rw [abs_of_nonneg (by positivity)]
    have : (100 : ℤ) < 2 ^ 53 := by norm_num
    omega
  · have : (j : ℝ) ≤ 100 := by exact_mod_cast h
    rw [abs_of_nonneg (by positivity)]
    refine lt_of_lt_of_le (b := (2 : ℝ) ^ 10) ?_ (pow_le_pow_right₀ (by norm_num) (by norm_num))
    norm_num; linarith

/-- C76: a run of an engine that turns once a second, three samples. -/
theorem turn_ok : ∃ e, Engine.run env alike (components (num 1)) fluid (runInputs 700) (settings 3) = .ok e := by
  refine run_ok ?_ ?_
  · refine fine_of (k := 0) (N := 2) second_is le_rfl (by norm_num) rfl (by norm_num) one_pos ?_ (by norm_num)
      (by norm_num) (by norm_num)
    intro j hj
    rw [mul_one]
    exact rep_nat (by omega)
  · refine fine_of (k := 1) (N := 4) second_is le_rfl (by norm_num) rfl (by norm_num : (1 : ℝ) / ((1 : ℕ) + 1) = 1 / 2)
      (by norm_num) ?_ (by norm_num) (by norm_num) (by norm_num)
    intro j hj
    exact rep_halves (by omega)

/-- C76: and it reports exactly three samples, at 0, 1/2 and 1 second up to 1e-14. -/
example (e : Engine (F64 Lib))
    (h : Engine.run env alike (components (num 1)) fluid (runInputs 700) (settings 3) = .ok e) :
    e.values.time.length = 3 := by
  refine (C76_run powf 100 env rfl alike (components (num 1)) fluid (runInputs 700) (settings 3) ?_ e h).1
  have hr : ∀ p, Is (1.0 / (components (num 1)).ws.frequency p : F64 Lib) 1 := fun _ => second_is
  refine ⟨by decide, fun p => (hr p).1, fun p => ?_, fun p => ?_⟩
  · rw [(hr p).2, show (settings 3).resolution.toNat = 3 from rfl]; norm_num
  · rw [(hr p).2, show (settings 3).resolution.toNat = 3 from rfl]; norm_num

/-! ### One turn a minute -/

/-- One over the rounded sixtieth is sixty. -/
theorem minute : (1.0 / (1.0 / 60.0) : F64 Lib) = 60.0 := by
  have r60 := is_nat (m := 600) (s := true) (e := 1) 60 (by norm_num) (by norm_num)
  have v : rne ((1 : ℝ) / 60) = 4803839602528529 * 2 ^ (-58 : ℤ) := by
    have hpl : place ((1 : ℝ) / 60) = -58 := place_eq (by norm_num) (by norm_num) (by norm_num)
    unfold rne
    rw [hpl, roundInt_eq (m := 4803839602528529)]
    · norm_num
    · left
      rw [abs_lt]; constructor <;> norm_num
  have w : rne ((1 : ℝ) / (4803839602528529 * 2 ^ (-58 : ℤ))) = 60 := by
    have hpl : place ((1 : ℝ) / (4803839602528529 * 2 ^ (-58 : ℤ))) = -47 :=
      place_eq (by norm_num) (by norm_num) (by norm_num)
    unfold rne
    rw [hpl, roundInt_eq (m := 8444249301319680)]
    · norm_num
    · left
      rw [abs_lt]; constructor <;> norm_num
  obtain ⟨a1, a2⟩ := Raw.div_finite is_one.1 r60.1 (by rw [r60.2]; norm_num) (by
    rw [is_one.2, r60.2]
    exact rne_lt_of_le rep_one.1 (by norm_num))
  rw [is_one.2, r60.2] at a2
  have a3 : (1.0 / 60.0 : F64 Lib).raw.real = 4803839602528529 * 2 ^ (-58 : ℤ) := a2.trans (by exact_mod_cast v)
  obtain ⟨b1, b2⟩ := Raw.div_finite is_one.1 (b := (1.0 / 60.0 : F64 Lib).raw) a1 (by rw [a3]; norm_num) (by
    rw [is_one.2, a3, w]; exact (rep_nat (n := 60) (by norm_num)).2 |> fun h => by exact_mod_cast h)
  rw [is_one.2, a3, w] at b2
  exact is_eq ⟨b1, b2⟩ (by exact_mod_cast r60) (by norm_num)

/-- C76: a run of an engine that turns once a minute, 29 samples requested. -/
theorem minute_ok : ∃ e, Engine.run env alike (components (1.0 / 60.0)) fluid (runInputs 700) (settings 29) = .ok e := by
  have r60 := is_nat (m := 600) (s := true) (e := 1) 60 (by norm_num) (by norm_num)
  have hp' : (60.0 : F64 Lib).raw = fin 60 rep_60 := by
    show pack false (60.0 : ℝ) = _
    rw [show (60.0 : ℝ) = 60 by norm_num, pack_fin _ rep_60]
  refine run_ok ?_ ?_
  · rw [minute]
    refine fine_of (k := 0) (N := 2) (t := 60) (by exact_mod_cast r60) (by norm_num) (by norm_num) rfl (by norm_num) (by norm_num) ?_
      (by norm_num) (by norm_num) (by norm_num)
    intro j hj
    exact_mod_cast rep_nat (n := j * 60) (by omega)
  · rw [minute]
    have hX := end_sixty (L := Lib) hp'
    obtain ⟨dx, h⟩ : ∃ dx, timeStep .checked (60.0 : F64 Lib) 29 = .ok dx := ⟨_, rfl⟩
    have hd := dx_sixty hp' h
    refine ⟨hX.1, by rw [hX.2]; norm_num, by rw [hX.2]; norm_num, dx, 28, h,
      up_of_pos hd.1 (by rw [hd.2]; norm_num), ?_, by norm_num⟩
    rintro ⟨-, hle⟩
    rw [(ticks_sixty hd).2.2, hX.2] at hle
    norm_num at hle

/-- C76: and it reports 28 samples, none later than 58 seconds. -/
example (e : Engine (F64 Lib))
    (h : Engine.run env alike (components (1.0 / 60.0)) fluid (runInputs 700) (settings 29) = .ok e) :
    e.values.time.length = 28 ∧ ∀ t ∈ e.values.time, t.raw.Finite ∧ t.raw.real < 58 :=
  C76_run_lost powf 100 env rfl alike (components (1.0 / 60.0)) fluid (runInputs 700) (settings 29) rfl
    (fun _ => minute) e h

end GridIeeeExample
end Sett
