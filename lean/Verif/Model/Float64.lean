import Verif.Model.Scalar
import Mathlib.Data.Int.Log
import Mathlib.Data.EReal.Basic

/-! # IEEE-754 binary64

The arithmetic of Rust's `f64`: signed zeros, infinities, NaN, subnormals, and rounding to nearest with ties
to even.  A finite non-zero number is the real number it stands for, with a proof that it fits the format.
`+ - * /`, `sqrt`, `abs`, negation and the comparisons are those of the standard.  `sin cos exp ln` are not
specified by the standard, so they are a parameter (`Libm`) of which only the special values are assumed.
All NaNs are one value; whether `total_cmp` sorts it below or above the numbers is part of the parameter,
because Rust leaves the sign of a NaN open. -/

namespace Sett
namespace Float64

/-- Round to the nearest integer, ties to even. -/
noncomputable def roundInt (y : ℝ) : ℤ :=
  if y - ⌊y⌋ < 1 / 2 then ⌊y⌋
  else if 1 / 2 < y - ⌊y⌋ then ⌊y⌋ + 1
  else if Even ⌊y⌋ then ⌊y⌋ else ⌊y⌋ + 1

/-- Exponent of the last place of the format at `x`: 53 significant bits, but never below 2⁻¹⁰⁷⁴. -/
noncomputable def place (x : ℝ) : ℤ := max (Int.log 2 |x|) (-1022) - 52

/-- `x` rounded to nearest even in the format, before overflow is considered. -/
noncomputable def rne (x : ℝ) : ℝ := roundInt (x / 2 ^ place x) * 2 ^ place x

/-- `x` fits 53 significant bits and the exponent range downwards. -/
def Fits (x : ℝ) : Prop := ∃ m e : ℤ, |m| ≤ 2 ^ 53 ∧ -1074 ≤ e ∧ x = m * 2 ^ e

/-- `x` is a finite binary64 number. -/
def Rep (x : ℝ) : Prop := Fits x ∧ |x| < 2 ^ 1024

theorem roundInt_near (y : ℝ) : |(roundInt y : ℝ) - y| ≤ 1 / 2 := by
  have h1 := Int.floor_le y
  have h2 := Int.lt_floor_add_one y
  unfold roundInt
  split_ifs <;> rw [abs_le] <;> push_cast <;> constructor <;> linarith

theorem roundInt_int (m : ℤ) : roundInt (m : ℝ) = m := by
  unfold roundInt
  simp

theorem roundInt_mono {x y : ℝ} (h : x ≤ y) : roundInt x ≤ roundInt y := by
  by_contra hc
  have hc' : roundInt y + 1 ≤ roundInt x := by omega
  have hc'' : (roundInt y : ℝ) + 1 ≤ roundInt x := by exact_mod_cast hc'
  have h1 := abs_le.1 (roundInt_near x)
  have h2 := abs_le.1 (roundInt_near y)
  have : x = y := by linarith [h1.2, h2.1]
  subst this
  omega

theorem roundInt_le {y : ℝ} {m : ℤ} (h : y ≤ m) : roundInt y ≤ m := by
  rw [← roundInt_int m]; exact roundInt_mono h

theorem le_roundInt {y : ℝ} {m : ℤ} (h : (m : ℝ) ≤ y) : m ≤ roundInt y := by
  rw [← roundInt_int m]; exact roundInt_mono h

theorem roundInt_neg (y : ℝ) : roundInt (-y) = -roundInt y := by
  rcases eq_or_ne (⌊y⌋ : ℝ) y with h | h
  · rw [← h]
    have : (-((⌊y⌋ : ℤ) : ℝ)) = ((-⌊y⌋ : ℤ) : ℝ) := by push_cast; ring
    rw [this, roundInt_int, roundInt_int]
  · have h1 := lt_of_le_of_ne (Int.floor_le y) h
    have h2 := Int.lt_floor_add_one y
    have hf : ⌊-y⌋ = -⌊y⌋ - 1 := by
      rw [Int.floor_eq_iff]; push_cast; constructor <;> linarith
    have he : Even (-⌊y⌋ - 1) ↔ ¬Even ⌊y⌋ := by
      rw [Int.even_sub_one, even_neg]
    unfold roundInt
    rw [hf]
    simp only [he]
    push_cast
    by_cases h3 : y - ⌊y⌋ < 1 / 2
    · have a : ¬(-y - (-(⌊y⌋ : ℝ) - 1) < 1 / 2) := by linarith
      have b : 1 / 2 < -y - (-(⌊y⌋ : ℝ) - 1) := by linarith
      rw [if_neg a, if_pos b, if_pos h3]; ring
    · by_cases h4 : 1 / 2 < y - ⌊y⌋
      · have a : -y - (-(⌊y⌋ : ℝ) - 1) < 1 / 2 := by linarith
        rw [if_pos a, if_neg h3, if_pos h4]; ring
      · have a : ¬(-y - (-(⌊y⌋ : ℝ) - 1) < 1 / 2) := by linarith
        have b : ¬(1 / 2 < -y - (-(⌊y⌋ : ℝ) - 1)) := by linarith
        rw [if_neg a, if_neg b, if_neg h3, if_neg h4]
        by_cases h5 : Even ⌊y⌋
        · rw [if_neg (not_not.2 h5), if_pos h5]; ring
        · rw [if_pos h5, if_neg h5]; ring

theorem place_neg (x : ℝ) : place (-x) = place x := by unfold place; rw [abs_neg]

theorem rne_neg (x : ℝ) : rne (-x) = -rne x := by
  unfold rne
  rw [place_neg, neg_div, roundInt_neg]
  push_cast; ring

theorem place_ge (x : ℝ) : -1074 ≤ place x := by
  unfold place
  have := le_max_right (Int.log 2 |x|) (-1022)
  omega

theorem rne_zero : rne 0 = 0 := by
  unfold rne
  have : roundInt (0 / 2 ^ place 0) = 0 := by
    rw [zero_div]; exact_mod_cast roundInt_int 0
  rw [this]; simp

/-- The magnitude is below one unit of the next binade. -/
theorem lt_place (x : ℝ) : |x| < 2 ^ (place x + 53) := by
  rcases eq_or_ne x 0 with rfl | hx
  · simp; positivity
  have h : |x| < (2 : ℝ) ^ (Int.log 2 |x| + 1) := by
    have := Int.lt_zpow_succ_log_self (b := 2) (by norm_num) |x|
    exact_mod_cast this
  refine h.trans_le ?_
  apply zpow_le_zpow_right₀ (by norm_num)
  unfold place
  have := le_max_left (Int.log 2 |x|) (-1022)
  omega

/-- Above the subnormal range the magnitude is at least the bottom of its binade. -/
theorem place_le (x : ℝ) (hx : x ≠ 0) (h : -1074 < place x) : (2 : ℝ) ^ (place x + 52) ≤ |x| := by
  have h1 : place x + 52 = Int.log 2 |x| := by
    unfold place at h ⊢
    rcases max_cases (Int.log 2 |x|) (-1022) with ⟨h1, h2⟩ | ⟨h1, h2⟩ <;> omega
  rw [h1]
  have := Int.zpow_log_le_self (b := 2) (by norm_num) (abs_pos.2 hx)
  exact_mod_cast this

theorem two_pow_pos (k : ℤ) : (0 : ℝ) < 2 ^ k := by positivity

theorem fits_rne (x : ℝ) : Fits (rne x) := by
  refine ⟨roundInt (x / 2 ^ place x), place x, ?_, place_ge x, rfl⟩
  have h : |x / 2 ^ place x| ≤ ((2 ^ 53 : ℤ) : ℝ) := by
    rw [abs_div, abs_of_pos (two_pow_pos _), div_le_iff₀ (two_pow_pos _)]
    have := (lt_place x).le
    rw [zpow_add₀ (by norm_num)] at this
    push_cast
    linarith [this]
  have h' := abs_le.1 h
  rw [abs_le]
  constructor
  · apply le_roundInt
    push_cast at h' ⊢
    exact h'.1
  · exact roundInt_le h'.2

/-- Numbers of the format are multiples of the last place of every number at most as large. -/
theorem fits_multiple {z x : ℝ} (hz : Fits z) (hzx : 2 ^ (place x + 52) ≤ |z| ∨ place x = -1074) :
    ∃ n : ℤ, z = n * 2 ^ place x := by
  obtain ⟨m, e, hm, he, rfl⟩ := hz
  by_cases hk : place x ≤ e
  · refine ⟨m * 2 ^ (e - place x).toNat, ?_⟩
    have : ((2 : ℝ) ^ (e - place x).toNat) = 2 ^ (e - place x) := by
      rw [← zpow_natCast, Int.toNat_of_nonneg (by omega)]
    push_cast
    rw [this, mul_assoc, ← zpow_add₀ (by norm_num)]
    congr 2; omega
  · have hk : e < place x := by omega
    rcases hzx with h | h
    swap; · omega
    rw [abs_mul, abs_of_pos (two_pow_pos e)] at h
    have hm' : |(m : ℝ)| ≤ 2 ^ 53 := by exact_mod_cast hm
    have h2 : (2 : ℝ) ^ (place x + 52) ≤ 2 ^ (53 + e) := by
      refine h.trans ?_
      rw [zpow_add₀ (by norm_num)]
      exact mul_le_mul_of_nonneg_right (by exact_mod_cast hm') (two_pow_pos e).le
    have h3 : place x + 52 ≤ 53 + e := (zpow_le_zpow_iff_right₀ (by norm_num)).1 h2
    have h4 : e = place x - 1 := by omega
    have h5 : (2 : ℝ) ^ 53 ≤ |(m : ℝ)| := by
      have : (2 : ℝ) ^ (place x + 52) = 2 ^ 53 * 2 ^ e := by
        rw [← zpow_natCast, ← zpow_add₀ (by norm_num)]; congr 1; push_cast; omega
      rw [this] at h
      exact le_of_mul_le_mul_right h (two_pow_pos e)
    have h6 : |m| = 2 ^ 53 := by
      apply le_antisymm hm
      exact_mod_cast h5
    have h7 : (2 : ℝ) ^ place x = 2 * 2 ^ e := by
      rw [h4]
      rw [zpow_sub_one₀ (by norm_num)]
      ring
    rcases abs_choice m with h8 | h8
    · refine ⟨2 ^ 52, ?_⟩
      rw [h7, ← h8, h6]; push_cast; ring
    · refine ⟨-2 ^ 52, ?_⟩
      have : m = -2 ^ 53 := by omega
      rw [h7, this]; push_cast; ring

/-- Rounding changes no number of the format. -/
theorem rne_fits {x : ℝ} (h : Fits x) : rne x = x := by
  rcases eq_or_ne x 0 with rfl | hx
  · exact rne_zero
  have hh : 2 ^ (place x + 52) ≤ |x| ∨ place x = -1074 := by
    rcases (place_ge x).lt_or_eq with h | h
    · exact .inl (place_le x hx h)
    · exact .inr h.symm
  obtain ⟨n, hn⟩ := fits_multiple h hh
  unfold rne
  have : x / 2 ^ place x = n := by
    rw [div_eq_iff (two_pow_pos _).ne']; exact hn
  rw [this, roundInt_int]
  exact hn.symm

theorem rne_nonneg {x : ℝ} (h : 0 ≤ x) : 0 ≤ rne x := by
  unfold rne
  refine mul_nonneg ?_ (two_pow_pos _).le
  have : (0 : ℤ) ≤ roundInt (x / 2 ^ place x) := le_roundInt (by push_cast; positivity)
  exact_mod_cast this

theorem rne_mono_nonneg {x y : ℝ} (h0 : 0 ≤ x) (h : x ≤ y) : rne x ≤ rne y := by
  rcases eq_or_lt_of_le h0 with rfl | hx
  · rw [rne_zero]; exact rne_nonneg h
  have hp : place x ≤ place y := by
    unfold place
    have : Int.log 2 |x| ≤ Int.log 2 |y| := by
      apply Int.log_mono_right (abs_pos.2 hx.ne')
      rw [abs_of_nonneg h0, abs_of_nonneg (h0.trans h)]; exact h
    have := max_le_max_right (-1022) this
    omega
  rcases eq_or_lt_of_le hp with hp | hp
  · unfold rne
    rw [hp]
    refine mul_le_mul_of_nonneg_right ?_ (two_pow_pos _).le
    exact_mod_cast roundInt_mono (div_le_div_of_nonneg_right h (two_pow_pos _).le)
  · -- the bottom of y's binade separates them
    have hy := place_le y (hx.trans_le h).ne' (lt_of_le_of_lt (place_ge x) hp)
    rw [abs_of_nonneg (h0.trans h)] at hy
    have hx' := lt_place x
    rw [abs_of_nonneg h0] at hx'
    have hx'' : x ≤ 2 ^ (place y + 52) :=
      hx'.le.trans (zpow_le_zpow_right₀ (by norm_num) (by omega))
    calc rne x ≤ 2 ^ (place y + 52) := by
          unfold rne
          have hn : (2 : ℝ) ^ (place y + 52)
              = ((2 ^ (place y + 52 - place x).toNat : ℤ) : ℝ) * 2 ^ place x := by
            push_cast
            rw [← zpow_natCast, Int.toNat_of_nonneg (by omega), ← zpow_add₀ (by norm_num)]
            congr 1; omega
          rw [hn]
          refine mul_le_mul_of_nonneg_right ?_ (two_pow_pos _).le
          have : roundInt (x / 2 ^ place x) ≤ 2 ^ (place y + 52 - place x).toNat := by
            apply roundInt_le
            rw [div_le_iff₀ (two_pow_pos _), ← hn]
            exact hx''
          exact_mod_cast this
      _ ≤ rne y := by
          unfold rne
          have hn : (2 : ℝ) ^ (place y + 52) = ((2 ^ 52 : ℤ) : ℝ) * 2 ^ place y := by
            push_cast
            rw [zpow_add₀ (by norm_num), mul_comm]; norm_num
          rw [hn] at hy ⊢
          refine mul_le_mul_of_nonneg_right ?_ (two_pow_pos _).le
          have : 2 ^ 52 ≤ roundInt (y / 2 ^ place y) := by
            apply le_roundInt
            rw [le_div_iff₀ (two_pow_pos _)]
            exact hy
          exact_mod_cast this

/-- Rounding is monotone. -/
theorem rne_mono {x y : ℝ} (h : x ≤ y) : rne x ≤ rne y := by
  rcases le_total 0 x with hx | hx
  · exact rne_mono_nonneg hx h
  rcases le_total 0 y with hy | hy
  · have := rne_nonneg (x := -x) (by linarith)
    rw [rne_neg] at this
    linarith [rne_nonneg hy]
  · have := rne_mono_nonneg (x := -y) (y := -x) (by linarith) (by linarith)
    rw [rne_neg, rne_neg] at this
    linarith

theorem abs_rne (x : ℝ) : |rne x| = rne |x| := by
  rcases le_total 0 x with h | h
  · rw [abs_of_nonneg h, abs_of_nonneg (rne_nonneg h)]
  · have := rne_nonneg (x := -x) (by linarith)
    rw [abs_of_nonpos h, rne_neg, abs_of_nonpos (by rw [rne_neg] at this; linarith)]

/-- The result of rounding is at most half a unit in the last place away. -/
theorem rne_near (x : ℝ) : |rne x - x| ≤ 2 ^ (place x - 1) := by
  have h : rne x - x = (roundInt (x / 2 ^ place x) - x / 2 ^ place x) * 2 ^ place x := by
    unfold rne
    rw [sub_mul, div_mul_cancel₀ _ (two_pow_pos _).ne']
  rw [h, abs_mul, abs_of_pos (two_pow_pos _), zpow_sub_one₀ (by norm_num)]
  have := mul_le_mul_of_nonneg_right (roundInt_near (x / 2 ^ place x)) (two_pow_pos (place x)).le
  linarith

/-! ## The numbers and their operations -/

/-- A binary64 datum. -/
inductive Raw where
  | nan
  | inf (neg : Bool)
  | zero (neg : Bool)
  | fin (x : ℝ) (h : Rep x ∧ x ≠ 0)

namespace Raw

/-- The real value of a finite datum (0 for the others). -/
def real : Raw → ℝ
  | fin x _ => x
  | _ => 0

open Classical in
/-- The sign bit (NaN: irrelevant). -/
noncomputable def sign : Raw → Bool
  | nan => false
  | inf s => s
  | zero s => s
  | fin x _ => decide (x < 0)

/-- Neither NaN nor infinite: `f64::is_finite`. -/
def Finite : Raw → Prop
  | nan => False
  | inf _ => False
  | _ => True

/-- The value in the extended reals; none for NaN. -/
noncomputable def ext : Raw → Option EReal
  | nan => none
  | inf true => some ⊥
  | inf false => some ⊤
  | a => some (a.real : EReal)

open Classical in
/-- Deliver a real result: round, then overflow to infinity.  A result that is exactly zero gets the sign
`neg`; one that underflows keeps its own. -/
noncomputable def pack (neg : Bool) (x : ℝ) : Raw :=
  if h0 : rne x = 0 then zero (if x = 0 then neg else decide (x < 0))
  else if h1 : |rne x| < 2 ^ 1024 then fin (rne x) ⟨⟨fits_rne x, h1⟩, h0⟩
  else inf (decide (x < 0))

theorem rep_neg {x : ℝ} (h : Rep x ∧ x ≠ 0) : Rep (-x) ∧ -x ≠ 0 := by
  obtain ⟨⟨⟨m, e, hm, he, hx⟩, hb⟩, h0⟩ := h
  refine ⟨⟨⟨-m, e, by rwa [abs_neg], he, ?_⟩, by rwa [abs_neg]⟩, neg_ne_zero.2 h0⟩
  rw [hx]; push_cast; ring

theorem rep_abs {x : ℝ} (h : Rep x ∧ x ≠ 0) : Rep |x| ∧ |x| ≠ 0 := by
  rcases abs_choice x with h' | h' <;> rw [h']
  · exact h
  · exact rep_neg h

/-- `-a` -/
def neg : Raw → Raw
  | nan => nan
  | inf s => inf !s
  | zero s => zero !s
  | fin x h => fin (-x) (rep_neg h)

/-- `a.abs()` -/
def abs : Raw → Raw
  | nan => nan
  | inf _ => inf false
  | zero _ => zero false
  | fin x h => fin |x| (rep_abs h)

/-- `a + b` -/
noncomputable def add : Raw → Raw → Raw
  | nan, _ => nan
  | _, nan => nan
  | inf s, inf t => if s = t then inf s else nan
  | inf s, _ => inf s
  | _, inf t => inf t
  | zero s, zero t => zero (s && t)
  | a, b => pack false (a.real + b.real)

/-- `a - b` -/
noncomputable def sub (a b : Raw) : Raw := add a (neg b)

/-- `a * b` -/
noncomputable def mul : Raw → Raw → Raw
  | nan, _ => nan
  | _, nan => nan
  | inf _, zero _ => nan
  | zero _, inf _ => nan
  | inf s, b => inf (s ^^ b.sign)
  | a, inf t => inf (a.sign ^^ t)
  | a, b => pack (a.sign ^^ b.sign) (a.real * b.real)

/-- `a / b` -/
noncomputable def div : Raw → Raw → Raw
  | nan, _ => nan
  | _, nan => nan
  | inf _, inf _ => nan
  | zero _, zero _ => nan
  | inf s, b => inf (s ^^ b.sign)
  | a, inf t => zero (a.sign ^^ t)
  | a, zero t => inf (a.sign ^^ t)
  | a, b => pack (a.sign ^^ b.sign) (a.real / b.real)

open Classical in
/-- `a.sqrt()` -/
noncomputable def sqrt : Raw → Raw
  | nan => nan
  | inf s => if s then nan else inf false
  | zero s => zero s
  | fin x _ => if x < 0 then nan else pack false (Real.sqrt x)

open Classical in
/-- `a < b`: false if either is NaN. -/
noncomputable def lt (a b : Raw) : Bool :=
  match a.ext, b.ext with
  | some x, some y => decide (x < y)
  | _, _ => false

open Classical in
/-- `a <= b`: false if either is NaN. -/
noncomputable def le (a b : Raw) : Bool :=
  match a.ext, b.ext with
  | some x, some y => decide (x ≤ y)
  | _, _ => false

open Classical in
/-- `a.total_cmp(b) != Greater`, with NaN below everything (`nanNeg`) or above everything. -/
noncomputable def totalLe (nanNeg : Bool) (a b : Raw) : Bool :=
  match a, b with
  | nan, nan => true
  | nan, _ => nanNeg
  | _, nan => !nanNeg
  | zero s, zero t => s || !t
  | a, b => le a b

/-- `a.is_infinite()` -/
def isInfinite : Raw → Bool
  | inf _ => true
  | _ => false

theorem rep_one : Rep 1 ∧ (1 : ℝ) ≠ 0 :=
  ⟨⟨⟨1, 0, by norm_num, by norm_num, by norm_num⟩, by
    rw [abs_one]; exact one_lt_pow₀ (by norm_num) (by norm_num)⟩, by norm_num⟩

/-- `1.0` -/
def one : Raw := fin 1 rep_one

end Raw

open Raw

/-- The functions Rust takes from the platform's mathematics library, with their special values as in the C
standard (annex F), and the sort position of NaN.  Nothing is assumed about their accuracy. -/
structure Libm where
  sin : Raw → Raw
  cos : Raw → Raw
  exp : Raw → Raw
  ln : Raw → Raw
  nanNeg : Bool
  exp_nan : exp nan = nan
  exp_inf : exp (inf false) = inf false
  exp_neg_inf : exp (inf true) = zero false
  exp_zero (s) : exp (zero s) = one
  exp_fin (x h) : exp (fin x h) ≠ nan ∧ (exp (fin x h)).sign = false
  ln_nan : ln nan = nan
  ln_inf : ln (inf false) = inf false
  ln_neg_inf : ln (inf true) = nan
  ln_zero (s) : ln (zero s) = inf true
  ln_one : ln one = zero false
  ln_neg (x h) : x < 0 → ln (fin x h) = nan
  ln_pos (x h) : 0 < x → (ln (fin x h)).Finite
  sin_nan : sin nan = nan
  sin_inf (s) : sin (inf s) = nan
  sin_zero (s) : sin (zero s) = zero s
  sin_fin (x h) : (sin (fin x h)).Finite
  cos_nan : cos nan = nan
  cos_inf (s) : cos (inf s) = nan
  cos_zero (s) : cos (zero s) = one
  cos_fin (x h) : (cos (fin x h)).Finite

end Float64

open Float64

/-- Rust's `f64` on a platform with mathematics library `L`. -/
def F64 (_ : Libm) : Type := Raw

/-- The datum. -/
def F64.raw {L : Libm} (a : F64 L) : Raw := a

/-- `powi(2)` is multiplication (LLVM's expansion of `llvm.powi` for exponent 2); decimal literals are
correctly rounded; `PI` is the double nearest to π. -/
noncomputable instance instScalarF64 (L : Libm) : Scalar (F64 L) where
  add := Raw.add
  sub := Raw.sub
  mul := Raw.mul
  div := Raw.div
  neg := Raw.neg
  ofScientific m s e := Raw.pack false (OfScientific.ofScientific m s e : ℝ)
  abs := Raw.abs
  sin := L.sin
  cos := L.cos
  exp := L.exp
  ln := L.ln
  sqrt := Raw.sqrt
  powi2 x := Raw.mul x x
  pi := Raw.pack false Real.pi
  lt := Raw.lt
  le := Raw.le
  totalLe := Raw.totalLe L.nanNeg
  isInfinite := Raw.isInfinite
  ofNat n := Raw.pack false (n : ℝ)

instance (L : Libm) : HasInfinity (F64 L) := ⟨Raw.inf false⟩

end Sett
