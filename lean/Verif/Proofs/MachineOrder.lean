import Verif.Proofs.Dopri5Ieee
import Mathlib.Data.EReal.Operations

/-! # Rounding preserves order

The value of a datum in the extended reals, and the operations of binary64 as the exact operations followed by
a monotone function. -/

namespace Sett

open Float64 Raw

namespace Float64.Raw

/-- The value in the extended reals (NaN: irrelevant). -/
noncomputable def V (a : Raw) : EReal := a.ext.getD 0

@[simp] theorem V_zero (s : Bool) : V (zero s) = 0 := by
  simp [V, ext, Raw.real]
@[simp] theorem V_inf_pos : V (inf false) = ⊤ := rfl
@[simp] theorem V_inf_neg : V (inf true) = ⊥ := rfl
@[simp] theorem V_fin (x : ℝ) (h) : V (fin x h) = (x : EReal) := rfl

theorem V_finite {a : Raw} (h : a.Finite) : V a = (a.real : EReal) := by
  unfold V; rw [ext_of_finite h]; rfl

theorem finite_ne_nan {a : Raw} (h : a.Finite) : a ≠ nan := by rintro rfl; exact h

theorem ext_V {a : Raw} (h : a ≠ nan) : a.ext = some (V a) := by
  cases a with
  | nan => exact absurd rfl h
  | inf s => cases s <;> rfl
  | zero s => rfl
  | fin x hx => rfl

theorem le_V {a b : Raw} (ha : a ≠ nan) (hb : b ≠ nan) : a.le b = true ↔ V a ≤ V b := by
  rw [Raw.le_iff, ext_V ha, ext_V hb]
  simp

theorem lt_V {a b : Raw} (ha : a ≠ nan) (hb : b ≠ nan) : a.lt b = true ↔ V a < V b := by
  rw [Raw.lt_iff, ext_V ha, ext_V hb]
  simp

theorem ne_nan_of_le {a b : Raw} (h : a.le b = true) : a ≠ nan ∧ b ≠ nan := by
  constructor <;> rintro rfl
  · rw [nan_le] at h; cases h
  · rw [le_nan] at h; cases h

/-- Not below, NaN or not. -/
theorem not_lt_V {a b : Raw} (h : a ≠ nan → b ≠ nan → V b ≤ V a) : a.lt b = false := by
  rw [Bool.eq_false_iff]
  intro hc
  have h1 : a ≠ nan := by rintro rfl; rw [nan_lt] at hc; cases hc
  have h2 : b ≠ nan := by rintro rfl; rw [lt_nan] at hc; cases hc
  exact absurd ((lt_V h1 h2).1 hc) (not_lt.2 (h h1 h2))

theorem V_pack (s : Bool) (x : ℝ) :
    V (pack s x) = if |rne x| < 2 ^ 1024 then ((rne x : ℝ) : EReal) else if x < 0 then ⊥ else ⊤ := by
  unfold pack
  by_cases h0 : rne x = 0
  · rw [dif_pos h0, V_zero, h0, abs_zero, if_pos (pow_pos two_pos 1024)]; rfl
  · rw [dif_neg h0]
    by_cases h1 : |rne x| < 2 ^ 1024
    · rw [dif_pos h1, if_pos h1, V_fin]
    · rw [dif_neg h1, if_neg h1]
      by_cases h2 : x < 0 <;> simp [h2]

theorem V_pack_sign (s t : Bool) (x : ℝ) : V (pack s x) = V (pack t x) := by rw [V_pack, V_pack]

theorem V_pack_mono (s t : Bool) {x y : ℝ} (h : x ≤ y) : V (pack s x) ≤ V (pack t y) := by
  have hm := rne_mono h
  have big : ∀ z : ℝ, ¬|rne z| < 2 ^ 1024 → z < 0 → rne z ≤ -2 ^ 1024 := by
    intro z hz hz0
    have : rne z ≤ 0 := by rw [← rne_zero]; exact rne_mono hz0.le
    rw [abs_of_nonpos this, not_lt] at hz; exact le_neg_of_le_neg hz
  have big' : ∀ z : ℝ, ¬|rne z| < 2 ^ 1024 → ¬z < 0 → 2 ^ 1024 ≤ rne z := by
    intro z hz hz0
    rw [abs_of_nonneg (rne_nonneg (not_lt.1 hz0)), not_lt] at hz; exact hz
  rw [V_pack, V_pack]
  by_cases hx : |rne x| < 2 ^ 1024 <;> by_cases hy : |rne y| < 2 ^ 1024
  · rw [if_pos hx, if_pos hy]; exact EReal.coe_le_coe_iff.2 hm
  · rw [if_pos hx, if_neg hy]
    by_cases h2 : y < 0
    · have := big y hy h2
      have := (abs_lt.1 hx).1
      linarith
    · rw [if_neg h2]; exact le_top
  · rw [if_neg hx, if_pos hy]
    by_cases h2 : x < 0
    · rw [if_pos h2]; exact bot_le
    · have := big' x hx h2
      have := (abs_lt.1 hy).2
      linarith
  · rw [if_neg hx, if_neg hy]
    by_cases h2 : x < 0
    · rw [if_pos h2]; exact bot_le
    · have : ¬y < 0 := fun hc => h2 (lt_of_le_of_lt h hc)
      rw [if_neg h2, if_neg this]

theorem V_pack_rep (s : Bool) {x : ℝ} (h : Rep x) : V (pack s x) = (x : EReal) := by
  rw [V_pack, rne_rep h, if_pos h.2]

/-- Rounding in the extended reals. -/
noncomputable def fl (x : EReal) : EReal :=
  if x = ⊥ then ⊥ else if x = ⊤ then ⊤ else V (pack false x.toReal)

@[simp] theorem fl_coe (x : ℝ) : fl (x : EReal) = V (pack false x) := by
  unfold fl
  rw [if_neg (EReal.coe_ne_bot x), if_neg (EReal.coe_ne_top x), EReal.toReal_coe]
@[simp] theorem fl_bot : fl ⊥ = ⊥ := by simp [fl]
@[simp] theorem fl_top : fl ⊤ = ⊤ := by simp [fl]

theorem fl_mono {x y : EReal} (h : x ≤ y) : fl x ≤ fl y := by
  induction x with
  | bot => rw [fl_bot]; exact bot_le
  | top => rw [top_le_iff] at h; rw [h]
  | coe x =>
    induction y with
    | bot => exact absurd h (not_le.2 (EReal.bot_lt_coe x))
    | top => rw [fl_top]; exact le_top
    | coe y => rw [fl_coe, fl_coe]; exact V_pack_mono _ _ (EReal.coe_le_coe_iff.1 h)

theorem fl_V (a : Raw) : fl (V a) = V a := by
  cases a with
  | nan =>
    show fl 0 = 0
    rw [← EReal.coe_zero, fl_coe, pack_zero, V_zero]; rfl
  | inf s => cases s <;> simp
  | zero s => rw [V_zero, ← EReal.coe_zero, fl_coe, pack_zero, V_zero]; rfl
  | fin x h => rw [V_fin, fl_coe, V_pack_rep _ h.1]

theorem fl_zero : fl 0 = 0 := by simpa using fl_V (zero false)

theorem fl_nonneg {x : EReal} (h : 0 ≤ x) : 0 ≤ fl x := by
  rw [← fl_zero]; exact fl_mono h

theorem V_neg (a : Raw) : V a.neg = -V a := by
  cases a with
  | nan => show (0 : EReal) = -0; simp
  | inf s => cases s <;> simp [Raw.neg]
  | zero s => simp [Raw.neg]
  | fin x h => simp [Raw.neg]

theorem V_add {a b : Raw} (h : add a b ≠ nan) : V (add a b) = fl (V a + V b) := by
  have fin_ : ∀ {a b : Raw}, a.Finite → b.Finite → V (add a b) = fl (V a + V b) := by
    intro a b ha hb
    rw [V_finite ha, V_finite hb, ← EReal.coe_add, fl_coe]
    rcases (finite_iff a).1 ha with ⟨s, rfl⟩ | ⟨x, hx, rfl⟩ <;>
      rcases (finite_iff b).1 hb with ⟨t, rfl⟩ | ⟨y, hy, rfl⟩
    · show V (zero _) = _
      simp [Raw.real, pack_zero]
    · rfl
    · rfl
    · rfl
  cases a with
  | nan => exact absurd (nan_add b) h
  | inf s =>
    cases b with
    | nan => exact absurd rfl h
    | inf t => cases s <;> cases t <;> first | rfl | (exact absurd rfl h)
    | zero t => cases s <;> simp [add]
    | fin y hy => cases s <;> simp [add]
  | zero s =>
    cases b with
    | nan => exact absurd rfl h
    | inf t => cases t <;> simp [add]
    | zero t => exact fin_ trivial trivial
    | fin y hy => exact fin_ trivial trivial
  | fin x hx =>
    cases b with
    | nan => exact absurd rfl h
    | inf t => cases t <;> simp [add]
    | zero t => exact fin_ trivial trivial
    | fin y hy => exact fin_ trivial trivial

theorem V_sub {a b : Raw} (h : sub a b ≠ nan) : V (sub a b) = fl (V a - V b) := by
  unfold sub at h ⊢
  rw [V_add h, V_neg]; rfl

theorem sign_real {a : Raw} (ha : a.Finite) (h0 : a.real ≠ 0) : a.sign = decide (a.real < 0) := by
  rcases (finite_iff a).1 ha with ⟨s, rfl⟩ | ⟨x, hx, rfl⟩
  · exact absurd rfl h0
  · rfl

theorem V_mul {a b : Raw} (h : mul a b ≠ nan) : V (mul a b) = fl (V a * V b) := by
  have fin_ : ∀ {a b : Raw}, a.Finite → b.Finite → V (mul a b) = fl (V a * V b) := by
    intro a b ha hb
    rw [V_finite ha, V_finite hb, ← EReal.coe_mul, fl_coe]
    rcases (finite_iff a).1 ha with ⟨s, rfl⟩ | ⟨x, hx, rfl⟩ <;>
      rcases (finite_iff b).1 hb with ⟨t, rfl⟩ | ⟨y, hy, rfl⟩ <;> exact V_pack_sign _ _ _
  have infr : ∀ (s : Bool) (y : ℝ) (hy), V (mul (inf s) (fin y hy)) = fl (V (inf s) * V (fin y hy)) := by
    intro s y hy
    show V (inf (s ^^ decide (y < 0))) = _
    rcases lt_or_gt_of_ne hy.2 with h' | h'
    · cases s
      · simp [h', EReal.top_mul_coe_of_neg h']
      · simp [h', EReal.bot_mul_coe_of_neg h']
    · have h'' : ¬y < 0 := not_lt.2 h'.le
      cases s
      · simp [h'', EReal.top_mul_coe_of_pos h']
      · simp [h'', EReal.bot_mul_coe_of_pos h']
  have infl : ∀ (s : Bool) (y : ℝ) (hy), V (mul (fin y hy) (inf s)) = fl (V (fin y hy) * V (inf s)) := by
    intro s y hy
    have := infr s y hy
    rw [mul_comm] at this
    rw [← this]
    show V (inf (decide (y < 0) ^^ s)) = V (inf (s ^^ decide (y < 0)))
    rw [Bool.xor_comm]
  cases a with
  | nan => exact absurd (nan_mul b) h
  | inf s =>
    cases b with
    | nan => exact absurd rfl h
    | inf t => cases s <;> cases t <;> simp [mul, Raw.sign]
    | zero t => exact absurd rfl h
    | fin y hy => exact infr s y hy
  | zero s =>
    cases b with
    | nan => exact absurd rfl h
    | inf t => exact absurd rfl h
    | zero t => exact fin_ trivial trivial
    | fin y hy => exact fin_ trivial trivial
  | fin x hx =>
    cases b with
    | nan => exact absurd rfl h
    | inf t => exact infl t x hx
    | zero t => exact fin_ trivial trivial
    | fin y hy => exact fin_ trivial trivial

theorem add_ne {a b : Raw} (h : add a b ≠ nan) : a ≠ nan ∧ b ≠ nan :=
  ⟨by rintro rfl; exact h (nan_add _), by rintro rfl; exact h (add_nan _)⟩
theorem sub_ne {a b : Raw} (h : sub a b ≠ nan) : a ≠ nan ∧ b ≠ nan :=
  ⟨by rintro rfl; exact h (nan_sub _), by rintro rfl; exact h (sub_nan _)⟩
theorem mul_ne {a b : Raw} (h : mul a b ≠ nan) : a ≠ nan ∧ b ≠ nan :=
  ⟨by rintro rfl; exact h (nan_mul _), by rintro rfl; exact h (mul_nan _)⟩
theorem div_ne {a b : Raw} (h : div a b ≠ nan) : a ≠ nan ∧ b ≠ nan :=
  ⟨by rintro rfl; exact h (nan_div _), by rintro rfl; exact h (div_nan _)⟩

theorem V_nonneg {a : Raw} (h : a.sign = false) : 0 ≤ V a := by
  cases a with
  | nan => exact le_rfl
  | inf s => cases h; exact le_top
  | zero s => simp
  | fin x hx =>
    rw [V_fin]
    exact EReal.coe_nonneg.2 (not_lt.1 (of_decide_eq_false h))

/-- A quotient with a positive or positively signed zero denominator that is not less than the numerator. -/
theorem V_div_le_one {a b : Raw} (ha : 0 ≤ V a) (hab : V a ≤ V b) (h : div a b ≠ nan) (hs : b.sign = false) :
    V (div a b) ≤ 1 := by
  cases b with
  | nan => exact absurd (div_nan _) h
  | inf t =>
    cases a with
    | nan => exact absurd rfl h
    | inf s => exact absurd rfl h
    | zero s => show V (zero _) ≤ _; simp
    | fin x hx => show V (zero _) ≤ _; simp
  | zero t =>
    cases a with
    | nan => exact absurd rfl h
    | inf s =>
      cases s
      · rw [V_inf_pos, V_zero] at hab; exact absurd hab (by simp)
      · rw [V_inf_neg] at ha; exact absurd ha (by simp)
    | zero s => exact absurd rfl h
    | fin x hx =>
      rw [V_fin] at ha hab
      rw [V_zero] at hab
      exact absurd (le_antisymm (EReal.coe_nonpos.1 hab) (EReal.coe_nonneg.1 ha)) hx.2
  | fin y hy =>
    have y0 : 0 < y := lt_of_le_of_ne (not_lt.1 (of_decide_eq_false hs)) hy.2.symm
    have key : ∀ (s : Bool) (x : ℝ), 0 ≤ x → x ≤ y → V (pack s (x / y)) ≤ 1 := by
      intro s x hx hxy
      have := V_pack_mono s false ((div_le_one y0).2 hxy)
      rwa [V_pack_rep false rep_one.1] at this
    cases a with
    | nan => exact absurd rfl h
    | inf s =>
      cases s
      · rw [V_inf_pos, V_fin] at hab; exact absurd hab (by simp)
      · rw [V_inf_neg] at ha; exact absurd ha (by simp)
    | zero s => exact key _ 0 le_rfl y0.le
    | fin x hx => exact key _ x (EReal.coe_nonneg.1 ha) (EReal.coe_le_coe_iff.1 hab)

/-- One over a number between zero and one. -/
theorem one_le_V_div {b : Raw} (hb : V b ≤ 1) (h : b ≠ nan) (hs : b.sign = false) : 1 ≤ V (div one b) := by
  cases b with
  | nan => exact absurd rfl h
  | inf t => cases hs; rw [V_inf_pos] at hb; exact absurd hb (by simpa using EReal.coe_ne_top 1)
  | zero t =>
    cases hs
    show 1 ≤ V (inf (one.sign ^^ false))
    have : one.sign = false := decide_eq_false (by norm_num)
    rw [this]; exact le_top
  | fin y hy =>
    have y0 : 0 < y := lt_of_le_of_ne (not_lt.1 (of_decide_eq_false hs)) hy.2.symm
    show 1 ≤ V (pack _ (1 / y))
    have := V_pack_mono false (one.sign ^^ (fin y hy).sign) ((one_le_div y0).2 (EReal.coe_le_coe_iff.1 hb))
    rwa [V_pack_rep false rep_one.1] at this

theorem V_sqrt_mono {a b : Raw} (ha : 0 ≤ V a) (h : V a ≤ V b) (hn : a ≠ nan) (hb : Raw.sqrt b ≠ nan) :
    V (Raw.sqrt a) ≤ V (Raw.sqrt b) := by
  have sq : ∀ (x : ℝ) (hx), 0 ≤ x → Raw.sqrt (fin x hx) = pack false (Real.sqrt x) := fun x hx h0 =>
    if_neg (not_lt.2 h0)
  have nn : ∀ x : ℝ, 0 ≤ V (pack false (Real.sqrt x)) := fun x => V_nonneg (sign_pack rfl (Real.sqrt_nonneg x))
  cases b with
  | nan => exact absurd rfl hb
  | inf t =>
    cases t
    · show _ ≤ V (inf false)
      exact le_top
    · exact absurd rfl hb
  | zero t =>
    cases a with
    | nan => exact absurd rfl hn
    | inf s => cases s
               · rw [V_inf_pos, V_zero] at h; exact absurd h (by simp)
               · rw [V_inf_neg] at ha; exact absurd ha (by simp)
    | zero s => show V (zero _) ≤ V (zero _); simp
    | fin x hx =>
      rw [V_zero] at h
      exact absurd (le_antisymm (EReal.coe_nonpos.1 h) (EReal.coe_nonneg.1 ha)) hx.2
  | fin y hy =>
    cases a with
    | nan => exact absurd rfl hn
    | inf s => cases s
               · rw [V_inf_pos, V_fin] at h; exact absurd h (by simp)
               · rw [V_inf_neg] at ha; exact absurd ha (by simp)
    | zero s =>
      rw [V_zero, V_fin] at h
      rw [sq y hy (EReal.coe_nonneg.1 h)]
      show V (zero _) ≤ _
      rw [V_zero]; exact nn y
    | fin x hx =>
      have hx0 := EReal.coe_nonneg.1 ha
      have hxy := EReal.coe_le_coe_iff.1 h
      rw [sq x hx hx0, sq y hy (hx0.trans hxy)]
      exact V_pack_mono _ _ (Real.sqrt_le_sqrt hxy)

end Float64.Raw
end Sett
