import Verif.Proofs.MachineOrder
import Verif.Props.GridLost
import Verif.Props.Averages
import Verif.Proofs.Performance
import Verif.Props.Engine

/-! # Signs and orderings survive rounding (C77)

Everything here is about binary64, with every operation rounded.  `Scalar.lt a b = false` says that `a` never
compares below `b`; it leaves room for NaN. -/

namespace Sett

open Float64 Raw Spec

variable {L : Libm}

/-- What any usable mathematics library delivers: cosines between −1 and 1, and exponentials of numbers that
are not positive at most 1. -/
structure Spec.Tame (L : Libm) : Prop where
  cos_range (a : F64 L) : Scalar.lt 1.0 (Scalar.cos a) = false ∧ Scalar.lt (Scalar.cos a) (-1.0) = false
  exp_range (a : F64 L) : Scalar.lt 0.0 a = false → Scalar.lt 1.0 (Scalar.exp a) = false

/-- The value in the extended reals. -/
noncomputable def val (a : F64 L) : EReal := V a.raw

/-- Not NaN. -/
def Num (a : F64 L) : Prop := a.raw ≠ nan

theorem num_add {a b : F64 L} (h : Num (a + b)) : Num a ∧ Num b := add_ne h
theorem num_sub {a b : F64 L} (h : Num (a - b)) : Num a ∧ Num b := sub_ne h
theorem num_mul {a b : F64 L} (h : Num (a * b)) : Num a ∧ Num b := mul_ne h
theorem num_div {a b : F64 L} (h : Num (a / b)) : Num a ∧ Num b := div_ne h
theorem num_neg {a : F64 L} (h : Num (-a)) : Num a := by
  intro h'
  refine h ?_
  show Raw.neg a.raw = nan
  rw [h']; rfl
theorem num_finite {a : F64 L} (h : a.raw.Finite) : Num a := finite_ne_nan h
theorem num_up {m : ℕ} {s : Bool} {e : ℕ} : Num (OfScientific.ofScientific m s e : F64 L) := pack_ne_nan _ _

theorem val_add {a b : F64 L} (h : Num (a + b)) : val (a + b) = fl (val a + val b) := V_add h
theorem val_sub {a b : F64 L} (h : Num (a - b)) : val (a - b) = fl (val a - val b) := V_sub h
theorem val_mul {a b : F64 L} (h : Num (a * b)) : val (a * b) = fl (val a * val b) := V_mul h
theorem val_neg (a : F64 L) : val (-a) = -val a := V_neg a.raw
theorem val_fl (a : F64 L) : fl (val a) = val a := fl_V a.raw
theorem val_finite {a : F64 L} (h : a.raw.Finite) : val a = (a.raw.real : EReal) := V_finite h
theorem val_up {a : F64 L} (h : Up a) : 0 ≤ val a := V_nonneg h

theorem lt_val {a b : F64 L} (ha : Num a) (hb : Num b) : Scalar.lt a b = true ↔ val a < val b := lt_V ha hb
theorem le_val {a b : F64 L} (ha : Num a) (hb : Num b) : Scalar.le a b = true ↔ val a ≤ val b := le_V ha hb
theorem num_le {a b : F64 L} (h : Scalar.le a b = true) : Num a ∧ Num b := ne_nan_of_le h
theorem num_lt {a b : F64 L} (h : Scalar.lt a b = true) : Num a ∧ Num b := by
  constructor <;> intro h'
  · rw [show Scalar.lt a b = (a.raw).lt b.raw from rfl, h', Raw.nan_lt] at h; cases h
  · rw [show Scalar.lt a b = (a.raw).lt b.raw from rfl, h', Raw.lt_nan] at h; cases h

theorem not_below {a b : F64 L} (h : Num a → Num b → val b ≤ val a) : Scalar.lt a b = false := not_lt_V h

theorem val_le_of_not_below {a b : F64 L} (h : Scalar.lt a b = false) (ha : Num a) (hb : Num b) :
    val b ≤ val a := by
  by_contra hc
  rw [(lt_val ha hb).2 (not_le.1 hc)] at h
  cases h

theorem val_le {a b : F64 L} (h : Scalar.le a b = true) : val a ≤ val b :=
  (le_val (num_le h).1 (num_le h).2).1 h

@[simp] theorem val_one : val (1.0 : F64 L) = 1 := by
  unfold val F64.raw; rw [ieee_one]; rfl
@[simp] theorem val_zero : val (0.0 : F64 L) = 0 := by
  unfold val F64.raw; rw [ieee_zero]; simp
@[simp] theorem val_two : val (2.0 : F64 L) = ((2 : ℝ) : EReal) := by
  unfold val F64.raw; rw [ieee_two]; rfl

theorem rep_half : Rep (1 / 2) ∧ (1 / 2 : ℝ) ≠ 0 :=
  ⟨⟨⟨1, -1, by norm_num, by norm_num, by norm_num⟩, by
    rw [abs_of_nonneg (by norm_num)]
    exact lt_trans (by norm_num : (1 / 2 : ℝ) < 1) (one_lt_pow₀ (by norm_num) (by norm_num))⟩, by norm_num⟩

theorem ieee_half : (0.5 : F64 L) = (fin (1 / 2) rep_half : Raw) := by
  show Raw.pack false (OfScientific.ofScientific 5 true 1 : ℝ) = _
  rw [show (OfScientific.ofScientific 5 true 1 : ℝ) = 1 / 2 by norm_num]
  exact pack_fin false rep_half

@[simp] theorem val_half : val (0.5 : F64 L) = ((1 / 2 : ℝ) : EReal) := by
  unfold val F64.raw; rw [ieee_half]; rfl

theorem fl_rep {x : ℝ} (h : Rep x) : fl (x : EReal) = x := by rw [fl_coe, V_pack_rep _ h]

theorem le_add_up {a d : F64 L} (hd : 0 ≤ val d) (h : Num (a + d)) : val a ≤ val (a + d) := by
  rw [val_add h, ← val_fl a]
  apply fl_mono
  rw [val_fl]
  exact le_add_of_nonneg_right hd

theorem sub_up_le {a d : F64 L} (hd : 0 ≤ val d) (h : Num (a - d)) : val (a - d) ≤ val a := by
  rw [val_sub h, ← val_fl a]
  apply fl_mono
  rw [val_fl]
  exact EReal.sub_le_of_le_add' (le_add_of_nonneg_left hd)

theorem mul_up {a b : F64 L} (ha : 0 ≤ val a) (hb : 0 ≤ val b) (h : Num (a * b)) : 0 ≤ val (a * b) := by
  rw [val_mul h]; exact fl_nonneg (mul_nonneg ha hb)

theorem eq_inf {a : Raw} (ha : a ≠ nan) : (V a = ⊤ → a = inf false) ∧ (V a = ⊥ → a = inf true) := by
  cases a with
  | nan => exact absurd rfl ha
  | inf s => cases s <;> simp
  | zero s => simp
  | fin x h => simp

theorem sub_le_up {a b : F64 L} (hb : val b ≤ val a) (h : Num (a - b)) : 0 ≤ val (a - b) := by
  rw [val_sub h]
  apply fl_nonneg
  obtain ⟨na, nb⟩ := num_sub h
  have bad : ∀ s : Bool, ¬(a.raw = inf s ∧ b.raw = inf s) := by
    rintro s ⟨h1, h2⟩
    refine h ?_
    show sub a.raw b.raw = nan
    rw [h1, h2]; exact Raw.inf_sub_inf s
  refine (EReal.sub_nonneg ?_ ?_).2 hb
  · by_contra hc
    rw [not_or, not_not, not_not] at hc
    exact bad false ⟨(eq_inf na).1 hc.1, (eq_inf nb).1 hc.2⟩
  · by_contra hc
    rw [not_or, not_not, not_not] at hc
    exact bad true ⟨(eq_inf na).2 hc.1, (eq_inf nb).2 hc.2⟩

/-- `1 + cos`, between 0 and 2. -/
theorem one_plus_cos (hL : Tame L) {a : F64 L} (h : Num (1.0 + Scalar.cos a : F64 L)) :
    0 ≤ val (1.0 + Scalar.cos a : F64 L) ∧ val (1.0 + Scalar.cos a : F64 L) ≤ ((2 : ℝ) : EReal) := by
  have hc := (num_add h).2
  have h1 := val_le_of_not_below (hL.cos_range a).1 num_up hc
  have h2 := val_le_of_not_below (hL.cos_range a).2 hc (by
    intro h; exact absurd h (by
      show Raw.neg _ ≠ nan
      rw [ieee_one]; rintro ⟨⟩))
  rw [val_one] at h1
  rw [val_neg, val_one] at h2
  rw [val_add h, val_one]
  constructor
  · apply fl_nonneg
    calc (0 : EReal) = 1 + -1 := by rw [← sub_eq_add_neg]; exact (EReal.sub_self (by decide) (by decide)).symm
      _ ≤ _ := by gcongr
  · have : (1 : EReal) + val (Scalar.cos a : F64 L) ≤ ((2 : ℝ) : EReal) := by
      calc (1 : EReal) + val (Scalar.cos a : F64 L) ≤ 1 + 1 := by gcongr
        _ = _ := by norm_cast
    calc fl _ ≤ fl ((2 : ℝ) : EReal) := fl_mono this
      _ = _ := fl_rep rep_two.1

/-- Half of a number of ordinary size is exact. -/
theorem half_exact {s : F64 L} (hs : s.raw.Finite) (h : (2 : ℝ) ^ (-1020 : ℤ) ≤ s.raw.real) :
    (0.5 * s : F64 L).raw.Finite ∧ (0.5 * s : F64 L).raw.real = s.raw.real / 2 := by
  have hp : 0 < s.raw.real := (two_pow_pos _).trans_le h
  have hr := Raw.rep_real s.raw
  have hrep : Rep (s.raw.real / 2) := by
    refine ⟨?_, ?_⟩
    · rcases fits_half hr.1 with h' | ⟨n, hn, hy⟩
      · exact h'
      · exfalso
        have h3 : s.raw.real ≤ 2 ^ 53 * 2 ^ (-1074 : ℤ) := by
          rw [hy]
          have : (n : ℝ) ≤ 2 ^ 53 := by exact_mod_cast (le_abs_self n).trans hn
          exact mul_le_mul_of_nonneg_right this (two_pow_pos _).le
        have h4 : (2 : ℝ) ^ 53 * 2 ^ (-1074 : ℤ) = 2 ^ (-1021 : ℤ) := by
          rw [← zpow_natCast, ← zpow_add₀ (by norm_num)]; norm_num
        have h5 : (2 : ℝ) ^ (-1021 : ℤ) < 2 ^ (-1020 : ℤ) :=
          zpow_lt_zpow_right₀ (by norm_num) (by norm_num)
        rw [h4] at h3
        exact absurd (h5.trans_le (h.trans h3)) (lt_irrefl _)
    · have := hr.2
      rw [abs_of_pos hp] at this
      rw [abs_of_pos (half_pos hp)]
      exact (half_lt_self hp).trans this
  have e : (1 / 2 : ℝ) * s.raw.real = s.raw.real / 2 := by ring
  obtain ⟨g1, g2⟩ := Raw.mul_finite (a := fin (1 / 2) rep_half) (b := s.raw) trivial hs (by
    show |rne ((1 / 2 : ℝ) * s.raw.real)| < _
    rw [e, rne_rep hrep]; exact hrep.2)
  rw [ieee_half]
  refine ⟨g1, g2.trans ?_⟩
  show rne ((1 / 2 : ℝ) * s.raw.real) = _
  rw [e, rne_rep hrep]

/-! ## The volumes of the drives -/

theorem product_finite {a b : F64 L} {x y : ℝ} (ha : a.raw.Finite) (hb : b.raw.Finite) (hx : |a.raw.real| ≤ x)
    (hy : |b.raw.real| ≤ y) (h : Rep (x * y)) : (a * b).raw.Finite :=
  (Raw.mul_finite ha hb (rne_lt_of_le h (by
    rw [abs_mul]
    exact mul_le_mul hx hy (abs_nonneg _) ((abs_nonneg _).trans hx)))).1

/-- Clearance plus half the swept volume times one plus a cosine. -/
theorem piston_bounds (hL : Tame L) {c s a : F64 L} (hs : Scalar.le 0.0 s = true)
    (hn : Num (c + 0.5 * s * (1.0 + Scalar.cos a))) :
    Scalar.le c (c + 0.5 * s * (1.0 + Scalar.cos a)) = true := by
  obtain ⟨n1, n2⟩ := num_add hn
  obtain ⟨n3, n4⟩ := num_mul n2
  rw [le_val n1 hn]
  refine le_add_up (mul_up (mul_up ?_ ?_ n3) (one_plus_cos hL n4).1 n2) hn
  · rw [val_half]; exact EReal.coe_nonneg.2 (by norm_num)
  · have := val_le hs
    rwa [val_zero] at this

theorem lit_ordinary : ((2 ^ (-1020 : ℤ) : ℝ) : EReal) ≤ val (1e-30 : F64 L) := by
  have h1 : (2 : ℝ) ^ (-1020 : ℤ) ≤ 2 ^ (-100 : ℤ) := zpow_le_zpow_right₀ (by norm_num) (by norm_num)
  have h2 : (2 : ℝ) ^ (-100 : ℤ) ≤ (1e-30 : ℝ) := by norm_num
  have hr : Rep (2 ^ (-100 : ℤ)) := by
    refine ⟨⟨1, -100, by norm_num, by norm_num, by simp⟩, ?_⟩
    rw [abs_of_pos (two_pow_pos _), ← zpow_natCast]
    exact zpow_lt_zpow_right₀ (by norm_num) (by norm_num)
  calc ((2 ^ (-1020 : ℤ) : ℝ) : EReal) ≤ ((2 ^ (-100 : ℤ) : ℝ) : EReal) := EReal.coe_le_coe_iff.2 h1
    _ = V (pack false (2 ^ (-100 : ℤ))) := (V_pack_rep false hr).symm
    _ ≤ _ := V_pack_mono _ _ h2

theorem ordinary {s : F64 L} (hs : Scalar.le 1e-30 s = true) (hf : s.raw.Finite) :
    (2 : ℝ) ^ (-1020 : ℤ) ≤ s.raw.real := by
  have := lit_ordinary.trans (val_le hs)
  rwa [val_finite hf, EReal.coe_le_coe_iff] at this

theorem positive_of {s : F64 L} (hs : Scalar.le 1e-30 s = true) : Scalar.le 0.0 s = true := by
  rw [le_val num_up (num_le hs).2, val_zero]
  exact (EReal.coe_nonneg.2 (two_pow_pos _).le).trans (lit_ordinary.trans (val_le hs))

theorem piston_le (hL : Tame L) {c s a : F64 L} (hs : Scalar.le 1e-30 s = true)
    (hn : Num (c + 0.5 * s * (1.0 + Scalar.cos a))) (hn' : Num (c + s)) :
    Scalar.le (c + 0.5 * s * (1.0 + Scalar.cos a)) (c + s) = true := by
  obtain ⟨n1, n2⟩ := num_add hn
  obtain ⟨n3, n4⟩ := num_mul n2
  have ns := (num_add hn').2
  rw [le_val hn hn', val_add hn, val_add hn']
  apply fl_mono
  gcongr
  -- half the swept volume is exact, and doubling it is too
  rcases eq_or_ne (val s) ⊤ with ht | ht
  · rw [ht]; exact le_top
  have hlow := lit_ordinary.trans (val_le hs)
  have hfin : s.raw.Finite := by
    rcases hc : s.raw with _ | t | t | ⟨x, hx⟩
    · exact absurd hc ns
    · cases t
      · exact absurd (show val s = ⊤ by unfold val; rw [hc]; rfl) ht
      · rw [show val s = ⊥ by unfold val; rw [hc]; rfl, le_bot_iff] at hlow
        exact absurd hlow (EReal.coe_ne_bot _)
    · trivial
    · trivial
  rw [val_finite hfin, EReal.coe_le_coe_iff] at hlow
  obtain ⟨f1, f2⟩ := half_exact hfin hlow
  have h0 : (0 : ℝ) ≤ s.raw.real := (two_pow_pos _).le.trans hlow
  rw [val_mul n2, val_finite f1, f2]
  calc fl (((s.raw.real / 2 : ℝ) : EReal) * val (1.0 + Scalar.cos a : F64 L))
      ≤ fl (((s.raw.real / 2 : ℝ) : EReal) * ((2 : ℝ) : EReal)) :=
        fl_mono (mul_le_mul_of_nonneg_left (one_plus_cos hL n4).2 (EReal.coe_nonneg.2 (by linarith)))
    _ = fl (s.raw.real : EReal) := by rw [← EReal.coe_mul]; congr 2; ring
    _ = val s := by rw [fl_rep (Raw.rep_real _), val_finite hfin]

theorem add_num {a b : F64 L} (ha : a.raw.Finite) (hb : b.raw.Finite) : Num (a + b) := by
  show add a.raw b.raw ≠ nan
  rcases (finite_iff a.raw).1 ha with ⟨s, h⟩ | ⟨x, hx, h⟩ <;>
    rcases (finite_iff b.raw).1 hb with ⟨t, h'⟩ | ⟨y, hy, h'⟩ <;> rw [h, h'] <;>
    first | exact pack_ne_nan _ _ | (rintro ⟨⟩)

theorem finite_between {a : F64 L} (hn : Num a) {x y : ℝ} (h1 : (x : EReal) ≤ val a) (h2 : val a ≤ (y : EReal)) :
    a.raw.Finite := by
  rcases hc : a.raw with _ | t | t | ⟨z, hz⟩
  · exact absurd hc hn
  · cases t
    · rw [show val a = ⊤ by unfold val; rw [hc]; rfl, top_le_iff] at h2
      exact absurd h2 (EReal.coe_ne_top _)
    · rw [show val a = ⊥ by unfold val; rw [hc]; rfl, le_bot_iff] at h1
      exact absurd h1 (EReal.coe_ne_bot _)
  · trivial
  · trivial

theorem cos_finite {a : F64 L} (h : a.raw.Finite) : (Scalar.cos a : F64 L).raw.Finite := by
  show (L.cos a.raw).Finite
  rcases (finite_iff a.raw).1 h with ⟨s, h⟩ | ⟨x, hx, h⟩ <;> rw [h]
  · rw [L.cos_zero]; trivial
  · exact L.cos_fin x hx

theorem piston_num (hL : Tame L) {c s a : F64 L} (hc : c.raw.Finite) (hs : s.raw.Finite)
    (hs' : Scalar.le 1e-30 s = true) (ha : a.raw.Finite) : Num (c + 0.5 * s * (1.0 + Scalar.cos a)) := by
  have n1 : Num (1.0 + Scalar.cos a : F64 L) := add_num (by rw [ieee_one]; trivial) (cos_finite ha)
  obtain ⟨b1, b2⟩ := one_plus_cos hL n1
  have f1 := finite_between n1 (x := 0) b1 b2
  rw [val_finite f1] at b1 b2
  obtain ⟨f2, f3⟩ := half_exact hs (ordinary hs' hs)
  refine add_num hc (product_finite f2 f1 (x := s.raw.real / 2) (y := 2) ?_ ?_ ?_)
  · rw [f3, abs_of_nonneg]
    have := (two_pow_pos _).le.trans (ordinary hs' hs)
    linarith
  · rw [abs_of_nonneg (EReal.coe_nonneg.1 b1)]; exact EReal.coe_le_coe_iff.1 b2
  · rw [div_mul_cancel₀ _ (by norm_num)]; exact Raw.rep_real _

/-- The angle of the compression piston, as the drive computes it. -/
noncomputable abbrev Spec.crankAngle (f t : F64 L) : F64 L := 2.0 * Scalar.pi * f * t

/-- **C77**, sinusoidal drive: at every time whose angle does not overflow, the volumes in binary64 lie between
the clearance volume and the (rounded) sum of clearance and swept volume. -/
theorem C77_sinusoidal_volumes (hL : Tame L) (d : ws.SinusoidalDrive (F64 L)) (t : F64 L)
    (hc : d.comp_geometry.clearance_volume.raw.Finite) (hs : d.comp_geometry.swept_volume.raw.Finite)
    (hs' : Scalar.le 1e-30 d.comp_geometry.swept_volume = true)
    (ec : d.exp_geometry.clearance_volume.raw.Finite) (es : d.exp_geometry.swept_volume.raw.Finite)
    (es' : Scalar.le 1e-30 d.exp_geometry.swept_volume = true)
    (ha : (crankAngle d.frequency t).raw.Finite)
    (ha' : (crankAngle d.frequency t + d.phase_angle * Scalar.pi / 180.0).raw.Finite) :
    let v := d.volumes t
    Scalar.le d.comp_geometry.clearance_volume v.1.value = true ∧
    Scalar.le v.1.value (d.comp_geometry.clearance_volume + d.comp_geometry.swept_volume) = true ∧
    Scalar.le d.exp_geometry.clearance_volume v.2.value = true ∧
    Scalar.le v.2.value (d.exp_geometry.clearance_volume + d.exp_geometry.swept_volume) = true := by
  have n1 := piston_num hL hc hs hs' ha
  have n2 := piston_num hL ec es es' ha'
  exact ⟨piston_bounds hL (positive_of hs') n1, piston_le hL hs' n1 (add_num hc hs),
    piston_bounds hL (positive_of es') n2, piston_le hL es' n2 (add_num ec es)⟩

theorem num_sqrt {a : F64 L} (h : Num (Scalar.sqrt a)) : Num a ∧ 0 ≤ val a := by
  have h' : Raw.sqrt a.raw ≠ nan := h
  unfold Num val
  rcases hc : a.raw with _ | t | t | ⟨x, hx⟩ <;> rw [hc] at h'
  · exact absurd rfl h'
  · cases t
    · exact ⟨by rintro ⟨⟩, le_top⟩
    · exact absurd rfl h'
  · exact ⟨by rintro ⟨⟩, by simp⟩
  · refine ⟨by rintro ⟨⟩, EReal.coe_nonneg.2 (not_lt.1 fun hc => h' (if_pos hc))⟩

theorem num_powi2 {a : F64 L} (h : Num (powi2 a)) : Num a := by
  intro h'
  refine h ?_
  show mul a.raw a.raw = nan
  rw [h']; rfl

theorem val_powi2 {a : F64 L} (h : Num (powi2 a)) : val (powi2 a) = fl (val a * val a) := V_mul h

theorem powi2_mono {a b : F64 L} (h0 : 0 ≤ val a) (h : val a ≤ val b) (ha : Num (powi2 a)) (hb : Num (powi2 b)) :
    val (powi2 a) ≤ val (powi2 b) := by
  rw [val_powi2 ha, val_powi2 hb]
  exact fl_mono (mul_le_mul h h h0 (h0.trans h))

theorem up_pi : Up (Scalar.pi : F64 L) := sign_pack rfl Real.pi_pos.le

/-- **C77**, rhombic drive: with non-negative crank radius not longer than the eccentricity, the compression
volume in binary64 never compares below its clearance volume, at no time and for no other dimensions. -/
theorem C77_rhombic_compression (hL : Tame L) (d : ws.RhombicDrive (F64 L)) (t : F64 L)
    (hr : Scalar.le 0.0 d.geometry.r_crank = true)
    (he : Scalar.le d.geometry.r_crank d.geometry.eccentricity = true) :
    Scalar.lt (d.volumes t).1.value d.V_clearance_c = false := by
  apply not_below
  intro hn _
  set th := 2.0 * Scalar.pi * d.frequency * t with hth
  set rc := d.geometry.r_crank
  set ec := d.geometry.eccentricity
  set b1 := Scalar.sqrt (powi2 d.geometry.L_conn - powi2 (ec - rc)) with hb1
  set bt := Scalar.sqrt (powi2 d.geometry.L_conn - powi2 (ec + rc * Scalar.cos th)) with hbt
  set A : F64 L := 2.0 * (Scalar.pi * powi2 d.geometry.D_p / 4.0) with hA
  have hv : (d.volumes t).1.value = d.V_clearance_c + A * (b1 - bt) := rfl
  rw [hv] at hn ⊢
  have n1 := (num_add hn).2
  have n2 := (num_mul n1).2
  obtain ⟨n3, n4⟩ := num_sub n2
  obtain ⟨n5, p5⟩ := num_sqrt n3
  obtain ⟨n6, p6⟩ := num_sqrt n4
  have n7 := (num_sub n5).2
  have n8 := (num_sub n6).2
  have n9 := num_powi2 n7
  have n10 := num_powi2 n8
  have n11 := (num_add n10).2
  have n12 := (num_mul n11).2
  have r0 := val_le hr
  rw [val_zero] at r0
  have re := val_le he
  have c1 := val_le_of_not_below (hL.cos_range th).2 n12 (by
    show Raw.neg _ ≠ nan
    rw [ieee_one]; rintro ⟨⟩)
  rw [val_neg, val_one] at c1
  have e1 : -val rc ≤ val (rc * Scalar.cos th) := by
    rw [val_mul n11, ← val_neg, ← val_fl (-rc), val_neg]
    apply fl_mono
    calc -val rc = val rc * -1 := by rw [mul_neg, mul_one]
      _ ≤ _ := mul_le_mul_of_nonneg_left c1 r0
  have e2 : val (ec - rc) ≤ val (ec + rc * Scalar.cos th) := by
    rw [val_sub n9, val_add n10, sub_eq_add_neg]
    apply fl_mono
    gcongr
  have e3 : 0 ≤ val (ec - rc) := sub_le_up re n9
  have e4 := powi2_mono e3 e2 n7 n8
  have e5 : val (powi2 d.geometry.L_conn - powi2 (ec + rc * Scalar.cos th))
      ≤ val (powi2 d.geometry.L_conn - powi2 (ec - rc)) := by
    rw [val_sub n5, val_sub n6]
    exact fl_mono (EReal.sub_le_sub le_rfl e4)
  have e6 : val bt ≤ val b1 := V_sqrt_mono p6 e5 n6 n3
  have e7 : Up A := up_mul up_lit (up_div (up_mul up_pi (up_sq _)) up_lit)
  exact le_add_up (mul_up (val_up e7) (sub_le_up e6 n2) n1) hn

/-! ## The exchangers -/

theorem sign_of_pos {a : Raw} (h : 0 < V a) : a.sign = false := by
  cases a with
  | nan => rfl
  | inf s => cases s
             · rfl
             · exact absurd h (by simp)
  | zero s => exact absurd h (by simp)
  | fin x hx => exact decide_eq_false (not_lt.2 (EReal.coe_pos.1 h).le)

theorem up_of_lt {a : F64 L} (h : Scalar.lt 0.0 a = true) : Up a := by
  have := (lt_val (num_lt h).1 (num_lt h).2).1 h
  rw [val_zero] at this
  exact sign_of_pos this

theorem div_nonneg_raw {a b : Raw} (ha : 0 ≤ V a) (hb : b.sign = false) (h : div a b ≠ nan) : 0 ≤ V (div a b) := by
  by_cases h0 : a.sign = false
  · exact V_nonneg (sign_div h0 hb)
  · cases a with
    | nan => exact absurd (Raw.nan_div _) h
    | inf s => cases s
               · exact absurd rfl h0
               · exact absurd ha (by simp)
    | zero s =>
      cases b with
      | nan => exact absurd rfl h
      | inf t => show 0 ≤ V (zero _); simp
      | zero t => exact absurd rfl h
      | fin y hy =>
        show 0 ≤ V (pack _ (0 / y))
        rw [zero_div, pack_zero, V_zero]
    | fin x hx =>
      exact absurd (decide_eq_false (not_lt.2 (EReal.coe_nonneg.1 ha))) h0

theorem div_up {a b : F64 L} (ha : 0 ≤ val a) (hb : Up b) (h : Num (a / b)) : 0 ≤ val (a / b) :=
  div_nonneg_raw ha hb h

theorem up_exp (a : F64 L) : Up (Scalar.exp a) := by
  show (L.exp a.raw).sign = false
  rcases a.raw with _ | s | s | ⟨x, hx⟩
  · rw [L.exp_nan]; rfl
  · cases s
    · rw [L.exp_inf]; rfl
    · rw [L.exp_neg_inf]; rfl
  · rw [L.exp_zero]; exact decide_eq_false (by norm_num)
  · exact (L.exp_fin x hx).2

/-- `1 - e` for `e` between zero and one. -/
theorem one_minus {e : F64 L} (h0 : 0 ≤ val e) (h1 : val e ≤ 1) (hn : Num (1.0 - e)) :
    Up (1.0 - e) ∧ val (1.0 - e) ≤ 1 := by
  refine ⟨?_, ?_⟩
  · have hf : e.raw.Finite := finite_between (num_sub hn).2 (x := 0) h0 (y := 1) (by exact_mod_cast h1)
    rw [ieee_one]
    show (sub one e.raw).sign = false
    rw [val_finite hf] at h1
    have h1 : e.raw.real ≤ 1 := by exact_mod_cast h1
    rcases (finite_iff e.raw).1 hf with ⟨s, h⟩ | ⟨x, hx, h⟩ <;> rw [h] at h1 ⊢
    · show (pack false (1 + 0)).sign = false
      exact sign_pack rfl (by norm_num)
    · show (pack false (1 + -x)).sign = false
      have : x ≤ 1 := h1
      exact sign_pack rfl (by linarith)
  · have := sub_up_le h0 hn
    rwa [val_one] at this

/-- The approach of an exchanger of fixed conductance. -/
theorem approach_not_below (hL : Tame L) {Q C U : F64 L} (hU : Scalar.le 0.0 U = true)
    (hC : Scalar.lt 0.0 C = true) (hQ : Scalar.le 0.0 Q = true) :
    Scalar.lt ((Q / C) * (1.0 / (1.0 - Scalar.exp (-(U / C))) - 1.0)) 0.0 = false := by
  apply not_below
  intro hn _
  rw [val_zero]
  obtain ⟨n1, n2⟩ := num_mul hn
  have n3 := (num_sub n2).1
  have n4 := (num_div n3).2
  have n5 := (num_sub n4).2
  have u0 := val_le hU; rw [val_zero] at u0
  have q0 := val_le hQ; rw [val_zero] at q0
  have hCu := up_of_lt hC
  have hx : Scalar.lt 0.0 (-(U / C)) = false := by
    apply not_below
    intro _ hm
    rw [val_zero, val_neg]
    exact EReal.neg_le_zero.2 (div_up u0 hCu (num_neg hm))
  have e1 := val_le_of_not_below (hL.exp_range _ hx) num_up n5
  rw [val_one] at e1
  obtain ⟨g1, g2⟩ := one_minus (val_up (up_exp _)) e1 n4
  have g3 : (1 : EReal) ≤ val (1.0 / (1.0 - Scalar.exp (-(U / C)))) := by
    unfold val
    show 1 ≤ V (div (1.0 : F64 L).raw _)
    rw [show (1.0 : F64 L).raw = one from ieee_one]
    exact one_le_V_div g2 n4 g1
  refine mul_up (div_up q0 hCu n1) (sub_le_up ?_ n2) hn
  rw [val_one]; exact g3

/-- **C77**, cold exchanger: its approach is never negative in binary64. -/
theorem C77_chx_approach (hL : Tame L) (x : chx.FixedConductance (F64 L)) (s : chx.State (F64 L))
    (hU : Scalar.le 0.0 x.UA = true) (hC : Scalar.lt 0.0 (s.hxr.cp * s.hxr.m_dot) = true)
    (hQ : Scalar.le 0.0 s.hxr.Q_dot = true) : Scalar.lt (x.approach s) 0.0 = false :=
  approach_not_below hL hU hC hQ

/-- **C77**, hot exchanger. -/
theorem C77_hhx_approach (hL : Tame L) (x : hhx.FixedConductance (F64 L)) (s : hhx.State (F64 L))
    (hU : Scalar.le 0.0 x.UA = true) (hC : Scalar.lt 0.0 (s.hxr.cp * s.hxr.m_dot) = true)
    (hQ : Scalar.le 0.0 s.hxr.Q_dot = true) : Scalar.lt (x.approach s) 0.0 = false :=
  approach_not_below hL hU hC hQ

/-- **C77**, regenerator: its approach lies between zero and the (rounded) temperature difference. -/
theorem C77_regen_approach (x : regen.FixedConductance (F64 L)) (s : regen.State (F64 L))
    (hU : Scalar.le 0.0 x.UA = true) (hC : Scalar.lt 0.0 (s.hxr.cp * s.hxr.m_dot) = true)
    (hT : Scalar.le s.temp_chx s.temp_hhx = true) :
    Scalar.lt (x.approach s) 0.0 = false ∧ Scalar.lt (s.temp_hhx - s.temp_chx) (x.approach s) = false := by
  set N : F64 L := x.UA / (s.hxr.cp * s.hxr.m_dot) / 2.0 with hN
  set D : F64 L := s.temp_hhx - s.temp_chx with hD
  have hv : x.approach s = (1.0 - N / (1.0 + N)) * D := rfl
  rw [hv]
  have u0 := val_le hU; rw [val_zero] at u0
  have key : Num ((1.0 - N / (1.0 + N)) * D) → 0 ≤ val (1.0 - N / (1.0 + N)) ∧
      val (1.0 - N / (1.0 + N)) ≤ 1 ∧ 0 ≤ val D := by
    intro hn
    obtain ⟨n1, n2⟩ := num_mul hn
    have n3 := (num_sub n1).2
    obtain ⟨n4, n5⟩ := num_div n3
    have N0 : 0 ≤ val N := div_up (div_up u0 (up_of_lt hC) (num_div n4).1) up_lit n4
    have d1 : val N ≤ val (1.0 + N) := by
      rw [val_add n5, ← val_fl N]
      apply fl_mono
      rw [val_fl, val_one]
      exact le_add_of_nonneg_left zero_le_one
    have d2 : (1 : EReal) ≤ val (1.0 + N) := by
      have := le_add_up (a := (1.0 : F64 L)) N0 n5
      rwa [val_one] at this
    have d3 : Up (1.0 + N) := sign_of_pos (lt_of_lt_of_le zero_lt_one d2)
    have e1 : val (N / (1.0 + N)) ≤ 1 := V_div_le_one N0 d1 n3 d3
    obtain ⟨g1, g2⟩ := one_minus (div_up N0 d3 n3) e1 n1
    exact ⟨val_up g1, g2, sub_le_up (val_le hT) n2⟩
  constructor <;> apply not_below
  · intro hn _
    obtain ⟨k1, k2, k3⟩ := key hn
    rw [val_zero]; exact mul_up k1 k3 hn
  · intro _ hn
    obtain ⟨k1, k2, k3⟩ := key hn
    rw [val_mul hn, ← val_fl D]
    apply fl_mono
    rw [val_fl]
    calc _ ≤ 1 * val D := mul_le_mul_of_nonneg_right k2 k3
      _ = _ := one_mul _

/-! ## The temperature ladder -/

/-- **C77**, ladder: with approaches that are not negative, the temperatures of the gas in the exchangers lie
on the right side of the sink, the source and each other. -/
theorem C77_ladder (sink source : F64 L) (a : Approach (F64 L)) (i : RegenImbalance (F64 L))
    (hk : Scalar.le 0.0 a.chx = true) (hr : Scalar.le 0.0 a.regen = true) (hl : Scalar.le 0.0 a.hhx = true) :
    let t := Temperatures.from_approach sink source a i
    Scalar.lt t.chx sink = false ∧ Scalar.lt t.regen.cold t.chx = false ∧
    Scalar.lt t.hhx t.regen.hot = false ∧ Scalar.lt source t.hhx = false := by
  have up : ∀ x d : F64 L, Scalar.le 0.0 d = true → Scalar.lt (x + d) x = false := by
    intro x d hd
    apply not_below
    intro hn _
    have := val_le hd; rw [val_zero] at this
    exact le_add_up this hn
  have down : ∀ x d : F64 L, Scalar.le 0.0 d = true → Scalar.lt x (x - d) = false := by
    intro x d hd
    apply not_below
    intro _ hn
    have := val_le hd; rw [val_zero] at this
    exact sub_up_le this hn
  have r0 := val_le hr; rw [val_zero] at r0
  intro t
  refine ⟨up _ _ hk, ?_, ?_, down _ _ hl⟩
  · show Scalar.lt (t.chx + (if Scalar.le 0.0 i.val then a.regen else a.regen - i.val)) t.chx = false
    by_cases hi : Scalar.le 0.0 i.val = true
    · rw [if_pos hi]; exact up _ _ hr
    · rw [if_neg hi]
      apply not_below
      intro hn _
      have n1 := (num_add hn).2
      have n2 := (num_sub n1).2
      have hi' : val i.val ≤ 0 := by
        by_contra hc
        rw [le_val num_up n2, val_zero] at hi
        exact hi (not_le.1 hc).le
      exact le_add_up (sub_le_up (hi'.trans r0) n1) hn
  · show Scalar.lt t.hhx (t.hhx - (if Scalar.le 0.0 i.val then a.regen + i.val else a.regen)) = false
    by_cases hi : Scalar.le 0.0 i.val = true
    · rw [if_pos hi]
      apply not_below
      intro _ hn
      have n1 := (num_sub hn).2
      have hi' := val_le hi; rw [val_zero] at hi'
      exact sub_up_le (r0.trans (le_add_up hi' n1)) hn
    · rw [if_neg hi]; exact down _ _ hr

/-! ## Summaries of a cycle -/

/-- `total_cmp` on the data. -/
theorem totalLe_V {n : Bool} {a b : Raw} (ha : a ≠ nan) (hb : b ≠ nan) (h : totalLe n a b = true) : V a ≤ V b := by
  rcases a with _ | s | s | ⟨x, hx⟩
  · exact absurd rfl ha
  · exact (le_V ha hb).1 (by rcases b with _ | t | t | ⟨y, hy⟩ <;> first | exact absurd rfl hb | exact h)
  · rcases b with _ | t | t | ⟨y, hy⟩
    · exact absurd rfl hb
    · exact (le_V ha hb).1 h
    · simp
    · exact (le_V ha hb).1 h
  · exact (le_V ha hb).1 (by rcases b with _ | t | t | ⟨y, hy⟩ <;> first | exact absurd rfl hb | exact h)

theorem totalLe_of_lt {n : Bool} {a b : Raw} (ha : a ≠ nan) (hb : b ≠ nan) (h : V a < V b) :
    totalLe n a b = true := by
  have hl := (le_V ha hb).2 h.le
  rcases a with _ | s | s | ⟨x, hx⟩
  · exact absurd rfl ha
  · rcases b with _ | t | t | ⟨y, hy⟩ <;> first | exact absurd rfl hb | exact hl
  · rcases b with _ | t | t | ⟨y, hy⟩
    · exact absurd rfl hb
    · exact hl
    · simp at h
    · exact hl
  · rcases b with _ | t | t | ⟨y, hy⟩ <;> first | exact absurd rfl hb | exact hl

theorem totalLe_nan {n : Bool} (a : Raw) :
    (totalLe n nan a = true ↔ a = nan ∨ n = true) ∧ (totalLe n a nan = true ↔ a = nan ∨ n = false) := by
  rcases a with _ | s | s | ⟨x, hx⟩ <;> cases n <;> simp [totalLe]

/-- What a fold that keeps the larger element keeps. -/
theorem fold_max (l : List (F64 L)) (a : F64 L) :
    let m := l.foldl (fun x y => if Scalar.totalLe x y then y else x) a
    m ∈ a :: l ∧ (∀ x ∈ a :: l, Scalar.lt m x = false) ∧
      (L.nanNeg = false → (∃ x ∈ a :: l, ¬Num x) → ¬Num m) := by
  induction l generalizing a with
  | nil =>
    refine ⟨by simp, ?_, ?_⟩
    · intro x hx
      have : x = a := by simpa using hx
      subst this
      exact not_below fun _ _ => le_rfl
    · rintro - ⟨x, hx, h⟩
      have : x = a := by simpa using hx
      subst this; exact h
  | cons b l ih =>
    simp only [List.foldl_cons]
    obtain ⟨h1, h2, h3⟩ := ih (if Scalar.totalLe a b then b else a)
    set m := l.foldl (fun x y => if Scalar.totalLe x y then y else x) (if Scalar.totalLe a b then b else a) with hm
    refine ⟨?_, ?_, ?_⟩
    · rcases List.mem_cons.1 h1 with h | h
      · rw [h]; split_ifs <;> simp
      · simp [h]
    · intro x hx
      by_cases hxl : x ∈ l
      · exact h2 x (by simp [hxl])
      have hx' : x = a ∨ x = b := by
        rcases List.mem_cons.1 hx with h | h
        · exact .inl h
        · rcases List.mem_cons.1 h with h | h
          · exact .inr h
          · exact absurd h hxl
      have h4 := h2 (if Scalar.totalLe a b then b else a) (by simp)
      by_cases hc : Scalar.totalLe a b = true
      · rw [if_pos hc] at h4 h3
        rcases hx' with rfl | rfl
        · apply not_below
          intro hmn hxn
          have hc' : totalLe L.nanNeg x.raw b.raw = true := hc
          have hb : Num b := by
            intro hb
            rw [hb, (totalLe_nan _).2] at hc'
            rcases hc' with h | h
            · exact hxn h
            · exact h3 h ⟨b, by simp, not_not.2 hb⟩ hmn
          exact (totalLe_V hxn hb hc').trans (val_le_of_not_below h4 hmn hb)
        · exact h4
      · rw [if_neg hc] at h4 h3
        rcases hx' with rfl | rfl
        · exact h4
        · apply not_below
          intro hmn hxn
          have hc' : ¬totalLe L.nanNeg a.raw x.raw = true := hc
          have ha : Num a := by
            intro ha
            rw [ha, (totalLe_nan _).1, not_or] at hc'
            exact h3 (by simpa using hc'.2) ⟨a, by simp, not_not.2 ha⟩ hmn
          have : val x ≤ val a := by
            by_contra hlt
            exact hc' (totalLe_of_lt ha hxn (not_le.1 hlt))
          exact this.trans (val_le_of_not_below h4 hmn ha)
    · rintro hn ⟨x, hx, hx'⟩
      refine h3 hn ?_
      rcases List.mem_cons.1 hx with h | h
      · subst h
        refine ⟨_, List.mem_cons_self, ?_⟩
        by_cases hc : Scalar.totalLe x b = true
        · rw [if_pos hc]
          have hc' : totalLe L.nanNeg x.raw b.raw = true := hc
          have hxn : x.raw = nan := not_not.1 hx'
          rw [hxn, (totalLe_nan _).1, hn] at hc'
          rcases hc' with h | h
          · exact not_not.2 h
          · cases h
        · rw [if_neg hc]; exact hx'
      · rcases List.mem_cons.1 h with h | h
        · subst h
          refine ⟨_, List.mem_cons_self, ?_⟩
          by_cases hc : Scalar.totalLe a x = true
          · rw [if_pos hc]; exact hx'
          · exfalso
            apply hc
            show totalLe L.nanNeg a.raw x.raw = true
            rw [show x.raw = nan from not_not.1 hx', (totalLe_nan _).2]
            exact .inr hn
        · exact ⟨x, by simp [h], hx'⟩

/-- What a fold that keeps the smaller element keeps. -/
theorem fold_min (l : List (F64 L)) (a : F64 L) :
    let m := l.foldl (fun x y => if Scalar.totalLe x y then x else y) a
    m ∈ a :: l ∧ (∀ x ∈ a :: l, Scalar.lt x m = false) ∧
      (L.nanNeg = true → (∃ x ∈ a :: l, ¬Num x) → ¬Num m) := by
  induction l generalizing a with
  | nil =>
    refine ⟨by simp, ?_, ?_⟩
    · intro x hx
      have : x = a := by simpa using hx
      subst this
      exact not_below fun _ _ => le_rfl
    · rintro - ⟨x, hx, h⟩
      have : x = a := by simpa using hx
      subst this; exact h
  | cons b l ih =>
    simp only [List.foldl_cons]
    obtain ⟨h1, h2, h3⟩ := ih (if Scalar.totalLe a b then a else b)
    set m := l.foldl (fun x y => if Scalar.totalLe x y then x else y) (if Scalar.totalLe a b then a else b) with hm
    refine ⟨?_, ?_, ?_⟩
    · rcases List.mem_cons.1 h1 with h | h
      · rw [h]; split_ifs <;> simp
      · simp [h]
    · intro x hx
      by_cases hxl : x ∈ l
      · exact h2 x (by simp [hxl])
      have hx' : x = a ∨ x = b := by
        rcases List.mem_cons.1 hx with h | h
        · exact .inl h
        · rcases List.mem_cons.1 h with h | h
          · exact .inr h
          · exact absurd h hxl
      have h4 := h2 (if Scalar.totalLe a b then a else b) (by simp)
      by_cases hc : Scalar.totalLe a b = true
      · rw [if_pos hc] at h4 h3
        rcases hx' with rfl | rfl
        · exact h4
        · apply not_below
          intro hxn hmn
          have hc' : totalLe L.nanNeg a.raw x.raw = true := hc
          have ha : Num a := by
            intro ha
            rw [ha, (totalLe_nan _).1] at hc'
            rcases hc' with h | h
            · exact hxn h
            · exact h3 h ⟨a, by simp, not_not.2 ha⟩ hmn
          exact (val_le_of_not_below h4 ha hmn).trans (totalLe_V ha hxn hc')
      · rw [if_neg hc] at h4 h3
        rcases hx' with rfl | rfl
        · apply not_below
          intro hxn hmn
          have hc' : ¬totalLe L.nanNeg x.raw b.raw = true := hc
          have hb : Num b := by
            intro hb
            rw [hb, (totalLe_nan _).2, not_or] at hc'
            exact h3 (by simpa using hc'.2) ⟨b, by simp, not_not.2 hb⟩ hmn
          have : val b ≤ val x := by
            by_contra hlt
            exact hc' (totalLe_of_lt hxn hb (not_le.1 hlt))
          exact (val_le_of_not_below h4 hb hmn).trans this
        · exact h4
    · rintro hn ⟨x, hx, hx'⟩
      refine h3 hn ?_
      rcases List.mem_cons.1 hx with h | h
      · subst h
        refine ⟨_, List.mem_cons_self, ?_⟩
        by_cases hc : Scalar.totalLe x b = true
        · rw [if_pos hc]; exact hx'
        · exfalso
          apply hc
          show totalLe L.nanNeg x.raw b.raw = true
          rw [show x.raw = nan from not_not.1 hx', (totalLe_nan _).1]
          exact .inr hn
      · rcases List.mem_cons.1 h with h | h
        · subst h
          refine ⟨_, List.mem_cons_self, ?_⟩
          by_cases hc : Scalar.totalLe a x = true
          · rw [if_pos hc]
            have hc' : totalLe L.nanNeg a.raw x.raw = true := hc
            have hxn : x.raw = nan := not_not.1 hx'
            rw [hxn, (totalLe_nan _).2, hn] at hc'
            rcases hc' with h | h
            · exact not_not.2 h
            · cases h
          · rw [if_neg hc]; exact hx'
        · exact ⟨x, by simp [h], hx'⟩

theorem num_iff (a : F64 L) : Num a ↔ Scalar.le a a = true :=
  ⟨fun h => (le_val h h).2 le_rfl, fun h => (num_le h).1⟩

/-- **C77**, pressure summary: in binary64 the maximum and minimum are samples, no sample compares above or
below them, and a NaN among the samples (which equals nothing, itself included) shows in one of the two. -/
theorem C77_pressure_extrema (v : Values (F64 L)) (p : Pressure (F64 L)) (h : Pressure.from_values v = .ok p) :
    p.max ∈ v.P ∧ p.min ∈ v.P ∧ v.P.head? = some p.t_zero ∧
    (∀ x ∈ v.P, Scalar.lt p.max x = false ∧ Scalar.lt x p.min = false) ∧
    ((∃ x ∈ v.P, Scalar.le x x = false) → Scalar.le p.max p.max = false ∨ Scalar.le p.min p.min = false) := by
  obtain ⟨t, -, -, h3, h4, h5⟩ := pressure_ok h
  cases hP : v.P with
  | nil => rw [hP] at h4; cases h4
  | cons a l =>
    rw [hP] at h3 h4 h5
    obtain ⟨m1, m2, m3⟩ := fold_max l a
    obtain ⟨k1, k2, k3⟩ := fold_min l a
    have e1 : l.foldl (fun x y => if Scalar.totalLe x y then y else x) a = p.max := Option.some.inj h4
    have e2 : l.foldl (fun x y => if Scalar.totalLe x y then x else y) a = p.min := Option.some.inj h5
    rw [e1] at m1 m2 m3
    rw [e2] at k1 k2 k3
    refine ⟨m1, k1, h3, fun x hx => ⟨m2 x hx, k2 x hx⟩, ?_⟩
    rintro ⟨x, hx, hn⟩
    have hx' : ¬Num x := by rw [num_iff, hn]; simp
    have no : ∀ y : F64 L, ¬Num y → Scalar.le y y = false := fun y hy => by
      rw [num_iff] at hy; simpa using hy
    cases hL : L.nanNeg
    · exact .inl (no _ (m3 hL ⟨x, hx, hx'⟩))
    · exact .inr (no _ (k3 hL ⟨x, hx, hx'⟩))

/-- Sample times that never compare below their predecessors. -/
abbrev Spec.NonDecreasing (l : List (F64 L)) : Prop := l.IsChain fun a b => Scalar.le a b = true

theorem add_up {a b : F64 L} (ha : 0 ≤ val a) (hb : 0 ≤ val b) (h : Num (a + b)) : 0 ≤ val (a + b) := by
  rw [val_add h]; exact fl_nonneg (add_nonneg ha hb)

theorem fold_up (l : List (F64 L)) (a : F64 L) (ha : Num a → 0 ≤ val a) (hl : ∀ x ∈ l, Num x → 0 ≤ val x)
    (h : Num (l.foldl (· + ·) a)) : 0 ≤ val (l.foldl (· + ·) a) := by
  induction l generalizing a with
  | nil => exact ha h
  | cons b l ih =>
    exact ih (a + b) (fun hn => add_up (ha (num_add hn).1) (hl b (by simp) (num_add hn).2) hn)
      (fun x hx => hl x (by simp [hx])) h

theorem windows_chain {R : F64 L → F64 L → Prop} {l : List (F64 L)} (h : l.IsChain R) :
    ∀ w ∈ windows l, R w.1 w.2 := by
  unfold windows
  induction l with
  | nil => simp
  | cons a l ih =>
    cases l with
    | nil => simp
    | cons b l =>
      rw [List.isChain_cons_cons] at h
      intro w hw
      simp only [List.tail_cons, List.zip_cons_cons, List.mem_cons] at hw
      rcases hw with rfl | hw
      · exact h.1
      · exact ih h.2 w hw

/-- A cycle integral of samples that are not negative is not negative. -/
theorem integrate_up {x y : List (F64 L)} (hx : NonDecreasing x) (hy : ∀ a ∈ y, Up a)
    (h : Num (integrate x y)) : 0 ≤ val (integrate x y) := by
  unfold integrate sum at h ⊢
  refine fold_up _ _ (fun _ => by rw [val_zero]) ?_ h
  intro z hz hn
  obtain ⟨w, hw, rfl⟩ := List.mem_map.1 hz
  obtain ⟨n1, n2⟩ := num_mul hn
  obtain ⟨n3, n4⟩ := num_mul n1
  have hw1 := windows_chain hx w.1 (List.of_mem_zip hw).1
  have hw2 := (List.of_mem_zip hw).2
  have mem : w.2.1 ∈ y ∧ w.2.2 ∈ y := by
    have := List.of_mem_zip (show (w.2.1, w.2.2) ∈ y.zip y.tail from hw2)
    exact ⟨this.1, List.mem_of_mem_tail this.2⟩
  exact mul_up (mul_up (val_up (up_add (hy _ mem.2) (hy _ mem.1))) (sub_le_up (val_le hw1) n4) n1)
    (val_up up_lit) hn

/-- **C77**, average mass flows: on sample times that do not decrease and end after zero, the averages in
binary64 are never negative, whatever the sampled flows. -/
theorem C77_mass_flows (v : Values (F64 L)) (m : MassFlows (F64 L)) (tf : F64 L)
    (ht : NonDecreasing v.time) (hlast : v.time.getLast? = some tf) (hpos : Scalar.lt 0.0 tf = true)
    (h : MassFlows.from_values v = .ok m) :
    Scalar.lt m.chx 0.0 = false ∧ Scalar.lt m.regen 0.0 = false ∧ Scalar.lt m.hhx 0.0 = false := by
  have key : ∀ (l r : List (F64 L)) (a : F64 L), v.m_dot_avg l r = .ok a → Scalar.lt a 0.0 = false := by
    intro l r a ha
    unfold Values.m_dot_avg Values.final_time at ha
    rw [hlast] at ha
    cases ha
    apply not_below
    intro hn _
    rw [val_zero]
    refine div_up (integrate_up ht ?_ (num_div hn).1) (up_of_lt hpos) hn
    intro b hb
    obtain ⟨q, -, rfl⟩ := List.mem_map.1 hb
    exact up_mul up_lit (up_abs _)
  obtain ⟨h1, h2, h3⟩ := massflows_ok h
  exact ⟨key _ _ _ h1, key _ _ _ h2, key _ _ _ h3⟩

/-! ## The pressures of the working spaces -/

/-- **C77**, space pressures: in binary64 the cycle pressure never compares outside the two space pressures of
the same sample, and which is the higher follows the computed pressure drop. -/
theorem C77_space_pressures (e : Engine (F64 L)) (vs : List (state_equations.Values (F64 L)))
    (h : e.values = Values.ofStateValues vs) (r : api.RunResults (F64 L)) (hr : RunResults.ofEngine e = .ok r)
    (i : ℕ) (P pc pe : F64 L) (hP : r.values.P[i]? = some P) (hc : r.values.P_c[i]? = some pc)
    (he : r.values.P_e[i]? = some pe) :
    (Scalar.lt pc P = false ∧ Scalar.lt P pe = false) ∨ (Scalar.lt P pc = false ∧ Scalar.lt pe P = false) := by
  obtain ⟨p, hp, -, -, -, -, -, hv⟩ := results_performance hr
  obtain ⟨p', hp', h1, h2, -⟩ := performance_ok e vs h
  rw [hp] at hp'; cases hp'
  rw [hv] at hP hc he
  simp only [h1, h2, h, ofStateValues_eq, List.getElem?_map, Option.map_eq_some_iff] at hP hc he
  obtain ⟨v, e0, rfl⟩ := hP
  obtain ⟨v', e1, rfl⟩ := hc
  obtain ⟨v'', e2, rfl⟩ := he
  rw [e0] at e1 e2; cases e1; cases e2
  set d : F64 L := 0.5 * sampleDrop e v
  rcases le_total 0 (val d) with hd | hd
  · left
    constructor <;> apply not_below
    · intro hn _; exact le_add_up hd hn
    · intro _ hn; exact sub_up_le hd hn
  · right
    constructor <;> apply not_below
    · intro _ hn
      rw [val_add hn, ← val_fl v.conditions.P]
      apply fl_mono
      rw [val_fl]
      exact add_le_of_nonpos_right hd
    · intro hn _
      rw [val_sub hn, ← val_fl v.conditions.P]
      apply fl_mono
      rw [val_fl, sub_eq_add_neg]
      exact le_add_of_nonneg_right (EReal.neg_nonneg.2 hd)

/-- **C77**, runs: so it is in the results of every run that succeeds. -/
theorem C77_run_space_pressures (env : Env (F64 L)) (U : MatrixDecomposition (F64 L)) (c : Components (F64 L))
    (fluid : Fluid (F64 L)) (inputs : RunInputs (F64 L)) (settings : RunSettings (F64 L)) (e : Engine (F64 L))
    (h : Engine.run env U c fluid inputs settings = .ok e) :
    ∃ r, RunResults.ofEngine e = .ok r ∧ r.values.P_c.length = r.values.P.length ∧
      r.values.P_e.length = r.values.P.length ∧
      ∀ (i : ℕ) (P pc pe : F64 L), r.values.P[i]? = some P → r.values.P_c[i]? = some pc →
        r.values.P_e[i]? = some pe → (Scalar.lt pc P = false ∧ Scalar.lt P pe = false) ∨
          (Scalar.lt P pc = false ∧ Scalar.lt pe P = false) := by
  obtain ⟨n, vs, s', -, -, -, hv, -⟩ := (C36_ok_iff env U c fluid inputs settings e).1 h
  obtain ⟨r, hr⟩ := results_ok e vs hv
  refine ⟨r, hr, ?_, ?_, C77_space_pressures e vs hv r hr⟩ <;>
  · obtain ⟨p, hp, -, -, -, -, -, hv'⟩ := results_performance hr
    obtain ⟨p', hp', h1, h2, -⟩ := performance_ok e vs hv
    rw [hp] at hp'; cases hp'
    rw [hv']
    simp [h1, h2, hv, ofStateValues_eq]

/-- **C77**, no hydraulic resistance: a space pressure that is a number compares equal to the cycle pressure of
its sample. -/
theorem C77_no_drop (e : Engine (F64 L)) (vs : List (state_equations.Values (F64 L)))
    (h : e.values = Values.ofStateValues vs) (r : api.RunResults (F64 L)) (hr : RunResults.ofEngine e = .ok r)
    (hk : e.components.chx.hydraulic_resistance e.state.chx = 0.0)
    (hg : e.components.regen.hydraulic_resistance e.state.regen = 0.0)
    (hl : e.components.hhx.hydraulic_resistance e.state.hhx = 0.0)
    (i : ℕ) (P pc pe : F64 L) (hP : r.values.P[i]? = some P) (hc : r.values.P_c[i]? = some pc)
    (he : r.values.P_e[i]? = some pe) :
    (Scalar.le pc pc = true → Scalar.le pc P = true ∧ Scalar.le P pc = true) ∧
    (Scalar.le pe pe = true → Scalar.le pe P = true ∧ Scalar.le P pe = true) := by
  obtain ⟨p, hp, -, -, -, -, -, hv⟩ := results_performance hr
  obtain ⟨p', hp', h1, h2, -⟩ := performance_ok e vs h
  rw [hp] at hp'; cases hp'
  rw [hv] at hP hc he
  simp only [h1, h2, h, ofStateValues_eq, List.getElem?_map, Option.map_eq_some_iff] at hP hc he
  obtain ⟨v, e0, rfl⟩ := hP
  obtain ⟨v', e1, rfl⟩ := hc
  obtain ⟨v'', e2, rfl⟩ := he
  rw [e0] at e1 e2; cases e1; cases e2
  have z : ∀ a : F64 L, Num (0.0 * a) → val (0.0 * a) = 0 := by
    intro a hn
    rw [val_mul hn, val_zero, zero_mul, fl_zero]
  have hd : Num (0.5 * sampleDrop e v) → val (0.5 * sampleDrop e v) = 0 := by
    intro hn
    have n1 := (num_mul hn).2
    rw [val_mul hn]
    unfold sampleDrop at n1 ⊢
    rw [hk, hg, hl] at n1 ⊢
    obtain ⟨n2, n3⟩ := num_add n1
    obtain ⟨n4, n5⟩ := num_add n2
    rw [val_add n1, val_add n2, z _ n3, z _ n4, z _ n5]
    simp [fl_zero]
  constructor
  · intro hn
    have hn := (num_le hn).1
    obtain ⟨n1, n2⟩ := num_add hn
    have : val (v.conditions.P + 0.5 * sampleDrop e v) = val v.conditions.P := by
      rw [val_add hn, hd n2, add_zero, val_fl]
    exact ⟨(le_val hn n1).2 this.le, (le_val n1 hn).2 this.ge⟩
  · intro hn
    have hn := (num_le hn).1
    obtain ⟨n1, n2⟩ := num_sub hn
    have : val (v.conditions.P - 0.5 * sampleDrop e v) = val v.conditions.P := by
      rw [val_sub hn, hd n2, sub_zero, val_fl]
    exact ⟨(le_val hn n1).2 this.le, (le_val n1 hn).2 this.ge⟩

end Sett
