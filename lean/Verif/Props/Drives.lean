import Verif.Model.Ws
import Verif.Proofs.Lits
import Mathlib.Analysis.SpecialFunctions.Trigonometric.Deriv
import Mathlib.Analysis.SpecialFunctions.Trigonometric.Inverse
import Mathlib.Analysis.SpecialFunctions.Sqrt
import Mathlib.Tactic.Linarith
import Mathlib.Tactic.FieldSimp

/-! # C11–C15: working-space drives in exact arithmetic -/

namespace Sett.ws

open Real

/-- **C11.** The reported derivatives are the derivatives of the reported volumes, at every time. -/
theorem C11_sinusoidal_deriv (d : SinusoidalDrive ℝ) (t : ℝ) :
    HasDerivAt (fun t => (d.volumes t).1.value) (d.volumes t).1.deriv t ∧
      HasDerivAt (fun t => (d.volumes t).2.value) (d.volumes t).2.deriv t := by
  have hlin : ∀ c : ℝ, HasDerivAt (fun t => 2 * Real.pi * d.frequency * t + c)
      (2 * Real.pi * d.frequency) t := fun c => by
    simpa using ((hasDerivAt_id t).const_mul (2 * Real.pi * d.frequency)).add_const c
  have hcos : ∀ clr sw c : ℝ, HasDerivAt
      (fun t => clr + 1 / 2 * sw * (1 + Real.cos (2 * Real.pi * d.frequency * t + c)))
      (-(1 / 2) * sw * Real.sin (2 * Real.pi * d.frequency * t + c) * (2 * Real.pi * d.frequency))
      t := fun clr sw c => by
    have := ((((hlin c).cos).const_add 1).const_mul (1 / 2 * sw)).const_add clr
    refine this.congr_deriv ?_
    ring
  constructor
  · have := hcos d.comp_geometry.clearance_volume d.comp_geometry.swept_volume 0
    simp only [add_zero] at this
    simp only [SinusoidalDrive.volumes]
    scalars
    exact this
  · simp only [SinusoidalDrive.volumes]
    scalars
    exact hcos d.exp_geometry.clearance_volume d.exp_geometry.swept_volume
        (d.phase_angle * Real.pi / 180)

/-- **C12**, bounds. -/
theorem C12_sinusoidal_bounds (d : SinusoidalDrive ℝ) (hc : 0 ≤ d.comp_geometry.swept_volume)
    (he : 0 ≤ d.exp_geometry.swept_volume) (t : ℝ) :
    d.comp_geometry.clearance_volume ≤ (d.volumes t).1.value ∧
    (d.volumes t).1.value ≤ d.comp_geometry.clearance_volume + d.comp_geometry.swept_volume ∧
    d.exp_geometry.clearance_volume ≤ (d.volumes t).2.value ∧
    (d.volumes t).2.value ≤ d.exp_geometry.clearance_volume + d.exp_geometry.swept_volume := by
  simp only [SinusoidalDrive.volumes, real_cos, real_pi]
  have key : ∀ sw x : ℝ, 0 ≤ sw → 0 ≤ 0.5 * sw * (1.0 + Real.cos x) ∧
      0.5 * sw * (1.0 + Real.cos x) ≤ sw := by
    intro sw x h
    have h1 := Real.neg_one_le_cos x
    have h2 := Real.cos_le_one x
    norm_num
    constructor <;> nlinarith
  obtain ⟨a, b⟩ := key _ (2.0 * Real.pi * d.frequency * t) hc
  obtain ⟨a', b'⟩ := key _ (2.0 * Real.pi * d.frequency * t + d.phase_angle * Real.pi / 180.0) he
  exact ⟨by linarith, by linarith, by linarith, by linarith⟩

theorem sinusoidal_at (d : SinusoidalDrive ℝ) (hf : d.frequency ≠ 0) (x : ℝ) :
    (d.volumes (x / (2.0 * Real.pi * d.frequency))).1.value
        = d.comp_geometry.clearance_volume
          + 0.5 * d.comp_geometry.swept_volume * (1.0 + Real.cos x) ∧
    (d.volumes ((x - d.phase_angle * Real.pi / 180.0) / (2.0 * Real.pi * d.frequency))).2.value
        = d.exp_geometry.clearance_volume
          + 0.5 * d.exp_geometry.swept_volume * (1.0 + Real.cos x) := by
  have hw : (2.0 * Real.pi * d.frequency) ≠ 0 := by
    have := Real.pi_ne_zero; positivity
  simp only [SinusoidalDrive.volumes, real_cos, real_pi]
  rw [mul_div_cancel₀ _ hw, mul_div_cancel₀ _ hw, sub_add_cancel]
  exact ⟨rfl, rfl⟩

/-- **C12**, attainment: both bounds of both spaces are reached at some time. -/
theorem C12_sinusoidal_attained (d : SinusoidalDrive ℝ) (hf : d.frequency ≠ 0) :
    (∃ t, (d.volumes t).1.value = d.comp_geometry.clearance_volume) ∧
    (∃ t, (d.volumes t).1.value
      = d.comp_geometry.clearance_volume + d.comp_geometry.swept_volume) ∧
    (∃ t, (d.volumes t).2.value = d.exp_geometry.clearance_volume) ∧
    (∃ t, (d.volumes t).2.value
      = d.exp_geometry.clearance_volume + d.exp_geometry.swept_volume) := by
  refine ⟨⟨_, (sinusoidal_at d hf Real.pi).1.trans ?_⟩, ⟨_, (sinusoidal_at d hf 0).1.trans ?_⟩,
    ⟨_, (sinusoidal_at d hf Real.pi).2.trans ?_⟩, ⟨_, (sinusoidal_at d hf 0).2.trans ?_⟩⟩ <;>
    simp <;> norm_num <;> ring

/-- **C12**, period: both volumes and both derivatives repeat after `1/frequency`. -/
theorem C12_sinusoidal_periodic (d : SinusoidalDrive ℝ) (hf : d.frequency ≠ 0) (t : ℝ) :
    d.volumes (t + 1 / d.frequency) = d.volumes t := by
  have h : 2 * Real.pi * d.frequency * (t + 1 / d.frequency)
      = 2 * Real.pi * d.frequency * t + 2 * Real.pi := by
    field_simp
  have h2 : 2 * Real.pi * d.frequency * t + 2 * Real.pi + d.phase_angle * Real.pi / 180
      = (2 * Real.pi * d.frequency * t + d.phase_angle * Real.pi / 180) + 2 * Real.pi := by ring
  simp only [SinusoidalDrive.volumes]
  scalars
  simp only [h, h2, Real.cos_add_two_pi, Real.sin_add_two_pi]

/-- **C12**, period, as the engine sees it: the volumes repeat after one over the frequency that the drive
reports. -/
theorem C12_sinusoidal_reported_period (d : SinusoidalDrive ℝ) (hf : d.frequency ≠ 0) (s : State ℝ)
    (t : ℝ) : d.toWorkingSpaces.volumes s (t + 1 / d.toWorkingSpaces.frequency s)
      = d.toWorkingSpaces.volumes s t :=
  C12_sinusoidal_periodic d hf t

/-- **C12**, phase: the expansion space leads the compression space by `phase_angle` degrees of crank angle:
its relative displacement is the one the compression space will have after that fraction of a period. -/
theorem C12_sinusoidal_phase (d : SinusoidalDrive ℝ) (hf : d.frequency ≠ 0) (t : ℝ) :
    ((d.volumes t).2.value - d.exp_geometry.clearance_volume) * d.comp_geometry.swept_volume
      = ((d.volumes (t + d.phase_angle / 360 / d.frequency)).1.value
          - d.comp_geometry.clearance_volume) * d.exp_geometry.swept_volume := by
  have h : 2 * Real.pi * d.frequency * (t + d.phase_angle / 360 / d.frequency)
      = 2 * Real.pi * d.frequency * t + d.phase_angle * Real.pi / 180 := by
    field_simp; ring
  simp only [SinusoidalDrive.volumes]
  scalars
  rw [h]
  ring

/-- **C12**, positivity: positive clearances give positive volumes. -/
theorem C12_sinusoidal_positive (d : SinusoidalDrive ℝ) (hc : 0 ≤ d.comp_geometry.swept_volume)
    (he : 0 ≤ d.exp_geometry.swept_volume) (hc' : 0 < d.comp_geometry.clearance_volume)
    (he' : 0 < d.exp_geometry.clearance_volume) (t : ℝ) :
    0 < (d.volumes t).1.value ∧ 0 < (d.volumes t).2.value := by
  obtain ⟨a, -, b, -⟩ := C12_sinusoidal_bounds d hc he t
  exact ⟨by linarith, by linarith⟩

/-- The default sinusoidal geometry satisfies the hypotheses of C12. -/
example : ∃ d : SinusoidalDrive ℝ, d.frequency = 66.6667 ∧ d.frequency ≠ 0 ∧
    0 ≤ d.comp_geometry.swept_volume ∧ 0 < d.comp_geometry.clearance_volume ∧
    0 ≤ d.exp_geometry.swept_volume ∧ 0 < d.exp_geometry.clearance_volume :=
  ⟨SinusoidalDrive.ofConfig
    { frequency := 66.6667, phase_angle := 90.0, V_swept_c := 1.128e-4, V_clearance_c := 4.68e-5,
      R_c := 1, W_parasitic_c := 0.0, V_swept_e := 1.128e-4, V_clearance_e := 1.68e-5, R_e := 1,
      W_parasitic_e := 0.0, Q_parasitic_e := 0.0 },
   rfl, by norm_num [SinusoidalDrive.ofConfig], by norm_num [SinusoidalDrive.ofConfig],
   by norm_num [SinusoidalDrive.ofConfig], by norm_num [SinusoidalDrive.ofConfig],
   by norm_num [SinusoidalDrive.ofConfig]⟩

/-! ## Rhombic drive -/

/-- A linkage that can turn: non-negative eccentricity and crank radius, connecting rod longer than
their sum. -/
structure Feasible (g : RhombicDrive.Geometry ℝ) : Prop where
  ecc : 0 ≤ g.eccentricity
  crank : 0 ≤ g.r_crank
  rod : g.eccentricity + g.r_crank < g.L_conn

theorem Feasible.radicand_pos {g : RhombicDrive.Geometry ℝ} (h : Feasible g) (x : ℝ) :
    0 < g.L_conn ^ 2 - (g.eccentricity + g.r_crank * Real.cos x) ^ 2 := by
  obtain ⟨h1, h2, h3⟩ := h
  have c1 := Real.neg_one_le_cos x
  have c2 := Real.cos_le_one x
  have hu : g.eccentricity + g.r_crank * Real.cos x < g.L_conn := by nlinarith
  have hl : -g.L_conn < g.eccentricity + g.r_crank * Real.cos x := by nlinarith
  nlinarith

/-- The rhombic volumes with the literals and area formulas spelt out. -/
theorem rhombic_volumes (d : RhombicDrive ℝ) (t : ℝ) :
    let w := 2 * Real.pi * d.frequency
    let e := d.geometry.eccentricity
    let r := d.geometry.r_crank
    let L := d.geometry.L_conn
    let b := Real.sqrt (L ^ 2 - (e + r * Real.cos (w * t)) ^ 2)
    let Ap := Real.pi * d.geometry.D_p ^ 2 / 4
    let Ad := Real.pi * d.geometry.D_d ^ 2 / 4
    let dVc := -2 * Ap * r * Real.sin (w * t) * (e + r * Real.cos (w * t)) / b
    (d.volumes t).1.value = d.V_clearance_c + 2 * Ap * (Real.sqrt (L ^ 2 - (e - r) ^ 2) - b) ∧
    (d.volumes t).1.deriv = dVc * w ∧
    (d.volumes t).2.value
      = d.V_clearance_e + Ad * (b - Real.sqrt ((L - r) ^ 2 - e ^ 2) - r * Real.sin (w * t)) ∧
    (d.volumes t).2.deriv = (-((dVc * Ad) / (2 * Ap)) - Ad * r * Real.cos (w * t)) * w := by
  simp only [RhombicDrive.volumes]
  scalars
  refine ⟨?_, ?_, ?_, ?_⟩ <;> trivial

/-- **C13.** The reported derivatives are the derivatives of the reported volumes, at every time.
`D_p ≠ 0` is needed because the code divides by the piston area. -/
theorem C13_rhombic_deriv (d : RhombicDrive ℝ) (hg : Feasible d.geometry) (hD : d.geometry.D_p ≠ 0)
    (t : ℝ) :
    HasDerivAt (fun t => (d.volumes t).1.value) (d.volumes t).1.deriv t ∧
      HasDerivAt (fun t => (d.volumes t).2.value) (d.volumes t).2.deriv t := by
  have hv := rhombic_volumes d
  simp only at hv
  have hlin : HasDerivAt (fun t => 2 * Real.pi * d.frequency * t) (2 * Real.pi * d.frequency) t := by
    simpa using (hasDerivAt_id t).const_mul (2 * Real.pi * d.frequency)
  rw [(hv t).2.1, (hv t).2.2.2]
  simp only [fun t => (hv t).1, fun t => (hv t).2.2.1]
  clear hv
  have hpos := hg.radicand_pos (2 * Real.pi * d.frequency * t)
  generalize 2 * Real.pi * d.frequency = w at *
  generalize d.geometry.eccentricity = e at *
  generalize d.geometry.r_crank = r at *
  generalize d.geometry.L_conn = L at *
  have hb : HasDerivAt (fun t => Real.sqrt (L ^ 2 - (e + r * Real.cos (w * t)) ^ 2))
      (r * Real.sin (w * t) * (e + r * Real.cos (w * t))
        / Real.sqrt (L ^ 2 - (e + r * Real.cos (w * t)) ^ 2) * w) t := by
    have h0 : HasDerivAt (fun t => (e + r * Real.cos (w * t)) ^ 2)
        (2 * (e + r * Real.cos (w * t)) * (r * (-Real.sin (w * t) * w))) t := by
      refine ((((hlin.cos).const_mul r).const_add e).pow 2).congr_deriv ?_
      simp
    refine ((h0.const_sub (L ^ 2)).sqrt hpos.ne').congr_deriv ?_
    have hs := (Real.sqrt_pos.2 hpos).ne'
    generalize Real.sqrt (L ^ 2 - (e + r * Real.cos (w * t)) ^ 2) = b at *
    field_simp
  have hs : HasDerivAt (fun t => Real.sin (w * t)) (Real.cos (w * t) * w) t := hlin.sin
  have hsq := (Real.sqrt_pos.2 hpos).ne'
  have hpi := Real.pi_ne_zero
  constructor
  · refine (((hb.const_sub (Real.sqrt (L ^ 2 - (e - r) ^ 2))).const_mul
      (2 * (Real.pi * d.geometry.D_p ^ 2 / 4))).const_add d.V_clearance_c).congr_deriv ?_
    generalize Real.sqrt (L ^ 2 - (e + r * Real.cos (w * t)) ^ 2) = b at *
    field_simp
  · refine ((((hb.sub_const (Real.sqrt ((L - r) ^ 2 - e ^ 2))).sub (hs.const_mul r)).const_mul
      (Real.pi * d.geometry.D_d ^ 2 / 4)).const_add d.V_clearance_e).congr_deriv ?_
    generalize Real.sqrt (L ^ 2 - (e + r * Real.cos (w * t)) ^ 2) = b at *
    field_simp

/-- The geometry of the crate's default drive is feasible, with eccentricity above the crank radius. -/
theorem default_feasible : Feasible (RhombicDrive.Geometry.default : RhombicDrive.Geometry ℝ) ∧
    (RhombicDrive.Geometry.default : RhombicDrive.Geometry ℝ).D_p ≠ 0 ∧
    (RhombicDrive.Geometry.default : RhombicDrive.Geometry ℝ).r_crank
      ≤ (RhombicDrive.Geometry.default : RhombicDrive.Geometry ℝ).eccentricity := by
  refine ⟨⟨?_, ?_, ?_⟩, ?_, ?_⟩ <;> simp only [RhombicDrive.Geometry.default] <;> norm_num

example : Feasible (RhombicDrive.Geometry.default : RhombicDrive.Geometry ℝ) := default_feasible.1

/-- **C14**, expansion space: never below its clearance volume. -/
theorem C14_rhombic_expansion_ge (d : RhombicDrive ℝ) (hg : Feasible d.geometry) (t : ℝ) :
    d.V_clearance_e ≤ (d.volumes t).2.value := by
  rw [(rhombic_volumes d t).2.2.1]
  have hpos := hg.radicand_pos (2 * Real.pi * d.frequency * t)
  obtain ⟨h1, h2, h3⟩ := hg
  generalize 2 * Real.pi * d.frequency * t = x at *
  generalize d.geometry.eccentricity = e at *
  generalize d.geometry.r_crank = r at *
  generalize d.geometry.L_conn = L at *
  set b := Real.sqrt (L ^ 2 - (e + r * Real.cos x) ^ 2) with hb
  have hbb : b ^ 2 = L ^ 2 - (e + r * Real.cos x) ^ 2 := Real.sq_sqrt hpos.le
  have hb0 : 0 ≤ b := Real.sqrt_nonneg _
  have hcs := Real.sin_sq_add_cos_sq x
  have c1 := Real.neg_one_le_cos x
  have c2 := Real.cos_le_one x
  have s1 := Real.neg_one_le_sin x
  have s2 := Real.sin_le_one x
  -- the displacer yoke stays on its side
  have hy : 0 < b - r * Real.sin x := by
    have h4 : (r * Real.sin x) ^ 2 < b ^ 2 := by
      have h5 : (r * Real.sin x) ^ 2 + (e + r * Real.cos x) ^ 2
          = r ^ 2 * (Real.sin x ^ 2 + Real.cos x ^ 2) + e ^ 2 + 2 * (e * r) * Real.cos x := by ring
      rw [hcs] at h5
      have h6 : (e * r) * Real.cos x ≤ e * r := mul_le_of_le_one_right (mul_nonneg h1 h2) c2
      have h7 : (e + r) ^ 2 < L ^ 2 := by nlinarith
      rw [hbb]; nlinarith
    have := abs_lt_of_sq_lt_sq h4 hb0
    linarith [abs_lt.1 this]
  have hge : (L - r) ^ 2 - e ^ 2 ≤ (b - r * Real.sin x) ^ 2 := by
    -- |(e, y)| ≥ L - r by the triangle inequality
    set y := b - r * Real.sin x with hyd
    have hrod : (e + r * Real.cos x) ^ 2 + (y + r * Real.sin x) ^ 2 = L ^ 2 := by
      rw [hyd]; ring_nf; nlinarith
    have hn : (e * Real.cos x + y * Real.sin x) ^ 2 ≤ e ^ 2 + y ^ 2 := by
      nlinarith [sq_nonneg (e * Real.sin x - y * Real.cos x)]
    set n := Real.sqrt (e ^ 2 + y ^ 2)
    have hn0 : 0 ≤ n := Real.sqrt_nonneg _
    have hn2 : n ^ 2 = e ^ 2 + y ^ 2 := Real.sq_sqrt (by positivity)
    have hcn : e * Real.cos x + y * Real.sin x ≤ n := by
      rw [← hn2] at hn; exact (abs_le_of_sq_le_sq' hn hn0).2
    have hLn : L ≤ n + r := by
      have h5 : (e + r * Real.cos x) ^ 2 + (y + r * Real.sin x) ^ 2
          = e ^ 2 + y ^ 2 + r ^ 2 * (Real.sin x ^ 2 + Real.cos x ^ 2)
            + 2 * (r * (e * Real.cos x + y * Real.sin x)) := by ring
      rw [hcs, hrod, ← hn2] at h5
      have h6 := mul_le_mul_of_nonneg_left hcn h2
      have : L ^ 2 ≤ (n + r) ^ 2 := by nlinarith
      exact le_of_sq_le_sq this (by positivity)
    nlinarith
  have hA : 0 ≤ Real.pi * d.geometry.D_d ^ 2 / 4 := by positivity
  have hs : Real.sqrt ((L - r) ^ 2 - e ^ 2) ≤ b - r * Real.sin x :=
    Real.sqrt_le_iff.2 ⟨hy.le, hge⟩
  nlinarith [mul_nonneg hA (sub_nonneg.2 hs)]

/-- **C14**, compression space: never below its clearance volume, when the eccentricity is at least the
crank radius. -/
theorem C14_rhombic_compression_ge (d : RhombicDrive ℝ) (hg : Feasible d.geometry)
    (her : d.geometry.r_crank ≤ d.geometry.eccentricity) (t : ℝ) :
    d.V_clearance_c ≤ (d.volumes t).1.value := by
  rw [(rhombic_volumes d t).1]
  obtain ⟨h1, h2, h3⟩ := hg
  generalize 2 * Real.pi * d.frequency * t = x at *
  have c1 := Real.neg_one_le_cos x
  have hA : 0 ≤ Real.pi * d.geometry.D_p ^ 2 / 4 := by positivity
  have hle : Real.sqrt (d.geometry.L_conn ^ 2
        - (d.geometry.eccentricity + d.geometry.r_crank * Real.cos x) ^ 2)
      ≤ Real.sqrt (d.geometry.L_conn ^ 2 - (d.geometry.eccentricity - d.geometry.r_crank) ^ 2) := by
    apply Real.sqrt_le_sqrt
    have : d.geometry.eccentricity - d.geometry.r_crank
        ≤ d.geometry.eccentricity + d.geometry.r_crank * Real.cos x := by nlinarith
    nlinarith
  nlinarith [mul_nonneg hA (sub_nonneg.2 hle)]

/-- **C14**: the eccentricity condition of the compression-space bound cannot be dropped; a feasible
linkage with eccentricity below the crank radius dips below the clearance volume. -/
theorem C14_compression_needs_eccentricity :
    ∃ d : RhombicDrive ℝ, Feasible d.geometry ∧ ∃ t, (d.volumes t).1.value < d.V_clearance_c := by
  refine ⟨⟨1 / (2 * Real.pi), ⟨0, 1, 1, 1, 2⟩, Parasitics.default, 1, 1, 0, 0⟩,
    ⟨by norm_num, by norm_num, by norm_num⟩, Real.pi / 2, ?_⟩
  rw [(rhombic_volumes _ _).1]
  have hx : 2 * Real.pi * (1 / (2 * Real.pi)) * (Real.pi / 2) = Real.pi / 2 := by
    have := Real.pi_ne_zero; field_simp
  simp only [hx, Real.cos_pi_div_two]
  have : Real.sqrt ((2 : ℝ) ^ 2 - (0 - 1) ^ 2) < Real.sqrt ((2 : ℝ) ^ 2 - (0 + 1 * 0) ^ 2) :=
    Real.sqrt_lt_sqrt (by norm_num) (by norm_num)
  have hp := mul_pos Real.pi_pos (sub_pos.2 this)
  generalize Real.sqrt ((2 : ℝ) ^ 2 - (0 - 1) ^ 2) = u at *
  generalize Real.sqrt ((2 : ℝ) ^ 2 - (0 + 1 * 0) ^ 2) = v at *
  nlinarith

/-- **C14**, attainment: both minima are reached. -/
theorem C14_rhombic_attained (d : RhombicDrive ℝ) (hg : Feasible d.geometry)
    (hf : d.frequency ≠ 0) :
    (∃ t, (d.volumes t).1.value = d.V_clearance_c) ∧
      ∃ t, (d.volumes t).2.value = d.V_clearance_e := by
  have hpi := Real.pi_ne_zero
  have hw : 2 * Real.pi * d.frequency ≠ 0 := by positivity
  constructor
  · refine ⟨Real.pi / (2 * Real.pi * d.frequency), ?_⟩
    rw [(rhombic_volumes _ _).1]
    simp only [mul_div_cancel₀ _ hw, Real.cos_pi]
    ring_nf
  · obtain ⟨h1, h2, h3⟩ := hg
    set e := d.geometry.eccentricity with he
    set r := d.geometry.r_crank with hr
    set L := d.geometry.L_conn with hL
    have hLr : 0 < L - r := by linarith
    refine ⟨Real.arccos (e / (L - r)) / (2 * Real.pi * d.frequency), ?_⟩
    rw [(rhombic_volumes _ _).2.2.1]
    simp only [mul_div_cancel₀ _ hw, ← he, ← hr, ← hL]
    have hq0 : 0 ≤ e / (L - r) := by positivity
    have hq1 : e / (L - r) ≤ 1 := by rw [div_le_one hLr]; linarith
    rw [Real.cos_arccos (by linarith) hq1, Real.sin_arccos]
    set s := Real.sqrt (1 - (e / (L - r)) ^ 2) with hs
    have hs0 : 0 ≤ s := Real.sqrt_nonneg _
    have hs2 : s ^ 2 = 1 - (e / (L - r)) ^ 2 := Real.sq_sqrt (by nlinarith)
    have hqe : e = e / (L - r) * (L - r) := by field_simp
    have e1 : L ^ 2 - (e + r * (e / (L - r))) ^ 2 = (L * s) ^ 2 := by
      rw [mul_pow, hs2]
      have : e + r * (e / (L - r)) = L * (e / (L - r)) := by field_simp; ring
      rw [this]; ring
    have e2 : (L - r) ^ 2 - e ^ 2 = ((L - r) * s) ^ 2 := by
      rw [mul_pow, hs2]; field_simp
    have hL0 : 0 ≤ L := by linarith
    rw [e1, e2, Real.sqrt_sq (by positivity), Real.sqrt_sq (by positivity)]
    ring

/-- The rhombic linkage at crank angle `x`: the crank pin sits at distance `e + r cos x` from the axis and
height `r sin x`; a rod of length `L` carries the piston yoke at height `p` above it and another one the
displacer yoke at height `q` below it. -/
structure Spec.Linkage (g : RhombicDrive.Geometry ℝ) (x p q : ℝ) : Prop where
  above : g.r_crank * Real.sin x ≤ p
  below : q ≤ g.r_crank * Real.sin x
  piston : (g.eccentricity + g.r_crank * Real.cos x) ^ 2 + (p - g.r_crank * Real.sin x) ^ 2
    = g.L_conn ^ 2
  displacer : (g.eccentricity + g.r_crank * Real.cos x) ^ 2 + (g.r_crank * Real.sin x - q) ^ 2
    = g.L_conn ^ 2

/-- A feasible linkage has a position at every crank angle. -/
theorem linkage_exists (g : RhombicDrive.Geometry ℝ) (hg : Feasible g) (x : ℝ) :
    ∃ p q, Spec.Linkage g x p q := by
  have h := hg.radicand_pos x
  refine ⟨g.r_crank * Real.sin x + Real.sqrt (g.L_conn ^ 2
      - (g.eccentricity + g.r_crank * Real.cos x) ^ 2), g.r_crank * Real.sin x - Real.sqrt (g.L_conn ^ 2
      - (g.eccentricity + g.r_crank * Real.cos x) ^ 2),
    le_add_of_nonneg_right (Real.sqrt_nonneg _), sub_le_self _ (Real.sqrt_nonneg _), ?_, ?_⟩
  · rw [add_sub_cancel_left, Real.sq_sqrt h.le]; ring
  · rw [sub_sub_cancel, Real.sq_sqrt h.le]; ring

/-- **C14**, kinematics: between any two times the compression volume changes by the piston area times the
change of the distance between the two yokes, and the expansion volume by the displacer area times the
travel of the displacer yoke. -/
theorem C14_rhombic_linkage (d : RhombicDrive ℝ) (t t' p q p' q' : ℝ)
    (h : Spec.Linkage d.geometry (2 * Real.pi * d.frequency * t) p q)
    (h' : Spec.Linkage d.geometry (2 * Real.pi * d.frequency * t') p' q') :
    (d.volumes t).1.value - (d.volumes t').1.value
      = Real.pi * d.geometry.D_p ^ 2 / 4 * ((p' - q') - (p - q)) ∧
    (d.volumes t).2.value - (d.volumes t').2.value
      = Real.pi * d.geometry.D_d ^ 2 / 4 * (q' - q) := by
  have key : ∀ x p q, Spec.Linkage d.geometry x p q →
      p = d.geometry.r_crank * Real.sin x + Real.sqrt (d.geometry.L_conn ^ 2
        - (d.geometry.eccentricity + d.geometry.r_crank * Real.cos x) ^ 2) ∧
      q = d.geometry.r_crank * Real.sin x - Real.sqrt (d.geometry.L_conn ^ 2
        - (d.geometry.eccentricity + d.geometry.r_crank * Real.cos x) ^ 2) := by
    intro x p q h
    have e1 := h.piston; have e2 := h.displacer
    constructor
    · rw [← e1, add_sub_cancel_left, Real.sqrt_sq (by linarith [h.above])]; ring
    · rw [← e2, add_sub_cancel_left, Real.sqrt_sq (by linarith [h.below])]; ring
  obtain ⟨rfl, rfl⟩ := key _ _ _ h
  obtain ⟨rfl, rfl⟩ := key _ _ _ h'
  obtain ⟨a1, -, a3, -⟩ := rhombic_volumes d t
  obtain ⟨b1, -, b3, -⟩ := rhombic_volumes d t'
  constructor
  · rw [a1, b1]; ring
  · rw [a3, b3]; ring

/-- The default geometry has a position at every angle, so C14 applies to it. -/
example (x : ℝ) : ∃ p q, Spec.Linkage RhombicDrive.Geometry.default x p q :=
  linkage_exists _ default_feasible.1 x

/-- **C14**, period. -/
theorem C14_rhombic_periodic (d : RhombicDrive ℝ) (hf : d.frequency ≠ 0) (t : ℝ) :
    d.volumes (t + 1 / d.frequency) = d.volumes t := by
  have h : 2 * Real.pi * d.frequency * (t + 1 / d.frequency)
      = 2 * Real.pi * d.frequency * t + 2 * Real.pi := by
    field_simp
  simp only [RhombicDrive.volumes]
  scalars
  simp only [h, Real.cos_add_two_pi, Real.sin_add_two_pi]

/-- **C14**, period, as the engine sees it. -/
theorem C14_rhombic_reported_period (d : RhombicDrive ℝ) (hf : d.frequency ≠ 0) (s : State ℝ)
    (t : ℝ) : d.toWorkingSpaces.volumes s (t + 1 / d.toWorkingSpaces.frequency s)
      = d.toWorkingSpaces.volumes s t :=
  C14_rhombic_periodic d hf t

example : ∃ d : RhombicDrive ℝ, Feasible d.geometry ∧ d.frequency ≠ 0 ∧ d.geometry.D_p ≠ 0 ∧
    d.geometry.r_crank ≤ d.geometry.eccentricity :=
  ⟨⟨50, .default, Parasitics.default, 1, 1, 5.785e-6, 4.13e-6⟩, default_feasible.1, by norm_num,
    default_feasible.2.1, default_feasible.2.2⟩

/-! ## C15: which configured dimensions are honoured -/

/-- **C15 is false of the code**: the configured displacer diameter has no effect at all
(`src/ws/rhombic_drive.rs:202` copies `D_p`). Any arithmetic. -/
theorem C15_displacer_diameter_ignored {α : Type} [Scalar α] (c : RhombicDrive.Config α) (D : α) :
    RhombicDrive.ofConfig { c with D_d := D } = RhombicDrive.ofConfig c := rfl

/-- **C15 is false of the code**, observable form: there is a configuration whose drive reports an
expansion volume different from that of the drive with the configured displacer diameter. -/
theorem C15_wrong_expansion_volume :
    ∃ (c : RhombicDrive.Config ℝ) (t : ℝ),
      ((RhombicDrive.ofConfig c).volumes t).2.value ≠
        (({ RhombicDrive.ofConfig c with
            geometry := { (RhombicDrive.ofConfig c).geometry with D_d := c.D_d } } :
              RhombicDrive ℝ).volumes t).2.value := by
  refine ⟨⟨1, 0, 1, 0, 0, 1, 0, 0, 1, 3, 1, 1, 2⟩, 0, ?_⟩
  rw [(rhombic_volumes _ _).2.2.1, (rhombic_volumes _ _).2.2.1]
  simp only [RhombicDrive.ofConfig, mul_zero, Real.cos_zero, Real.sin_zero]
  norm_num
  have h : Real.sqrt 3 < Real.sqrt 5 := Real.sqrt_lt_sqrt (by norm_num) (by norm_num)
  have hpi := Real.pi_pos
  exact ⟨fun h' => by linarith, fun h' => by linarith⟩

/-- **C15**, the part that holds: every other configured dimension is used unchanged. What is missing
is `D_d`, see the two theorems above. -/
theorem C15_other_dimensions_partial {α : Type} [Scalar α] (c : RhombicDrive.Config α) :
    let d := RhombicDrive.ofConfig c
    d.frequency = c.frequency ∧ d.V_clearance_c = c.V_clearance_c ∧
    d.V_clearance_e = c.V_clearance_e ∧ d.R_comp = c.R_c ∧ d.R_exp = c.R_e ∧
    d.geometry.eccentricity = c.eccentricity ∧ d.geometry.r_crank = c.r_crank ∧
    d.geometry.L_conn = c.L_conn ∧ d.geometry.D_p = c.D_p ∧
    d.parasitics.comp.mechanical = c.W_parasitic_c ∧
    d.parasitics.exp.mechanical = c.W_parasitic_e ∧ d.parasitics.exp.thermal = c.Q_parasitic_e :=
  ⟨rfl, rfl, rfl, rfl, rfl, rfl, rfl, rfl, rfl, rfl, rfl, rfl⟩

end Sett.ws
