import Verif.Props.SmallStroke
import Verif.Props.UniqueExample
import Mathlib.Analysis.SpecialFunctions.Trigonometric.Bounds

/-! # C86: sinusoidal drives, and worked cases -/

namespace Sett

open Spec state_equations dopri5

/-- A sinusoidal drive of short stroke is slow. -/
theorem sinusoidal_slow {r : Run ℝ} {L : Limits} {w : ℝ} (d : ws.SinusoidalDrive ℝ) (hv : r.ws_vol_fn = d.volumes)
    (hf : 0 ≤ d.frequency) (hc : 0 ≤ d.comp_geometry.swept_volume) (he : 0 ≤ d.exp_geometry.swept_volume)
    (hcl : L.Vmin ≤ d.comp_geometry.clearance_volume)
    (hcu : d.comp_geometry.clearance_volume + d.comp_geometry.swept_volume ≤ L.Vmax)
    (hel : L.Vmin ≤ d.exp_geometry.clearance_volume)
    (heu : d.exp_geometry.clearance_volume + d.exp_geometry.swept_volume ≤ L.Vmax)
    (hw : (d.comp_geometry.swept_volume + d.exp_geometry.swept_volume)
      * (2 * Real.pi * d.frequency + (2 * Real.pi * d.frequency) ^ 2) ≤ 2 * w) : SlowDrive r L w := by
  have hb := ws.C12_sinusoidal_bounds d hc he
  set o := 2 * Real.pi * d.frequency with ho
  have ho0 : 0 ≤ o := by have := Real.pi_pos; positivity
  have e1 : ∀ t, (d.volumes t).1.value = d.comp_geometry.clearance_volume
      + 0.5 * d.comp_geometry.swept_volume * (1 + Real.cos (o * t)) := by
    intro t; simp only [ws.SinusoidalDrive.volumes, ho]; scalars
  have e2 : ∀ t, (d.volumes t).1.deriv = -(0.5 * d.comp_geometry.swept_volume * o * Real.sin (o * t)) := by
    intro t; simp only [ws.SinusoidalDrive.volumes]; scalars; ring
  have e3 : ∀ t, (d.volumes t).2.value = d.exp_geometry.clearance_volume
      + 0.5 * d.exp_geometry.swept_volume * (1 + Real.cos (o * t + d.phase_angle * Real.pi / 180)) := by
    intro t; simp only [ws.SinusoidalDrive.volumes, ho]; scalars
  have e4 : ∀ t, (d.volumes t).2.deriv = -(0.5 * d.exp_geometry.swept_volume * o
      * Real.sin (o * t + d.phase_angle * Real.pi / 180)) := by
    intro t; simp only [ws.SinusoidalDrive.volumes]; scalars; ring
  set a := d.comp_geometry.swept_volume
  set b := d.exp_geometry.swept_volume
  have ha1 : 0 ≤ a * o := by positivity
  have ha2 : 0 ≤ a * o ^ 2 := by positivity
  have hb1 : 0 ≤ b * o := by positivity
  have hb2 : 0 ≤ b * o ^ 2 := by positivity
  have sine : ∀ c x : ℝ, 0 ≤ c → |-(0.5 * c * o * Real.sin x)| ≤ 0.5 * (c * o) := by
    intro c x hc
    rw [abs_neg, abs_mul, abs_of_nonneg (by positivity)]
    calc _ ≤ 0.5 * c * o * 1 := mul_le_mul_of_nonneg_left (Real.abs_sin_le_one _) (by positivity)
      _ = _ := by ring
  refine ⟨?_, ?_, ?_, ?_, ?_⟩
  · intro t; rw [hv]; exact ⟨hcl.trans (hb t).1, (hb t).2.1.trans hcu⟩
  · intro t; rw [hv]; exact ⟨hel.trans (hb t).2.2.1, (hb t).2.2.2.trans heu⟩
  · intro t
    rw [hv, e2]
    refine (sine _ _ hc).trans ?_
    norm_num
    linarith
  · intro t
    rw [hv, e4]
    refine (sine _ _ he).trans ?_
    norm_num
    linarith
  · intro t t'
    unfold driveGap
    simp only [hv, e1, e2, e3, e4]
    have arg : ∀ φ : ℝ, |(o * t + φ) - (o * t' + φ)| = o * |t - t'| := by
      intro φ
      rw [show (o * t + φ) - (o * t' + φ) = o * (t - t') by ring, abs_mul, abs_of_nonneg ho0]
    have val : ∀ c k φ : ℝ, 0 ≤ c → |k + 0.5 * c * (1 + Real.cos (o * t + φ)) - (k + 0.5 * c * (1 + Real.cos (o * t' + φ)))|
        ≤ 0.5 * (c * o) * |t - t'| := by
      intro c k φ hc
      have e : k + 0.5 * c * (1 + Real.cos (o * t + φ)) - (k + 0.5 * c * (1 + Real.cos (o * t' + φ)))
        = 0.5 * c * (Real.cos (o * t + φ) - Real.cos (o * t' + φ)) := by ring
      rw [e, abs_mul, abs_of_nonneg (by positivity)]
      have := mul_le_mul_of_nonneg_left ((Real.abs_cos_sub_cos_le _ _).trans (arg φ).le) (show 0 ≤ 0.5 * c by positivity)
      linarith
    have der : ∀ c φ : ℝ, 0 ≤ c → |-(0.5 * c * o * Real.sin (o * t + φ)) - -(0.5 * c * o * Real.sin (o * t' + φ))|
        ≤ 0.5 * (c * o ^ 2) * |t - t'| := by
      intro c φ hc
      have e : -(0.5 * c * o * Real.sin (o * t + φ)) - -(0.5 * c * o * Real.sin (o * t' + φ))
        = -(0.5 * c * o) * (Real.sin (o * t + φ) - Real.sin (o * t' + φ)) := by ring
      rw [e, abs_mul, abs_neg, abs_of_nonneg (by positivity)]
      have := mul_le_mul_of_nonneg_left ((Real.abs_sin_sub_sin_le _ _).trans (arg φ).le) (show 0 ≤ 0.5 * c * o by positivity)
      linarith
    have v1 := val a d.comp_geometry.clearance_volume 0 hc
    have v2 := der a 0 hc
    simp only [add_zero] at v1 v2
    have v3 := val b d.exp_geometry.clearance_volume (d.phase_angle * Real.pi / 180) he
    have v4 := der b (d.phase_angle * Real.pi / 180) he
    have hk : (0.5 * (a * o) + 0.5 * (b * o) + 0.5 * (a * o ^ 2) + 0.5 * (b * o ^ 2)) * |t - t'| ≤ w * |t - t'| := by
      refine mul_le_mul_of_nonneg_right ?_ (abs_nonneg _)
      norm_num
      linarith
    linarith

/-- **C86**, short strokes.  For an engine with no parasitic heat, limits on pressure, temperatures and volumes, a
tolerance, and a highest frequency, there is a swept volume up to which the integration of one cycle with a
sinusoidal drive, from any initial state keeping the distance `δ` from the limits, succeeds. -/
theorem C86_short_stroke {r : Run ℝ} {n : GasName} (hf : r.fluid = (IdealGas.new n).toFluid) (hs : SaneRun r)
    (hT : Sound r.solver) (hc : Complete r.solver) (hq : NoParasiticHeat r) (L : Limits) {δ σ F : ℝ} (hδ : 0 < δ)
    (hσ : 0 < σ) (hF : F ≤ 1e10) : ∃ v, 0 < v ∧ ∀ (d : ws.SinusoidalDrive ℝ), 1.01e-6 ≤ d.frequency → d.frequency ≤ F →
      0 ≤ d.comp_geometry.swept_volume → d.comp_geometry.swept_volume ≤ v →
      0 ≤ d.exp_geometry.swept_volume → d.exp_geometry.swept_volume ≤ v →
      L.Vmin ≤ d.comp_geometry.clearance_volume → d.comp_geometry.clearance_volume + d.comp_geometry.swept_volume ≤ L.Vmax →
      L.Vmin ≤ d.exp_geometry.clearance_volume → d.exp_geometry.clearance_volume + d.exp_geometry.swept_volume ≤ L.Vmax →
      ∀ (outs : Nat) (env : Env ℝ) (ic : Conditions ℝ) (num : UInt32) (tol : OdeTolerance ℝ),
      env.ode = dopri5.solve outs → 2 ≤ num.toNat → ((num.toNat : ℝ) - 1) * 1e-14 < 1 / d.frequency →
      num.toNat + 2 ≤ outs → 0 ≤ tol.rel → σ ≤ leastAllowed tol L → Inside L δ ic →
      ∃ pts, integrationTryFrom env
        ({ r with ws_vol_fn := d.volumes, period := 1 / d.frequency } : Run ℝ).toCycle ic num tol = .ok pts := by
  obtain ⟨w, hw, -, h⟩ := C86_slow hf hs hT hc hq L hδ hσ
  set O := 2 * Real.pi * |F| + (2 * Real.pi * |F|) ^ 2 + 1 with hO
  have hO0 : 0 < O := by have := Real.pi_pos; positivity
  refine ⟨w / O, by positivity, ?_⟩
  intro d f1 f2 c0 c1 e0 e1 hcl hcu hel heu outs env ic num tol ho hn hres hout hrel htol hin
  have hf0 : 0 < d.frequency := lt_of_lt_of_le (by norm_num) f1
  suffices hh : SlowDrive _ L w ∧ _ ∧ _ from
    let ⟨pts, e, _⟩ := h { r with ws_vol_fn := d.volumes, period := 1 / d.frequency } rfl hh.1 hh.2.1 hh.2.2 outs env ic
      num tol ho hn hres hout hrel htol hin
    ⟨pts, e⟩
  refine ⟨?_, ?_, ?_⟩
  · refine sinusoidal_slow d rfl hf0.le c0 e0 hcl hcu hel heu ?_
    have hp := Real.pi_pos
    have ff : 2 * Real.pi * d.frequency ≤ 2 * Real.pi * |F| :=
      mul_le_mul_of_nonneg_left (f2.trans (le_abs_self _)) (by positivity)
    have hle : 2 * Real.pi * d.frequency + (2 * Real.pi * d.frequency) ^ 2 ≤ O := by
      have := pow_le_pow_left₀ (by positivity) ff 2
      rw [hO]
      linarith
    calc _ ≤ (w / O + w / O) * O := mul_le_mul (add_le_add c1 e1) hle (by positivity) (by positivity)
      _ = 2 * w := by field_simp; norm_num
  · show 1e-10 ≤ 1 / d.frequency
    rw [le_div_iff₀ hf0]
    have := f2.trans hF
    norm_num at this ⊢
    linarith
  · show 1 / d.frequency < 1e6 - 1
    rw [div_lt_iff₀ hf0]
    norm_num at f1 ⊢
    linarith

namespace TrajectoryExample

open BalanceExample

theorem noHeat : NoParasiticHeat run := ⟨rfl, rfl⟩

/-- C86, slow engines, applies: the pistons of the example engine on a short stroke, sixty times a second, from a
state in which the gas in the working spaces is not at the temperature of the exchangers, with the crate's default
tolerance. -/
example : ∃ (d : ws.SinusoidalDrive ℝ) (env : Env ℝ) (pts : List (Point ℝ)), (d.volumes 0).1.value ≠ (d.volumes (1 / 120)).1.value ∧
    integrationTryFrom env ({ run with ws_vol_fn := d.volumes, period := 1 / d.frequency } : Run ℝ).toCycle
      ⟨1000, 300, 800⟩ 100 ⟨1e-6, 1e-6⟩ = .ok pts := by
  obtain ⟨v, hv, h⟩ := C86_short_stroke (r := run) (n := .Helium) rfl saneRun exact_sound exact_complete noHeat
    limits (δ := 10) (σ := 1e-6) (F := 60) (by norm_num) (by norm_num) (by norm_num)
  set q := min v 1 with hq
  have q0 : 0 < q := lt_min hv one_pos
  have q1 : q ≤ v := min_le_left _ _
  have q2 : q ≤ 1 := min_le_right _ _
  let d : ws.SinusoidalDrive ℝ :=
    { drive with frequency := 60
                 comp_geometry := { clearance_volume := 1, swept_volume := q }
                 exp_geometry := { clearance_volume := 1, swept_volume := q } }
  obtain ⟨pts, hp⟩ := h d (by norm_num [d]) (by norm_num [d]) q0.le q1 q0.le q1 (by norm_num [d, limits])
    (by show (1 : ℝ) + q ≤ 2; linarith) (by norm_num [d, limits]) (by show (1 : ℝ) + q ≤ 2; linarith)
    102 ⟨dopri5.solve 102, .wrapping⟩ ⟨1000, 300, 800⟩ 100 ⟨1e-6, 1e-6⟩ rfl (by decide)
    (by
      show (((100 : ℕ) : ℝ) - 1) * 1e-14 < 1 / 60
      norm_num) (by decide) (by norm_num) (by norm_num [leastAllowed, limits])
    ⟨by norm_num [limits], by norm_num [limits], by norm_num [limits]⟩
  refine ⟨d, _, pts, ?_, hp⟩
  have e : ∀ t, (d.volumes t).1.value = 1 + 0.5 * q * (1 + Real.cos (2 * Real.pi * 60 * t)) := by
    intro t; simp only [ws.SinusoidalDrive.volumes, d]; scalars
  rw [e, e, show 2 * Real.pi * 60 * (1 / 120) = Real.pi by ring, mul_zero, Real.cos_zero, Real.cos_pi]
  intro hc
  norm_num at hc
  linarith

end TrajectoryExample

/-- C86, the integrator, applies: the harmonic motion `y'' = -y` for a second. -/
example (qs : List (ℝ × V3 ℝ × V3 ℝ))
    (hq : ∀ q ∈ qs, (|q.2.1.y0| ≤ 2 ∧ |q.2.1.y1| ≤ 2) ∧ q.2.2 = ⟨q.2.1.y1, -q.2.1.y0, 0⟩) :
    ¬Reaches (dopri5.solve 12 0.0 1 0.1 ⟨1, 0, 0⟩ 0 1e-2) qs (.done none) := by
  refine C86_integrator 11 1 0.1 0 1e-2 ⟨1, 0, 0⟩
    (fun _ y k => (|y.y0| ≤ 2 ∧ |y.y1| ≤ 2) ∧ k = ⟨y.y1, -y.y0, 0⟩) (M := 2) (C := 1) (K := 0) (σ := 1e-2)
    (by norm_num) le_rfl ⟨?_, ?_⟩ (by norm_num) le_rfl ?_ (by norm_num) (by norm_num) (by norm_num) (by norm_num)
    (by norm_num) (by norm_num) qs hq
  · rintro t y k ⟨⟨h0, h1⟩, rfl⟩
    exact norm_vec_le h1 (by rwa [abs_neg]) (by simp)
  · rintro t y k t' y' k' ⟨-, rfl⟩ ⟨-, rfl⟩
    rw [one_mul, zero_mul, add_zero]
    simp only [vec, Prod.mk_sub_mk, Prod.norm_mk, Real.norm_eq_abs, sub_self, abs_zero]
    have e : |-y.y0 - -y'.y0| = |y.y0 - y'.y0| := by rw [show -y.y0 - -y'.y0 = -(y.y0 - y'.y0) by ring, abs_neg]
    rw [e]
    refine max_le ((le_max_left _ _).trans (le_max_right _ _)) (max_le (le_max_left _ _) ?_)
    exact (abs_nonneg _).trans (le_max_left _ _)
  · intro t y k _
    norm_num

end Sett
