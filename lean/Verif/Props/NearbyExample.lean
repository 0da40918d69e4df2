import Verif.Props.Nearby
import Verif.Props.NearExample
import Mathlib.Analysis.Real.Pi.Bounds

/-! # Example for C106: the adiabatic engine with a small exchanger, at another speed and phase angle -/

namespace Sett.TrajectoryExample

open Spec state_equations BalanceExample Set

/-- The drive of the adiabatic engine at another speed and phase angle. -/
noncomputable def turned (f φ : ℝ) : ws.SinusoidalDrive ℝ := { drive with frequency := 1 + f, phase_angle := φ }

/-- The adiabatic engine with a cold exchanger of volume `x` and that drive. -/
noncomputable def otherParts (x f φ : ℝ) : Components ℝ :=
  { components with
    ws := (turned f φ).toWorkingSpaces
    chx := (chx.FixedApproach.new x 0 40 ⟨0, 0, 0⟩).toColdHeatExchanger }

noncomputable def other (x f φ : ℝ) : Run ℝ := Run.new exact (otherParts x f φ) state

def designLimits : DesignLimits := ⟨1, 600, 860, 0, by norm_num⟩

theorem withinDesign : WithinDesign designLimits run := by
  constructor <;>
    norm_num [run, Run.new, components, state, designLimits, chx.FixedApproach.new, regen.FixedApproach.new,
      hhx.FixedApproach.new, chx.FixedApproach.toColdHeatExchanger, regen.FixedApproach.toRegenerator,
      hhx.FixedApproach.toHotHeatExchanger, ws.SinusoidalDrive.toWorkingSpaces, drive]

theorem withinDesign_other {x : ℝ} (f φ : ℝ) (h : 0 ≤ x) (h' : x ≤ 1) : WithinDesign designLimits (other x f φ) :=
  { withinDesign with chx_vol := ⟨h, h'⟩ }

theorem designGap_other {x : ℝ} (f φ : ℝ) (h : 0 ≤ x) : designGap run (other x f φ) = x := by
  have e : designGap run (other x f φ) = tempGap run.temp run.temp + |run.vol_chx - x| + |run.vol_regen - run.vol_regen|
    + |run.vol_hhx - run.vol_hhx| + |run.ws_parasitics.comp.thermal - run.ws_parasitics.comp.thermal|
    + |run.ws_parasitics.exp.thermal - run.ws_parasitics.exp.thermal| := rfl
  have e0 : run.vol_chx = 0 := rfl
  rw [e, e0]
  simp [tempGap, abs_of_nonneg h]

theorem driveWithin_other (x φ : ℝ) {f : ℝ} (hf : |f| ≤ 1 / 10) : DriveWithin (other x f φ) limits := by
  have hv : ∀ t, 1 ≤ ((turned f φ).volumes t).1.value ∧ ((turned f φ).volumes t).1.value ≤ 2 ∧
      1 ≤ ((turned f φ).volumes t).2.value ∧ ((turned f φ).volumes t).2.value ≤ 2 := by
    intro t
    obtain ⟨a, b, c, d⟩ := ws.C12_sinusoidal_bounds (turned f φ) (by norm_num [turned, drive]) (by norm_num [turned, drive]) t
    simp only [turned, drive] at a b c d ⊢
    norm_num at a b c d ⊢
    exact ⟨a, b, c, d⟩
  have key : ∀ x : ℝ, |-(1 / 2) * 1 * Real.sin x * (2 * Real.pi * (1 + f))| ≤ 4 := by
    intro x
    have hs := Real.abs_sin_le_one x
    have hpi := Real.pi_lt_d2
    have hpos := Real.pi_pos
    have h1 : |1 + f| ≤ 1.1 := by rw [abs_le] at hf ⊢; constructor <;> linarith
    rw [show -(1 / 2) * 1 * Real.sin x * (2 * Real.pi * (1 + f)) = Real.sin x * (Real.pi * -(1 + f)) by ring, abs_mul, abs_mul,
      abs_neg, abs_of_pos hpos]
    have h2 : Real.pi * |1 + f| ≤ 3.15 * 1.1 := mul_le_mul hpi.le h1 (abs_nonneg _) (by norm_num)
    have h3 := mul_le_mul hs h2 (by positivity) zero_le_one
    linarith
  refine ⟨fun t => ⟨(hv t).1, (hv t).2.1⟩, fun t => ⟨(hv t).2.2.1, (hv t).2.2.2⟩, fun t => ?_, fun t => ?_⟩
  · have e : ((other x f φ).ws_vol_fn t).1.deriv = ((turned f φ).volumes t).1.deriv := rfl
    rw [e]
    simp only [turned, drive, ws.SinusoidalDrive.volumes, limits]
    scalars
    exact key _
  · have e : ((other x f φ).ws_vol_fn t).2.deriv = ((turned f φ).volumes t).2.deriv := rfl
    rw [e]
    simp only [turned, drive, ws.SinusoidalDrive.volumes, limits]
    scalars
    exact key _

theorem saneRun_other {x f : ℝ} (φ : ℝ) (h : 0 ≤ x) (hf : |f| ≤ 1 / 10) : SaneRun (other x f φ) := by
  have d := driveWithin_other x φ hf
  exact ⟨saneRun.norm, fun t => zero_lt_one.trans_le (d.comp_vol t).1, fun t => zero_lt_one.trans_le (d.exp_vol t).1, h,
    saneRun.regen_vol, saneRun.hhx_vol, saneRun.regen_temp, saneRun.chx_temp, saneRun.hhx_temp⟩

/-- The adiabatic motion keeps 10 Pa and 10 K away from the limits. -/
theorem inside (t : ℝ) : Inside limits 10 (y t) := by
  obtain ⟨h1, h2⟩ := V_bounds t
  have hV : 0 < V t := by linarith
  have hT := T_ge t
  have hT' := T_le t
  refine ⟨⟨?_, ?_⟩, ⟨?_, ?_⟩, ⟨?_, ?_⟩⟩ <;> simp only [limits, y]
  · rw [le_div_iff₀ hV]; linarith
  · rw [le_sub_iff_add_le, ← le_sub_iff_add_le, div_le_iff₀ hV]; linarith
  all_goals linarith

/-- C106 applies: with a small enough cold exchanger, and at a speed and phase angle near enough, the engine moves for ten
turns within 10 Pa and 10 K of the adiabatic motion, and the work of these turns is near that of the adiabatic motion. -/
example : ∃ ε M, 0 < ε ∧ ∀ x f φ, 0 ≤ x → x ≤ ε → |f| ≤ ε → |φ| ≤ ε →
    ∃ z, z 0 = y 0 ∧ Trajectory (other x f φ) z 0 10 ∧ (∀ t ∈ Icc 0 10, stateGap (y t) (z t) ≤ 10) ∧
      |workOf run y 0 10 - workOf (other x f φ) z 0 10| ≤ M * (|f| + |φ| + x) := by
  obtain ⟨C', hC', hwork⟩ := C106_work .Helium limits designLimits
  obtain ⟨C, hC, h⟩ := C106_exists .Helium limits designLimits
  obtain ⟨K, hK, hd⟩ := C106_sinusoidal (F := 1) (S := 1) (B := 10) zero_le_one zero_le_one (by norm_num)
  obtain ⟨N, hN⟩ : ∃ N, N = C * (2 * K + 1) * Real.exp (C * 10) := ⟨_, rfl⟩
  have hN0 : 0 < N := hN ▸ by positivity
  refine ⟨min (1 / 10) (1 / (3 * N)), (24 * (C' * (K + 1) * 10 * Real.exp (C' * 10)) + 2000 * (K + 1)) * 10, by positivity, fun x f φ hx hx' hf hφ => ?_⟩
  obtain ⟨ε, hε⟩ : ∃ ε, ε = min (1 / 10) (1 / (3 * N)) := ⟨_, rfl⟩
  rw [← hε] at hx' hf hφ
  have hε1 : ε ≤ 1 / 10 := hε ▸ min_le_left _ _
  have hε2 : N * ε ≤ 1 / 3 := by
    have := mul_le_mul_of_nonneg_left (hε ▸ min_le_right (1 / 10) (1 / (3 * N)) : ε ≤ 1 / (3 * N)) hN0.le
    refine this.trans (le_of_eq ?_)
    field_simp
  have hf1 := hf.trans hε1
  have hne : (turned f φ).frequency ≠ 0 := by
    simp only [turned]; rw [abs_le] at hf1; linarith
  obtain ⟨K', hK', hs⟩ := C82_sinusoidal_steady exact (otherParts x f φ) state (turned f φ) rfl hne
  have h0 : stateGap (y 0) (y 0) = 0 := by simp [stateGap]
  have gap : ∀ t ∈ Icc 0 10, pistonGap run t (other x f φ) t + designGap run (other x f φ) ≤ K * (|f| + |φ|) + x := by
    intro t ht
    have h1 := hd run (other x f φ) drive (turned f φ) rfl rfl (by norm_num [drive]) (by norm_num [turned, drive])
      (by norm_num [turned, drive]) t ht
    have h2 : sinusoidGap drive (turned f φ) = |f| + |φ| := by
      simp [sinusoidGap, turned, drive]
    rw [h2] at h1
    rw [designGap_other f φ hx]
    linarith
  obtain ⟨z, hz, tz, hn⟩ := h run (other x f φ) rfl rfl withinDesign (withinDesign_other f φ hx (by linarith)) saneRun
    (saneRun_other φ hx hf1) exact_sound exact_sound exact_complete K' hK' hs driveWithin (driveWithin_other x φ hf1) 10
    ((2 * K + 1) * ε) 10 y (y 0) (by norm_num) (trajectory 0 10) (fun t ht => by
      have h1 := gap t ht
      have := mul_le_mul_of_nonneg_left (add_le_add hf hφ) hK
      linarith) (by
      rw [h0]
      have e : 3 * ((0 + C * ((2 * K + 1) * ε) * 10) * Real.exp (C * 10)) = 30 * (N * ε) := by rw [hN]; ring
      rw [e]; linarith) (fun t _ => inside t)
  refine ⟨z, hz, tz, fun t ht => (hn t ht).2, ?_⟩
  have hw := hwork run (other x f φ) rfl rfl withinDesign (withinDesign_other f φ hx (by linarith)) saneRun
    (saneRun_other φ hx hf1) exact_sound exact_sound continuousDrive
    (C71_sinusoidal_continuous exact (otherParts x f φ) state (turned f φ) rfl) 0 10 ((K + 1) * (|f| + |φ| + x)) y z
    (by norm_num) (trajectory 0 10) tz (fun t ht => ⟨within t, (hn t ht).1⟩) (fun t ht => (gap t ht).trans (by
      have := mul_nonneg hK hx
      linarith [abs_nonneg f, abs_nonneg φ]))
  rw [hz, h0] at hw
  refine hw.trans (le_of_eq ?_)
  simp only [limits]
  ring_nf

end Sett.TrajectoryExample
