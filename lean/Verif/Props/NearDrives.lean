import Verif.Props.Near
import Verif.Props.UniqueExample
import Mathlib.Analysis.SpecialFunctions.Trigonometric.Deriv
import Mathlib.Analysis.SpecialFunctions.Sqrt
import Mathlib.Analysis.Calculus.MeanValue

/-! # C82: both drives are steady -/

namespace Sett

open Spec state_equations Set

/-- A continuously differentiable function that repeats itself is Lipschitz. -/
theorem lipschitz_of_periodic {g : ℝ → ℝ} (hg : ContDiff ℝ 1 g) {p : ℝ} (hp : p ≠ 0)
    (hper : ∀ t, g (t + p) = g t) : ∃ K, 0 ≤ K ∧ ∀ t t', |g t - g t'| ≤ K * |t - t'| := by
  have hper' : Function.Periodic (deriv g) p := by
    intro t
    have : deriv (fun t => g (t + p)) t = deriv g t := by simp only [hper]
    rwa [deriv_comp_add_const] at this
  obtain ⟨K, hK⟩ := (hper'.compact_of_continuous hp (hg.continuous_deriv le_rfl)).isBounded.exists_norm_le
  refine ⟨K, (norm_nonneg _).trans (hK _ ⟨0, rfl⟩), fun t t' => ?_⟩
  exact convex_univ.norm_image_sub_le_of_norm_deriv_le
    (fun x _ => (hg.differentiable one_ne_zero) x) (fun x _ => hK _ ⟨x, rfl⟩) (mem_univ _) (mem_univ _)

/-- The four functions of a drive that repeats itself. -/
theorem steady_of_smooth {r : Run ℝ} (h1 : ContDiff ℝ 1 fun t => (r.ws_vol_fn t).1.value)
    (h2 : ContDiff ℝ 1 fun t => (r.ws_vol_fn t).2.value) (h3 : ContDiff ℝ 1 fun t => (r.ws_vol_fn t).1.deriv)
    (h4 : ContDiff ℝ 1 fun t => (r.ws_vol_fn t).2.deriv) {p : ℝ} (hp : p ≠ 0)
    (hper : ∀ t, r.ws_vol_fn (t + p) = r.ws_vol_fn t) : ∃ K, 0 ≤ K ∧ SteadyDrive r K := by
  obtain ⟨a, a0, ha⟩ := lipschitz_of_periodic h1 hp (fun t => by rw [hper])
  obtain ⟨b, b0, hb⟩ := lipschitz_of_periodic h2 hp (fun t => by rw [hper])
  obtain ⟨c, c0, hc⟩ := lipschitz_of_periodic h3 hp (fun t => by rw [hper])
  obtain ⟨d, d0, hd⟩ := lipschitz_of_periodic h4 hp (fun t => by rw [hper])
  refine ⟨a + b + c + d, by positivity, fun t t' => ?_⟩
  have := ha t t'; have := hb t t'; have := hc t t'; have := hd t t'
  unfold driveGap
  linarith

/-- **C82**, drives: the sinusoidal drive is steady. -/
theorem C82_sinusoidal_steady (T : MatrixDecomposition ℝ) (c : Components ℝ) (s : State ℝ)
    (d : ws.SinusoidalDrive ℝ) (h : c.ws = d.toWorkingSpaces) (hf : d.frequency ≠ 0) :
    ∃ K, 0 ≤ K ∧ SteadyDrive (Run.new T c s) K := by
  have hv : (Run.new T c s).ws_vol_fn = d.volumes := by
    show c.ws.volumes s.ws = _
    rw [h]; rfl
  refine steady_of_smooth ?_ ?_ ?_ ?_ (one_div_ne_zero hf)
    (fun t => by rw [hv]; exact ws.C12_sinusoidal_periodic d hf t) <;> rw [hv] <;>
    simp only [ws.SinusoidalDrive.volumes] <;> scalars <;> fun_prop

/-- **C82**, drives: so is a rhombic drive that can turn. -/
theorem C82_rhombic_steady (T : MatrixDecomposition ℝ) (c : Components ℝ) (s : State ℝ)
    (d : ws.RhombicDrive ℝ) (h : c.ws = d.toWorkingSpaces) (hg : ws.Feasible d.geometry)
    (hf : d.frequency ≠ 0) : ∃ K, 0 ≤ K ∧ SteadyDrive (Run.new T c s) K := by
  have hv : (Run.new T c s).ws_vol_fn = d.volumes := by
    show c.ws.volumes s.ws = _
    rw [h]; rfl
  have hb : ContDiff ℝ 1 fun t => √(d.geometry.L_conn ^ 2 - (d.geometry.eccentricity
      + d.geometry.r_crank * Real.cos (2 * Real.pi * d.frequency * t)) ^ 2) :=
    ContDiff.sqrt (by fun_prop) (fun t => (hg.radicand_pos _).ne')
  have hb' : ∀ t, √(d.geometry.L_conn ^ 2 - (d.geometry.eccentricity
      + d.geometry.r_crank * Real.cos (2 * Real.pi * d.frequency * t)) ^ 2) ≠ 0 := fun t =>
    (Real.sqrt_pos.2 (hg.radicand_pos _)).ne'
  have hq : ContDiff ℝ 1 fun t => (-2 * (Real.pi * d.geometry.D_p ^ 2 / 4) * d.geometry.r_crank
      * Real.sin (2 * Real.pi * d.frequency * t) * (d.geometry.eccentricity
      + d.geometry.r_crank * Real.cos (2 * Real.pi * d.frequency * t))
      / √(d.geometry.L_conn ^ 2 - (d.geometry.eccentricity
      + d.geometry.r_crank * Real.cos (2 * Real.pi * d.frequency * t)) ^ 2)) :=
    ContDiff.div (by fun_prop) hb hb'
  refine steady_of_smooth ?_ ?_ ?_ ?_ (one_div_ne_zero hf)
    (fun t => by rw [hv]; exact ws.C14_rhombic_periodic d hf t) <;> rw [hv]
  · simp only [fun t => (ws.rhombic_volumes d t).1]; fun_prop
  · simp only [fun t => (ws.rhombic_volumes d t).2.2.1]; fun_prop
  · simp only [fun t => (ws.rhombic_volumes d t).2.1]; fun_prop
  · simp only [fun t => (ws.rhombic_volumes d t).2.2.2]; fun_prop

end Sett
