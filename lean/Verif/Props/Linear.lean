import Verif.Props.Steps
import Verif.Props.Unique
import Verif.Proofs.StepError

/-! # C104: the order of the integrator on linear rates -/

namespace Sett

open Spec Set

/-- Rates linear in the distance from a state of rest `c`. -/
def LinearRates (M : (ℝ × ℝ × ℝ) →L[ℝ] (ℝ × ℝ × ℝ)) (c : ℝ × ℝ × ℝ) (_ : ℝ) (y k : V3 ℝ) : Prop := vec k = M (vec y - c)

/-- A curve `x' = M (x - c)` on `[0, b]`. -/
structure LinearMotion (M : (ℝ × ℝ × ℝ) →L[ℝ] (ℝ × ℝ × ℝ)) (c : ℝ × ℝ × ℝ) (b : ℝ) (Y : ℝ → ℝ × ℝ × ℝ) : Prop where
  continuous : ContinuousOn Y (Icc 0 b)
  deriv : ∀ t ∈ Ico 0 b, HasDerivWithinAt Y (M (Y t - c)) (Ici t) t

section step

variable {M : (ℝ × ℝ × ℝ) →L[ℝ] (ℝ × ℝ × ℝ)} {c : ℝ × ℝ × ℝ} {s : Step}

/-- The seven slopes of a step, as polynomials in `h M`. -/
theorem linear_slopes (hs : s.Slopes (LinearRates M c)) :
    let v := vec s.y - c
    vec s.k1 = M v ∧
    vec s.k2 = M v + (s.h / 5) • M (M v) ∧
    vec s.k3 = M v + (3 * s.h / 10) • M (M v) + (9 * s.h ^ 2 / 200) • M (M (M v)) ∧
    vec s.k4 = M v + (4 * s.h / 5) • M (M v) + (8 * s.h ^ 2 / 25) • M (M (M v)) + (4 * s.h ^ 3 / 25) • M (M (M (M v))) ∧
    vec s.k5 = M v + (8 * s.h / 9) • M (M v) + (32 * s.h ^ 2 / 81) • M (M (M v)) + (424 * s.h ^ 3 / 1215) • M (M (M (M v)))
      + (-848 * s.h ^ 4 / 18225) • M (M (M (M (M v)))) ∧
    vec s.k6 = M v + s.h • M (M v) + (s.h ^ 2 / 2) • M (M (M v)) + (21 * s.h ^ 3 / 55) • M (M (M (M v)))
      + (-14 * s.h ^ 4 / 275) • M (M (M (M (M v)))) + (7 * s.h ^ 5 / 550) • M (M (M (M (M (M v))))) ∧
    vec s.k7 = M v + s.h • M (M v) + (s.h ^ 2 / 2) • M (M (M v)) + (s.h ^ 3 / 6) • M (M (M (M v)))
      + (s.h ^ 4 / 24) • M (M (M (M (M v)))) + (s.h ^ 5 / 120) • M (M (M (M (M (M v)))))
      + (s.h ^ 6 / 600) • M (M (M (M (M (M (M v)))))) := by
  intro v
  have sub : ∀ w : ℝ × ℝ × ℝ, vec s.y + w - c = v + w := fun w => by simp only [v]; abel
  have k1 : vec s.k1 = M v := hs.k1
  have k2 := hs.k2
  have k3 := hs.k3
  have k4 := hs.k4
  have k5 := hs.k5
  have k6 := hs.k6
  have k7 := hs.k7
  simp only [LinearRates, Step.finish, vec_go, sub, map_add, map_smul] at k2 k3 k4 k5 k6 k7
  rw [k1] at k2 k3 k4 k5 k6 k7
  simp only [map_add, map_smul, zero_smul, add_zero, map_zero, smul_zero] at k2 k3 k4 k5 k6 k7
  have k2' : vec s.k2 = M v + (s.h / 5) • M (M v) := by rw [k2]; module
  rw [k2'] at k3 k4 k5 k6
  simp only [map_add, map_smul] at k3 k4 k5 k6 k7
  have k3' : vec s.k3 = M v + (3 * s.h / 10) • M (M v) + (9 * s.h ^ 2 / 200) • M (M (M v)) := by rw [k3]; module
  rw [k3'] at k4 k5 k6 k7
  simp only [map_add, map_smul] at k4 k5 k6 k7
  have k4' : vec s.k4 = M v + (4 * s.h / 5) • M (M v) + (8 * s.h ^ 2 / 25) • M (M (M v)) + (4 * s.h ^ 3 / 25) • M (M (M (M v))) := by
    rw [k4]; module
  rw [k4'] at k5 k6 k7
  simp only [map_add, map_smul] at k5 k6 k7
  have k5' : vec s.k5 = M v + (8 * s.h / 9) • M (M v) + (32 * s.h ^ 2 / 81) • M (M (M v)) + (424 * s.h ^ 3 / 1215) • M (M (M (M v)))
      + (-848 * s.h ^ 4 / 18225) • M (M (M (M (M v)))) := by
    rw [k5]; module
  rw [k5'] at k6 k7
  simp only [map_add, map_smul] at k6 k7
  have k6' : vec s.k6 = M v + s.h • M (M v) + (s.h ^ 2 / 2) • M (M (M v)) + (21 * s.h ^ 3 / 55) • M (M (M (M v)))
      + (-14 * s.h ^ 4 / 275) • M (M (M (M (M v)))) + (7 * s.h ^ 5 / 550) • M (M (M (M (M (M v))))) := by
    rw [k6]; module
  rw [k6'] at k7
  simp only [map_add, map_smul] at k7
  refine ⟨k1, k2', k3', k4', k5', k6', ?_⟩
  rw [k7]; module

/-- **C104**, one step on linear rates: the result multiplies the distance from rest by the exponential series up to the fifth power of
`h M`, with 1/600 for 1/720 at the sixth; the error estimate is of fifth order. -/
theorem C104_step (hs : s.Slopes (LinearRates M c)) :
    let v := vec s.y - c
    vec s.finish - c = v + s.h • M v + (s.h ^ 2 / 2) • M (M v) + (s.h ^ 3 / 6) • M (M (M v)) + (s.h ^ 4 / 24) • M (M (M (M v)))
      + (s.h ^ 5 / 120) • M (M (M (M (M v)))) + (s.h ^ 6 / 600) • M (M (M (M (M (M v))))) ∧
    vec s.finish - vec s.embedded = (-97 * s.h ^ 5 / 120000) • M (M (M (M (M v)))) + (13 * s.h ^ 6 / 40000) • M (M (M (M (M (M v)))))
      - (s.h ^ 7 / 24000) • M (M (M (M (M (M (M v)))))) := by
  intro v
  obtain ⟨k1, k2, k3, k4, k5, k6, k7⟩ := linear_slopes hs
  change vec s.k1 = M v at k1
  simp only [Step.finish, Step.embedded, vec_go, k1, k2, k3, k4, k5, k6, k7]
  have hv : vec s.y = v + c := by simp only [v]; abel
  rw [hv]
  simp only [add_sub_cancel_right]
  constructor <;> module

/-- In between: the exponential series up to the fourth power, and terms of fifth order. -/
theorem linear_dense (hs : s.Slopes (LinearRates M c)) (θ : ℝ) :
    let v := vec s.y - c
    vec (s.dense θ) - c = v + (θ * s.h) • M v + ((θ * s.h) ^ 2 / 2) • M (M v) + ((θ * s.h) ^ 3 / 6) • M (M (M v))
      + ((θ * s.h) ^ 4 / 24) • M (M (M (M v)))
      + ((θ ^ 2 * (3 - 2 * θ) / 120 - θ ^ 2 * (1 - θ) / 24 + θ ^ 2 * (1 - θ) ^ 2 * (22358351 / 881412690)) * s.h ^ 5)
        • M (M (M (M (M v))))
      + ((θ ^ 2 * (3 - 2 * θ) / 600 - θ ^ 2 * (1 - θ) / 120 - θ ^ 2 * (1 - θ) ^ 2 * (2325839 / 881412690)) * s.h ^ 6)
        • M (M (M (M (M (M v)))))
      + ((-(θ ^ 2 * (1 - θ) / 600) + θ ^ 2 * (1 - θ) ^ 2 * (13999589 / 3525650760)) * s.h ^ 7)
        • M (M (M (M (M (M (M v)))))) := by
  intro v
  obtain ⟨k1, k2, k3, k4, k5, k6, k7⟩ := linear_slopes hs
  change vec s.k1 = M v at k1
  rw [dense_eq, vec_go, k1, k2, k3, k4, k5, k6, k7]
  have hv : vec s.y = v + c := by simp only [v]; abel
  rw [hv]
  simp only [add_sub_cancel_right]
  module

end step

/-- The powers of a bounded linear map on a vector. -/
theorem power_norms (M : (ℝ × ℝ × ℝ) →L[ℝ] (ℝ × ℝ × ℝ)) (v : ℝ × ℝ × ℝ) :
    ‖M v‖ ≤ ‖M‖ * ‖v‖ ∧ ‖M (M v)‖ ≤ ‖M‖ ^ 2 * ‖v‖ ∧ ‖M (M (M v))‖ ≤ ‖M‖ ^ 3 * ‖v‖ ∧ ‖M (M (M (M v)))‖ ≤ ‖M‖ ^ 4 * ‖v‖ ∧
      ‖M (M (M (M (M v))))‖ ≤ ‖M‖ ^ 5 * ‖v‖ ∧ ‖M (M (M (M (M (M v)))))‖ ≤ ‖M‖ ^ 6 * ‖v‖ ∧
      ‖M (M (M (M (M (M (M v))))))‖ ≤ ‖M‖ ^ 7 * ‖v‖ := by
  have up : ∀ {w : ℝ × ℝ × ℝ} {n : ℕ}, ‖w‖ ≤ ‖M‖ ^ n * ‖v‖ → ‖M w‖ ≤ ‖M‖ ^ (n + 1) * ‖v‖ := fun {w n} h => by
    refine (M.le_opNorm w).trans ?_
    rw [pow_succ', mul_assoc]
    exact mul_le_mul_of_nonneg_left h (norm_nonneg _)
  have h1 : ‖M v‖ ≤ ‖M‖ ^ 1 * ‖v‖ := by simpa using M.le_opNorm v
  exact ⟨by simpa using h1, up h1, up (up h1), up (up (up h1)), up (up (up (up h1))), up (up (up (up (up h1)))),
    up (up (up (up (up (up h1)))))⟩

theorem norm_smul_le' {a m : ℝ} {w : ℝ × ℝ × ℝ} (ha : |a| ≤ m) {n : ℝ} (hw : ‖w‖ ≤ n) : ‖a • w‖ ≤ m * n := by
  rw [norm_smul, Real.norm_eq_abs]
  exact mul_le_mul ha hw (norm_nonneg _) ((abs_nonneg _).trans ha)

/-- The exponential series up to the fifth power, from time `t`. -/
noncomputable def taylor5 (M : (ℝ × ℝ × ℝ) →L[ℝ] (ℝ × ℝ × ℝ)) (c v : ℝ × ℝ × ℝ) (t u : ℝ) : ℝ × ℝ × ℝ :=
  c + (v + (u - t) • M v + ((u - t) ^ 2 / 2) • M (M v) + ((u - t) ^ 3 / 6) • M (M (M v))
    + ((u - t) ^ 4 / 24) • M (M (M (M v))) + ((u - t) ^ 5 / 120) • M (M (M (M (M v)))))

theorem taylor5_deriv (M : (ℝ × ℝ × ℝ) →L[ℝ] (ℝ × ℝ × ℝ)) (c v : ℝ × ℝ × ℝ) (t u : ℝ) :
    HasDerivAt (taylor5 M c v t) (M v + (u - t) • M (M v) + ((u - t) ^ 2 / 2) • M (M (M v)) + ((u - t) ^ 3 / 6) • M (M (M (M v)))
      + ((u - t) ^ 4 / 24) • M (M (M (M (M v))))) u := by
  have hp : ∀ (n : ℕ) (d : ℝ) (w : ℝ × ℝ × ℝ),
      HasDerivAt (fun u => ((u - t) ^ n / d) • w) (((n : ℝ) * (u - t) ^ (n - 1) / d) • w) u := fun n d w => by
    have := ((((hasDerivAt_id u).sub_const t).pow n).div_const d).smul_const w
    simpa using this
  have h1 : HasDerivAt (fun u => (u - t) • M v) (M v) u := by
    simpa using ((hasDerivAt_id u).sub_const t).smul_const (M v)
  have h := ((((((hasDerivAt_const u v).add h1).add (hp 2 2 (M (M v)))).add (hp 3 6 (M (M (M v))))).add
    (hp 4 24 (M (M (M (M v)))))).add (hp 5 120 (M (M (M (M (M v))))))).const_add c
  refine h.congr_deriv ?_
  norm_num
  module

/-- A motion starting near the series stays near it. -/
theorem taylor5_near {M : (ℝ × ℝ × ℝ) →L[ℝ] (ℝ × ℝ × ℝ)} {c : ℝ × ℝ × ℝ} {b : ℝ} {Y : ℝ → ℝ × ℝ × ℝ} (hY : LinearMotion M c b Y)
    {v : ℝ × ℝ × ℝ} {t h δ : ℝ} (h0 : 0 ≤ t) (hh : 0 < h) (hb : t + h ≤ b) (hδ : ‖c + v - Y t‖ ≤ δ) :
    ∀ u ∈ Icc t (t + h), ‖taylor5 M c v t u - Y u‖ ≤ (δ + (‖M‖ * h) ^ 6 / 120 * ‖v‖) * Real.exp (‖M‖ * h) := by
  obtain ⟨-, -, -, -, -, m6, -⟩ := power_norms M v
  have hL := norm_nonneg M
  have hδ0 : 0 ≤ δ := (norm_nonneg _).trans hδ
  intro u hu
  have key := dist_le_of_approx_trajectories_ODE (v := fun _ y => M (y - c)) (K := ‖M‖₊) (f := taylor5 M c v t) (g := Y)
    (f' := fun u => M v + (u - t) • M (M v) + ((u - t) ^ 2 / 2) • M (M (M v)) + ((u - t) ^ 3 / 6) • M (M (M (M v)))
      + ((u - t) ^ 4 / 24) • M (M (M (M (M v))))) (g' := fun u => M (Y u - c)) (a := t) (b := t + h)
    (εf := h ^ 5 / 120 * (‖M‖ ^ 6 * ‖v‖)) (εg := 0) (δ := δ)
    (fun _ => LipschitzWith.of_dist_le_mul fun x y => by
      rw [dist_eq_norm, dist_eq_norm, ← map_sub, sub_sub_sub_cancel_right]
      exact M.le_opNorm _)
    (fun u _ => (taylor5_deriv M c v t u).continuousAt.continuousWithinAt)
    (fun u _ => (taylor5_deriv M c v t u).hasDerivWithinAt)
    (fun u hu => by
      rw [dist_eq_norm]
      have : ∀ a : ℝ × ℝ × ℝ, c + a - c = a := fun a => by abel
      have e : M v + (u - t) • M (M v) + ((u - t) ^ 2 / 2) • M (M (M v)) + ((u - t) ^ 3 / 6) • M (M (M (M v)))
          + ((u - t) ^ 4 / 24) • M (M (M (M (M v)))) - M (taylor5 M c v t u - c)
          = (-((u - t) ^ 5 / 120)) • M (M (M (M (M (M v))))) := by
        simp only [taylor5, this, map_add, map_smul]
        module
      rw [e]
      refine norm_smul_le' ?_ m6
      have p : (u - t) ^ 5 ≤ h ^ 5 := pow_le_pow_left₀ (by linarith [hu.1]) (by linarith [hu.2]) 5
      have q : 0 ≤ (u - t) ^ 5 := pow_nonneg (by linarith [hu.1]) 5
      rw [abs_neg, abs_of_nonneg (by positivity)]
      linarith)
    (hY.continuous.mono (Icc_subset_Icc h0 hb))
    (fun u hu => hY.deriv u ⟨h0.trans hu.1, hu.2.trans_le hb⟩)
    (fun u hu => by simp)
    (by rw [dist_eq_norm]; simpa [taylor5] using hδ) u hu
  rw [dist_eq_norm] at key
  refine key.trans ((gronwall_le (by positivity) (by positivity)).trans ?_)
  have hu0 : 0 ≤ u - t := by linarith [hu.1]
  have hu1 : u - t ≤ h := by linarith [hu.2]
  rw [add_zero, coe_nnnorm]
  refine mul_le_mul ?_ (Real.exp_le_exp.2 (mul_le_mul_of_nonneg_left hu1 hL)) (Real.exp_pos _).le (by positivity)
  have : h ^ 5 / 120 * (‖M‖ ^ 6 * ‖v‖) * (u - t) ≤ h ^ 5 / 120 * (‖M‖ ^ 6 * ‖v‖) * h :=
    mul_le_mul_of_nonneg_left hu1 (by positivity)
  have e : h ^ 5 / 120 * (‖M‖ ^ 6 * ‖v‖) * h = (‖M‖ * h) ^ 6 / 120 * ‖v‖ := by ring
  linarith

section gap

variable {M : (ℝ × ℝ × ℝ) →L[ℝ] (ℝ × ℝ × ℝ)} {c : ℝ × ℝ × ℝ} {s : Step} {b δ : ℝ} {Y : ℝ → ℝ × ℝ × ℝ}

/-- The error at the end of a step. -/
theorem linear_finish (hY : LinearMotion M c b Y) (hs : s.Slopes (LinearRates M c)) (hh : 0 < s.h) (h0 : 0 ≤ s.t)
    (hb : s.t + s.h ≤ b) (hδ : ‖vec s.y - Y s.t‖ ≤ δ) :
    ‖vec s.finish - Y (s.t + s.h)‖ ≤ (δ + (‖M‖ * s.h) ^ 6 / 100 * ‖vec s.y - c‖) * Real.exp (‖M‖ * s.h) := by
  obtain ⟨-, -, -, -, -, m6, -⟩ := power_norms M (vec s.y - c)
  have near := taylor5_near hY (v := vec s.y - c) h0 hh hb (by simpa using hδ) (s.t + s.h) ⟨by linarith, le_rfl⟩
  have e : vec s.finish - Y (s.t + s.h) = (taylor5 M c (vec s.y - c) s.t (s.t + s.h) - Y (s.t + s.h))
      + (s.h ^ 6 / 600) • M (M (M (M (M (M (vec s.y - c)))))) := by
    have := (C104_step hs).1
    rw [sub_eq_iff_eq_add] at this
    rw [this, taylor5, add_sub_cancel_left]
    abel
  rw [e]
  refine (norm_add_le _ _).trans ?_
  have h2 : ‖(s.h ^ 6 / 600) • M (M (M (M (M (M (vec s.y - c))))))‖ ≤ s.h ^ 6 / 600 * (‖M‖ ^ 6 * ‖vec s.y - c‖) :=
    norm_smul_le' (by rw [abs_of_nonneg (by positivity)]) m6
  have h3 : 1 ≤ Real.exp (‖M‖ * s.h) := Real.one_le_exp (by positivity)
  have h4 : s.h ^ 6 / 600 * (‖M‖ ^ 6 * ‖vec s.y - c‖) ≤ s.h ^ 6 / 600 * (‖M‖ ^ 6 * ‖vec s.y - c‖) * Real.exp (‖M‖ * s.h) :=
    le_mul_of_one_le_right (by positivity) h3
  calc _ ≤ _ := add_le_add near (h2.trans h4)
    _ = _ := by ring

/-- The growth over a step. -/
theorem linear_growth (hs : s.Slopes (LinearRates M c)) (hh : 0 < s.h) :
    ‖vec s.finish - c‖ ≤ Real.exp (2 * (‖M‖ * s.h)) * ‖vec s.y - c‖ := by
  obtain ⟨m1, m2, m3, m4, m5, m6, -⟩ := power_norms M (vec s.y - c)
  rw [(C104_step hs).1]
  have hx : 0 ≤ ‖M‖ * s.h := by positivity
  have e := Real.sum_le_exp_of_nonneg (x := 2 * (‖M‖ * s.h)) (by positivity) 7
  simp only [Finset.sum_range_succ, Finset.sum_range_zero, Nat.factorial] at e
  norm_num at e
  have t : ∀ {a : ℝ} {w : ℝ × ℝ × ℝ} {n : ℝ}, 0 ≤ a → ‖w‖ ≤ n → ‖a • w‖ ≤ a * n := fun ha hw =>
    norm_smul_le' (by rw [abs_of_nonneg ha]) hw
  refine (norm_add_le_of_le (norm_add_le_of_le (norm_add_le_of_le (norm_add_le_of_le (norm_add_le_of_le (norm_add_le_of_le le_rfl
    (t hh.le m1)) (t (by positivity) m2)) (t (by positivity) m3)) (t (by positivity) m4)) (t (by positivity) m5))
    (t (by positivity) m6)).trans ?_
  refine le_trans ?_ (mul_le_mul_of_nonneg_right e (norm_nonneg _))
  have hB := norm_nonneg (vec s.y - c)
  generalize ‖vec s.y - c‖ = B at *
  have p : ∀ n : ℕ, 0 ≤ (‖M‖ * s.h) ^ n * B := fun n => by positivity
  have p1 := p 1
  have p2 := p 2
  have p3 := p 3
  have p4 := p 4
  have p5 := p 5
  have p6 := p 6
  simp only [mul_pow] at p1 p2 p3 p4 p5 p6 ⊢
  ring_nf at p1 p2 p3 p4 p5 p6 ⊢
  linarith

/-- The error within a step. -/
theorem linear_within (hY : LinearMotion M c b Y) (hs : s.Slopes (LinearRates M c)) (hh : 0 < s.h) (h0 : 0 ≤ s.t)
    (hb : s.t + s.h ≤ b) (hδ : ‖vec s.y - Y s.t‖ ≤ δ) {u : ℝ} (hu : u ∈ Icc s.t (s.t + s.h)) :
    ‖vec (s.dense ((u - s.t) / s.h)) - Y u‖ ≤ (δ + (‖M‖ * s.h) ^ 6 / 120 * ‖vec s.y - c‖) * Real.exp (‖M‖ * s.h)
      + ((‖M‖ * s.h) ^ 5 / 10 + (‖M‖ * s.h) ^ 6 / 75 + (‖M‖ * s.h) ^ 7 / 150) * ‖vec s.y - c‖ := by
  obtain ⟨-, -, -, -, m5, m6, m7⟩ := power_norms M (vec s.y - c)
  have near := taylor5_near hY (v := vec s.y - c) h0 hh hb (by simpa using hδ) u hu
  set θ := (u - s.t) / s.h with hθ
  have hu' : u - s.t = θ * s.h := by rw [hθ]; field_simp
  have t0 : 0 ≤ θ := div_nonneg (by linarith [hu.1]) hh.le
  have t1 : θ ≤ 1 := (div_le_one hh).2 (by linarith [hu.2])
  have e : vec (s.dense θ) - Y u = (taylor5 M c (vec s.y - c) s.t u - Y u)
      + ((θ ^ 2 * (3 - 2 * θ) / 120 - θ ^ 2 * (1 - θ) / 24 + θ ^ 2 * (1 - θ) ^ 2 * (22358351 / 881412690) - θ ^ 5 / 120) * s.h ^ 5)
        • M (M (M (M (M (vec s.y - c)))))
      + ((θ ^ 2 * (3 - 2 * θ) / 600 - θ ^ 2 * (1 - θ) / 120 - θ ^ 2 * (1 - θ) ^ 2 * (2325839 / 881412690)) * s.h ^ 6)
        • M (M (M (M (M (M (vec s.y - c))))))
      + ((-(θ ^ 2 * (1 - θ) / 600) + θ ^ 2 * (1 - θ) ^ 2 * (13999589 / 3525650760)) * s.h ^ 7)
        • M (M (M (M (M (M (M (vec s.y - c))))))) := by
    have := linear_dense hs θ
    simp only [] at this
    rw [sub_eq_iff_eq_add] at this
    rw [this, taylor5, hu']
    module
  have a1 : 0 ≤ θ ^ 2 := by positivity
  have a2 : θ ^ 2 ≤ 1 := by nlinarith
  have a3 : 0 ≤ θ ^ 2 * (1 - θ) := mul_nonneg a1 (by linarith)
  have a4 : θ ^ 2 * (1 - θ) ≤ 1 := by nlinarith
  have a5 : 0 ≤ θ ^ 2 * (1 - θ) ^ 2 := by positivity
  have a6 : θ ^ 2 * (1 - θ) ^ 2 ≤ 1 / 4 := by
    have : θ * (1 - θ) ≤ 1 / 4 := by nlinarith [sq_nonneg (θ - 1 / 2)]
    have n : 0 ≤ θ * (1 - θ) := mul_nonneg t0 (by linarith)
    calc θ ^ 2 * (1 - θ) ^ 2 = (θ * (1 - θ)) * (θ * (1 - θ)) := by ring
      _ ≤ 1 / 4 * 1 := mul_le_mul this (by linarith) n (by norm_num)
      _ = 1 / 4 := by norm_num
  have a7 : 0 ≤ θ ^ 2 * (3 - 2 * θ) := mul_nonneg a1 (by linarith)
  have a8 : θ ^ 2 * (3 - 2 * θ) ≤ 1 := by nlinarith [mul_nonneg (sq_nonneg (1 - θ)) (by linarith : (0 : ℝ) ≤ 1 + 2 * θ)]
  have a9 : 0 ≤ θ ^ 5 := by positivity
  have a10 : θ ^ 5 ≤ 1 := pow_le_one₀ t0 t1
  have t : ∀ {a m d : ℝ} {w : ℝ × ℝ × ℝ} {n : ℝ}, 0 ≤ d → |a| ≤ m → ‖w‖ ≤ n → ‖(a * d) • w‖ ≤ m * d * n := fun hd ha hw =>
    norm_smul_le' (by rw [abs_mul, abs_of_nonneg hd]; exact mul_le_mul_of_nonneg_right ha hd) hw
  rw [e]
  refine (norm_add_le_of_le (norm_add_le_of_le (norm_add_le_of_le near
    (t (m := 1 / 10) (by positivity) ?_ m5)) (t (m := 1 / 75) (by positivity) ?_ m6))
    (t (m := 1 / 150) (by positivity) ?_ m7)).trans (le_of_eq (by ring))
  all_goals rw [abs_le]; constructor <;> linarith

/-- Along a chain of steps no longer than `H`. -/
theorem linear_chain {H B : ℝ} (hB : 0 ≤ B) (hY : LinearMotion M c b Y) {t : ℝ} {y y' : V3 ℝ} {l : List Step} (h0 : 0 ≤ t) (hl : Leads t y l b y')
    (hf : ∀ s ∈ l, 0 < s.h) (hs : ∀ s ∈ l, s.Slopes (LinearRates M c)) (hH : ∀ s ∈ l, s.h ≤ H)
    (hv : ‖vec y - c‖ ≤ B * Real.exp (2 * (‖M‖ * t)))
    (hg : ‖vec y - Y t‖ ≤ t * ‖M‖ * (‖M‖ * H) ^ 5 / 100 * (B * Real.exp (2 * (‖M‖ * b))) * Real.exp (‖M‖ * t)) :
    ∀ s ∈ l, ‖vec s.y - c‖ ≤ B * Real.exp (2 * (‖M‖ * b)) ∧
      ‖vec s.y - Y s.t‖ ≤ s.t * ‖M‖ * (‖M‖ * H) ^ 5 / 100 * (B * Real.exp (2 * (‖M‖ * b))) * Real.exp (‖M‖ * s.t) := by
  have hL := norm_nonneg M
  induction l generalizing t y with
  | nil => intro s hm; cases hm
  | cons a l ih =>
    intro s hm
    have hle := leads_le hl hf
    have hmem := leads_mem hl hf (List.mem_cons_self (a := a))
    obtain ⟨rfl, rfl, hl⟩ := hl
    have ha := hf a List.mem_cons_self
    have hv' : ‖vec a.y - c‖ ≤ B * Real.exp (2 * (‖M‖ * b)) :=
      hv.trans (mul_le_mul_of_nonneg_left (Real.exp_le_exp.2 (by
        have := mul_le_mul_of_nonneg_left hle hL
        linarith)) hB)
    rcases List.mem_cons.1 hm with rfl | hm
    · exact ⟨hv', hg⟩
    · refine ih (by linarith) hl (fun a ha => hf a (List.mem_cons_of_mem _ ha)) (fun a ha => hs a (List.mem_cons_of_mem _ ha))
        (fun a ha => hH a (List.mem_cons_of_mem _ ha)) ?_ ?_ s hm
      · refine (linear_growth (hs a List.mem_cons_self) ha).trans ?_
        refine (mul_le_mul_of_nonneg_left hv (Real.exp_pos _).le).trans (le_of_eq ?_)
        rw [show 2 * (‖M‖ * (a.t + a.h)) = 2 * (‖M‖ * a.h) + 2 * (‖M‖ * a.t) by ring, Real.exp_add]
        ring
      · refine (linear_finish hY (hs a List.mem_cons_self) ha h0 hmem.1 hg).trans ?_
        set W := B * Real.exp (2 * (‖M‖ * b))
        have hW : 0 ≤ W := by positivity
        have hH0 : 0 ≤ H := ha.le.trans (hH a List.mem_cons_self)
        have x5 : (‖M‖ * a.h) ^ 5 ≤ (‖M‖ * H) ^ 5 :=
          pow_le_pow_left₀ (by positivity) (mul_le_mul_of_nonneg_left (hH a List.mem_cons_self) hL) 5
        have x6 : (‖M‖ * a.h) ^ 6 / 100 * ‖vec a.y - c‖ ≤ ‖M‖ * a.h * (‖M‖ * H) ^ 5 / 100 * W := by
          refine mul_le_mul ?_ hv' (norm_nonneg _) (by positivity)
          rw [show (‖M‖ * a.h) ^ 6 = ‖M‖ * a.h * (‖M‖ * a.h) ^ 5 by ring]
          have := mul_le_mul_of_nonneg_left x5 (by positivity : 0 ≤ ‖M‖ * a.h)
          linarith
        have x7 : ‖M‖ * a.h * (‖M‖ * H) ^ 5 / 100 * W ≤ ‖M‖ * a.h * (‖M‖ * H) ^ 5 / 100 * W * Real.exp (‖M‖ * a.t) :=
          le_mul_of_one_le_right (by positivity) (Real.one_le_exp (by positivity))
        refine (mul_le_mul_of_nonneg_right (add_le_add_right (x6.trans x7) _) (Real.exp_pos _).le).trans (le_of_eq ?_)
        rw [show ‖M‖ * (a.t + a.h) = ‖M‖ * a.t + ‖M‖ * a.h by ring, Real.exp_add]
        ring

/-- The error of a chain of steps. -/
theorem linear_on {H rtol atol : ℝ} {y : V3 ℝ} {l : List Step} (hl : Integrates (LinearRates M c) rtol atol y b l)
    (hY : LinearMotion M c b Y) (hY0 : Y 0 = vec y) (hH : ∀ s ∈ l, s.h ≤ H) {x : ℝ} {v : V3 ℝ} (hx : OnSteps l x v) :
    ‖vec v - Y x‖ ≤ 1 / 10 * (1 + ‖M‖ * b) ^ 2 * Real.exp (3 * (‖M‖ * b)) * (‖M‖ * H) ^ 5 * ‖vec y - c‖ := by
  obtain ⟨⟨y', hj⟩, hf, hs, -⟩ := hl
  obtain ⟨s, hm, x0, x1, rfl⟩ := hx
  have hL := norm_nonneg M
  have hh := hf s hm
  have hmem := leads_mem hj hf hm
  have hH0 : 0 ≤ H := hh.le.trans (hH s hm)
  obtain ⟨hv, hg⟩ := linear_chain (H := H) (norm_nonneg (vec y - c)) hY le_rfl hj hf hs hH (by simp) (by simp [hY0]) s hm
  refine (linear_within hY (hs s hm) hh hmem.2 hmem.1 hg ⟨x0, x1⟩).trans ?_
  set W := ‖vec y - c‖ * Real.exp (2 * (‖M‖ * b)) with hWd
  have hW : 0 ≤ W := by positivity
  have x5 : (‖M‖ * s.h) ^ 5 ≤ (‖M‖ * H) ^ 5 := pow_le_pow_left₀ (by positivity) (mul_le_mul_of_nonneg_left (hH s hm) hL) 5
  set ξ := (‖M‖ * H) ^ 5 with hξ
  have hξ0 : 0 ≤ ξ := by positivity
  set X := ‖M‖ * s.h with hX
  have hX0 : 0 ≤ X := by positivity
  set N := ‖M‖ * b with hN
  have hb : 0 ≤ b := by linarith [hmem.1, hmem.2]
  have hN0 : 0 ≤ N := by positivity
  have hXN : X ≤ N := mul_le_mul_of_nonneg_left (by linarith [hmem.1, hmem.2]) hL
  have hTX : ‖M‖ * s.t + X ≤ N := by
    have := mul_le_mul_of_nonneg_left hmem.1 hL
    rw [mul_add] at this
    exact this
  have hT0 : 0 ≤ ‖M‖ * s.t := mul_nonneg hL hmem.2
  set T := ‖M‖ * s.t with hT
  rw [show s.t * ‖M‖ = T by rw [hT]; ring]
  have x6 : X ^ 6 ≤ X * ξ := by rw [show X ^ 6 = X * X ^ 5 by ring]; exact mul_le_mul_of_nonneg_left x5 hX0
  have x7 : X ^ 7 ≤ N ^ 2 * ξ := by
    rw [show X ^ 7 = X ^ 2 * X ^ 5 by ring]
    exact mul_le_mul (pow_le_pow_left₀ hX0 hXN 2) x5 (by positivity) (by positivity)
  have x6' : X ^ 6 ≤ N * ξ := x6.trans (mul_le_mul_of_nonneg_right hXN hξ0)
  have g1 : X ^ 6 / 120 * ‖vec s.y - c‖ ≤ X * ξ / 100 * W * Real.exp T := by
    refine (mul_le_mul (b := X * ξ / 100) ?_ hv (norm_nonneg _) (by positivity)).trans
      (le_mul_of_one_le_right (by positivity) (Real.one_le_exp hT0))
    have : 0 ≤ X * ξ := by positivity
    linarith
  have g2 : (T * ξ / 100 * W * Real.exp T + X ^ 6 / 120 * ‖vec s.y - c‖) * Real.exp X ≤ N * ξ / 100 * W * Real.exp N := by
    calc _ ≤ (T * ξ / 100 * W * Real.exp T + X * ξ / 100 * W * Real.exp T) * Real.exp X :=
          mul_le_mul_of_nonneg_right (add_le_add_right g1 _) (Real.exp_pos _).le
      _ = (T + X) * (ξ / 100 * W) * Real.exp (T + X) := by rw [Real.exp_add]; ring
      _ ≤ N * (ξ / 100 * W) * Real.exp N := mul_le_mul (mul_le_mul_of_nonneg_right hTX (by positivity))
          (Real.exp_le_exp.2 hTX) (Real.exp_pos _).le (by positivity)
      _ = _ := by ring
  have g3 : (X ^ 5 / 10 + X ^ 6 / 75 + X ^ 7 / 150) * ‖vec s.y - c‖ ≤ (1 / 10 + N / 75 + N ^ 2 / 150) * ξ * W * Real.exp N := by
    refine (mul_le_mul (b := (1 / 10 + N / 75 + N ^ 2 / 150) * ξ) ?_ hv (norm_nonneg _) (by positivity)).trans
      (le_mul_of_one_le_right (by positivity) (Real.one_le_exp hN0))
    linarith
  refine (add_le_add g2 g3).trans ?_
  have e3 : Real.exp (3 * N) = Real.exp (2 * N) * Real.exp N := by rw [← Real.exp_add]; ring_nf
  rw [e3]
  have : 0 ≤ (N / 5 + N ^ 2 / 10 - N / 100 - N / 75 - N ^ 2 / 150) * (ξ * W * Real.exp N) :=
    mul_nonneg (by nlinarith [sq_nonneg N]) (by positivity)
  have e4 : 1 / 10 * (1 + N) ^ 2 * (Real.exp (2 * N) * Real.exp N) * ξ * ‖vec y - c‖ = 1 / 10 * (1 + N) ^ 2 * (ξ * W * Real.exp N) := by
    rw [hWd]; ring
  rw [e4]
  nlinarith [this]

end gap

/-- **C104**, global error: on linear rates, whatever the integrator reports deviates from the exact motion by the fifth power of the
longest step. -/
theorem C104_order (outs : Nat) (xEnd dx rtol atol : ℝ) (y : V3 ℝ) (hx : 0 < xEnd) (hd : 0 < dx)
    (M : (ℝ × ℝ × ℝ) →L[ℝ] (ℝ × ℝ × ℝ)) (c : ℝ × ℝ × ℝ) (qs : List (ℝ × V3 ℝ × V3 ℝ))
    (hA : ∀ q ∈ qs, LinearRates M c q.1 q.2.1 q.2.2) (xs : List ℝ) (ys : List (V3 ℝ))
    (h : Reaches (dopri5.solve outs 0.0 xEnd dx y rtol atol) qs (.done (some (xs, ys)))) :
    ∃ l, Integrates (LinearRates M c) rtol atol y xEnd l ∧ ∀ H : ℝ, (∀ s ∈ l, s.h ≤ H) →
      ∀ Y : ℝ → ℝ × ℝ × ℝ, LinearMotion M c xEnd Y → Y 0 = vec y → ∀ q ∈ xs.zip ys,
        ‖vec q.2 - Y q.1‖ ≤ 1 / 10 * (1 + ‖M‖ * xEnd) ^ 2 * Real.exp (3 * (‖M‖ * xEnd)) * (‖M‖ * H) ^ 5 * ‖vec y - c‖ := by
  obtain ⟨l, hl, -, hon⟩ := C82_steps outs xEnd dx rtol atol y hx hd _ qs hA xs ys h
  exact ⟨l, hl, fun H hH Y hY hY0 q hq => linear_on hl hY hY0 hH (hon q hq)⟩

end Sett
