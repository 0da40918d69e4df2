import Verif.Spec.DormandPrince
import Mathlib.Analysis.ODE.Gronwall
import Mathlib.Analysis.Calculus.Deriv.Prod
import Mathlib.Analysis.Calculus.Deriv.Pow
import Mathlib.Analysis.Calculus.Deriv.Mul
import Mathlib.Tactic.NormNum.Pow
import Mathlib.Tactic.Module

/-! # How far a chain of Dormand-Prince steps can leave an exact solution

Only Lipschitz continuity of the rates is used (upwinding makes them non-smooth), so the bound is of first order
in the step size. -/

namespace Sett

open Spec Set

/-- A state as a point of a normed space. -/
def vec (y : V3 ℝ) : ℝ × ℝ × ℝ := (y.y0, y.y1, y.y2)

/-- Every slope is bounded by `M`. -/
structure SmallSlopes (s : Step) (M : ℝ) : Prop where
  k1 : ‖vec s.k1‖ ≤ M
  k2 : ‖vec s.k2‖ ≤ M
  k3 : ‖vec s.k3‖ ≤ M
  k4 : ‖vec s.k4‖ ≤ M
  k5 : ‖vec s.k5‖ ≤ M
  k6 : ‖vec s.k6‖ ≤ M
  k7 : ‖vec s.k7‖ ≤ M

/-- Every slope is within `D` of the first. -/
structure CloseSlopes (s : Step) (D : ℝ) : Prop where
  k2 : ‖vec s.k2 - vec s.k1‖ ≤ D
  k3 : ‖vec s.k3 - vec s.k1‖ ≤ D
  k4 : ‖vec s.k4 - vec s.k1‖ ≤ D
  k5 : ‖vec s.k5 - vec s.k1‖ ≤ D
  k6 : ‖vec s.k6 - vec s.k1‖ ≤ D
  k7 : ‖vec s.k7 - vec s.k1‖ ≤ D

theorem norm_comb {E : Type*} [NormedAddCommGroup E] [NormedSpace ℝ E] {v1 v2 v3 v4 v5 v6 v7 : E} {M : ℝ}
    (h1 : ‖v1‖ ≤ M) (h2 : ‖v2‖ ≤ M) (h3 : ‖v3‖ ≤ M) (h4 : ‖v4‖ ≤ M) (h5 : ‖v5‖ ≤ M) (h6 : ‖v6‖ ≤ M)
    (h7 : ‖v7‖ ≤ M) (w1 w2 w3 w4 w5 w6 w7 : ℝ) :
    ‖w1 • v1 + w2 • v2 + w3 • v3 + w4 • v4 + w5 • v5 + w6 • v6 + w7 • v7‖
      ≤ (|w1| + |w2| + |w3| + |w4| + |w5| + |w6| + |w7|) * M := by
  have one : ∀ (w : ℝ) (v : E), ‖v‖ ≤ M → ‖w • v‖ ≤ |w| * M := by
    intro w v hv
    rw [norm_smul, Real.norm_eq_abs]
    exact mul_le_mul_of_nonneg_left hv (abs_nonneg _)
  have := one w1 v1 h1; have := one w2 v2 h2; have := one w3 v3 h3; have := one w4 v4 h4
  have := one w5 v5 h5; have := one w6 v6 h6; have := one w7 v7 h7
  have t1 := norm_add_le (w1 • v1 + w2 • v2 + w3 • v3 + w4 • v4 + w5 • v5 + w6 • v6) (w7 • v7)
  have t2 := norm_add_le (w1 • v1 + w2 • v2 + w3 • v3 + w4 • v4 + w5 • v5) (w6 • v6)
  have t3 := norm_add_le (w1 • v1 + w2 • v2 + w3 • v3 + w4 • v4) (w5 • v5)
  have t4 := norm_add_le (w1 • v1 + w2 • v2 + w3 • v3) (w4 • v4)
  have t5 := norm_add_le (w1 • v1 + w2 • v2) (w3 • v3)
  have t6 := norm_add_le (w1 • v1) (w2 • v2)
  linarith

theorem vec_slope (s : Step) (w1 w2 w3 w4 w5 w6 w7 : ℝ) :
    vec (s.slope w1 w2 w3 w4 w5 w6 w7)
      = w1 • vec s.k1 + w2 • vec s.k2 + w3 • vec s.k3 + w4 • vec s.k4 + w5 • vec s.k5 + w6 • vec s.k6
        + w7 • vec s.k7 := by
  simp [vec, Step.slope]

theorem vec_go (s : Step) (w1 w2 w3 w4 w5 w6 w7 : ℝ) :
    vec (s.go w1 w2 w3 w4 w5 w6 w7)
      = vec s.y + s.h • (w1 • vec s.k1 + w2 • vec s.k2 + w3 • vec s.k3 + w4 • vec s.k4 + w5 • vec s.k5
        + w6 • vec s.k6 + w7 • vec s.k7) := by
  rw [← vec_slope]
  simp [vec, Step.go]

theorem go_near {s : Step} {M : ℝ} (hM : SmallSlopes s M) (hh : 0 < s.h) (w1 w2 w3 w4 w5 w6 w7 : ℝ)
    (hw : |w1| + |w2| + |w3| + |w4| + |w5| + |w6| + |w7| ≤ 25) :
    ‖vec (s.go w1 w2 w3 w4 w5 w6 w7) - vec s.y‖ ≤ 25 * M * s.h := by
  rw [vec_go, add_sub_cancel_left, norm_smul, Real.norm_eq_abs, abs_of_pos hh]
  have hM0 : 0 ≤ M := (norm_nonneg _).trans hM.k1
  have := norm_comb hM.k1 hM.k2 hM.k3 hM.k4 hM.k5 hM.k6 hM.k7 w1 w2 w3 w4 w5 w6 w7
  have h2 := mul_le_mul_of_nonneg_right hw hM0
  nlinarith

/-- The rates `A` are bounded by `M` and Lipschitz with constant `C` in state and time. -/
structure Tame (A : ℝ → V3 ℝ → V3 ℝ → Prop) (M C : ℝ) : Prop where
  bound : ∀ t y k, A t y k → ‖vec k‖ ≤ M
  lip : ∀ t y k t' y' k', A t y k → A t' y' k' → ‖vec k - vec k'‖ ≤ C * (‖vec y - vec y'‖ + |t - t'|)

theorem small_slopes {A : ℝ → V3 ℝ → V3 ℝ → Prop} {M C : ℝ} (hA : Tame A M C) {s : Step} (hs : s.Slopes A) :
    SmallSlopes s M :=
  ⟨hA.bound _ _ _ hs.k1, hA.bound _ _ _ hs.k2, hA.bound _ _ _ hs.k3, hA.bound _ _ _ hs.k4,
    hA.bound _ _ _ hs.k5, hA.bound _ _ _ hs.k6, hA.bound _ _ _ hs.k7⟩

theorem close_slopes {A : ℝ → V3 ℝ → V3 ℝ → Prop} {M C : ℝ} (hC : 0 ≤ C) (hA : Tame A M C) {s : Step}
    (hh : 0 < s.h) (hs : s.Slopes A) : CloseSlopes s (C * ((25 * M + 1) * s.h)) := by
  have hM := small_slopes hA hs
  have key : ∀ {t : ℝ} {w1 w2 w3 w4 w5 w6 w7 : ℝ} {k : V3 ℝ}, A t (s.go w1 w2 w3 w4 w5 w6 w7) k →
      |w1| + |w2| + |w3| + |w4| + |w5| + |w6| + |w7| ≤ 25 → |t - s.t| ≤ s.h →
      ‖vec k - vec s.k1‖ ≤ C * ((25 * M + 1) * s.h) := by
    intro t w1 w2 w3 w4 w5 w6 w7 k hk hw ht
    refine (hA.lip _ _ _ _ _ _ hk hs.k1).trans (mul_le_mul_of_nonneg_left ?_ hC)
    have := go_near hM hh w1 w2 w3 w4 w5 w6 w7 hw
    linarith
  have ab : ∀ c : ℝ, 0 ≤ c → c ≤ 1 → |s.t + c * s.h - s.t| ≤ s.h := by
    intro c h0 h1
    rw [add_sub_cancel_left, abs_of_nonneg (by positivity)]
    nlinarith
  refine ⟨key hs.k2 (by norm_num [abs_of_pos, abs_of_neg]) ?_, key hs.k3 (by norm_num [abs_of_pos, abs_of_neg]) ?_,
    key hs.k4 (by norm_num [abs_of_pos, abs_of_neg]) ?_, key hs.k5 (by norm_num [abs_of_pos, abs_of_neg]) ?_,
    key hs.k6 (by norm_num [abs_of_pos, abs_of_neg]) ?_, key hs.k7 (by norm_num [abs_of_pos, abs_of_neg]) ?_⟩
  · convert ab (1 / 5) (by norm_num) (by norm_num) using 3; ring
  · convert ab (3 / 10) (by norm_num) (by norm_num) using 3; ring
  · convert ab (4 / 5) (by norm_num) (by norm_num) using 3; ring
  · convert ab (8 / 9) (by norm_num) (by norm_num) using 3; ring
  · convert ab 1 (by norm_num) (by norm_num) using 3; ring
  · convert ab 1 (by norm_num) (by norm_num) using 3; ring

/-! ## In between -/

/-- Weights of the slopes in the dense output at `θ`, relative to the start. -/
theorem dense_eq (s : Step) (θ : ℝ) : s.dense θ = s.go
    (θ ^ 2 * (3 - 2 * θ) * (35 / 384) + θ * (1 - θ) ^ 2 + θ ^ 2 * (1 - θ) ^ 2 * (-12715105075 / 11282082432)) 0
    (θ ^ 2 * (3 - 2 * θ) * (500 / 1113) + θ ^ 2 * (1 - θ) ^ 2 * (87487479700 / 32700410799))
    (θ ^ 2 * (3 - 2 * θ) * (125 / 192) + θ ^ 2 * (1 - θ) ^ 2 * (-10690763975 / 1880347072))
    (θ ^ 2 * (3 - 2 * θ) * (-2187 / 6784) + θ ^ 2 * (1 - θ) ^ 2 * (701980252875 / 199316789632))
    (θ ^ 2 * (3 - 2 * θ) * (11 / 84) + θ ^ 2 * (1 - θ) ^ 2 * (-1453857185 / 822651844))
    (-(θ ^ 2 * (1 - θ)) + θ ^ 2 * (1 - θ) ^ 2 * (69997945 / 29380423)) := by
  simp only [Step.dense, Step.finish, Step.go, Step.slope, V3.mk.injEq]
  refine ⟨?_, ?_, ?_⟩ <;> ring

/-- Rate of change of the dense output at `θ`. -/
noncomputable def denseRate (s : Step) (θ : ℝ) : V3 ℝ := s.slope
    (6 * θ * (1 - θ) * (35 / 384) + (1 - θ) * (1 - 3 * θ)
      + 2 * θ * (1 - θ) * (1 - 2 * θ) * (-12715105075 / 11282082432)) 0
    (6 * θ * (1 - θ) * (500 / 1113) + 2 * θ * (1 - θ) * (1 - 2 * θ) * (87487479700 / 32700410799))
    (6 * θ * (1 - θ) * (125 / 192) + 2 * θ * (1 - θ) * (1 - 2 * θ) * (-10690763975 / 1880347072))
    (6 * θ * (1 - θ) * (-2187 / 6784) + 2 * θ * (1 - θ) * (1 - 2 * θ) * (701980252875 / 199316789632))
    (6 * θ * (1 - θ) * (11 / 84) + 2 * θ * (1 - θ) * (1 - 2 * θ) * (-1453857185 / 822651844))
    (θ * (3 * θ - 2) + 2 * θ * (1 - θ) * (1 - 2 * θ) * (69997945 / 29380423))

theorem dense_deriv (s : Step) (hh : s.h ≠ 0) (u : ℝ) :
    HasDerivAt (fun u => vec (s.dense ((u - s.t) / s.h))) (vec (denseRate s ((u - s.t) / s.h))) u := by
  have hθ : HasDerivAt (fun u : ℝ => (u - s.t) / s.h) (1 / s.h) u :=
    ((hasDerivAt_id u).sub_const _).div_const _
  have poly : ∀ (a1 a2 a3 a4 : ℝ), HasDerivAt (fun u : ℝ => a1 * ((u - s.t) / s.h) + a2 * ((u - s.t) / s.h) ^ 2
      + a3 * ((u - s.t) / s.h) ^ 3 + a4 * ((u - s.t) / s.h) ^ 4)
      ((a1 + 2 * a2 * ((u - s.t) / s.h) + 3 * a3 * ((u - s.t) / s.h) ^ 2
        + 4 * a4 * ((u - s.t) / s.h) ^ 3) / s.h) u := by
    intro a1 a2 a3 a4
    refine ((((hθ.const_mul a1).add ((hθ.pow 2).const_mul a2)).add ((hθ.pow 3).const_mul a3)).add
      ((hθ.pow 4).const_mul a4)).congr_deriv ?_
    push_cast
    ring
  have comp : ∀ g : V3 ℝ → ℝ, (g = V3.y0 ∨ g = V3.y1 ∨ g = V3.y2) →
      HasDerivAt (fun u => g (s.dense ((u - s.t) / s.h))) (g (denseRate s ((u - s.t) / s.h))) u := by
    intro g hg
    have e1 : (fun u => g (s.dense ((u - s.t) / s.h))) = fun u => g s.y + (
        (s.h * g s.k1) * ((u - s.t) / s.h)
        + (s.h * (3 * g (s.slope (35 / 384) 0 (500 / 1113) (125 / 192) (-2187 / 6784) (11 / 84) 0)
            - 2 * g s.k1 - g s.k7 + g (s.slope (-12715105075 / 11282082432) 0 (87487479700 / 32700410799)
              (-10690763975 / 1880347072) (701980252875 / 199316789632) (-1453857185 / 822651844)
              (69997945 / 29380423)))) * ((u - s.t) / s.h) ^ 2
        + (s.h * (-2 * g (s.slope (35 / 384) 0 (500 / 1113) (125 / 192) (-2187 / 6784) (11 / 84) 0)
            + g s.k1 + g s.k7 - 2 * g (s.slope (-12715105075 / 11282082432) 0 (87487479700 / 32700410799)
              (-10690763975 / 1880347072) (701980252875 / 199316789632) (-1453857185 / 822651844)
              (69997945 / 29380423)))) * ((u - s.t) / s.h) ^ 3
        + (s.h * g (s.slope (-12715105075 / 11282082432) 0 (87487479700 / 32700410799)
              (-10690763975 / 1880347072) (701980252875 / 199316789632) (-1453857185 / 822651844)
              (69997945 / 29380423))) * ((u - s.t) / s.h) ^ 4) := by
      funext u
      generalize (u - s.t) / s.h = θ
      rcases hg with rfl | rfl | rfl <;>
      · simp only [Step.dense, Step.finish, Step.go, Step.slope]
        ring
    rw [e1]
    refine ((poly _ _ _ _).const_add _).congr_deriv ?_
    generalize (u - s.t) / s.h = θ
    rcases hg with rfl | rfl | rfl <;>
    · simp only [denseRate, Step.slope]
      field_simp
      ring
  exact (comp V3.y0 (by simp)).prodMk ((comp V3.y1 (by simp)).prodMk (comp V3.y2 (by simp)))

theorem dense_near {s : Step} {M : ℝ} (hM : SmallSlopes s M) (hh : 0 < s.h) {θ : ℝ} (h0 : 0 ≤ θ)
    (h1 : θ ≤ 1) : ‖vec (s.dense θ) - vec s.y‖ ≤ 25 * M * s.h := by
  rw [dense_eq]
  apply go_near hM hh
  have a1 : 0 ≤ θ ^ 2 * (3 - 2 * θ) := by nlinarith [sq_nonneg θ]
  have a2 : θ ^ 2 * (3 - 2 * θ) ≤ 1 := by nlinarith [sq_nonneg (1 - θ), mul_nonneg h0 (sq_nonneg (1 - θ))]
  have b1 : 0 ≤ θ ^ 2 * (1 - θ) ^ 2 := by positivity
  have b2 : θ ^ 2 * (1 - θ) ^ 2 ≤ 1 := by
    rw [← mul_pow]
    have : 0 ≤ θ * (1 - θ) := mul_nonneg h0 (by linarith)
    have : θ * (1 - θ) ≤ 1 := by nlinarith
    exact pow_le_one₀ (by assumption) this
  have d1 : 0 ≤ θ * (1 - θ) ^ 2 := by positivity
  have d2 : θ * (1 - θ) ^ 2 ≤ 1 := by nlinarith [sq_nonneg (1 - θ), sq_nonneg θ, mul_nonneg h0 (sub_nonneg.2 h1)]
  have e1 : 0 ≤ θ ^ 2 * (1 - θ) := mul_nonneg (sq_nonneg _) (by linarith)
  have e2 : θ ^ 2 * (1 - θ) ≤ 1 := by nlinarith [sq_nonneg (1 - θ), sq_nonneg θ, mul_nonneg h0 (sub_nonneg.2 h1)]
  generalize θ ^ 2 * (3 - 2 * θ) = a at *
  generalize θ ^ 2 * (1 - θ) ^ 2 = b at *
  generalize θ * (1 - θ) ^ 2 = d at *
  generalize θ ^ 2 * (1 - θ) = e at *
  have bd : ∀ x y : ℝ, -y ≤ x → x ≤ y → |x| ≤ y := fun x y h h' => abs_le.2 ⟨h, h'⟩
  have n1 : |a * (35 / 384) + d + b * (-12715105075 / 11282082432)| ≤ 2.3 := bd _ _ (by linarith) (by linarith)
  have n2 : |(0 : ℝ)| ≤ 0 := by simp
  have n3 : |a * (500 / 1113) + b * (87487479700 / 32700410799)| ≤ 3.2 := bd _ _ (by linarith) (by linarith)
  have n4 : |a * (125 / 192) + b * (-10690763975 / 1880347072)| ≤ 5.7 := bd _ _ (by linarith) (by linarith)
  have n5 : |a * (-2187 / 6784) + b * (701980252875 / 199316789632)| ≤ 3.6 := bd _ _ (by linarith) (by linarith)
  have n6 : |a * (11 / 84) + b * (-1453857185 / 822651844)| ≤ 1.8 := bd _ _ (by linarith) (by linarith)
  have n7 : |-e + b * (69997945 / 29380423)| ≤ 2.4 := bd _ _ (by linarith) (by linarith)
  linarith

theorem denseRate_near {s : Step} {D : ℝ} (hD : CloseSlopes s D) {θ : ℝ} (h0 : 0 ≤ θ) (h1 : θ ≤ 1) :
    ‖vec (denseRate s θ) - vec s.k1‖ ≤ 12 * D := by
  have hD0 : 0 ≤ D := (norm_nonneg _).trans hD.k2
  have e : vec (denseRate s θ) - vec s.k1 = (0 : ℝ) • (vec s.k2 - vec s.k1) + (0 : ℝ) • (vec s.k2 - vec s.k1)
      + (6 * θ * (1 - θ) * (500 / 1113) + 2 * θ * (1 - θ) * (1 - 2 * θ) * (87487479700 / 32700410799))
        • (vec s.k3 - vec s.k1)
      + (6 * θ * (1 - θ) * (125 / 192) + 2 * θ * (1 - θ) * (1 - 2 * θ) * (-10690763975 / 1880347072))
        • (vec s.k4 - vec s.k1)
      + (6 * θ * (1 - θ) * (-2187 / 6784) + 2 * θ * (1 - θ) * (1 - 2 * θ) * (701980252875 / 199316789632))
        • (vec s.k5 - vec s.k1)
      + (6 * θ * (1 - θ) * (11 / 84) + 2 * θ * (1 - θ) * (1 - 2 * θ) * (-1453857185 / 822651844))
        • (vec s.k6 - vec s.k1)
      + (θ * (3 * θ - 2) + 2 * θ * (1 - θ) * (1 - 2 * θ) * (69997945 / 29380423))
        • (vec s.k7 - vec s.k1) := by
    rw [denseRate, vec_slope]
    module
  rw [e]
  refine (norm_comb hD.k2 hD.k2 hD.k3 hD.k4 hD.k5 hD.k6 hD.k7 _ _ _ _ _ _ _).trans
    (mul_le_mul_of_nonneg_right ?_ hD0)
  have a1 : 0 ≤ 6 * θ * (1 - θ) := by nlinarith
  have a2 : 6 * θ * (1 - θ) ≤ 1.5 := by nlinarith [sq_nonneg (1 - 2 * θ)]
  have b1 : -0.5 ≤ 2 * θ * (1 - θ) * (1 - 2 * θ) := by nlinarith [sq_nonneg (1 - 2 * θ)]
  have b2 : 2 * θ * (1 - θ) * (1 - 2 * θ) ≤ 0.5 := by nlinarith [sq_nonneg (1 - 2 * θ)]
  have c1 : -1 ≤ θ * (3 * θ - 2) := by nlinarith [sq_nonneg (3 * θ - 1)]
  have c2 : θ * (3 * θ - 2) ≤ 1 := by nlinarith
  generalize 6 * θ * (1 - θ) = a at *
  generalize 2 * θ * (1 - θ) * (1 - 2 * θ) = b at *
  generalize θ * (3 * θ - 2) = c at *
  have bd : ∀ x y : ℝ, -y ≤ x → x ≤ y → |x| ≤ y := fun x y h h' => abs_le.2 ⟨h, h'⟩
  have n2 : |(0 : ℝ)| ≤ 0 := by simp
  have n3 : |a * (500 / 1113) + b * (87487479700 / 32700410799)| ≤ 2.02 := bd _ _ (by linarith) (by linarith)
  have n4 : |a * (125 / 192) + b * (-10690763975 / 1880347072)| ≤ 3.83 := bd _ _ (by linarith) (by linarith)
  have n5 : |a * (-2187 / 6784) + b * (701980252875 / 199316789632)| ≤ 2.25 := bd _ _ (by linarith) (by linarith)
  have n6 : |a * (11 / 84) + b * (-1453857185 / 822651844)| ≤ 1.09 := bd _ _ (by linarith) (by linarith)
  have n7 : |c + b * (69997945 / 29380423)| ≤ 2.2 := bd _ _ (by linarith) (by linarith)
  linarith

/-! ## The chain -/

theorem gronwall_add {δ C ε : ℝ} (hC : C ≠ 0) (x y : ℝ) :
    gronwallBound (gronwallBound δ C ε x) C ε y = gronwallBound δ C ε (x + y) := by
  rw [gronwallBound_of_K_ne_0 hC, gronwallBound_of_K_ne_0 hC]
  simp only [mul_add, Real.exp_add]
  ring

theorem gronwall_mono {δ δ' C ε : ℝ} (hC : C ≠ 0) (h : δ ≤ δ') (x : ℝ) :
    gronwallBound δ C ε x ≤ gronwallBound δ' C ε x := by
  rw [gronwallBound_of_K_ne_0 hC, gronwallBound_of_K_ne_0 hC]
  simp only
  have := mul_le_mul_of_nonneg_right h (Real.exp_pos (C * x)).le
  linarith

theorem dense_zero (s : Step) : s.dense 0 = s.y := by
  simp [Step.dense]

theorem dense_one (s : Step) : s.dense 1 = s.finish := by
  simp [Step.dense]
  norm_num

theorem leads_le {t t' : ℝ} {y y' : V3 ℝ} {l : List Step} (hl : Leads t y l t' y')
    (hf : ∀ s ∈ l, 0 < s.h) : t ≤ t' := by
  induction l generalizing t y with
  | nil => exact hl.1.le
  | cons s l ih =>
    have h1 := ih hl.2.2 (fun a ha => hf a (List.mem_cons_of_mem _ ha))
    have h2 := hf s List.mem_cons_self
    linarith

theorem leads_mem {t b : ℝ} {y y' : V3 ℝ} {l : List Step} (hl : Leads t y l b y') (hf : ∀ s ∈ l, 0 < s.h) {s : Step}
    (hm : s ∈ l) : s.t + s.h ≤ b ∧ t ≤ s.t := by
  induction l generalizing t y with
  | nil => cases hm
  | cons a l ih =>
    have h1 := leads_le hl.2.2 (fun a ha => hf a (List.mem_cons_of_mem _ ha))
    rcases List.mem_cons.1 hm with rfl | hm
    · obtain ⟨rfl, h⟩ := hl
      exact ⟨h1, le_rfl⟩
    · obtain ⟨h2, h3⟩ := ih hl.2.2 (fun a ha => hf a (List.mem_cons_of_mem _ ha)) hm
      exact ⟨h2, by linarith [hf a List.mem_cons_self]⟩

/-- An exact solution of the rates `A` on `[0, b]`. -/
structure Exact (A : ℝ → V3 ℝ → V3 ℝ → Prop) (Y : ℝ → V3 ℝ) (b : ℝ) : Prop where
  cont : ContinuousOn (fun t => vec (Y t)) (Icc 0 b)
  moves : ∀ t ∈ Ico 0 b, ∃ k, A t (Y t) k ∧ HasDerivWithinAt (fun t => vec (Y t)) (vec k) (Ici t) t

theorem step_gap {A : ℝ → V3 ℝ → V3 ℝ → Prop} {M C : ℝ} (hC : 0 < C) (hA : Tame A M C) {b : ℝ}
    {Y : ℝ → V3 ℝ} (hY : Exact A Y b) {s : Step} (hs : s.Slopes A) (hh : 0 < s.h) {H : ℝ} (hH : s.h ≤ H)
    (h0 : 0 ≤ s.t) (hb : s.t + s.h ≤ b) {δ : ℝ} (hδ : ‖vec s.y - vec (Y s.t)‖ ≤ δ) :
    ∀ u ∈ Icc s.t (s.t + s.h), ‖vec (s.dense ((u - s.t) / s.h)) - vec (Y u)‖
      ≤ gronwallBound δ C (C * ((325 * M + 13) * H)) (u - s.t) := by
  have hM := small_slopes hA hs
  have hM0 : 0 ≤ M := (norm_nonneg _).trans hM.k1
  have hD := close_slopes hC.le hA hh hs
  have hv : ∀ u ∈ Ico s.t (s.t + s.h), ∃ v,
      HasDerivWithinAt (fun u => vec (s.dense ((u - s.t) / s.h)) - vec (Y u)) v (Ici u) u ∧
      ‖v‖ ≤ C * ‖vec (s.dense ((u - s.t) / s.h)) - vec (Y u)‖ + C * ((325 * M + 13) * H) := by
    intro u hu
    obtain ⟨k, hk, hk'⟩ := hY.moves u ⟨h0.trans hu.1, hu.2.trans_le hb⟩
    refine ⟨_, (dense_deriv s hh.ne' u).hasDerivWithinAt.sub hk', ?_⟩
    have t0 : 0 ≤ (u - s.t) / s.h := div_nonneg (by linarith [hu.1]) hh.le
    have t1 : (u - s.t) / s.h ≤ 1 := (div_le_one hh).2 (by linarith [hu.2])
    have n1 := denseRate_near hD t0 t1
    have n2 := dense_near hM hh t0 t1
    have n3 := hA.lip _ _ _ _ _ _ hs.k1 hk
    have n4 : |s.t - u| ≤ s.h := by rw [abs_le]; constructor <;> linarith [hu.1, hu.2]
    generalize vec (s.dense ((u - s.t) / s.h)) = z at *
    generalize vec (denseRate s ((u - s.t) / s.h)) = z' at *
    have n5 : ‖vec s.y - vec (Y u)‖ ≤ 25 * M * s.h + ‖z - vec (Y u)‖ := by
      have : vec s.y - vec (Y u) = -(z - vec s.y) + (z - vec (Y u)) := by abel
      rw [this]
      refine (norm_add_le _ _).trans ?_
      rw [norm_neg]
      linarith
    have n6 : ‖z' - vec k‖ ≤ ‖z' - vec s.k1‖ + ‖vec s.k1 - vec k‖ := by
      have : z' - vec k = (z' - vec s.k1) + (vec s.k1 - vec k) := by abel
      rw [this]
      exact norm_add_le _ _
    have n7 : C * (‖vec s.y - vec (Y u)‖ + |s.t - u|) ≤ C * (25 * M * s.h + ‖z - vec (Y u)‖ + s.h) :=
      mul_le_mul_of_nonneg_left (by linarith) hC.le
    have n8 : C * ((325 * M + 13) * s.h) ≤ C * ((325 * M + 13) * H) :=
      mul_le_mul_of_nonneg_left (mul_le_mul_of_nonneg_left hH (by positivity)) hC.le
    calc ‖z' - vec k‖ ≤ 12 * (C * ((25 * M + 1) * s.h)) + C * (25 * M * s.h + ‖z - vec (Y u)‖ + s.h) := by
          linarith
      _ = C * ‖z - vec (Y u)‖ + C * ((325 * M + 13) * s.h) := by ring
      _ ≤ _ := by linarith
  choose! v hv hv' using hv
  have cz : ContinuousOn (fun u => vec (s.dense ((u - s.t) / s.h))) (Icc s.t (s.t + s.h)) :=
    fun u _ => (dense_deriv s hh.ne' u).continuousAt.continuousWithinAt
  have cont := cz.sub (hY.cont.mono (Icc_subset_Icc h0 hb))
  refine norm_le_gronwallBound_of_norm_deriv_right_le cont hv ?_ hv'
  simpa [dense_zero] using hδ

/-- Along a chain of steps no longer than `H`, the dense output stays within Gronwall's bound of an exact
solution. -/
theorem chain_gap {A : ℝ → V3 ℝ → V3 ℝ → Prop} {M C : ℝ} (hC : 0 < C) (hA : Tame A M C) {b : ℝ}
    {Y : ℝ → V3 ℝ} (hY : Exact A Y b) {H δ : ℝ} {l : List Step} (hf : ∀ s ∈ l, 0 < s.h)
    (hs : ∀ s ∈ l, s.Slopes A) (hH : ∀ s ∈ l, s.h ≤ H) : ∀ {t : ℝ} {y y' : V3 ℝ}, 0 ≤ t →
      Leads t y l b y' → ‖vec y - vec (Y t)‖ ≤ gronwallBound δ C (C * ((325 * M + 13) * H)) t →
      ∀ s ∈ l, ∀ u ∈ Icc s.t (s.t + s.h), ‖vec (s.dense ((u - s.t) / s.h)) - vec (Y u)‖
        ≤ gronwallBound δ C (C * ((325 * M + 13) * H)) u := by
  induction l with
  | nil => intro t y y' _ _ _ s hs; cases hs
  | cons a l ih =>
    intro t y y' h0 hl hg s hsm u hu
    obtain ⟨rfl, rfl, hl⟩ := hl
    have ha := hf a List.mem_cons_self
    have hb := leads_le hl (fun a ha => hf a (List.mem_cons_of_mem _ ha))
    have key := step_gap hC hA hY (hs a List.mem_cons_self) ha (hH a List.mem_cons_self) h0 hb hg
    simp only [gronwall_add hC.ne', add_sub_cancel] at key
    rcases List.mem_cons.1 hsm with rfl | hsm
    · exact key u hu
    · refine ih (fun a ha => hf a (List.mem_cons_of_mem _ ha)) (fun a ha => hs a (List.mem_cons_of_mem _ ha))
        (fun a ha => hH a (List.mem_cons_of_mem _ ha)) (by linarith) hl ?_ s hsm u hu
      have := key (a.t + a.h) ⟨by linarith, le_rfl⟩
      rwa [add_sub_cancel_left, div_self ha.ne', dense_one] at this

end Sett
