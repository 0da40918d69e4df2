import Verif.Spec.Svd
import Verif.Proofs.Qr
import Mathlib.Analysis.InnerProductSpace.PiL2
import Mathlib.Analysis.Matrix.Spectrum
import Mathlib.Analysis.Matrix.PosDef
import Mathlib.Algebra.Order.Star.Real
import Mathlib.Algebra.Order.BigOperators.Ring.Finset

/-! # Singular value decompositions in exact arithmetic -/

namespace Sett.svd

open Spec Matrix

variable {n : Nat}

theorem trMul_eq (m : Fin n → Fin n → ℝ) (v : Fin n → ℝ) : trMul m v = (Matrix.of m)ᵀ *ᵥ v := by
  funext r
  rw [trMul, qr.foldl_sum, lit_0, zero_add, ← Fin.sum_univ_def]
  rfl

variable {d : Svd n ℝ} {a : Fin n → Fin n → ℝ}

theorem left_one (h : IsSvd d a) : (Matrix.of d.u)ᵀ * Matrix.of d.u = 1 := by
  ext i j
  rw [Matrix.mul_apply, Matrix.one_apply]
  exact h.left i j

theorem right_one (h : IsSvd d a) : Matrix.of d.vt * (Matrix.of d.vt)ᵀ = 1 := by
  ext i j
  rw [Matrix.mul_apply, Matrix.one_apply]
  exact h.right i j

theorem product_eq (h : IsSvd d a) : Matrix.of a = Matrix.of d.u * Matrix.diagonal d.sigma * Matrix.of d.vt := by
  ext r c
  rw [Matrix.mul_apply]
  simp only [Matrix.mul_diagonal]
  exact h.product r c

/-- The part of a vector along the rows that are kept. -/
noncomputable def kept (d : Svd n ℝ) (eps : ℝ) (x : Fin n → ℝ) : Fin n → ℝ :=
  fun c => ∑ k, if eps < d.sigma k then (∑ j, d.vt k j * x j) * d.vt k c else 0

theorem solve_eq (d : Svd n ℝ) (b : Fin n → ℝ) (eps : ℝ) (c : Fin n) :
    solve d b eps c = ∑ k, if eps < d.sigma k then (∑ r, d.u r k * b r) / d.sigma k * d.vt k c else 0 := by
  simp only [solve, trMul_eq, real_lt, lit_0]
  simp only [Matrix.mulVec, dotProduct, Matrix.transpose_apply, Matrix.of_apply]
  refine Finset.sum_congr rfl fun k _ => ?_
  split
  · ring
  · ring

/-- Applied to a system with a solution, the result is the kept part of it. -/
theorem solve_kept (h : IsSvd d a) {eps : ℝ} (he : 0 ≤ eps) {x b : Fin n → ℝ}
    (hx : ∀ r, ∑ c, a r c * x c = b r) : solve d b eps = kept d eps x := by
  have hb : Matrix.of a *ᵥ x = b := funext hx
  have h1 : (Matrix.of d.u)ᵀ *ᵥ b = Matrix.diagonal d.sigma *ᵥ (Matrix.of d.vt *ᵥ x) := by
    rw [← hb, product_eq h, Matrix.mulVec_mulVec, Matrix.mulVec_mulVec, ← Matrix.mul_assoc, ← Matrix.mul_assoc,
      left_one h, Matrix.one_mul]
  funext c
  rw [solve_eq, kept]
  refine Finset.sum_congr rfl fun k _ => ?_
  split
  · rename_i hk
    have hk0 : d.sigma k ≠ 0 := (he.trans_lt hk).ne'
    have := congrFun h1 k
    rw [Matrix.mulVec_diagonal] at this
    have e : (∑ r, d.u r k * b r) = d.sigma k * ∑ j, d.vt k j * x j := this
    rw [e, mul_comm (d.sigma k), mul_div_assoc, div_self hk0, mul_one]
  · rfl

theorem kept_all (h : IsSvd d a) {eps : ℝ} (hs : ∀ k, eps < d.sigma k) (x : Fin n → ℝ) : kept d eps x = x := by
  have : kept d eps x = (Matrix.of d.vt)ᵀ *ᵥ (Matrix.of d.vt *ᵥ x) := by
    funext c
    simp only [kept, hs, if_true]
    simp only [Matrix.mulVec, dotProduct, Matrix.transpose_apply, Matrix.of_apply]
    exact Finset.sum_congr rfl fun k _ => mul_comm _ _
  rw [this, Matrix.mulVec_mulVec, mul_eq_one_comm.1 (right_one h), Matrix.one_mulVec]

/-- With nothing dropped every system is solved. -/
theorem solve_solves (h : IsSvd d a) {eps : ℝ} (he : 0 ≤ eps) (hs : ∀ k, eps < d.sigma k) (b : Fin n → ℝ) (r : Fin n) :
    ∑ c, a r c * solve d b eps c = b r := by
  have h0 : ∀ k, d.sigma k ≠ 0 := fun k => (he.trans_lt (hs k)).ne'
  have hx : solve d b eps = (Matrix.of d.vt)ᵀ *ᵥ (Matrix.diagonal (fun k => (d.sigma k)⁻¹) *ᵥ
      ((Matrix.of d.u)ᵀ *ᵥ b)) := by
    funext c
    rw [solve_eq]
    simp only [hs, if_true]
    simp only [Matrix.mulVec, dotProduct, Matrix.transpose_apply, Matrix.of_apply]
    refine Finset.sum_congr rfl fun k _ => ?_
    simp only [Matrix.diagonal_apply, ite_mul, zero_mul, Finset.sum_ite_eq, Finset.mem_univ, if_true]
    ring
  have : Matrix.of a *ᵥ solve d b eps = b := by
    rw [hx, product_eq h, Matrix.mulVec_mulVec, Matrix.mulVec_mulVec, Matrix.mulVec_mulVec]
    have hD : Matrix.diagonal d.sigma * Matrix.diagonal (fun k => (d.sigma k)⁻¹) = 1 := by
      rw [Matrix.diagonal_mul_diagonal, ← Matrix.diagonal_one]
      congr 1
      funext k
      exact mul_inv_cancel₀ (h0 k)
    rw [show Matrix.of d.u * Matrix.diagonal d.sigma * Matrix.of d.vt * (Matrix.of d.vt)ᵀ *
        Matrix.diagonal (fun k => (d.sigma k)⁻¹) * (Matrix.of d.u)ᵀ =
        Matrix.of d.u * (Matrix.diagonal d.sigma * (Matrix.of d.vt * (Matrix.of d.vt)ᵀ) *
        Matrix.diagonal (fun k => (d.sigma k)⁻¹)) * (Matrix.of d.u)ᵀ by simp only [Matrix.mul_assoc],
      right_one h, Matrix.mul_one, hD, Matrix.mul_one, mul_eq_one_comm.1 (left_one h), Matrix.one_mulVec]
  exact congrFun this r

/-- The squared length of a column, by the decomposition. -/
theorem column_sq (h : IsSvd d a) (c : Fin n) : ∑ r, a r c ^ 2 = ∑ k, (d.sigma k * d.vt k c) ^ 2 := by
  have h1 : (Matrix.of a)ᵀ * Matrix.of a =
      (Matrix.diagonal d.sigma * Matrix.of d.vt)ᵀ * (Matrix.diagonal d.sigma * Matrix.of d.vt) := by
    rw [product_eq h, Matrix.mul_assoc, Matrix.transpose_mul, Matrix.mul_assoc, ← Matrix.mul_assoc _ (Matrix.of d.u),
      left_one h, Matrix.one_mul]
  have h2 := congrFun (congrFun h1 c) c
  rw [Matrix.mul_apply, Matrix.mul_apply] at h2
  simp only [Matrix.transpose_apply, Matrix.of_apply, Matrix.diagonal_mul] at h2
  simpa only [pow_two] using h2

/-- A combination of the rows that are kept is small in every component whose column is small. -/
theorem comb_column (h : IsSvd d a) {eps : ℝ} (he : 0 ≤ eps) (w : Fin n → ℝ) (hw : ∀ k, ¬ eps < d.sigma k → w k = 0)
    (c : Fin n) :
    eps ^ 2 * (∑ k, w k * d.vt k c) ^ 2 ≤ (∑ r, a r c ^ 2) * ∑ j, (∑ k, w k * d.vt k j) ^ 2 := by
  have hlen : ∑ j, (∑ k, w k * d.vt k j) ^ 2 = ∑ k, w k ^ 2 := by
    have h1 : ((Matrix.of d.vt)ᵀ *ᵥ w) ⬝ᵥ ((Matrix.of d.vt)ᵀ *ᵥ w) = w ⬝ᵥ w := by
      rw [Matrix.dotProduct_mulVec, Matrix.vecMul_transpose, Matrix.mulVec_mulVec, right_one h, Matrix.one_mulVec]
    simp only [Matrix.mulVec, dotProduct, Matrix.transpose_apply, Matrix.of_apply] at h1
    simp only [pow_two]
    rw [← h1]
    refine Finset.sum_congr rfl fun j _ => ?_
    simp only [mul_comm (w _)]
  rw [hlen, column_sq h]
  calc eps ^ 2 * (∑ k, w k * d.vt k c) ^ 2 = (∑ k, w k * (eps * (if eps < d.sigma k then d.vt k c else 0))) ^ 2 := by
        rw [← mul_pow, Finset.mul_sum]
        congr 1
        refine Finset.sum_congr rfl fun k _ => ?_
        split
        · ring
        · rename_i hk; rw [hw k hk]; ring
    _ ≤ (∑ k, w k ^ 2) * ∑ k, (eps * (if eps < d.sigma k then d.vt k c else 0)) ^ 2 :=
        Finset.sum_mul_sq_le_sq_mul_sq _ _ _
    _ ≤ (∑ k, w k ^ 2) * ∑ k, (d.sigma k * d.vt k c) ^ 2 := by
        refine mul_le_mul_of_nonneg_left (Finset.sum_le_sum fun k _ => ?_)
          (Finset.sum_nonneg fun k _ => sq_nonneg _)
        split
        · rename_i hk
          rw [mul_pow, mul_pow]
          exact mul_le_mul_of_nonneg_right (pow_le_pow_left₀ he hk.le 2) (sq_nonneg _)
        · rw [mul_zero, zero_pow two_ne_zero]; exact sq_nonneg _
    _ = _ := mul_comm _ _

/-- So is the result, whatever the right-hand side. -/
theorem solve_column (h : IsSvd d a) {eps : ℝ} (he : 0 ≤ eps) (b : Fin n → ℝ) (c : Fin n) :
    eps ^ 2 * solve d b eps c ^ 2 ≤ (∑ r, a r c ^ 2) * ∑ j, solve d b eps j ^ 2 := by
  have key := comb_column h he (fun k => if eps < d.sigma k then (∑ r, d.u r k * b r) / d.sigma k else 0)
    (fun k hk => if_neg hk) c
  simp only [solve_eq]
  simpa only [ite_mul, zero_mul] using key

/-- Every matrix has a singular value decomposition. -/
theorem exists_svd (a : Fin n → Fin n → ℝ) : ∃ d, IsSvd d a := by
  set A : Matrix (Fin n) (Fin n) ℝ := Matrix.of a with hA
  have hp : (Aᵀ * A).PosSemidef := by
    have := Matrix.posSemidef_conjTranspose_mul_self A
    simpa using this
  set v := hp.isHermitian.eigenvectorBasis with hv
  set l := hp.isHermitian.eigenvalues with hl
  have hl0 : ∀ k, 0 ≤ l k := hp.eigenvalues_nonneg
  have hvv : ∀ i j, (v i).ofLp ⬝ᵥ (v j).ofLp = if i = j then 1 else 0 := by
    intro i j
    have := orthonormal_iff_ite.1 v.orthonormal i j
    rw [← this]
    simp [PiLp.inner_apply, dotProduct, mul_comm]
  have hAA : ∀ i j, (A *ᵥ (v i).ofLp) ⬝ᵥ (A *ᵥ (v j).ofLp) = if i = j then l i else 0 := by
    intro i j
    rw [Matrix.dotProduct_mulVec, ← Matrix.mulVec_transpose, Matrix.mulVec_mulVec,
      hp.isHermitian.mulVec_eigenvectorBasis]
    rw [smul_dotProduct, hvv]
    by_cases h : i = j <;> simp [h, hl]
  set w : Fin n → EuclideanSpace ℝ (Fin n) := fun i => WithLp.toLp 2 ((Real.sqrt (l i))⁻¹ • (A *ᵥ (v i).ofLp)) with hw
  have ho : Orthonormal ℝ (({i | l i ≠ 0} : Set (Fin n)).domRestrict w) := by
    rw [orthonormal_iff_ite]
    rintro ⟨i, hi⟩ ⟨j, hj⟩
    have e : inner ℝ (w i) (w j) = (Real.sqrt (l i))⁻¹ * ((Real.sqrt (l j))⁻¹ *
        ((A *ᵥ (v i).ofLp) ⬝ᵥ (A *ᵥ (v j).ofLp))) := by
      rw [hw, EuclideanSpace.inner_toLp_toLp]
      simp [dotProduct_comm]
      ring
    rw [Set.domRestrict_apply, Set.domRestrict_apply, e, hAA]
    by_cases h : i = j
    · subst h
      have hq : Real.sqrt (l i) ≠ 0 := by
        rw [Real.sqrt_ne_zero (hl0 i)]; exact hi
      simp only [if_true]
      field_simp
      rw [Real.sq_sqrt (hl0 i)]
    · simp [h]
  obtain ⟨u, hu⟩ := ho.exists_orthonormalBasis_extension_of_card_eq (by simp)
  have huu : ∀ i j, (u i).ofLp ⬝ᵥ (u j).ofLp = if i = j then 1 else 0 := by
    intro i j
    have := orthonormal_iff_ite.1 u.orthonormal i j
    rw [← this]
    simp [PiLp.inner_apply, dotProduct, mul_comm]
  have hAv : ∀ k r, (A *ᵥ (v k).ofLp) r = Real.sqrt (l k) * (u k).ofLp r := by
    intro k r
    by_cases h : l k = 0
    · have : (A *ᵥ (v k).ofLp) ⬝ᵥ (A *ᵥ (v k).ofLp) = 0 := by rw [hAA, if_pos rfl, h]
      rw [dotProduct_self_eq_zero] at this
      rw [this, h, Real.sqrt_zero, zero_mul]; rfl
    · have hq : Real.sqrt (l k) ≠ 0 := by rw [Real.sqrt_ne_zero (hl0 k)]; exact h
      rw [hu k h, hw]
      simp only [Pi.smul_apply, smul_eq_mul]
      rw [← mul_assoc, mul_inv_cancel₀ hq, one_mul]
  refine ⟨⟨fun r k => (u k).ofLp r, fun k => Real.sqrt (l k), fun k c => (v k).ofLp c⟩, fun r c => ?_, fun i j => huu i j,
    fun i j => hvv i j, fun k => Real.sqrt_nonneg _⟩
  simp only
  set V : Matrix (Fin n) (Fin n) ℝ := Matrix.of fun k c => (v k).ofLp c with hV
  have hVV : V * Vᵀ = 1 := by
    ext i j
    rw [Matrix.mul_apply, Matrix.one_apply]
    exact hvv i j
  have hAVV : A * Vᵀ * V = A := by rw [Matrix.mul_assoc, mul_eq_one_comm.1 hVV, Matrix.mul_one]
  have := congrFun (congrFun hAVV r) c
  rw [Matrix.mul_apply] at this
  rw [show a r c = A r c from rfl, ← this]
  refine Finset.sum_congr rfl fun k _ => ?_
  have e : (A * Vᵀ) r k = (A *ᵥ (v k).ofLp) r := by
    rw [Matrix.mul_apply]; rfl
  rw [e, hAv]
  simp only [hV, Matrix.of_apply]
  ring

end Sett.svd
