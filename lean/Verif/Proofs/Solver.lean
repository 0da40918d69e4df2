import Verif.Spec.Balances
import Mathlib.Tactic.FieldSimp
import Mathlib.Tactic.Linarith
import Mathlib.Tactic.LinearCombination
import Mathlib.LinearAlgebra.Matrix.ToLinearEquiv
import Mathlib.LinearAlgebra.Matrix.Determinant.Basic

/-! # Lemmas about the state equations and the direction loop -/

namespace Sett

open state_equations Spec

/-- Row-by-row reading of the assembled system. -/
theorem solves_iff_rows (a : Mat10 ℝ) (b x : Vec10 ℝ) :
    Solves a b x ↔ ∀ r, a r 0 * x 0 + a r 1 * x 1 + a r 2 * x 2 + a r 3 * x 3 + a r 4 * x 4
      + a r 5 * x 5 + a r 6 * x 6 + a r 7 * x 7 + a r 8 * x 8 + a r 9 * x 9 = b r := by
  unfold Solves
  refine forall_congr' fun r => ?_
  rw [Fin.sum_univ_succ, Fin.sum_univ_succ, Fin.sum_univ_eight]
  constructor <;> intro h <;> rw [← h] <;> simp [add_assoc]

theorem select_div (d : Direction) (p n e : ℝ) :
    d.select (p / e) (n / e) = faceFor d p n / e := by
  cases d <;> simp [Direction.select, faceFor]
  norm_num; ring

/-- The five mass rows carry no normalisation. -/
theorem mass_of_solves (i : Inputs ℝ) (d : FlowDirection) (x : Vec10 ℝ)
    (hx : Solves ((System.new i).stencil.create_matrix d) (System.new i).b x) :
    compMass i (Solution.ofVec x) = -x 0 ∧ chxMass i (Solution.ofVec x) = x 0 - x 1 ∧
      regenMass i (Solution.ofVec x) = x 1 - x 2 ∧ hhxMass i (Solution.ofVec x) = x 2 - x 3 ∧
      expMass i (Solution.ofVec x) = x 3 := by
  rw [solves_iff_rows] at hx
  have h0 := hx 0
  have h2 := hx 2
  have h4 := hx 4
  have h6 := hx 6
  have h8 := hx 8
  simp [System.new, MatrixStencil.create_matrix, System.matrix, System.rhs, Mat10.set,
    Vec10.set] at h0 h2 h4 h6 h8
  norm_num at h0 h2 h4 h6 h8
  simp only [compMass, chxMass, regenMass, hhxMass, expMass, massRate, Solution.ofVec]
  refine ⟨?_, ?_, ?_, ?_, ?_⟩
  · linear_combination h0
  · linear_combination h2
  · linear_combination h4
  · linear_combination h6
  · linear_combination h8

/-! ## The direction loop, for any arithmetic -/

section Loop
variable {α : Type} [Scalar α]

theorem from_value_ne_unknown (v : α) : Direction.from_value v ≠ .Unknown := by
  unfold Direction.from_value; split <;> simp

/-- A solution's directions: the classification of its four flows. -/
theorem solveLoop_ok (T : MatrixDecomposition α) (sys : System α) :
    ∀ (n : Nat) (d : FlowDirection) (s : Solution α), (solveLoop T sys n d).1 = .ok s →
      sys.solve T (FlowDirection.from_solution s) = some s
  | 0, _, _, h => by simp [solveLoop] at h
  | n + 1, d, s, h => by
    unfold solveLoop at h
    split at h
    · simp at h
    · rename_i sol hsol
      simp only at h
      split at h
      · rename_i hd
        simp at h
        subst h
        rw [← hd]; exact hsol
      · exact solveLoop_ok T sys n _ s h

end Loop

theorem facesFor_from_solution (i : Inputs ℝ) (s : Solution ℝ) :
    facesFor i (FlowDirection.from_solution s) = upwind i s := by
  have key : ∀ v a b : ℝ, faceFor (Direction.from_value v) a b
      = @ite _ (0 ≤ v) (Classical.propDecidable _) a b := by
    intro v a b
    unfold Direction.from_value
    by_cases hv : (0 : ℝ) ≤ v
    · have : Scalar.le (0.0 : ℝ) v = true := by rw [real_le]; norm_num; exact hv
      rw [if_pos this, if_pos hv]; rfl
    · have : ¬ Scalar.le (0.0 : ℝ) v = true := by rw [real_le]; norm_num; linarith
      rw [if_neg this, if_neg hv]; rfl
  simp only [facesFor, upwind, FlowDirection.from_solution, key]

/-- What a sound decomposition gives for a returned solution. -/
theorem solves_of_solve {T : MatrixDecomposition ℝ} (hT : Sound T) {i : Inputs ℝ}
    {hint : FlowDirection} {s : Solution ℝ} (h : solve T i hint = .ok s) :
    ∃ x, s = Solution.ofVec x ∧
      Solves ((System.new i).stencil.create_matrix (FlowDirection.from_solution s))
        (System.new i).b x := by
  have := solveLoop_ok T (System.new i) _ _ s h
  simp only [System.solve, Option.map_eq_some_iff] at this
  obtain ⟨x, hx, rfl⟩ := this
  exact ⟨x, rfl, hT _ _ _ hx⟩

/-! ## Outcome of the direction search -/

section Outcome
variable {α : Type} [Scalar α]

/-- Complete description of the outcome of the loop with `n+1` solves allowed. -/
theorem solveLoop_spec (T : MatrixDecomposition α) (sys : System α) :
    ∀ (n : Nat) (d : FlowDirection), ∃ last,
      Search T sys d (solveLoop T sys (n + 1) d).2 last ∧
      (solveLoop T sys (n + 1) d).2.length ≤ n + 1 ∧
      match (solveLoop T sys (n + 1) d).1 with
      | .ok s => sys.solve T last = some s ∧ FlowDirection.from_solution s = last
      | .error .decomposition => sys.solve T last = none
      | .error .flow_directions => (solveLoop T sys (n + 1) d).2.length = n + 1 ∧
          ∃ d', Redirects T sys last d' := by
  intro n
  induction n with
  | zero =>
    intro d
    refine ⟨d, ?_⟩
    unfold solveLoop
    split
    · rename_i h; exact ⟨.here d, by simp, h⟩
    · rename_i s h
      simp only
      split
      · rename_i hd; exact ⟨.here d, by simp, h, hd.symm⟩
      · rename_i hd; exact ⟨.here d, by simp [solveLoop], by simp [solveLoop], _, hd, s, h, rfl⟩
  | succ n ih =>
    intro d
    rw [solveLoop]
    split
    · rename_i h; exact ⟨d, .here d, by simp, h⟩
    · rename_i s h
      simp only
      split
      · rename_i hd; exact ⟨d, .here d, by simp, h, hd.symm⟩
      · rename_i hd
        obtain ⟨last, h1, h2, h3⟩ := ih (FlowDirection.from_solution s)
        generalize solveLoop T sys (n + 1) (FlowDirection.from_solution s) = r at h1 h2 h3
        obtain ⟨r1, r2⟩ := r
        refine ⟨last, .step ⟨hd, s, h, rfl⟩ h1, by simpa using h2, ?_⟩
        match r1, h3 with
        | .ok _, h3 => exact h3
        | .error .decomposition, h3 => exact h3
        | .error .flow_directions, ⟨ha, hb⟩ => exact ⟨by simpa using ha, hb⟩

theorem Spec.Search.head_mem {T : MatrixDecomposition α} {sys : System α} {d ds last}
    (h : Search T sys d ds last) : ∃ t, ds = d :: t := by
  cases h <;> exact ⟨_, rfl⟩

theorem Spec.Search.last_mem {T : MatrixDecomposition α} {sys : System α} {d ds last}
    (h : Search T sys d ds last) : last ∈ ds := by
  induction h with
  | here d => simp
  | step _ _ ih => simp [ih]

/-- Running the loop along a search that ends in a fixed point within the budget finds it. -/
theorem solveLoop_of_search {T : MatrixDecomposition α} {sys : System α} {d ds last}
    (h : Search T sys d ds last) {s : Solution α} (hs : sys.solve T last = some s)
    (hf : FlowDirection.from_solution s = last) :
    ∀ n, ds.length ≤ n → solveLoop T sys n d = (.ok s, ds) := by
  induction h with
  | here d =>
    intro n hn
    obtain ⟨m, rfl⟩ : ∃ m, n = m + 1 := ⟨n - 1, by simp at hn; omega⟩
    rw [solveLoop, hs]; simp [hf]
  | @step d d' ds last hr hrest ih =>
    intro n hn
    obtain ⟨m, rfl⟩ : ∃ m, n = m + 1 := ⟨n - 1, by simp at hn; omega⟩
    obtain ⟨hne, s', hs', rfl⟩ := hr
    rw [solveLoop, hs']
    simp only [hne, if_false]
    rw [ih hs hf m (by simpa using hn)]

end Outcome

/-! ## Reduction to three unknowns -/

/-- Values forced by `dTc, dTe, dP`: the flows and heats of a balanced solution. -/
def complete (i : Inputs ℝ) (h : Faces) (dTc dTe dP : ℝ) : Vec10 ℝ :=
  let m0 := -(massRate i.comp.vol i.comp.dens i.comp.dd_dP_T i.comp.dd_dT_P i.comp.dV_dt dP dTc)
  let m1 := m0 - i.chx.vol * i.chx.dd_dP_T * dP
  let m2 := m1 - i.regen.vol * i.regen.dd_dP_T * dP
  let m3 := m2 - i.hhx.vol * i.hhx.dd_dP_T * dP
  ![m0, m1, m2, m3,
    h.ck * m0 - h.kr * m1
      - i.chx.vol * (i.chx.dens * i.chx.du_dP_T + i.chx.inte * i.chx.dd_dP_T) * dP,
    h.kr * m1 - h.rl * m2
      - i.regen.vol * (i.regen.dens * i.regen.du_dP_T + i.regen.inte * i.regen.dd_dP_T) * dP,
    h.le * m3 - h.rl * m2
      + i.hhx.vol * (i.hhx.dens * i.hhx.du_dP_T + i.hhx.inte * i.hhx.dd_dP_T) * dP,
    dTc, dTe, dP]

/-- The reduced right-hand side. -/
def reducedRhs (i : Inputs ℝ) (h : Faces) : Fin 3 → ℝ :=
  ![(h.ck - i.comp.inte) * i.comp.dens * i.comp.dV_dt - i.pres * i.comp.dV_dt - i.comp.Q_dot,
    (h.le - i.exp.inte) * i.exp.dens * i.exp.dV_dt - i.pres * i.exp.dV_dt - i.exp.Q_dot,
    -(i.comp.dens * i.comp.dV_dt + i.exp.dens * i.exp.dV_dt)]

/-- The reduced matrix in `(dTc, dTe, dP)`. -/
def reducedMat (i : Inputs ℝ) (h : Faces) : Matrix (Fin 3) (Fin 3) ℝ :=
  !![tempCoef i.comp h.ck, 0, presCoef i.comp h.ck;
     0, tempCoef i.exp h.le, presCoef i.exp h.le;
     i.comp.vol * i.comp.dd_dT_P, i.exp.vol * i.exp.dd_dT_P, compliance i]

theorem reducedMat_det (i : Inputs ℝ) (h : Faces) : (reducedMat i h).det = reducedDet i h := by
  simp [reducedMat, Matrix.det_fin_three, reducedDet]; ring

theorem balances_iff_reduced (i : Inputs ℝ) (h : Faces) (x : Vec10 ℝ) :
    Balances i h (Solution.ofVec x) ↔
      (reducedMat i h).mulVec ![x 7, x 8, x 9] = reducedRhs i h ∧
        x = complete i h (x 7) (x 8) (x 9) := by
  have hv : (reducedMat i h).mulVec ![x 7, x 8, x 9] = reducedRhs i h ↔
      (tempCoef i.comp h.ck * x 7 + presCoef i.comp h.ck * x 9 = reducedRhs i h 0 ∧
       tempCoef i.exp h.le * x 8 + presCoef i.exp h.le * x 9 = reducedRhs i h 1 ∧
       i.comp.vol * i.comp.dd_dT_P * x 7 + i.exp.vol * i.exp.dd_dT_P * x 8 + compliance i * x 9
         = reducedRhs i h 2) := by
    constructor
    · intro hh
      have h0 := congrFun hh 0
      have h1 := congrFun hh 1
      have h2 := congrFun hh 2
      simp [reducedMat, Matrix.mulVec, dotProduct, Fin.sum_univ_three] at h0 h1 h2
      exact ⟨h0, h1, h2⟩
    · rintro ⟨h0, h1, h2⟩
      funext r
      fin_cases r <;> simp [reducedMat, Matrix.mulVec, dotProduct, Fin.sum_univ_three] <;>
        assumption
  rw [hv]
  simp only [reducedRhs, tempCoef, presCoef, compliance, Matrix.cons_val]
  constructor
  · rintro ⟨h0, h1, h2, h3, h4, h5, h6, h7, h8, h9⟩
    simp only [compMass, compEnergy, chxMass, chxEnergy, regenMass, regenEnergy, hhxMass,
        hhxEnergy, expMass, expEnergy, massRate, energyRate, Solution.ofVec]
      at h0 h1 h2 h3 h4 h5 h6 h7 h8 h9
    have e0 : x 0 = -(massRate i.comp.vol i.comp.dens i.comp.dd_dP_T i.comp.dd_dT_P i.comp.dV_dt
        (x 9) (x 7)) := by unfold massRate; linarith
    have e1 : x 1 = x 0 - i.chx.vol * i.chx.dd_dP_T * x 9 := by linarith
    have e2 : x 2 = x 1 - i.regen.vol * i.regen.dd_dP_T * x 9 := by linarith
    have e3 : x 3 = x 2 - i.hhx.vol * i.hhx.dd_dP_T * x 9 := by linarith
    refine ⟨⟨?_, ?_, ?_⟩, ?_⟩
    · linear_combination h1 - h.ck * h0
    · linear_combination h9 - h.le * h8
    · linear_combination h0 + h2 + h4 + h6 + h8
    · funext r
      fin_cases r <;> simp only [complete] <;> simp <;> simp only [← e0, ← e1, ← e2, ← e3]
      · linear_combination h3 + h.ck * e0
      · linear_combination h5
      · linear_combination -h7
  · rintro ⟨⟨h0, h1, h2⟩, hx⟩
    have e0 : x 0 = _ := congrFun hx 0
    have e1 : x 1 = _ := congrFun hx 1
    have e2 : x 2 = _ := congrFun hx 2
    have e3 : x 3 = _ := congrFun hx 3
    have e4 : x 4 = _ := congrFun hx 4
    have e5 : x 5 = _ := congrFun hx 5
    have e6 : x 6 = _ := congrFun hx 6
    simp [complete, massRate] at e0 e1 e2 e3 e4 e5 e6
    constructor <;>
      simp only [compMass, compEnergy, chxMass, chxEnergy, regenMass, regenEnergy, hhxMass,
        hhxEnergy, expMass, expEnergy, massRate, energyRate, Solution.ofVec] <;>
      simp only [e0, e1, e2, e3, e4, e5, e6]
    · ring
    · linear_combination h0
    · ring
    · ring
    · ring
    · ring
    · ring
    · ring
    · linear_combination h2
    · linear_combination h1 + h.le * h2

/-- The loop only looks at what the system answers for each direction. -/
theorem solveLoop_congr {α : Type} [Scalar α] (T : MatrixDecomposition α) (sys sys' : System α)
    (h : ∀ d, sys.solve T d = sys'.solve T d) :
    ∀ n d, solveLoop T sys n d = solveLoop T sys' n d
  | 0, _ => rfl
  | n + 1, d => by
    rw [solveLoop, solveLoop, h d]
    split
    · rfl
    · simp only [solveLoop_congr T sys sys' h n]

end Sett
