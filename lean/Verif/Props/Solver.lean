import Verif.Proofs.Solver

/-! # C04–C10: what the state equations and their solver mean -/

namespace Sett

open state_equations Spec

/-- **C04.** A vector solves the assembled system exactly when it satisfies the ten balances, for the
interface enthalpies that belong to the assumed directions. -/
theorem C04_system_iff_balances (i : Inputs ℝ) (hn : i.enth_norm ≠ 0) (d : FlowDirection)
    (x : Vec10 ℝ) :
    Solves ((System.new i).stencil.create_matrix d) (System.new i).b x ↔
      Balances i (facesFor i d) (Solution.ofVec x) := by
  rw [solves_iff_rows]
  simp only [Fin.forall_fin_succ]
  simp [System.new, MatrixStencil.create_matrix, select_div, System.matrix, System.rhs, Mat10.set,
    Vec10.set]
  norm_num
  constructor
  · rintro ⟨h0, h1, h2, h3, h4, h5, h6, h7, h8, h9⟩
    field_simp at h1 h3 h5 h7 h9
    constructor <;>
      simp only [compMass, compEnergy, chxMass, chxEnergy, regenMass, regenEnergy, hhxMass,
        hhxEnergy, expMass, expEnergy, massRate, energyRate, facesFor, Solution.ofVec]
    · linear_combination h0
    · linear_combination h1
    · linear_combination h2
    · linear_combination h3
    · linear_combination h4
    · linear_combination h5
    · linear_combination h6
    · linear_combination h7
    · linear_combination h8
    · linear_combination h9
  · rintro ⟨h0, h1, h2, h3, h4, h5, h6, h7, h8, h9⟩
    simp only [compMass, compEnergy, chxMass, chxEnergy, regenMass, regenEnergy, hhxMass,
        hhxEnergy, expMass, expEnergy, massRate, energyRate, facesFor, Solution.ofVec]
      at h0 h1 h2 h3 h4 h5 h6 h7 h8 h9
    refine ⟨?_, ?_, ?_, ?_, ?_, ?_, ?_, ?_, ?_, ?_⟩
    · linear_combination h0
    · field_simp; linear_combination h1
    · linear_combination h2
    · field_simp; linear_combination h3
    · linear_combination h4
    · field_simp; linear_combination h5
    · linear_combination h6
    · field_simp; linear_combination h7
    · linear_combination h8
    · field_simp; linear_combination h9


/-- **C07** (any arithmetic): a returned solution is what the decomposition gives for the matrix
assembled with that solution's own flow directions. -/
theorem C07_returned_solution_uses_own_directions {α : Type} [Scalar α]
    (T : MatrixDecomposition α) (i : Inputs α) (hint : FlowDirection) (s : Solution α)
    (h : solve T i hint = .ok s) :
    ∃ x, T ((System.new i).stencil.create_matrix (FlowDirection.from_solution s)) (System.new i).b
        = some x ∧ s = Solution.ofVec x := by
  have := solveLoop_ok T (System.new i) _ _ s h
  simp only [System.solve, Option.map_eq_some_iff] at this
  obtain ⟨x, hx, rfl⟩ := this
  exact ⟨x, hx, rfl⟩

/-- **C07** (any arithmetic): the averaged enthalpy of an unknown direction is never used in a returned
solution. -/
theorem C07_no_unknown_direction {α : Type} [Scalar α] (s : Solution α) :
    (FlowDirection.from_solution s).ck ≠ .Unknown ∧ (FlowDirection.from_solution s).kr ≠ .Unknown ∧
      (FlowDirection.from_solution s).rl ≠ .Unknown ∧
      (FlowDirection.from_solution s).le ≠ .Unknown :=
  ⟨from_value_ne_unknown _, from_value_ne_unknown _, from_value_ne_unknown _,
    from_value_ne_unknown _⟩

/-- **C07** (exact arithmetic): every returned solution satisfies the ten balances with each interface
enthalpy taken from the volume the gas is leaving, according to the signs in that same solution. -/
theorem C07_upwind_balances (T : MatrixDecomposition ℝ) (hT : Sound T) (i : Inputs ℝ)
    (hn : i.enth_norm ≠ 0) (hint : FlowDirection) (s : Solution ℝ) (h : solve T i hint = .ok s) :
    Balances i (upwind i s) s := by
  obtain ⟨x, rfl, hx⟩ := solves_of_solve hT h
  rw [← facesFor_from_solution]
  exact (C04_system_iff_balances i hn _ x).1 hx

/-- **C05.** Every accepted solution conserves total mass (no condition on the normalisation). -/
theorem C05_total_mass_conserved (T : MatrixDecomposition ℝ) (hT : Sound T) (i : Inputs ℝ)
    (hint : FlowDirection) (s : Solution ℝ) (h : solve T i hint = .ok s) :
    totalMassRate i s = 0 := by
  obtain ⟨x, rfl, hx⟩ := solves_of_solve hT h
  obtain ⟨h0, h1, h2, h3, h4⟩ := mass_of_solves i _ x hx
  unfold totalMassRate
  rw [h0, h1, h2, h3, h4]; ring

/-- **C06.** Total energy balance of every accepted solution. -/
theorem C06_total_energy_balance (T : MatrixDecomposition ℝ) (hT : Sound T) (i : Inputs ℝ)
    (hn : i.enth_norm ≠ 0) (hint : FlowDirection) (s : Solution ℝ) (h : solve T i hint = .ok s) :
    totalEnergyRate i s = -i.pres * (i.comp.dV_dt + i.exp.dV_dt) - i.comp.Q_dot - i.exp.Q_dot
      - s.Q_dot_k - s.Q_dot_r + s.Q_dot_l := by
  have hb := C07_upwind_balances T hT i hn hint s h
  unfold totalEnergyRate
  rw [hb.comp_energy, hb.chx_energy, hb.regen_energy, hb.hhx_energy, hb.exp_energy]; ring

/-- **C08**, bound: at least one and at most four matrix solves. -/
theorem C08_at_most_four_solves {α : Type} [Scalar α] (T : MatrixDecomposition α) (i : Inputs α)
    (hint : FlowDirection) :
    1 ≤ (solveLogged T i hint).2.length ∧ (solveLogged T i hint).2.length ≤ 4 := by
  obtain ⟨last, h1, h2, -⟩ := solveLoop_spec T (System.new i) 3 hint
  obtain ⟨t, ht⟩ := h1.head_mem
  refine ⟨?_, h2⟩
  show 1 ≤ (solveLoop T (System.new i) (3 + 1) hint).2.length
  rw [ht]; simp

/-- **C08**, success: `solve` returns `s` exactly when following the reported directions from the hint
reaches, within four solves, a direction whose solve gives `s` and agrees with it. -/
theorem C08_ok_iff {α : Type} [Scalar α] (T : MatrixDecomposition α) (i : Inputs α)
    (hint : FlowDirection) (s : Solution α) :
    solve T i hint = .ok s ↔ ∃ ds last, ds.length ≤ 4 ∧ Search T (System.new i) hint ds last ∧
      (System.new i).solve T last = some s ∧ FlowDirection.from_solution s = last := by
  constructor
  · intro h
    obtain ⟨last, h1, h2, h3⟩ := solveLoop_spec T (System.new i) 3 hint
    have h' : (solveLoop T (System.new i) (3 + 1) hint).1 = .ok s := h
    rw [h'] at h3
    exact ⟨_, last, h2, h1, h3.1, h3.2⟩
  · rintro ⟨ds, last, hl, hs, h1, h2⟩
    have := solveLoop_of_search hs h1 h2 4 hl
    show (solveLoop T (System.new i) 4 hint).1 = _
    rw [this]

/-- **C08**, failures: a decomposition error means the decomposition failed on a visited direction; a
direction error means four solves were made and each disagreed with its assumed directions. -/
theorem C08_errors_classified {α : Type} [Scalar α] (T : MatrixDecomposition α) (i : Inputs α)
    (hint : FlowDirection) :
    (solve T i hint = .error .decomposition →
      ∃ last, Search T (System.new i) hint (solveLogged T i hint).2 last ∧
        (System.new i).solve T last = none) ∧
    (solve T i hint = .error .flow_directions →
      ∃ last d', Search T (System.new i) hint (solveLogged T i hint).2 last ∧
        (solveLogged T i hint).2.length = 4 ∧ Redirects T (System.new i) last d') := by
  obtain ⟨last, h1, h2, h3⟩ := solveLoop_spec T (System.new i) 3 hint
  constructor <;> intro h
  · have h' : (solveLoop T (System.new i) (3 + 1) hint).1 = .error .decomposition := h
    rw [h'] at h3
    exact ⟨last, h1, h3⟩
  · have h' : (solveLoop T (System.new i) (3 + 1) hint).1 = .error .flow_directions := h
    rw [h'] at h3
    obtain ⟨ha, d', hd'⟩ := h3
    exact ⟨last, d', h1, ha, hd'⟩

/-- **C08**, idempotence: re-solving with the direction of a returned solution as hint returns that
solution after exactly one matrix solve. -/
theorem C08_idempotent {α : Type} [Scalar α] (T : MatrixDecomposition α) (i : Inputs α)
    (hint : FlowDirection) (s : Solution α) (h : solve T i hint = .ok s) :
    solveLogged T i (FlowDirection.from_solution s)
      = (.ok s, [FlowDirection.from_solution s]) :=
  solveLoop_of_search (.here _) (solveLoop_ok T _ _ _ s h) rfl 4 (by simp)

/-- **C08**, unknown hints: a hint with an unknown component costs at least two matrix solves before a
solution can be returned. -/
theorem C08_unknown_costs_two {α : Type} [Scalar α] (T : MatrixDecomposition α) (i : Inputs α)
    (hint : FlowDirection) (s : Solution α) (h : solve T i hint = .ok s)
    (hu : hint.ck = .Unknown ∨ hint.kr = .Unknown ∨ hint.rl = .Unknown ∨ hint.le = .Unknown) :
    2 ≤ (solveLogged T i hint).2.length := by
  obtain ⟨last, h1, h2, h3⟩ := solveLoop_spec T (System.new i) 3 hint
  have h' : (solveLoop T (System.new i) (3 + 1) hint).1 = .ok s := h
  rw [h'] at h3
  show 2 ≤ (solveLoop T (System.new i) (3 + 1) hint).2.length
  generalize (solveLoop T (System.new i) (3 + 1) hint).2 = ds at h1 h2
  cases h1 with
  | here =>
    obtain ⟨-, hf⟩ := h3
    obtain ⟨k1, k2, k3, k4⟩ := C07_no_unknown_direction s
    rw [hf] at k1 k2 k3 k4
    rcases hu with hu | hu | hu | hu <;> contradiction
  | step _ hrest =>
    obtain ⟨t, rfl⟩ := hrest.head_mem
    simp

/-- **C09.** Solutions do not depend on the normalisation constant. -/
theorem C09_norm_irrelevant (i : Inputs ℝ) (e : ℝ) (hn : i.enth_norm ≠ 0) (he : e ≠ 0)
    (d : FlowDirection) (x : Vec10 ℝ) :
    Solves ((System.new i).stencil.create_matrix d) (System.new i).b x ↔
      Solves ((System.new { i with enth_norm := e }).stencil.create_matrix d)
        (System.new { i with enth_norm := e }).b x := by
  rw [C04_system_iff_balances i hn d x, C04_system_iff_balances { i with enth_norm := e } he d x]
  constructor <;> intro h <;> exact ⟨h.1, h.2, h.3, h.4, h.5, h.6, h.7, h.8, h.9, h.10⟩

/-- **C09**, for `solve` itself: with a decomposition that solves every uniquely solvable system, and no
singular direction, the whole call gives the same result (and visits the same directions) whatever
the normalisation. -/
theorem C09_solve_eq (T : MatrixDecomposition ℝ) (hT : Sound T)
    (hc : ∀ a b, (∃! x, Solves a b x) → (T a b).isSome) (i : Inputs ℝ) (e : ℝ)
    (hn : i.enth_norm ≠ 0) (he : e ≠ 0)
    (hdet : ∀ d, ∃! x, Solves ((System.new i).stencil.create_matrix d) (System.new i).b x)
    (hint : FlowDirection) :
    solveLogged T i hint = solveLogged T { i with enth_norm := e } hint := by
  refine solveLoop_congr T _ _ (fun d => ?_) _ _
  have h1 := hdet d
  have h2 : ∃! x, Solves ((System.new { i with enth_norm := e }).stencil.create_matrix d)
      (System.new { i with enth_norm := e }).b x := by
    simpa only [C09_norm_irrelevant i e hn he d] using h1
  obtain ⟨x, hx⟩ := Option.isSome_iff_exists.1 (hc _ _ h1)
  obtain ⟨y, hy⟩ := Option.isSome_iff_exists.1 (hc _ _ h2)
  have hxy : x = y :=
    h1.unique (hT _ _ _ hx) ((C09_norm_irrelevant i e hn he d y).2 (hT _ _ _ hy))
  simp [System.solve, hx, hy, hxy]

/-- **C10.** The system has exactly one solution if and only if the reduced determinant is non-zero. -/
theorem C10_unique_iff (i : Inputs ℝ) (hn : i.enth_norm ≠ 0) (d : FlowDirection) :
    (∃! x, Solves ((System.new i).stencil.create_matrix d) (System.new i).b x) ↔
      reducedDet i (facesFor i d) ≠ 0 := by
  have hi : ∀ x, Solves ((System.new i).stencil.create_matrix d) (System.new i).b x ↔ _ :=
    fun x => (C04_system_iff_balances i hn d x).trans (balances_iff_reduced i (facesFor i d) x)
  simp only [hi]
  set M := reducedMat i (facesFor i d) with hM
  rw [← reducedMat_det]
  constructor
  · rintro ⟨x, ⟨hx1, hx2⟩, huniq⟩ hdet
    obtain ⟨v, hv0, hv⟩ := Matrix.exists_mulVec_eq_zero_iff.2 hdet
    let y := complete i (facesFor i d) (x 7 + v 0) (x 8 + v 1) (x 9 + v 2)
    have hy7 : y 7 = x 7 + v 0 := rfl
    have hy8 : y 8 = x 8 + v 1 := rfl
    have hy9 : y 9 = x 9 + v 2 := rfl
    have hy : y = x := by
      apply huniq
      constructor
      · have : (![y 7, y 8, y 9] : Fin 3 → ℝ) = ![x 7, x 8, x 9] + v := by
          funext r; fin_cases r <;> simp [hy7, hy8, hy9]
        rw [this, Matrix.mulVec_add, hx1, hv, add_zero]
      · rw [hy7, hy8, hy9]
    apply hv0
    funext r
    have k7 := congrFun hy 7
    have k8 := congrFun hy 8
    have k9 := congrFun hy 9
    rw [hy7] at k7; rw [hy8] at k8; rw [hy9] at k9
    fin_cases r <;> simp <;> linarith
  · intro hdet
    have hu : IsUnit M.det := isUnit_iff_ne_zero.2 hdet
    let z := M⁻¹.mulVec (reducedRhs i (facesFor i d))
    have hz : M.mulVec z = reducedRhs i (facesFor i d) := by
      simp [z, Matrix.mulVec_mulVec, Matrix.mul_nonsing_inv M hu]
    have hvec : ∀ w : Fin 3 → ℝ, ![w 0, w 1, w 2] = w := by
      intro w; funext r; fin_cases r <;> rfl
    refine ⟨complete i (facesFor i d) (z 0) (z 1) (z 2), ⟨?_, rfl⟩, ?_⟩
    · show M.mulVec ![z 0, z 1, z 2] = _
      rw [hvec]; exact hz
    · rintro y ⟨hy1, hy2⟩
      have hyz : (![y 7, y 8, y 9] : Fin 3 → ℝ) = z := by
        have := congrArg (M⁻¹.mulVec) hy1
        rwa [Matrix.mulVec_mulVec, Matrix.nonsing_inv_mul M hu, Matrix.one_mulVec] at this
      have k7 : y 7 = z 0 := congrFun hyz 0
      have k8 : y 8 = z 1 := congrFun hyz 1
      have k9 : y 9 = z 2 := congrFun hyz 2
      rw [hy2, k7, k8, k9]

/-- **C10**, consequence: two sound decompositions that both return a solution for a system with
non-zero reduced determinant return the same one. -/
theorem C10_decomposition_independent (T T' : MatrixDecomposition ℝ) (hT : Sound T) (hT' : Sound T')
    (i : Inputs ℝ) (hn : i.enth_norm ≠ 0) (d : FlowDirection)
    (hdet : reducedDet i (facesFor i d) ≠ 0) (s s' : Solution ℝ)
    (h : (System.new i).solve T d = some s) (h' : (System.new i).solve T' d = some s') : s = s' := by
  simp only [System.solve, Option.map_eq_some_iff] at h h'
  obtain ⟨x, hx, rfl⟩ := h
  obtain ⟨x', hx', rfl⟩ := h'
  obtain ⟨y, -, hy⟩ := (C10_unique_iff i hn d).2 hdet
  rw [hy x (hT _ _ _ hx), hy x' (hT' _ _ _ hx')]



/-! ## A concrete case

Gas constant 1, every volume at temperature 1 and pressure 1, gas pushed from the compression to the
expansion space; the cold exchanger has a different enthalpy, so that it rejects heat. -/

namespace BalanceExample

/-- An exact decomposition: returns a solution whenever there is one. -/
noncomputable def exact : MatrixDecomposition ℝ := fun a b =>
  open Classical in if h : ∃ x, Solves a b x then some h.choose else none

theorem exact_sound : Sound exact := by
  intro a b x h
  unfold exact at h
  split at h
  · rename_i hex; cases h; exact hex.choose_spec
  · cases h

noncomputable def inputs : Inputs ℝ where
  pres := 1
  enth_norm := 2
  comp := { vol := 1, dens := 1, inte := 3 / 2, enth := 5 / 2, dd_dP_T := 1, dd_dT_P := -1,
            du_dP_T := 0, du_dT_P := 3 / 2, dV_dt := -1, Q_dot := 0 }
  chx := { vol := 1, dens := 1, inte := 3 / 2, enth := 2, dd_dP_T := 1, du_dP_T := 0 }
  regen := { vol := 1, dens := 1, inte := 3 / 2, enth_cold := 2, enth_hot := 5 / 2, dd_dP_T := 1,
             du_dP_T := 0 }
  hhx := { vol := 1, dens := 1, inte := 3 / 2, enth := 5 / 2, dd_dP_T := 1, du_dP_T := 0 }
  exp := { vol := 1, dens := 1, inte := 3 / 2, enth := 5 / 2, dd_dP_T := 1, dd_dT_P := -1,
            du_dP_T := 0, du_dT_P := 3 / 2, dV_dt := 1, Q_dot := 0 }

def forward : FlowDirection := ⟨.Positive, .Positive, .Positive, .Positive⟩

noncomputable def vec : Vec10 ℝ := ![1, 1, 1, 1, 1 / 2, -1 / 2, 0, 0, 0, 0]

theorem det_ne : reducedDet inputs (facesFor inputs forward) ≠ 0 := by
  simp only [reducedDet, tempCoef, presCoef, compliance, facesFor, faceFor, inputs, forward]
  norm_num

theorem vec_solves :
    Solves ((System.new inputs).stencil.create_matrix forward) (System.new inputs).b vec := by
  rw [C04_system_iff_balances inputs (by norm_num [inputs])]
  constructor <;>
    simp [compMass, compEnergy, chxMass, chxEnergy, regenMass, regenEnergy, hhxMass, hhxEnergy,
      expMass, expEnergy, massRate, energyRate, facesFor, faceFor, Solution.ofVec, vec, inputs,
      forward] <;> norm_num

theorem forward_solve : (System.new inputs).solve exact forward = some (Solution.ofVec vec) := by
  have hex : ∃ x, Solves ((System.new inputs).stencil.create_matrix forward)
      (System.new inputs).b x := ⟨vec, vec_solves⟩
  obtain ⟨y, -, hy⟩ := (C10_unique_iff inputs (by norm_num [inputs]) forward).2 det_ne
  unfold System.solve exact
  rw [dif_pos hex]
  simp only [Option.map_some]
  rw [hy _ hex.choose_spec, hy _ vec_solves]

theorem forward_dir : FlowDirection.from_solution (Solution.ofVec vec) = forward := by
  have : Direction.from_value (1 : ℝ) = .Positive := by
    unfold Direction.from_value
    rw [if_pos]; rw [real_le]; norm_num
  simp [FlowDirection.from_solution, Solution.ofVec, vec, forward, this]

theorem solve_ok : solve exact inputs forward = .ok (Solution.ofVec vec) :=
  (C08_ok_iff _ _ _ _).2 ⟨[forward], forward, by simp, .here _, forward_solve, forward_dir⟩

/-- Hypotheses of C04–C10 hold here with a non-zero flow and a non-zero exchanger heat. -/
example : Sound exact ∧ inputs.enth_norm ≠ 0 ∧ solve exact inputs forward = .ok (Solution.ofVec vec) ∧
    (Solution.ofVec vec).m_dot_ck = 1 ∧ (Solution.ofVec vec).Q_dot_k = 1 / 2 ∧
    reducedDet inputs (facesFor inputs forward) ≠ 0 :=
  ⟨exact_sound, by norm_num [inputs], solve_ok, rfl, rfl, det_ne⟩

example : totalMassRate inputs (Solution.ofVec vec) = 0 :=
  C05_total_mass_conserved exact exact_sound inputs forward _ solve_ok

/-- A search of length two: a decomposition that always answers "flow backwards" is redirected once
from `forward`, so the log has two entries. -/
example : (solveLogged (α := ℝ) (fun _ _ => some fun _ => -1) inputs forward).2.length = 2 := by
  have hb : Direction.from_value (-1 : ℝ) = .Negative := by
    unfold Direction.from_value
    rw [if_neg]; rw [real_le]; norm_num
  simp [solveLogged, solveLoop, ALLOWED_FLOW_UPDATES, System.solve, FlowDirection.from_solution,
    Solution.ofVec, hb, forward]

/-- A decomposition whose answer always contradicts the assumed direction exhausts the four solves. -/
example : solve (α := ℝ) (open Classical in fun a _ => some fun _ => if a 1 0 = 5 / 4 then -1 else 1)
    inputs forward = .error .flow_directions := by
  have hb : Direction.from_value (-1 : ℝ) = .Negative := by
    unfold Direction.from_value
    rw [if_neg]; rw [real_le]; norm_num
  have hf : Direction.from_value (1 : ℝ) = .Positive := by
    unfold Direction.from_value
    rw [if_pos]; rw [real_le]; norm_num
  simp [solve, solveLogged, solveLoop, ALLOWED_FLOW_UPDATES, System.solve,
    FlowDirection.from_solution, Solution.ofVec, forward, MatrixStencil.create_matrix,
    Mat10.set, System.new, Direction.select, inputs]
  norm_num [hb, hf]
  simp

/-- A decomposition can also fail. -/
example : solve (α := ℝ) (fun _ _ => none) inputs forward = .error .decomposition := by
  simp [solve, solveLogged, solveLoop, System.solve]

end BalanceExample

end Sett
