import Verif.Props.Directions
import Verif.Proofs.Search

/-! # C59: the direction search succeeds within its four matrix solves -/

namespace Sett

open Spec state_equations

section

variable {i : Inputs ℝ}

/-- Pressure rate at which the flow out of the compression space reverses. -/
noncomputable def kinkC (i : Inputs ℝ) : ℝ :=
  (-(i.comp.vol * i.comp.dens * i.comp.du_dT_P * i.comp.dens * i.comp.dV_dt)
    + i.comp.vol * i.comp.dd_dT_P * (i.pres * i.comp.dV_dt + i.comp.Q_dot)) / stability i.comp

/-- Pressure rate at which the flow into the expansion space reverses. -/
noncomputable def kinkE (i : Inputs ℝ) : ℝ :=
  -(i.exp.vol * i.exp.dens * i.exp.du_dT_P * i.exp.dens * i.exp.dV_dt
    - i.exp.vol * i.exp.dd_dT_P * (i.pres * i.exp.dV_dt + i.exp.Q_dot)) / stability i.exp

theorem ck_drive (hi : Stable i) {h : Faces} {s : Solution ℝ} (hb : Balances i h s)
    (ha : 0 < tempCoef i.comp h.ck) :
    s.m_dot_ck = stability i.comp / tempCoef i.comp h.ck * (kinkC i - s.dP_dt) := by
  have h1 := comp_eliminated hb
  have h2 := hi.comp_stable.ne'
  rw [kinkC]
  field_simp
  linarith

theorem le_drive (hi : Stable i) {h : Faces} {s : Solution ℝ} (hb : Balances i h s)
    (ha : 0 < tempCoef i.exp h.le) :
    s.m_dot_le = stability i.exp / tempCoef i.exp h.le * (s.dP_dt - kinkE i) := by
  have h1 := exp_eliminated hb
  have h2 := hi.exp_stable.ne'
  rw [kinkE]
  field_simp
  linarith

theorem root_of_balances (hi : Stable i) {h : Faces} {s : Solution ℝ} (hb : Balances i h s)
    (ha : 0 < tempCoef i.comp h.ck) (he : 0 < tempCoef i.exp h.le) :
    Search.Root (exchangerCompliance i) (kinkC i) (kinkE i) (stability i.comp / tempCoef i.comp h.ck)
      (stability i.exp / tempCoef i.exp h.le) s.dP_dt := by
  unfold Search.Root
  rw [← ck_drive hi hb ha, ← le_drive hi hb he, exchangers_store hb]

theorem ck_sign (hi : Stable i) {h : Faces} {s : Solution ℝ} (hb : Balances i h s)
    (ha : 0 < tempCoef i.comp h.ck) : 0 ≤ s.m_dot_ck ↔ s.dP_dt ≤ kinkC i := by
  rw [ck_drive hi hb ha, mul_nonneg_iff_of_pos_left (div_pos hi.comp_stable ha), sub_nonneg]

theorem le_sign (hi : Stable i) {h : Faces} {s : Solution ℝ} (hb : Balances i h s)
    (ha : 0 < tempCoef i.exp h.le) : 0 ≤ s.m_dot_le ↔ kinkE i ≤ s.dP_dt := by
  rw [le_drive hi hb ha, mul_nonneg_iff_of_pos_left (div_pos hi.exp_stable ha), sub_nonneg]

/-- Solutions for the same end faces have the same pressure rate and flows. -/
theorem flows_eq (hi : Stable i) {h h' : Faces} {s s' : Solution ℝ} (hb : Balances i h s)
    (hb' : Balances i h' s') (ha : 0 < tempCoef i.comp h.ck) (he : 0 < tempCoef i.exp h.le)
    (hck : h'.ck = h.ck) (hle : h'.le = h.le) :
    FlowDirection.from_solution s' = FlowDirection.from_solution s := by
  have r := root_of_balances hi hb ha he
  have r' := root_of_balances hi hb' (hck ▸ ha) (hle ▸ he)
  rw [hck, hle] at r'
  have a0 := div_pos hi.comp_stable ha
  have e0 := div_pos hi.exp_stable he
  have hp : s'.dP_dt = s.dP_dt := by
    rcases lt_trichotomy s'.dP_dt s.dP_dt with g | g | g
    · exact (Search.differ hi.exchangers a0 e0 a0 e0 r' r g (.inl rfl) (.inl rfl)).elim
    · exact g
    · exact (Search.differ hi.exchangers a0 e0 a0 e0 r r' g (.inl rfl) (.inl rfl)).elim
  have m1 : s'.m_dot_ck = s.m_dot_ck := by
    rw [ck_drive hi hb ha, ck_drive hi hb' (hck ▸ ha), hck, hp]
  have m2 : s'.m_dot_le = s.m_dot_le := by
    rw [le_drive hi hb he, le_drive hi hb' (hle ▸ he), hle, hp]
  have e1 := hb.chx_mass
  have e1' := hb'.chx_mass
  have e2 := hb.hhx_mass
  have e2' := hb'.hhx_mass
  simp only [chxMass, hhxMass, massRate, hp, m1, m2] at e1 e1' e2 e2'
  have m3 : s'.m_dot_kr = s.m_dot_kr := by linarith
  have m4 : s'.m_dot_rl = s.m_dot_rl := by linarith
  simp only [FlowDirection.from_solution, m1, m2, m3, m4]

theorem face_pos (hi : Stable i) (d : FlowDirection) :
    0 < tempCoef i.comp (facesFor i d).ck ∧ 0 < tempCoef i.exp (facesFor i d).le := by
  have hface : ∀ (w : WorkingSpace ℝ) (e : Direction) (l r : ℝ), 0 < tempCoef w l → 0 < tempCoef w r →
      0 < tempCoef w (faceFor e l r) := by
    intro w e l r hl hr
    cases e <;> simp only [faceFor]
    · exact hl
    · exact hr
    · simp only [tempCoef] at *; linarith
  exact ⟨hface _ _ _ _ hi.comp_out hi.comp_in, hface _ _ _ _ hi.exp_in hi.exp_out⟩

/-- The end directions found from any hypothesis, used as the next one, give the end directions of the
consistent solution. -/
theorem end_directions (hi : Stable i) {d₀ : FlowDirection} {s₀ s₁ s : Solution ℝ}
    (h0 : Balances i (facesFor i d₀) s₀) (h1 : Balances i (upwind i s₀) s₁)
    (hs : Balances i (upwind i s) s) :
    (upwind i s₁).ck = (upwind i s).ck ∧ (upwind i s₁).le = (upwind i s).le := by
  obtain ⟨a0, e0⟩ := face_pos hi d₀
  have hup : ∀ s' : Solution ℝ, upwind i s' = facesFor i (FlowDirection.from_solution s') :=
    fun s' => (facesFor_from_solution i s').symm
  have a1 := fun s' : Solution ℝ => (hup s' ▸ face_pos hi (FlowDirection.from_solution s') :
    0 < tempCoef i.comp (upwind i s').ck ∧ 0 < tempCoef i.exp (upwind i s').le)
  have r0 := root_of_balances hi h0 a0 e0
  have r1 := root_of_balances hi h1 (a1 s₀).1 (a1 s₀).2
  have rs := root_of_balances hi hs (a1 s).1 (a1 s).2
  have c0 := ck_sign hi h0 a0
  have l0 := le_sign hi h0 e0
  have c1 := ck_sign hi h1 (a1 s₀).1
  have l1 := le_sign hi h1 (a1 s₀).2
  have cs := ck_sign hi hs (a1 s).1
  have ls := le_sign hi hs (a1 s).2
  have hα : ∀ s' : Solution ℝ, (0 ≤ s'.m_dot_ck ↔ s'.dP_dt ≤ kinkC i) →
      stability i.comp / tempCoef i.comp (upwind i s').ck = if s'.dP_dt ≤ kinkC i
        then stability i.comp / tempCoef i.comp i.comp.enth
        else stability i.comp / tempCoef i.comp i.chx.enth := fun s' h => by
    rw [upwind_ck]; simp only [h]; split <;> rfl
  have hε : ∀ s' : Solution ℝ, (0 ≤ s'.m_dot_le ↔ kinkE i ≤ s'.dP_dt) →
      stability i.exp / tempCoef i.exp (upwind i s').le = if kinkE i ≤ s'.dP_dt
        then stability i.exp / tempCoef i.exp i.hhx.enth
        else stability i.exp / tempCoef i.exp i.exp.enth := fun s' h => by
    rw [upwind_le]; simp only [h]; split <;> rfl
  rw [hα s₀ c0, hε s₀ l0] at r1
  rw [hα s cs, hε s ls] at rs
  have key := Search.two_steps hi.exchangers (div_pos hi.comp_stable hi.comp_out)
    (div_pos hi.comp_stable hi.comp_in) (div_pos hi.exp_stable hi.exp_in)
    (div_pos hi.exp_stable hi.exp_out) (div_pos hi.comp_stable a0) (div_pos hi.exp_stable e0) r0 r1 rs
  constructor
  · simp only [upwind, c1, cs, key.1]
  · simp only [upwind, l1, ls, key.2]

end

/-- If every direction can be solved and the fourth direction found is the third, `solve` succeeds with the
solution of that direction. -/
theorem solve_ok_of_settled (T : MatrixDecomposition ℝ) (i : Inputs ℝ) (hint : FlowDirection)
    (sol : FlowDirection → Solution ℝ) (hsol : ∀ d, (System.new i).solve T d = some (sol d))
    (s : Solution ℝ) (hs : sol (FlowDirection.from_solution s) = s)
    (h3 : FlowDirection.from_solution (sol (FlowDirection.from_solution (sol
      (FlowDirection.from_solution (sol hint))))) = FlowDirection.from_solution s) :
    ∃ s', solve T i hint = .ok s' := by
  unfold solve solveLogged
  simp only [ALLOWED_FLOW_UPDATES, solveLoop, hsol]
  split
  · exact ⟨_, rfl⟩
  split
  · exact ⟨_, rfl⟩
  split
  · exact ⟨_, rfl⟩
  split
  · exact ⟨_, rfl⟩
  · rename_i h
    rw [h3, hs] at h
    exact absurd rfl h

/-- **C59.** For a stable gas (any fluid) and a sound, complete decomposition, `solve` succeeds with every
hint, and what it returns is the one consistent solution. -/
theorem C59_solve_succeeds (T : MatrixDecomposition ℝ) (hT : Sound T) (hc : Complete T) (i : Inputs ℝ)
    (hn : i.enth_norm ≠ 0) (hi : Stable i) (hint : FlowDirection) :
    ∃ s, solve T i hint = .ok s ∧ Balances i (upwind i s) s := by
  have hu := fun d => (C10_unique_iff i hn d).2 (C57_stable_det_pos i hi d).ne'
  have hex : ∀ d, ∃ s, (System.new i).solve T d = some s ∧ Balances i (facesFor i d) s := by
    intro d
    obtain ⟨x, hx⟩ := Option.isSome_iff_exists.1 (hc _ _ (hu d))
    exact ⟨Solution.ofVec x, by simp [System.solve, hx],
      (C04_system_iff_balances i hn d x).1 (hT _ _ _ hx)⟩
  choose sol hsol hbal using hex
  obtain ⟨s, hs⟩ := consistent_exists hi
  have hup : ∀ s' : Solution ℝ, upwind i s' = facesFor i (FlowDirection.from_solution s') :=
    fun s' => (facesFor_from_solution i s').symm
  have hself : sol (FlowDirection.from_solution s) = s := by
    have h1 := C58_some_hint_succeeds T hT hc i hn hi s hs
    have h2 := solveLoop_ok T (System.new i) _ _ s (congrArg Prod.fst h1)
    rw [hsol] at h2
    exact Option.some.inj h2
  set s0 := sol hint with hs0
  set s1 := sol (FlowDirection.from_solution s0) with hs1
  set s2 := sol (FlowDirection.from_solution s1) with hs2
  have b0 : Balances i (facesFor i hint) s0 := hbal hint
  have b1 : Balances i (upwind i s0) s1 := by rw [hup]; exact hbal _
  have b2 : Balances i (upwind i s1) s2 := by rw [hup]; exact hbal _
  obtain ⟨k1, k2⟩ := end_directions hi b0 b1 hs
  have fp := face_pos hi (FlowDirection.from_solution s)
  rw [← hup] at fp
  have h3 := flows_eq hi hs b2 fp.1 fp.2 k1 k2
  obtain ⟨s', hs'⟩ := solve_ok_of_settled T i hint sol hsol s hself h3
  exact ⟨s', hs', C07_upwind_balances T hT i hn hint s' hs'⟩

/-- **C59**, for a run: at every physical state with either ideal gas at 100 K or more, `solve` succeeds
with every hint and all hints give the same result. -/
theorem C59_run_solve (r : Run ℝ) (n : GasName) (hf : r.fluid = (IdealGas.new n).toFluid)
    (hT : Sound r.solver) (hc : Complete r.solver) (t : ℝ) (y : Conditions ℝ)
    (hp : Physical r t y 100) :
    ∃ s, ∀ hint, solve r.solver (r.calculate_inputs t y) hint = .ok s := by
  have hi := C58_ideal_gas_stable r n hf t y hp
  obtain ⟨s, hs, -⟩ := C59_solve_succeeds r.solver hT hc _ hp.norm hi FlowDirection.default
  refine ⟨s, fun hint => ?_⟩
  obtain ⟨s', hs', -⟩ := C59_solve_succeeds r.solver hT hc _ hp.norm hi hint
  rw [hs', C58_hint_independent _ _ hT hT _ hp.norm hi hint .default s' s hs' hs]

end Sett
