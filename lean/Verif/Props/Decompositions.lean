import Verif.Proofs.Svd
import Verif.Props.Lu
import Verif.Props.SearchTight

/-! # C80, C81: the other two decompositions a caller can choose, `QR` and `SvdDefault` -/

namespace Sett

open Spec state_equations api

/-! ## `QR` -/

/-- **C80.** It fails exactly if the system does not have exactly one solution, in every dimension. -/
theorem C80_fails_iff {n : Nat} (a : Fin n → Fin n → ℝ) (b : Fin n → ℝ) :
    qr.solve a b = none ↔ ¬ ∃! x : Fin n → ℝ, ∀ r, ∑ c, a r c * x c = b r := by
  rw [unique_iff_det, not_not]
  rcases qr.solve_spec a b with ⟨h, h0⟩ | ⟨h, x, hx, -⟩
  · simp [h, h0]
  · simp [h, hx]

/-- **C80.** What `QR` returns solves the system. -/
theorem C80_sound : Sound qr.QR := by
  intro a b x h
  rcases qr.solve_spec a b with ⟨-, h0⟩ | ⟨-, y, hy, hs⟩
  · rw [qr.QR, h0] at h; cases h
  · rw [qr.QR, hy] at h; cases h; exact hs

@[inherit_doc C80_fails_iff]
theorem C80_complete : Complete qr.QR := by
  intro a b h
  by_contra hn
  rw [Option.not_isSome_iff_eq_none] at hn
  exact (C80_fails_iff a b).1 hn h

/-- **C80.** `QR` and `LU` are the same function, in every dimension. -/
theorem C80_same {n : Nat} (a : Fin n → Fin n → ℝ) (b : Fin n → ℝ) : qr.solve a b = lu.solve a b := by
  rcases qr.solve_spec a b with ⟨h, e⟩ | ⟨h, x, e, hx⟩
  · rcases lu.solve_spec a b with ⟨-, e'⟩ | ⟨h', -⟩
    · rw [e, e']
    · exact absurd h h'
  · rcases lu.solve_spec a b with ⟨h', -⟩ | ⟨-, y, e', hy⟩
    · exact absurd h' h
    · rw [e, e', ((unique_iff_det a b).2 h).unique hx hy]

/-- **C80**, for a run: choosing `QR` instead of `LU` changes nothing a caller can see, for any components, gas,
settings, integrator and build. -/
theorem C80_engine (env : Env ℝ) (c : Components ℝ) (fluid : Fluid ℝ) (inputs : RunInputs ℝ)
    (settings : RunSettings ℝ) :
    Engine.run env qr.QR c fluid inputs settings = Engine.run env lu.LU c fluid inputs settings := by
  rw [show (qr.QR : MatrixDecomposition ℝ) = lu.LU from funext fun a => funext fun b => C80_same a b]

namespace qr

variable {n : Nat}

theorem reflect_length {i : Fin n} {a : Fin n → ℝ} {sg : ℝ} (hs : sg * sg = 1) (ha : Axis i a) (v : Fin n → ℝ) :
    ∑ r, reflect i a sg v r ^ 2 = ∑ r, v r ^ 2 := by
  have h : ∀ r, reflect i a sg v r ^ 2 = v r ^ 2 + (4 * ip i a v ^ 2 * (if i ≤ r then a r * a r else 0)
      - 4 * ip i a v * (if i ≤ r then a r * v r else 0)) := by
    intro r
    rw [reflect_eq]
    split
    · linear_combination (v r - 2 * ip i a v * a r) ^ 2 * hs
    · ring
  simp only [h, Finset.sum_add_distrib, Finset.sum_sub_distrib, ← Finset.mul_sum]
  rw [← ip, ← ip]
  rcases ha with h1 | h1
  · rw [h1]; ring
  · have : ip i a v = 0 := Finset.sum_eq_zero fun r _ => by
      split
      · rename_i hr; rw [h1 r hr, zero_mul]
      · rfl
    rw [this]; ring

theorem tri_length (a : Fin n → Fin n → ℝ) (c : Fin n) : ∀ k ≤ n,
    ∑ r, tri k (factorTo a k) r c ^ 2 = ∑ r, a r c ^ 2
  | 0, _ => by simp [tri, factorTo]
  | k + 1, hk => by
    have hk' : k < n := hk
    rw [← tri_length a c k hk'.le]
    have hf : factorTo a (k + 1) = step (factorTo a k) ⟨k, hk'⟩ := by simp [factorTo, hk']
    have hA : Axis ⟨k, hk'⟩ fun r => (step (factorTo a k) ⟨k, hk'⟩).packed r ⟨k, hk'⟩ := by
      have := (axis_spec ⟨k, hk'⟩ fun r => (factorTo a k).packed r ⟨k, hk'⟩).1
      simpa [step] using this
    have := step_tri (factorTo a k) ⟨k, hk'⟩
    simp only at this
    simp only [hf, this]
    exact reflect_length (signum_sq _) hA _

end qr

/-- **C80**, no growth: every column of the triangular factor is as long as the column of the matrix it comes from,
so that no entry of it exceeds that length. -/
theorem C80_lengths {n : Nat} (a : Fin n → Fin n → ℝ) (c : Fin n) :
    ∑ r, (if r < c then (qr.factorTo a n).packed r c else if r = c then |(qr.factorTo a n).diag c| else 0) ^ 2
      = ∑ r, a r c ^ 2 := by
  rw [← qr.tri_length a c n le_rfl]
  simp [qr.tri]

/-! ## `SvdDefault` -/

/-- **C81.** For a matrix with no singular value at or below the cutoff the result is that of `LU`. -/
theorem C81_agrees (f : Mat10 ℝ → svd.Svd 10 ℝ) (a : Mat10 ℝ) (b : Vec10 ℝ) (h : IsSvd (f a) a)
    (hs : ∀ k, 1e-12 < (f a).sigma k) :
    svd.SvdDefault f a b = lu.LU a b ∧ ∃ x, svd.SvdDefault f a b = some x ∧ Solves a b x := by
  have he : (0 : ℝ) ≤ 1e-12 := by norm_num
  have hsol := svd.solve_solves h he hs b
  have hu : ∃! x, Solves a b x := ⟨_, hsol, fun y hy => by
    rw [svd.solve_kept h he hy, svd.kept_all h hs]⟩
  refine ⟨?_, _, rfl, hsol⟩
  obtain ⟨x, hx⟩ := Option.isSome_iff_exists.1 (C69_complete a b hu)
  rw [hx, svd.SvdDefault, hu.unique hsol (C69_sound a b x hx)]

/-- **C81.** In general it is the solution with its parts along the dropped directions removed. -/
theorem C81_truncates (f : Mat10 ℝ → svd.Svd 10 ℝ) (a : Mat10 ℝ) (b x : Vec10 ℝ) (h : IsSvd (f a) a)
    (hx : Solves a b x) :
    svd.SvdDefault f a b = some fun c =>
      ∑ k, if 1e-12 < (f a).sigma k then (∑ j, (f a).vt k j * x j) * (f a).vt k c else 0 := by
  rw [svd.SvdDefault, svd.solve_kept h (by norm_num) hx]
  rfl

/-- **C81.** It never reports failure, not even for a system without solution, where `LU` and `QR` do. -/
theorem C81_never_fails (f : Mat10 ℝ → svd.Svd 10 ℝ) (a : Mat10 ℝ) (b : Vec10 ℝ) (h : ¬ ∃ x, Solves a b x) :
    lu.LU a b = none ∧ qr.QR a b = none ∧ ∃ x, svd.SvdDefault f a b = some x ∧ ¬ Solves a b x := by
  refine ⟨?_, ?_, _, rfl, fun hx => h ⟨_, hx⟩⟩
  · cases e : lu.LU a b with
    | none => rfl
    | some x => exact absurd ⟨x, C69_sound a b x e⟩ h
  · cases e : qr.QR a b with
    | none => rfl
    | some x => exact absurd ⟨x, C80_sound a b x e⟩ h

/-- The last column of the assembled matrix. -/
theorem column_nine (i : Inputs ℝ) (d : FlowDirection) :
    ∑ r, (System.new i).stencil.create_matrix d r 9 ^ 2 = pressureSq i := by
  simp only [Fin.sum_univ_succ, Fin.sum_univ_zero]
  simp [System.new, MatrixStencil.create_matrix, System.matrix, Mat10.set, pressureSq, stiffnessSq]
  ring

theorem lengthSq_ofVec (x : Vec10 ℝ) : ∑ c, x c ^ 2 = lengthSq (Solution.ofVec x) := by
  simp only [Fin.sum_univ_succ, Fin.sum_univ_zero, lengthSq, Solution.ofVec]
  simp
  ring

/-- **C81.** What `solve` returns with it has a pressure rate bounded by the gas volumes, whatever the true one is. -/
theorem C81_bounded (f : Mat10 ℝ → svd.Svd 10 ℝ) (hf : ∀ a, IsSvd (f a) a) (i : Inputs ℝ) (hint : FlowDirection)
    (s : Solution ℝ) (h : solve (svd.SvdDefault f) i hint = .ok s) :
    1e-24 * s.dP_dt ^ 2 ≤ pressureSq i * lengthSq s := by
  obtain ⟨x, hx, hs⟩ := C07_returned_solution_uses_own_directions _ _ _ _ h
  generalize FlowDirection.from_solution s = d at hx
  have hx' := Option.some.inj hx
  have key := svd.solve_column (hf ((System.new i).stencil.create_matrix d)) (eps := 1e-12) (by norm_num)
    (System.new i).b 9
  rw [hx', column_nine, lengthSq_ofVec, ← hs] at key
  have e : x 9 = s.dP_dt := by rw [hs]; rfl
  rw [e] at key
  norm_num at key ⊢
  exact key

/-- **C81.** If the consistent solution violates that bound, `solve` does not return it, nor anything else that
satisfies the balances. -/
theorem C81_small (f : Mat10 ℝ → svd.Svd 10 ℝ) (hf : ∀ a, IsSvd (f a) a) (i : Inputs ℝ) (hi : Stable i)
    (s : Solution ℝ) (hs : Balances i (upwind i s) s) (hb : pressureSq i * lengthSq s < 1e-24 * s.dP_dt ^ 2)
    (hint : FlowDirection) (s' : Solution ℝ) (h : solve (svd.SvdDefault f) i hint = .ok s') :
    ¬ Balances i (upwind i s') s' := by
  intro hs'
  obtain rfl := consistent_unique hi hs hs'
  exact absurd (C81_bounded f hf i hint s h) (not_le.2 hb)

theorem physical_scale {k : ℝ} {r r' : Run ℝ} (hk : 0 < k) (h : ScaledRun k r r') {t : ℝ} {y : Conditions ℝ} {T : ℝ}
    (hp : Physical r t y T) : Physical r' t y T where
  norm := by rw [h.norm]; exact hp.norm
  pres := hp.pres
  comp_vol := by rw [h.comp]; exact mul_pos hk hp.comp_vol
  exp_vol := by rw [h.exp]; exact mul_pos hk hp.exp_vol
  chx_vol := by rw [h.chx]; exact mul_nonneg hk.le hp.chx_vol
  regen_vol := by rw [h.regen]; exact mul_nonneg hk.le hp.regen_vol
  hhx_vol := by rw [h.hhx]; exact mul_nonneg hk.le hp.hhx_vol
  comp_temp := hp.comp_temp
  exp_temp := hp.exp_temp
  chx_temp := by rw [h.temp]; exact hp.chx_temp
  regen_temp := by rw [h.temp]; exact hp.regen_temp
  hhx_temp := by rw [h.temp]; exact hp.hhx_temp

theorem pressureSq_scale {k : ℝ} {r r' : Run ℝ} (h : ScaledRun k r r') (t : ℝ) (y : Conditions ℝ) :
    pressureSq (r'.calculate_inputs t y) = k ^ 2 * pressureSq (r.calculate_inputs t y) := by
  simp only [pressureSq, stiffnessSq, Run.calculate_inputs, Run.comp_inputs, Run.chx_inputs, Run.regen_inputs,
    Run.hhx_inputs, Run.exp_inputs, h.fluid, h.temp, h.comp, h.exp, h.chx, h.regen, h.hhx, h.norm]
  ring

theorem lengthSq_nonneg (s : Solution ℝ) : 0 ≤ lengthSq s := by
  unfold lengthSq
  positivity

theorem lengthSq_scale {k : ℝ} (h0 : 0 < k) (h1 : k ≤ 1) (s : Solution ℝ) :
    lengthSq (scaleSolution k s) ≤ lengthSq s := by
  have h : ∀ x : ℝ, (k * x) ^ 2 ≤ x ^ 2 := fun x => by
    rw [mul_pow]
    exact mul_le_of_le_one_left (sq_nonneg x) (pow_le_one₀ h0.le h1)
  simp only [lengthSq, scaleSolution]
  linarith [h s.m_dot_ck, h s.m_dot_kr, h s.m_dot_rl, h s.m_dot_le, h s.Q_dot_k, h s.Q_dot_r, h s.Q_dot_l]

/-- **C81.** For every engine, at every state whose pressure is changing, there is a size below which an engine
of the same proportions, in the same state, is solved wrongly: `LU` returns the scaled solution with every hint,
`SvdDefault` nothing that satisfies the balances. -/
theorem C81_small_engines (r : Run ℝ) (n : GasName) (hg : r.fluid = (IdealGas.new n).toFluid) (t : ℝ)
    (y : Conditions ℝ) (hp : Physical r t y 100) (s : Solution ℝ)
    (hs : Balances (r.calculate_inputs t y) (upwind (r.calculate_inputs t y) s) s) (hP : s.dP_dt ≠ 0) :
    ∃ size, 0 < size ∧ ∀ k, 0 < k → k < size → ∀ r', ScaledRun k r r' →
      (∀ hint, solve lu.LU (r'.calculate_inputs t y) hint = .ok (scaleSolution k s)) ∧
      ∀ f : Mat10 ℝ → svd.Svd 10 ℝ, (∀ a, IsSvd (f a) a) → ∀ hint s',
        solve (svd.SvdDefault f) (r'.calculate_inputs t y) hint = .ok s' →
        ¬ Balances (r'.calculate_inputs t y) (upwind (r'.calculate_inputs t y) s') s' := by
  have hP0 : 0 < |s.dP_dt| := abs_pos.2 hP
  set Q := pressureSq (r.calculate_inputs t y) * lengthSq s with hQ
  have hQ0 : 0 ≤ Q := mul_nonneg (by unfold pressureSq stiffnessSq; positivity) (lengthSq_nonneg s)
  refine ⟨min 1 (1e-12 * |s.dP_dt| / (Q + 1)), lt_min one_pos (by positivity), fun k hk hlt r' hr => ?_⟩
  have hp' := physical_scale hk hr hp
  have hst := C58_ideal_gas_stable r' n (hr.fluid.trans hg) t y hp'
  have hb := balances_scale hk hr t y hs
  constructor
  · obtain ⟨u, hu, -⟩ := C69_run_solve { r' with solver := lu.LU } n (hr.fluid.trans hg) rfl t y
      ⟨hp'.1, hp'.2, hp'.3, hp'.4, hp'.5, hp'.6, hp'.7, hp'.8, hp'.9, hp'.10, hp'.11, hp'.12⟩
    intro hint
    have hu' : solve lu.LU (r'.calculate_inputs t y) hint = .ok u := hu hint
    rw [hu', consistent_unique hst (C07_upwind_balances lu.LU C69_sound _ hp'.norm hint u hu') hb]
  · intro f hf hint s' h'
    refine C81_small f hf _ hst _ hb ?_ hint s' h'
    rw [pressureSq_scale hr]
    have hk1 : k ≤ 1 := (hlt.le).trans (min_le_left _ _)
    have hk2 : k * (Q + 1) < 1e-12 * |s.dP_dt| :=
      (lt_div_iff₀ (by linarith)).1 (hlt.trans_le (min_le_right _ _))
    have hsq : (k * (Q + 1)) ^ 2 < (1e-12 * |s.dP_dt|) ^ 2 :=
      pow_lt_pow_left₀ hk2 (by positivity) two_ne_zero
    rw [mul_pow, mul_pow, sq_abs] at hsq
    have hpq : 0 ≤ pressureSq (r.calculate_inputs t y) := by unfold pressureSq stiffnessSq; positivity
    calc k ^ 2 * pressureSq (r.calculate_inputs t y) * lengthSq (scaleSolution k s)
        ≤ k ^ 2 * pressureSq (r.calculate_inputs t y) * lengthSq s :=
          mul_le_mul_of_nonneg_left (lengthSq_scale hk hk1 s) (by positivity)
      _ = k ^ 2 * Q := by rw [hQ]; ring
      _ ≤ k ^ 2 * (Q + 1) ^ 2 := mul_le_mul_of_nonneg_left (by nlinarith) (by positivity)
      _ < (1e-12) ^ 2 * s.dP_dt ^ 2 := hsq
      _ = 1e-24 * (scaleSolution k s).dP_dt ^ 2 := by rw [scaleSolution]; norm_num

/-! ## Concrete cases -/

/-- C80: a system that is not triangular, and one that is singular. -/
example : qr.solve (n := 2) (fun r c => if r = 0 ∧ c = 0 then (0 : ℝ) else 1) (fun r => if r = 0 then 2 else 5) ≠ none ∧
    qr.solve (n := 2) (fun _ _ => (1 : ℝ)) (fun _ => 1) = none := by
  constructor
  · rw [Ne, C80_fails_iff, not_not, unique_iff_det, Matrix.det_fin_two]
    simp
  · rw [C80_fails_iff, unique_iff_det, Matrix.det_fin_two]
    simp

/-- C81: there is a routine computing decompositions of all matrices. -/
theorem svd.exists_routine : ∃ f : Mat10 ℝ → svd.Svd 10 ℝ, ∀ a, IsSvd (f a) a :=
  ⟨fun a => (svd.exists_svd a).choose, fun a => (svd.exists_svd a).choose_spec⟩

/-- C81: no such routine makes `SvdDefault` sound; the zero matrix is enough. -/
example (f : Mat10 ℝ → svd.Svd 10 ℝ) : ¬ Sound (svd.SvdDefault f) := by
  intro h
  obtain ⟨-, -, x, hx, hn⟩ := C81_never_fails f (fun _ _ => 0) (fun _ => 1) fun ⟨x, hx⟩ => by
    have := hx 0
    simp at this
  exact hn (h _ _ x hx)

/-- C81: a decomposition above the cutoff. -/
example : ∃ d : svd.Svd 10 ℝ, IsSvd d (fun r c => if r = c then 2 else 0) ∧ ∀ k, 1e-12 < d.sigma k := by
  refine ⟨⟨fun r c => if r = c then 1 else 0, fun _ => 2, fun r c => if r = c then 1 else 0⟩,
    ⟨fun r c => ?_, fun i j => ?_, fun i j => ?_, fun _ => by norm_num⟩, fun _ => by norm_num⟩
  · simp
  · simp [eq_comm]
  · simp

namespace SvdExample

/-- A machine with five volumes of 0.1 cm³ each, filled with a gas like helium (gas constant 2000 J/kg·K) at 10 bar,
between 300 K and 900 K, compressing faster than it expands. -/
noncomputable def inputs : Inputs ℝ where
  pres := 1e6
  enth_norm := 1e6
  comp := { vol := 1e-7, dens := 5 / 3, inte := 9e5, enth := 15e5, dd_dP_T := 1 / 6e5, dd_dT_P := -1 / 180,
            du_dP_T := 0, du_dT_P := 3000, dV_dt := -2e-6, Q_dot := 0 }
  chx := { vol := 1e-7, dens := 5 / 3, inte := 9e5, enth := 15e5, dd_dP_T := 1 / 6e5, du_dP_T := 0 }
  regen := { vol := 1e-7, dens := 5 / 6, inte := 18e5, enth_cold := 15e5, enth_hot := 45e5, dd_dP_T := 1 / 12e5,
             du_dP_T := 0 }
  hhx := { vol := 1e-7, dens := 5 / 9, inte := 27e5, enth := 45e5, dd_dP_T := 1 / 18e5, du_dP_T := 0 }
  exp := { vol := 1e-7, dens := 5 / 9, inte := 27e5, enth := 45e5, dd_dP_T := 1 / 18e5, dd_dT_P := -1 / 1620,
           du_dP_T := 0, du_dT_P := 3000, dV_dt := 1e-6, Q_dot := 0 }

noncomputable def solution : Solution ℝ where
  m_dot_ck := 2 / 740625
  m_dot_kr := 13 / 7900000
  m_dot_rl := 53 / 47400000
  m_dot_le := 109 / 142200000
  Q_dot_k := 50 / 79
  Q_dot_r := -555 / 158
  Q_dot_l := -50 / 79
  dTc_dt := 60000 / 79
  dTe_dt := 180000 / 79
  dP_dt := 500000000 / 79

theorem balances : Balances inputs (upwind inputs solution) solution := by
  have h : upwind inputs solution = ⟨15e5, 15e5, 45e5, 45e5⟩ := by
    simp only [upwind, inputs, solution]
    norm_num
  rw [h]
  constructor <;>
    simp only [compMass, compEnergy, chxMass, chxEnergy, regenMass, regenEnergy, hhxMass, hhxEnergy,
      expMass, expEnergy, massRate, energyRate, inputs, solution] <;> norm_num

theorem stable : Stable inputs := by
  constructor <;> simp only [stability, exchangerCompliance, tempCoef, inputs] <;> norm_num

/-- C81: it is solved wrongly. -/
theorem wrong (f : Mat10 ℝ → svd.Svd 10 ℝ) (hf : ∀ a, IsSvd (f a) a) (hint : FlowDirection) (s' : Solution ℝ)
    (h : solve (svd.SvdDefault f) inputs hint = .ok s') : ¬ Balances inputs (upwind inputs s') s' := by
  refine C81_small f hf inputs stable solution balances ?_ hint s' h
  simp only [pressureSq, stiffnessSq, lengthSq, inputs, solution]
  norm_num

/-- C81: and rightly with `LU` or `QR`, started with its directions. -/
example : solve lu.LU inputs (FlowDirection.from_solution solution) = .ok solution ∧
    solve qr.QR inputs (FlowDirection.from_solution solution) = .ok solution := by
  have h : ∀ T, Sound T → Complete T → solve T inputs (FlowDirection.from_solution solution) = .ok solution :=
    fun T h1 h2 => by
      rw [solve, C58_some_hint_succeeds T h1 h2 inputs (by norm_num [inputs]) stable solution balances]
  exact ⟨h _ C69_sound C69_complete, h _ C80_sound C80_complete⟩

/-- C81: an engine, a state and its solution to which `C81_small_engines` applies. -/
example : ∃ s : Solution ℝ, Physical (FourSolves.run lu.LU) 0 FourSolves.y 100 ∧
    Balances FourSolves.inputs (upwind FourSolves.inputs s) s ∧ s.dP_dt ≠ 0 := by
  have hp := FourSolves.physical fun _ _ => none
  obtain ⟨s, hs, -⟩ := C58_unique_consistent FourSolves.inputs (C58_ideal_gas_stable _ .Helium rfl 0 _ hp)
  refine ⟨s, FourSolves.physical _, hs, fun h0 => ?_⟩
  have he : ∀ T P, (IdealGas.new .Helium : IdealGas ℝ).enth T P = 5193.17 * (T - 250) := IdealGas.helium_enth
  obtain ⟨a, ha, ea⟩ : ∃ a : ℝ, 300 ≤ a ∧ (upwind FourSolves.inputs s).ck = 5193.17 * (a - 250) := by
    by_cases h : 0 ≤ s.m_dot_ck
    · exact ⟨500, by norm_num, by simp only [upwind, h, if_true]; exact he 500 1000⟩
    · exact ⟨300, le_rfl, by simp only [upwind, h, if_false]; exact he 300 1000⟩
  obtain ⟨b, hb, eb⟩ : ∃ b : ℝ, 800 ≤ b ∧ (upwind FourSolves.inputs s).le = 5193.17 * (b - 250) := by
    by_cases h : 0 ≤ s.m_dot_le
    · exact ⟨1000, by norm_num, by simp only [upwind, h, if_true]; exact he 1000 1000⟩
    · exact ⟨800, le_rfl, by simp only [upwind, h, if_false]; exact he 800 1000⟩
  obtain ⟨h1, h2, h3, h4, h5⟩ := FourSolves.flows a b ea eb hs
  rw [h0] at h1 h2 h3 h4 h5
  have g1 : 0 < a * 5193.17 - 250 * 2077.23 := by linarith
  have g2 : 0 < b * 5193.17 - 250 * 2077.23 := by linarith
  have k1 : 0 < s.m_dot_ck := by
    by_contra hn
    nlinarith [mul_nonneg g1.le (neg_nonneg.2 (not_lt.1 hn))]
  have k2 : s.m_dot_le < 0 := by
    by_contra hn
    nlinarith [mul_nonneg g2.le (not_lt.1 hn)]
  linarith

end SvdExample

end Sett
