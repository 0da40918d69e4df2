import Verif.Props.Ieee

/-! # C51 and C54: resolution edge cases, NaN flow directions -/

namespace Sett
open Float64 Float64.Raw Spec state_equations

/-! ## C51 -/

section
variable {α : Type} [Scalar α]

/-- **C51**, "only after the inner loop has converged".  Either the resolution is irrelevant to the outcome
(which is then an error), or some cycle of the substitution sequence closes and the resolution is used
exactly once, in the integration of that cycle. -/
theorem C51_resolution_used_after_closing (env : Env α) (cycle : Cycle α) (i : SteadyStateInputs α) :
    (∃ f, ∀ n, findSteadyState env cycle { i with num_points := n } = .error f) ∨
    ∃ k ic first last, k < i.max_iters ∧ Substituted env cycle i k ic ∧
      OneCycle env cycle i ic first last ∧ Closed i first last ∧
      ∀ n, (∃ pts, integrationTryFrom env cycle ic n i.ode_tol = .ok pts ∧
          findSteadyState env cycle { i with num_points := n } = (intoStateValues cycle pts).lift) ∨
        ∃ f, integrationTryFrom env cycle ic n i.ode_tol = .error f ∧
          findSteadyState env cycle { i with num_points := n } = .error f := by
  have key : ∀ fuel k ic, Substituted env cycle i k ic →
      (∃ f, ∀ n, (steadyLoop env cycle { i with num_points := n } fuel ic).1 = .error f) ∨
      ∃ k' ic' first last, k' < k + fuel ∧ Substituted env cycle i k' ic' ∧
        OneCycle env cycle i ic' first last ∧ Closed i first last ∧
        ∀ n, (∃ pts, integrationTryFrom env cycle ic' n i.ode_tol = .ok pts ∧
            (steadyLoop env cycle { i with num_points := n } fuel ic).1
              = (intoStateValues cycle pts).lift) ∨
          ∃ f, integrationTryFrom env cycle ic' n i.ode_tol = .error f ∧
            (steadyLoop env cycle { i with num_points := n } fuel ic).1 = .error f := by
    intro fuel
    induction fuel with
    | zero => intro k ic _; exact .inl ⟨_, fun n => rfl⟩
    | succ fuel ih =>
      intro k ic hs
      have hp : ∀ n, OneCycle env cycle { i with num_points := n } ic = OneCycle env cycle i ic :=
        fun _ => rfl
      rcases steadyLoop_succ env cycle i fuel ic with
        ⟨f, l, h1, h2, -⟩ | ⟨f, l, h1, h2, -⟩ | ⟨e, h1, -⟩ | ⟨s, h1, -⟩
      · refine .inr ⟨k, ic, f, l, by omega, hs, h1, h2, fun n => ?_⟩
        rcases steadyLoop_succ env cycle { i with num_points := n } fuel ic with
          ⟨f', l', g1, g2, ⟨pts, g3, g4⟩ | ⟨e, g3, g4⟩⟩ | ⟨f', l', g1, g2, g3⟩ | ⟨e, g1, g2⟩ | ⟨s, g1, g2⟩
        · exact .inl ⟨pts, g3, by rw [g4]⟩
        · exact .inr ⟨e, g3, by rw [g4]⟩
        · obtain ⟨rfl, rfl⟩ := oneCycle_unique h1 g1
          exact absurd h2 g2
        · obtain ⟨p, q, -⟩ := h1
          rw [q] at g1; cases g1
        · obtain ⟨p, q, q', -⟩ := h1
          rw [q] at g1; cases g1; simp at q'
      · have hn : ∀ n, (steadyLoop env cycle { i with num_points := n } (fuel + 1) ic).1
            = (steadyLoop env cycle { i with num_points := n } fuel ⟨i.pres_zero, l.T_c, l.T_e⟩).1 := by
          intro n
          rcases steadyLoop_succ env cycle { i with num_points := n } fuel ic with
            ⟨f', l', g1, g2, -⟩ | ⟨f', l', g1, g2, g3⟩ | ⟨e, g1, g2⟩ | ⟨s, g1, g2⟩
          · obtain ⟨rfl, rfl⟩ := oneCycle_unique h1 g1
            exact absurd g2 h2
          · obtain ⟨rfl, rfl⟩ := oneCycle_unique h1 g1
            rw [g3]
          · obtain ⟨p, q, -⟩ := h1
            rw [q] at g1; cases g1
          · obtain ⟨p, q, q', -⟩ := h1
            rw [q] at g1; cases g1; simp at q'
        simp only [hn]
        rcases ih (k + 1) _ (.next hs h1 h2) with h | ⟨k', ic', f', l', g1, g2, g3, g4, g5⟩
        · exact .inl h
        · exact .inr ⟨k', ic', f', l', by omega, g2, g3, g4, g5⟩
      · refine .inl ⟨e, fun n => ?_⟩
        simp only [steadyLoop, h1]
      · refine .inl ⟨.panic "integrator.rs:67", fun n => ?_⟩
        simp only [steadyLoop, h1, integrationIsConverged, List.head?_nil]
  rcases key i.max_iters 0 _ .hints with h | ⟨k, ic, f, l, h1, h2⟩
  · exact .inl h
  · exact .inr ⟨k, ic, f, l, by omega, h2⟩

/-- **C51**, resolution 0 in a build with overflow checks: the integration panics, so no inner loop that
reaches it can succeed. -/
theorem C51_zero_checked (env : Env α) (hb : env.build = .checked) (cycle : Cycle α)
    (i : SteadyStateInputs α) (vs : List (state_equations.Values α)) :
    (∀ ic tol, integrationTryFrom env cycle ic 0 tol = .error (.panic "integrator.rs:29")) ∧
    findSteadyState env cycle { i with num_points := 0 } ≠ .ok vs := by
  have h : ∀ ic tol, integrationTryFrom env cycle ic 0 tol = .error (.panic "integrator.rs:29") := by
    intro ic tol
    simp [integrationTryFrom, timeStep, pointsMinusOne, hb]
  refine ⟨h, fun hv => ?_⟩
  rcases C51_resolution_used_after_closing env cycle i with ⟨f, hf⟩ | ⟨k, ic, a, b, -, -, -, -, hr⟩
  · rw [hf] at hv; cases hv
  · rcases hr 0 with ⟨pts, h1, -⟩ | ⟨f, -, h2⟩
    · rw [h] at h1; cases h1
    · rw [h2] at hv; cases hv

end

section
variable {L : Libm}

theorem pointsMinusOne_ok (b : Build) {n : UInt32} (h : 1 ≤ n.toNat) :
    ∃ m, pointsMinusOne b n = .ok m ∧ m.toNat = n.toNat - 1 := by
  have hm : (n - 1).toNat = n.toNat - 1 := by
    rw [UInt32.toNat_sub_of_le]
    · rfl
    · exact UInt32.le_iff_toNat_le.2 h
  refine ⟨n - 1, ?_, hm⟩
  have h0 : n ≠ 0 := by rintro rfl; simp at h
  cases b <;> simp [pointsMinusOne, h0]

theorem ofNat_raw {m : ℕ} (h : m ≤ 2 ^ 53) :
    (Scalar.ofNat m : F64 L).raw.Finite ∧ (Scalar.ofNat m : F64 L).raw.real = m := by
  have hr : Rep (m : ℝ) := rep_nat h
  have := pack_finite false (x := (m : ℝ)) (by rw [rne_rep hr]; exact hr.2)
  refine ⟨this.1, ?_⟩
  have h2 := this.2
  rw [rne_rep hr] at h2
  exact h2

/-- **C51**, resolutions of at least two, in either build mode: the time step is the correctly rounded
quotient of the period and `n - 1`, finite, no longer than the period, and not negative for a positive
period. -/
theorem C51_step (b : Build) (period : F64 L) (hp : period.raw.Finite) (n : UInt32) (h : 2 ≤ n.toNat) :
    ∃ dx, timeStep b period n = .ok dx ∧ dx.raw.Finite ∧
      dx.raw.real = rne (period.raw.real / ((n.toNat : ℝ) - 1)) ∧
      |dx.raw.real| ≤ |period.raw.real| ∧ (0 ≤ period.raw.real → 0 ≤ dx.raw.real) := by
  obtain ⟨m, h1, h2⟩ := pointsMinusOne_ok b (n := n) (by omega)
  have hm1 : 1 ≤ m.toNat := by omega
  have hm2 : m.toNat ≤ 2 ^ 53 := by
    have := m.toNat_lt
    omega
  obtain ⟨f1, f2⟩ := ofNat_raw (L := L) hm2
  have hmr : (1 : ℝ) ≤ (m.toNat : ℝ) := by exact_mod_cast hm1
  have hc : ((n.toNat : ℝ) - 1) = m.toNat := by
    rw [h2, Nat.cast_sub (by omega)]; simp
  have hle : |period.raw.real / (m.toNat : ℝ)| ≤ |period.raw.real| := by
    rw [abs_div, abs_of_nonneg (by linarith : (0 : ℝ) ≤ m.toNat)]
    exact div_le_self (abs_nonneg _) hmr
  have hlt : |rne (period.raw.real / (m.toNat : ℝ))| ≤ |period.raw.real| := by
    rw [abs_rne]
    calc rne |period.raw.real / (m.toNat : ℝ)| ≤ rne |period.raw.real| := rne_mono hle
      _ = |period.raw.real| := by rw [← abs_rne, rne_rep (Raw.rep_real _)]
  have hd := Raw.div_finite hp f1 (by rw [f2]; linarith)
    (by rw [f2]; exact hlt.trans_lt (Raw.rep_real _).2)
  rw [f2] at hd
  refine ⟨period / Scalar.ofNat m.toNat, ?_, hd.1, ?_, ?_, ?_⟩
  · simp [timeStep, h1]
  · rw [hc]; exact hd.2
  · exact (congrArg _ hd.2).trans_le hlt
  · intro h0
    refine le_of_le_of_eq (rne_nonneg ?_) hd.2.symm
    exact div_nonneg h0 (by linarith)

/-- **C51**, resolution 1, in either build mode: the step is a division by zero, infinite for a positive
period, and never a finite number. -/
theorem C51_one (b : Build) (period : F64 L) :
    ∃ dx, timeStep b period 1 = .ok dx ∧ ¬dx.raw.Finite ∧ (Positive period → dx.raw = inf false) := by
  obtain ⟨m, h1, h2⟩ := pointsMinusOne_ok b (n := 1) (by decide)
  have hz : (Scalar.ofNat m.toNat : F64 L) = (zero false : Raw) := by
    rw [h2]
    show pack false ((1 - 1 : ℕ) : ℝ) = _
    rw [Nat.sub_self, Nat.cast_zero, pack_zero]
  refine ⟨period / Scalar.ofNat m.toNat, by simp [timeStep, h1], ?_, fun hp => ?_⟩
  · have e : (period / Scalar.ofNat m.toNat : F64 L).raw = Raw.div period.raw (zero false) := by
      rw [hz]; rfl
    rw [e]
    rcases div_zero_cases period.raw false with h | ⟨s, h⟩ <;> rw [h] <;> exact id
  · rw [hz]; exact positive_div_zero hp false

/-- **C51**, resolution 0 in a wrapping build: the step is the correctly rounded period/4294967295, as if
2³² points had been asked for. -/
theorem C51_zero_wrapping (period : F64 L) (hp : period.raw.Finite) :
    ∃ dx, timeStep .wrapping period 0 = .ok dx ∧ dx.raw.Finite ∧
      dx.raw.real = rne (period.raw.real / 4294967295) := by
  obtain ⟨f1, f2⟩ := ofNat_raw (L := L) (m := 4294967295) (by norm_num)
  have hle : |rne (period.raw.real / 4294967295)| ≤ |period.raw.real| := by
    rw [abs_rne]
    refine (rne_mono (y := |period.raw.real|) ?_).trans_eq
      (by rw [← abs_rne, rne_rep (Raw.rep_real _)])
    rw [abs_div, abs_of_nonneg (by norm_num : (0 : ℝ) ≤ 4294967295)]
    exact div_le_self (abs_nonneg _) (by norm_num)
  have hd := Raw.div_finite hp f1 (by rw [f2]; norm_num)
    (by rw [f2]; push_cast; exact hle.trans_lt (Raw.rep_real _).2)
  rw [f2] at hd
  push_cast at hd
  exact ⟨period / Scalar.ofNat 4294967295, rfl, hd.1, hd.2⟩

/-! ## C54 -/

/-- **C54**, classification: NaN is never positive, the two zeros always are, otherwise the sign decides. -/
theorem C54_from_value (x : F64 L) :
    (Direction.from_value x = .Positive ↔ ∃ v, x.raw.ext = some v ∧ 0 ≤ v) ∧
    (Direction.from_value x = .Negative ↔ x.raw = nan ∨ ∃ v, x.raw.ext = some v ∧ v < 0) := by
  have h1 : Scalar.le (0.0 : F64 L) x = true ↔ ∃ v, x.raw.ext = some v ∧ 0 ≤ v := by
    rw [ieee_zero]
    refine (Raw.le_iff (zero false) x.raw).trans ⟨?_, ?_⟩
    · rintro ⟨a, b, ha, hb, hab⟩
      cases ha
      exact ⟨b, hb, hab⟩
    · rintro ⟨v, hv, h0⟩
      exact ⟨0, v, rfl, hv, h0⟩
  have h2 : (¬∃ v, x.raw.ext = some v ∧ 0 ≤ v) ↔ x.raw = nan ∨ ∃ v, x.raw.ext = some v ∧ v < 0 := by
    constructor
    · intro h
      cases hx : x.raw.ext with
      | none =>
        refine .inl ?_
        revert hx
        generalize x.raw = r
        cases r <;> simp [Raw.ext]
        rename_i s
        cases s <;> simp
      | some v => exact .inr ⟨v, rfl, not_le.1 fun h0 => h ⟨v, hx, h0⟩⟩
    · rintro (h | ⟨v, hv, h0⟩) ⟨w, hw, h1⟩
      · rw [h] at hw; cases hw
      · rw [hv] at hw; cases hw
        exact absurd h1 (not_le.2 h0)
  unfold Direction.from_value
  rw [← h2, ← h1]
  by_cases h : Scalar.le (0.0 : F64 L) x = true
  · simp [h]
  · simp [h]

/-- **C54**, the hazard.  With any decomposition that answers this right-hand side with NaN flows (instead
of failing), `solve` returns those NaN flows as `Ok`, whatever the direction hint. -/
theorem C54_nan_returned (T : MatrixDecomposition (F64 L)) (i : Inputs (F64 L))
    (hT : ∀ d, ∃ x, T ((System.new i).stencil.create_matrix d) (System.new i).b = some x ∧
      (x 0).raw = nan ∧ (x 1).raw = nan ∧ (x 2).raw = nan ∧ (x 3).raw = nan)
    (d : FlowDirection) :
    ∃ s, solve T i d = .ok s ∧ s.m_dot_ck.raw = nan ∧ s.m_dot_kr.raw = nan ∧ s.m_dot_rl.raw = nan ∧
      s.m_dot_le.raw = nan := by
  have hneg : ∀ v : F64 L, v.raw = nan → Direction.from_value v = .Negative :=
    fun v h => (C54_from_value v).2.2 (.inl h)
  have hs : ∀ d, ∃ s, (System.new i).solve T d = some s ∧
      (s.m_dot_ck.raw = nan ∧ s.m_dot_kr.raw = nan ∧ s.m_dot_rl.raw = nan ∧ s.m_dot_le.raw = nan) ∧
      FlowDirection.from_solution s = ⟨.Negative, .Negative, .Negative, .Negative⟩ := by
    intro d
    obtain ⟨x, h, h0, h1, h2, h3⟩ := hT d
    refine ⟨Solution.ofVec x, by simp [System.solve, h], ⟨h0, h1, h2, h3⟩, ?_⟩
    simp only [FlowDirection.from_solution, Solution.ofVec, hneg _ h0, hneg _ h1, hneg _ h2,
      hneg _ h3]
  obtain ⟨s, h1, h2, h3⟩ := hs d
  obtain ⟨s', g1, g2, g3⟩ := hs ⟨.Negative, .Negative, .Negative, .Negative⟩
  by_cases hd : d = ⟨.Negative, .Negative, .Negative, .Negative⟩
  · subst hd
    exact ⟨s, by simp [solve, solveLogged, solveLoop, h1, h3], h2⟩
  · refine ⟨s', ?_, g2⟩
    simp [solve, solveLogged, solveLoop, ALLOWED_FLOW_UPDATES, h1, h3, hd, g1, g3]

/-- **C54**, what a caller may rely on: in a returned solution every face that was treated as positive
carries a flow that is a number and is not negative. -/
theorem C54_positive_is_number (x : F64 L) (h : Direction.from_value x = .Positive) :
    x.raw ≠ nan ∧ (x.raw.Finite → 0 ≤ x.raw.real) := by
  obtain ⟨v, hv, h0⟩ := (C54_from_value x).1.1 h
  refine ⟨fun hn => ?_, fun hf => ?_⟩
  · rw [hn] at hv; cases hv
  · rw [Raw.ext_of_finite hf] at hv
    cases hv
    exact_mod_cast h0

end

/-! ## Instances -/
namespace ResolutionExample

/-- A period of one second, on the correctly rounded library. -/
noncomputable def second : F64 (exactLibm false) := (one : Raw)

theorem second_finite : second.raw.Finite := trivial

/-- Three points: steps of half a second. -/
example : ∃ dx, timeStep .checked second 3 = .ok dx ∧ dx.raw.real = 1 / 2 := by
  obtain ⟨dx, h1, -, h2, -⟩ := C51_step .checked second second_finite 3 (by decide)
  refine ⟨dx, h1, ?_⟩
  rw [h2]
  have : Fits (1 / 2 : ℝ) := ⟨1, -1, by norm_num, by norm_num, by norm_num⟩
  have e : second.raw.real / (((3 : UInt32).toNat : ℝ) - 1) = 1 / 2 := by
    have h3 : (3 : UInt32).toNat = 3 := rfl
    rw [h3]
    show (1 : ℝ) / (((3 : ℕ) : ℝ) - 1) = 1 / 2
    norm_num
  rw [e, rne_fits this]

example : Positive second := ⟨1, rfl, by norm_num⟩

/-- A decomposition that answers NaN to everything, as one does on a NaN right-hand side. -/
noncomputable def sick : MatrixDecomposition (F64 (exactLibm false)) := fun _ _ => some fun _ => (nan : Raw)

example (i : Inputs (F64 (exactLibm false))) :
    ∃ s, solve sick i ⟨.Positive, .Unknown, .Positive, .Negative⟩ = .ok s ∧ s.m_dot_ck.raw = nan := by
  obtain ⟨s, h, h1, -⟩ := C54_nan_returned sick i (fun _ => ⟨_, rfl, rfl, rfl, rfl, rfl⟩)
    ⟨.Positive, .Unknown, .Positive, .Negative⟩
  exact ⟨s, h, h1⟩

/-- Negative zero counts as positive. -/
example (x : F64 (exactLibm false)) (h : x.raw = zero true) : Direction.from_value x = .Positive :=
  (C54_from_value x).1.2 ⟨0, by rw [h]; rfl, le_rfl⟩

end ResolutionExample
end Sett
