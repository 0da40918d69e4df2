import Verif.Proofs.Lu
import Verif.Props.NoPanicExample
import Verif.Props.Scaling
import Mathlib.LinearAlgebra.Matrix.ToLinearEquiv

/-! # C69: `LU` solves every uniquely solvable system -/

namespace Sett

open Spec state_equations api

/-- A square system has exactly one solution exactly if its matrix is invertible. -/
theorem unique_iff_det {n : Nat} (a : Fin n → Fin n → ℝ) (b : Fin n → ℝ) :
    (∃! x : Fin n → ℝ, ∀ r, ∑ c, a r c * x c = b r) ↔ (Matrix.of a).det ≠ 0 := by
  constructor
  · rintro ⟨x, hx, hu⟩ h0
    obtain ⟨v, hv, hz⟩ := Matrix.exists_mulVec_eq_zero_iff.2 h0
    have hz' : ∀ r, ∑ c, a r c * v c = 0 := fun r => congrFun hz r
    have := hu (fun c => x c + v c) fun r => by
      simp only [mul_add, Finset.sum_add_distrib, hz', hx r, add_zero]
    apply hv
    funext c
    have := congrFun this c
    simpa using this
  · intro h
    rcases lu.solve_spec a b with ⟨h0, -⟩ | ⟨-, x, -, hx⟩
    · exact absurd h0 h
    refine ⟨x, hx, fun y hy => ?_⟩
    by_contra hne
    refine h (Matrix.exists_mulVec_eq_zero_iff.1 ⟨fun c => y c - x c, ?_, ?_⟩)
    · intro e
      exact hne (funext fun c => sub_eq_zero.1 (congrFun e c))
    · funext r
      show ∑ c, a r c * (y c - x c) = 0
      simp only [mul_sub, Finset.sum_sub_distrib, hx r, hy r, sub_self]

/-- **C69.** What `LU` returns solves the system. -/
theorem C69_sound : Sound lu.LU := by
  intro a b x h
  rcases lu.solve_spec a b with ⟨-, h0⟩ | ⟨-, y, hy, hs⟩
  · rw [lu.LU, h0] at h; cases h
  · rw [lu.LU, hy] at h; cases h; exact hs

/-- **C69.** It fails exactly if the system does not have exactly one solution, in every dimension. -/
theorem C69_fails_iff {n : Nat} (a : Fin n → Fin n → ℝ) (b : Fin n → ℝ) :
    lu.solve a b = none ↔ ¬ ∃! x : Fin n → ℝ, ∀ r, ∑ c, a r c * x c = b r := by
  rw [unique_iff_det, not_not]
  rcases lu.solve_spec a b with ⟨h, h0⟩ | ⟨h, x, hx, -⟩
  · simp [h, h0]
  · simp [h, hx]

@[inherit_doc C69_fails_iff]
theorem C69_complete : Complete lu.LU := by
  intro a b h
  by_contra hn
  rw [Option.not_isSome_iff_eq_none] at hn
  exact (C69_fails_iff a b).1 hn h

/-- The multipliers below the diagonal after `s` passes. -/
theorem lu.multipliers_to {n : Nat} (a : Fin n → Fin n → ℝ) : ∀ s ≤ n, ∀ r k : Fin n, k.val < s → k < r →
    |(lu.factorTo a s).packed r k| ≤ 1
  | 0, _, _, _, h, _ => absurd h (Nat.not_lt_zero _)
  | s + 1, hs, r, k, hk, hr => by
    have hs' : s < n := hs
    have ih := lu.multipliers_to a s hs'.le
    set f := lu.factorTo a s
    set i : Fin n := ⟨s, hs'⟩ with hi
    have his : (i : ℕ) = s := rfl
    obtain ⟨hle, hmax⟩ := lu.pivot_spec f.packed i
    have hle' := Fin.le_def.1 hle
    have hstep : lu.factorTo a (s + 1) = lu.step f i := by simp only [lu.factorTo, hs', dite_true]; rfl
    rw [hstep]
    have gauss : ∀ m : Fin n → Fin n → ℝ, m i i ≠ 0 → (∀ r, i ≤ r → |m r i| ≤ |m i i|) →
        (∀ r k : Fin n, k.val < s → k < r → |m r k| ≤ 1) → |lu.gaussStep m (m i i) i r k| ≤ 1 := by
      intro m h0 hm h1
      by_cases hki : k = i
      · have : i < r := hki ▸ hr
        simp only [lu.gaussStep, this, hki, if_true]
        have := hm r this.le
        have e : m r i * (1.0 / m i i) = m r i / m i i := by norm_num [div_eq_mul_inv]
        rw [e, abs_div]
        exact div_le_one_of_le₀ this (abs_nonneg _)
      · have hks : (k : ℕ) < s := by
          have : (k : ℕ) ≠ s := fun e => hki (Fin.ext e)
          omega
        have hn : ¬ i < k := by rw [Fin.lt_def]; omega
        simp only [lu.gaussStep, hki, hn, if_false, ite_self]
        exact h1 r k hks hr
    unfold lu.step
    simp only
    by_cases hz : lu.isZero (f.packed (lu.pivotRow f.packed i) i) = true
    · simp only [hz, if_true]
      rw [lu.isZero_iff] at hz
      by_cases hki : k = i
      · have h1 := hmax r (hki ▸ hr.le)
        rw [hz, abs_zero] at h1
        rw [hki]
        linarith
      · have hks : (k : ℕ) < s := by
          have : (k : ℕ) ≠ s := fun e => hki (Fin.ext e)
          omega
        exact ih r k hks hr
    · simp only [hz, Bool.false_eq_true, if_false]
      rw [lu.isZero_iff] at hz
      by_cases hp : lu.pivotRow f.packed i = i
      · simp only [hp, if_true]
        rw [hp] at hz hmax
        exact gauss f.packed hz hmax ih
      · simp only [hp, if_false]
        have e : lu.swapRows f.packed i (lu.pivotRow f.packed i) i i
            = f.packed (lu.pivotRow f.packed i) i := by simp [lu.swapRows]
        rw [← e]
        refine gauss _ (e.trans_ne hz) (fun r hr => ?_) fun r k hk hr => ?_
        · rw [e, lu.swapRows_eq]
          apply hmax
          rw [Equiv.swap_apply_def]
          split_ifs
          · exact hle
          · exact le_rfl
          · exact hr
        · rw [lu.swapRows_eq]
          apply ih _ _ hk
          rw [Equiv.swap_apply_def]
          split_ifs <;> rw [Fin.lt_def] at * <;> omega

/-- **C69**, pivoting: no multiplier exceeds one in absolute value, so that elimination never adds a row
magnified. -/
theorem C69_multipliers {n : Nat} (a : Fin n → Fin n → ℝ) (r k : Fin n) (h : k < r) :
    |(lu.factorTo a n).packed r k| ≤ 1 :=
  lu.multipliers_to a n le_rfl r k k.2 h

/-- **C69**, for a run: at every physical state with either ideal gas at 100 K or more, `solve` with `LU`
succeeds with every hint, all hints give the same result, and no other decomposition that is right could
give a different one. -/
theorem C69_run_solve (r : Run ℝ) (n : GasName) (hf : r.fluid = (IdealGas.new n).toFluid)
    (hl : r.solver = lu.LU) (t : ℝ) (y : Conditions ℝ) (hp : Physical r t y 100) :
    ∃ s, (∀ hint, solve r.solver (r.calculate_inputs t y) hint = .ok s) ∧
      ∀ T, Sound T → ∀ hint s', solve T (r.calculate_inputs t y) hint = .ok s' → s' = s := by
  have hS : Sound r.solver := hl ▸ C69_sound
  obtain ⟨s, hs⟩ := C59_run_solve r n hf hS (hl ▸ C69_complete) t y hp
  exact ⟨s, hs, fun T hT hint s' h' => C58_hint_independent _ _ hT hS _ hp.norm
    (C58_ideal_gas_stable r n hf t y hp) hint .default s' s h' (hs _)⟩

/-- **C69**, entry point: C62 with the decomposition the code uses and no assumption about it. -/
theorem C69_run_engine (env : Env ℝ) (c : Config ℝ)
    (k : chx.FixedApproach.Config ℝ) (r : regen.FixedApproach.Config ℝ)
    (l : hhx.FixedApproach.Config ℝ) (h : Spec.SaneConfig c k r l)
    (hm : c.solver.ode.num_timesteps ≠ 0 ∨ env.build = .wrapping)
    (hk : ∀ x g, Spec.Asked c x g → ∃ f,
      RatesOf (Run.new lu.LU x (State.new_hint x g.toFluid (Spec.inputsOf c))) f ∧
      KeepsWarm env (Run.new lu.LU x (State.new_hint x g.toFluid (Spec.inputsOf c))) f
        (Spec.settingsOf c).ode_tol c.solver.ode.num_timesteps c.conditions.pres_zero) :
    (∃ res, run_engine env lu.LU c = .ok res) ∨ run_engine env lu.LU c = .error (.err .InnerLoop) :=
  C62_run_engine env lu.LU c k r l h C69_sound C69_complete hm hk

/-- C69: a system that needs a row exchange in its first pass. -/
example : lu.solve (n := 2) (fun r c => if r = 0 ∧ c = 0 then (0 : ℝ) else 1) (fun r => if r = 0 then 2 else 5)
    ≠ none := by
  rw [Ne, C69_fails_iff, not_not, unique_iff_det, Matrix.det_fin_two]
  simp

/-- C69: and a singular one. -/
example : lu.solve (n := 2) (fun _ _ => (1 : ℝ)) (fun _ => 1) = none := by
  rw [C69_fails_iff, unique_iff_det, Matrix.det_fin_two]
  simp

/-- C69: the entry-point theorem applies to the worked configuration. -/
example : (∃ res, run_engine NoPanicExample.env lu.LU SoundRun.config = .ok res) ∨
    run_engine NoPanicExample.env lu.LU SoundRun.config = .error (.err .InnerLoop) := by
  refine C69_run_engine NoPanicExample.env SoundRun.config _ _ _ NoPanicExample.sane
    (.inl (by simp [SoundRun.config])) fun x g hx => ?_
  obtain rfl := hx.fluid
  have hs := saneRun_start (saneEngine_of_config NoPanicExample.sane hx) lu.LU
  obtain ⟨f, hf⟩ := (ratesOf_exists _ _ rfl hs).1
  exact ⟨f, hf, NoPanicExample.keepsWarm _ _ _ _ _ (by norm_num [SoundRun.config])⟩

end Sett
