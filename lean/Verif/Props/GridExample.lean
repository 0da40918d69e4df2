import Verif.Props.Exact
import Verif.Props.FixedApproach

/-! # Examples for the claims about the Dormand-Prince integrator (C72 to C74) -/

namespace Sett

open Spec state_equations dopri5

namespace GridExample

open BalanceExample CycleExample EngineExample

noncomputable def env : Env ℝ := { ode := dopri5.solve 10, build := .checked }

/-- A decomposition that answers with the solution of `BalanceExample` but takes the pressure rate from the
right-hand side. -/
noncomputable def echo : MatrixDecomposition ℝ := fun _ b =>
  some ![1, 1, 1, 1, 1 / 2, -1 / 2, 0, 0, 0, b 0]

/-- A cycle whose compression space is driven such that the pressure rate is `4 t³`. -/
noncomputable def cycle : Cycle ℝ :=
  { Solver := echo, period := 2, pres_zero := 5
    calculate_inputs := fun t _ =>
      { BalanceExample.inputs with
        comp := { BalanceExample.inputs.comp with dens := 1, dV_dt := -(4 * t ^ 3) } } }

/-- Pressure `5 + t⁴`, constant temperatures. -/
def q : V3 Quartic := ⟨⟨5, 0, 0, 0, 1⟩, ⟨300, 0, 0, 0, 0⟩, ⟨600, 0, 0, 0, 0⟩⟩

theorem forward_of (x : ℝ) : FlowDirection.from_solution
    (Solution.ofVec (![1, 1, 1, 1, 1 / 2, -1 / 2, 0, 0, 0, x] : Vec10 ℝ)) = forward := by
  have : Direction.from_value (1 : ℝ) = .Positive := by
    unfold Direction.from_value
    rw [if_pos]; rw [real_le]; norm_num
  simp [FlowDirection.from_solution, Solution.ofVec, forward, this]

theorem driven : Spec.Driven cycle (speed q) := by
  intro t c hint
  have hs : ∀ d, (System.new (cycle.calculate_inputs t c)).solve echo d
      = some (Solution.ofVec ![1, 1, 1, 1, 1 / 2, -1 / 2, 0, 0, 0, 4 * t ^ 3]) := by
    intro d
    have : System.rhs (cycle.calculate_inputs t c) 0 = 4 * t ^ 3 := by
      simp [System.rhs, cycle, Vec10.set]
    show some (Solution.ofVec ![1, 1, 1, 1, 1 / 2, -1 / 2, 0, 0, 0,
      System.rhs (cycle.calculate_inputs t c) 0]) = _
    rw [this]
  refine ⟨Solution.ofVec ![1, 1, 1, 1, 1 / 2, -1 / 2, 0, 0, 0, 4 * t ^ 3], ?_, ?_⟩
  · rw [C08_ok_iff]
    by_cases h : hint = forward
    · subst h
      exact ⟨[forward], forward, by simp, .here _, hs _, forward_of _⟩
    · exact ⟨[hint, forward], forward, by simp, .step ⟨h, _, hs _, forward_of _⟩ (.here _), hs _,
        forward_of _⟩
  · simp [speed, Quartic.deriv, q, Solution.ofVec]

/-- C74 (and C72): five points, the pressures `5 + t⁴` at `t = 0, 1/2, 1, 3/2, 2`. -/
theorem integration : integrationTryFrom env cycle ⟨5, 300, 600⟩ 5 ⟨1, 1⟩ = .ok
    [⟨0, ⟨5, 300, 600⟩⟩, ⟨1 / 2, ⟨5 + 1 / 16, 300, 600⟩⟩, ⟨1, ⟨6, 300, 600⟩⟩,
      ⟨3 / 2, ⟨5 + 81 / 16, 300, 600⟩⟩, ⟨2, ⟨21, 300, 600⟩⟩] := by
  have h := C74_integration 10 env rfl cycle q driven 5 ⟨1, 1⟩ (by decide)
    (by rw [show (5 : UInt32).toNat = 5 from rfl]; norm_num [cycle]) (by norm_num [cycle]) (by decide)
    one_pos zero_le_one (by
      intro t h0 h1
      have ht : t ≤ 3 := h1.trans (by norm_num [cycle])
      have : t ^ 3 ≤ 27 := by
        calc t ^ 3 ≤ 3 ^ 3 := pow_le_pow_left₀ h0 ht 3
          _ = 27 := by norm_num
      refine ⟨?_, ?_, ?_⟩ <;> simp [speed, Quartic.deriv, q]
      · rw [abs_of_nonneg (by positivity)]
        norm_num
        linarith
      · norm_num
      · norm_num)
  have e0 : (⟨(curve q 0).y0, (curve q 0).y1, (curve q 0).y2⟩ : Conditions ℝ) = ⟨5, 300, 600⟩ := by
    simp [curve, Quartic.eval, q]
  rw [e0] at h
  rw [h, show (5 : UInt32).toNat = 5 from rfl]
  simp [List.range_succ, curve, Quartic.eval, q, cycle]
  norm_num

/-- C73: the two-point and the five-point integration of this cycle agree at the end. -/
example (pts : List (Point ℝ)) (h : integrationTryFrom env cycle ⟨5, 300, 600⟩ 2 ⟨1, 1⟩ = .ok pts) :
    pts.getLast?.map (·.conditions) = some ⟨21, 300, 600⟩ := by
  obtain ⟨e, -⟩ := C73_same_cycle 10 env rfl cycle ⟨5, 300, 600⟩ 2 5 ⟨1, 1⟩ (by decide) (by decide)
    (by rw [show (2 : UInt32).toNat = 2 from rfl]; norm_num [cycle])
    (by rw [show (5 : UInt32).toNat = 5 from rfl]; norm_num [cycle]) pts _ h integration
  rw [e]; rfl

/-! ## A run -/

/-- Nothing changes with time. -/
def still : V3 Quartic := ⟨⟨5, 0, 0, 0, 0⟩, ⟨300, 0, 0, 0, 0⟩, ⟨600, 0, 0, 0, 0⟩⟩

theorem still_driven (cy : Cycle ℝ) (hc : cy.Solver = constant) : Spec.Driven cy (speed still) := by
  intro t c hint
  refine ⟨Solution.ofVec BalanceExample.vec, by rw [hc]; exact constant_solve _ _, ?_⟩
  simp [speed, Quartic.deriv, still, Solution.ofVec, BalanceExample.vec]

theorem still_integration (cy : Cycle ℝ) (hc : cy.Solver = constant) (hp : cy.period = 1) (n : UInt32)
    (h1 : 2 ≤ n.toNat) (h2 : n.toNat ≤ 8) : integrationTryFrom env cy ⟨5, 300, 600⟩ n ⟨1, 1⟩ = .ok
    ((List.range n.toNat).map fun k : Nat => ⟨k * (1 / ((n.toNat : ℝ) - 1)), ⟨5, 300, 600⟩⟩) := by
  have hn : (n.toNat : ℝ) ≤ 8 := by exact_mod_cast h2
  have h := C74_integration 10 env rfl cy still (still_driven cy hc) n ⟨1, 1⟩ h1
    (by rw [hp]; norm_num; linarith) (by rw [hp]; norm_num) (by omega)
    one_pos zero_le_one (by intro t _ _; simp [speed, Quartic.deriv, still]; norm_num)
  have e0 : ∀ t, (⟨(curve still t).y0, (curve still t).y1, (curve still t).y2⟩ : Conditions ℝ)
      = ⟨5, 300, 600⟩ := by
    intro t; simp [curve, Quartic.eval, still]
  simp only [e0, hp] at h
  exact h

noncomputable def settings : RunSettings ℝ :=
  { resolution := 3, loop_tol := ⟨⟨1, 1⟩, ⟨1, 1⟩⟩, ode_tol := ⟨1, 1⟩, max_iters := ⟨3, 2⟩ }

theorem steady (cy : Cycle ℝ) (hc : cy.Solver = constant) (hp : cy.period = 1) (i : SteadyStateInputs ℝ)
    (hn : i.num_points = 3) (h0 : i.pres_zero = 5) (h1 : i.temp_comp_hint = 300) (h2 : i.temp_exp_hint = 600)
    (hm : i.max_iters = 3) (ha : i.conv_tol = ⟨1, 1⟩) (ht : i.ode_tol = ⟨1, 1⟩) :
    findSteadyState env cy i = .ok
      [⟨0, ⟨5, 300, 600⟩, Solution.ofVec BalanceExample.vec⟩,
       ⟨1 / 2, ⟨5, 300, 600⟩, Solution.ofVec BalanceExample.vec⟩,
       ⟨1, ⟨5, 300, 600⟩, Solution.ofVec BalanceExample.vec⟩] := by
  have i2 := still_integration cy hc hp 2 (by decide) (by decide)
  have i3 := still_integration cy hc hp 3 (by decide) (by decide)
  rw [C33_ok_iff]
  refine ⟨0, ⟨i.pres_zero, i.temp_comp_hint, i.temp_exp_hint⟩, by omega, .hints, ?_, ?_⟩
  · rw [h0, h1, h2]
    refine ⟨⟨5, 300, 600⟩, ⟨5, 300, 600⟩, ⟨_, ht ▸ i2, rfl, rfl⟩, ?_⟩
    · simp [Closed, Within, ha]
  · rw [hn, h0, h1, h2, ht]
    refine ⟨_, i3, ?_⟩
    simp only [show (3 : UInt32).toNat = 3 from rfl, List.range_succ, List.range_zero, List.nil_append,
      List.cons_append, List.map_cons, List.map_nil]
    simp [intoStateValues, stateValuesFrom, hc, constant_solve]
    norm_num

/-- C72, C73: a complete run with the Dormand-Prince integrator that succeeds. -/
example : ∃ e, Engine.run env constant components fluid runInputs settings = .ok e ∧
    e.values.time = [0, 1 / 2, 1] ∧ e.values.P.head? = some 5 ∧
    ∃ a b, e.values.T_c.head? = some a ∧ e.values.T_c.getLast? = some b ∧ |b - a| < 1 := by
  have hi : Engine.inner env constant components settings (State.new_hint components fluid runInputs) = .ok
      [⟨0, ⟨5, 300, 600⟩, Solution.ofVec BalanceExample.vec⟩,
       ⟨1 / 2, ⟨5, 300, 600⟩, Solution.ofVec BalanceExample.vec⟩,
       ⟨1, ⟨5, 300, 600⟩, Solution.ofVec BalanceExample.vec⟩] := by
    unfold Engine.inner
    refine steady _ rfl ?_ _ rfl rfl ?_ ?_ rfl rfl rfl
    · show (1.0 : ℝ) / 1 = 1; norm_num
    · show (260 : ℝ) + 40 = 300; norm_num
    · show (700 : ℝ) - 100 = 600; norm_num
  have hs := fun x : ℝ => within_self settings.loop_tol.outer one_pos one_pos x
  have hrun := C39_one_iteration env constant drive.toWorkingSpaces cold mid hot fluid runInputs settings _
    (by decide) hi (by simp) ⟨hs _, hs _, hs _, hs _, hs _⟩
  have hturn : Spec.Turning components settings.resolution := by
    refine ⟨fun _ => one_pos, by decide, fun _ => ?_⟩
    show (((3 : UInt32).toNat : ℝ) - 1) * 1e-14 * 1 < 1
    rw [show (3 : UInt32).toNat = 3 from rfl]
    norm_num
  have hrun' := congrArg Prod.fst hrun
  obtain ⟨e1, -, e3, -⟩ := C72_run 10 env rfl constant components fluid runInputs settings hturn _ hrun'
  obtain ⟨⟨a, b, g1, g2, g3, -⟩, -⟩ :=
    C73_reported_cycle_closes 10 env rfl constant components fluid runInputs settings hturn _ hrun'
  exact ⟨_, hrun', rfl, e3, a, b, g1, g2, g3⟩

end GridExample
end Sett
