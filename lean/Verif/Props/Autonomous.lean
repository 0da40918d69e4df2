import Verif.Props.SearchSucceeds
import Verif.Spec.Autonomous

/-! # C60: the flow-direction memory is not observable

`IntegrationState` keeps the last flow directions in a `RefCell`, so the derivative function handed to the
integrator is stateful, and a failing solve panics.  At physical states neither can be observed. -/

namespace Sett

open Spec state_equations

/-- At a physical state `system` answers with the consistent rates, whatever the memory holds. -/
theorem system_eq (r : Run ℝ) (n : GasName) (hf : r.fluid = (IdealGas.new n).toFluid)
    (hT : Sound r.solver) (hc : Complete r.solver) {t : ℝ} {y dy : V3 ℝ}
    (hp : Physical r t (conditionsOf y) 100) (hr : IsRate r t y dy) (dir : FlowDirection) :
    ∃ ev, system r.toCycle dir t y = .ok ev ∧ ev.dy = dy := by
  have hi := C58_ideal_gas_stable r n hf t _ hp
  obtain ⟨s, hs, hb⟩ := C59_solve_succeeds r.solver hT hc _ hp.norm hi dir
  obtain ⟨s', hb', rfl⟩ := hr
  have := consistent_unique hi hb hb'
  subst this
  unfold system
  simp only [Run.toCycle]
  change solve r.solver (r.calculate_inputs t { P := y.y0, T_c := y.y1, T_e := y.y2 }) dir = _ at hs
  rw [hs]
  exact ⟨_, rfl, rfl⟩

/-- **C60.** Whatever directions are remembered at the start, an integration that asks only for derivatives
at physical states does not panic, and its outcome is that of integrating the consistent rates as a
function of time and state alone. -/
theorem C60_memory_unobservable (r : Run ℝ) (n : GasName) (hf : r.fluid = (IdealGas.new n).toFluid)
    (hT : Sound r.solver) (hc : Complete r.solver) (f : ℝ → V3 ℝ → V3 ℝ) (st : Stepper ℝ)
    (hp : ∀ t y, Asks f st t y → Physical r t (conditionsOf y) 100 ∧ IsRate r t y (f t y))
    (dir : FlowDirection) :
    ∃ log, st.run r.toCycle dir = .ok (Integrated f st, log) := by
  induction st generalizing dir with
  | done out => exact ⟨[], rfl⟩
  | eval t y k ih =>
    obtain ⟨h1, h2⟩ := hp t y (.inl ⟨rfl, rfl⟩)
    obtain ⟨ev, hev, hdy⟩ := system_eq r n hf hT hc h1 h2 dir
    obtain ⟨log, hlog⟩ := ih (f t y) (fun t' y' h => hp t' y' (.inr h))
      (FlowDirection.from_solution ev.solution)
    refine ⟨ev :: log, ?_⟩
    simp only [Stepper.run, hev, hdy, hlog, Integrated]

/-- **C60**, for a whole integration. -/
theorem C60_integration (env : Env ℝ) (r : Run ℝ) (n : GasName)
    (hf : r.fluid = (IdealGas.new n).toFluid) (hT : Sound r.solver) (hc : Complete r.solver)
    (f : ℝ → V3 ℝ → V3 ℝ) (ic : Conditions ℝ) (num_points : UInt32) (tol : OdeTolerance ℝ) (dx : ℝ)
    (hdx : timeStep env.build r.period num_points = .ok dx)
    (hp : ∀ t y, Asks f (startStepper env r.toCycle ic dx tol) t y →
      Physical r t (conditionsOf y) 100 ∧ IsRate r t y (f t y)) :
    integrationTryFrom env r.toCycle ic num_points tol
      = match Integrated f (startStepper env r.toCycle ic dx tol) with
        | none => .error (.err .integration)
        | some (xs, ys) => .ok (toPoints xs ys) := by
  obtain ⟨log, hlog⟩ := C60_memory_unobservable r n hf hT hc f _ hp FlowDirection.default
  have hdx' : timeStep env.build r.toCycle.period num_points = .ok dx := hdx
  unfold integrationTryFrom
  rw [hdx']
  simp only [hlog]
  cases Integrated f (startStepper env r.toCycle ic dx tol) <;> rfl

/-- **C60**, for the values computed afterwards: at physical points they never panic, and each value holds
the consistent solution of its own point, independent of the points before it. -/
theorem C60_values (r : Run ℝ) (n : GasName) (hf : r.fluid = (IdealGas.new n).toFluid)
    (hT : Sound r.solver) (hc : Complete r.solver) (points : List (Point ℝ))
    (hp : ∀ p ∈ points, Physical r p.time p.conditions 100) :
    ∃ vs, intoStateValues r.toCycle points = .ok vs ∧
      List.Forall₂ (fun p v => v.time = p.time ∧ v.conditions = p.conditions ∧
        Balances (r.calculate_inputs p.time p.conditions)
          (upwind (r.calculate_inputs p.time p.conditions) v.solution) v.solution) points vs := by
  unfold intoStateValues
  generalize FlowDirection.default = dir
  induction points generalizing dir with
  | nil => exact ⟨[], rfl, .nil⟩
  | cons p ps ih =>
    have h1 := hp p (by simp)
    obtain ⟨s, hs, hb⟩ := C59_solve_succeeds r.solver hT hc _ h1.norm
      (C58_ideal_gas_stable r n hf _ _ h1) dir
    obtain ⟨vs, hvs, hall⟩ := ih (fun q hq => hp q (by simp [hq])) (FlowDirection.from_solution s)
    refine ⟨{ time := p.time, conditions := p.conditions, solution := s } :: vs, ?_,
      .cons ⟨rfl, rfl, hb⟩ hall⟩
    simp only [stateValuesFrom]
    have hs' : solve r.toCycle.Solver (r.toCycle.calculate_inputs p.time p.conditions) dir = .ok s := hs
    rw [hs']
    simp only [hvs]

end Sett
