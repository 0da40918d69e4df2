import Verif.Spec.Physical
import Verif.Model.Integrator

/-! # Specification: integration of an autonomous right-hand side

The integrator run against a plain function of time and state, with no hidden state. -/

namespace Sett.Spec

open state_equations

/-- Outcome of the integrator when its derivative requests are answered by the function `f`. -/
def Integrated {α : Type} (f : α → V3 α → V3 α) : Stepper α → Option (List α × List (V3 α))
  | .done out => out
  | .eval t y k => Integrated f (k (f t y))

/-- The integrator, answered by `f`, asks for the derivative at `(t, y)`. -/
def Asks {α : Type} (f : α → V3 α → V3 α) : Stepper α → α → V3 α → Prop
  | .done _, _, _ => False
  | .eval t y k, t', y' => (t' = t ∧ y' = y) ∨ Asks f (k (f t y)) t' y'

/-- A state vector read as conditions. -/
def conditionsOf {α : Type} (y : V3 α) : Conditions α := { P := y.y0, T_c := y.y1, T_e := y.y2 }

/-- `dy` are the rates of a solution of the ten balances with upwind enthalpies. -/
def IsRate (r : Run ℝ) (t : ℝ) (y dy : V3 ℝ) : Prop :=
  ∃ s, Balances (r.calculate_inputs t (conditionsOf y))
      (upwind (r.calculate_inputs t (conditionsOf y)) s) s ∧
    dy = { y0 := s.dP_dt, y1 := s.dTc_dt, y2 := s.dTe_dt }

end Sett.Spec
