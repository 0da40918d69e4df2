import Verif.Spec.DormandPrince

/-! # Specification: when the Dormand-Prince integrator gives up

Its test for stiffness (Hairer, Norsett, Wanner, II.5 and IV.2): the last two slopes of a step are taken at the same
time, at two states; the quotient of their differences estimates the largest rate at which solutions approach each
other, and a step longer than 3.25 times its inverse is at the edge of the method's stability. -/

namespace Sett.Spec

namespace Step

variable (s : Step)

/-- The state the sixth slope is taken at. -/
noncomputable def sixth : V3 ℝ := s.go (9017 / 3168) (-355 / 33) (46732 / 5247) (49 / 176) (-5103 / 18656) 0 0

/-- The step is at the edge of stability. -/
noncomputable def stiff : Bool :=
  let d (v w : V3 ℝ) : ℝ := (v.y0 - w.y0) ^ 2 + (v.y1 - w.y1) ^ 2 + (v.y2 - w.y2) ^ 2
  decide (3.25 < s.h * √(d s.k7 s.k6 / d s.finish s.sixth))

end Step

/-- A period of watching for stiffness: it begins with a stiff step whose number is a multiple of 1000, and ends
with six steps in a row that are not stiff. -/
structure Watching (before watched : List Bool) : Prop where
  thousandth : (before.length + 1) % 1000 = 0
  first : watched.head? = some true
  goes_on : ¬List.replicate 6 false <:+: watched

/-- The last step of these is the fifteenth stiff one of a period of watching. -/
def Alarm (steps : List Bool) : Prop :=
  ∃ before watched, steps = before ++ watched ∧ Watching before watched ∧ watched.getLast? = some true ∧
    watched.count true = 15

/-- How an integration from `(0, y)` to `xEnd` ends, after `l` accepted steps and having asked `asked` questions:
with the result once `xEnd` is reached, without one after the alarm, after trying a step so short that it hardly
moves the time, or after 100001 tries; there is never an alarm before the end. -/
structure Ended (A : ℝ → V3 ℝ → V3 ℝ → Prop) (rtol atol : ℝ) (y : V3 ℝ) (xEnd : ℝ) (l : List Step) (asked : Nat)
    (success : Bool) : Prop where
  joined : ∃ t' y', Leads 0 y l t' y' ∧ (t' = xEnd ∨ success = false)
  forward : ∀ s ∈ l, 0 < s.h
  slopes : ∀ s ∈ l, s.Slopes A
  passes : ∀ s ∈ l, s.Passes rtol atol
  no_alarm : ∀ m, m <+: l.map Step.stiff → Alarm m → success = false ∧ m = l.map Step.stiff
  reason : success = true ∨ Alarm (l.map Step.stiff) ∨
    (∃ s : Step, s.Slopes A ∧ 0 < s.h ∧ s.h ≤ 1.2e-14 * (s.t + s.h)) ∨ asked = 3 + 6 * 100001

end Sett.Spec
