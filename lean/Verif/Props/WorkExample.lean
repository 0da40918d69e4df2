import Verif.Props.Work
import Verif.Props.GridExample
import Verif.Props.Decompositions

/-! # Examples for the number of linear systems a run solves (C107) -/

namespace Sett

open Spec state_equations dopri5

namespace GridExample

open BalanceExample CycleExample EngineExample

/-- The engine of `GridExample`, with whatever solver. -/
example : AsksAtMost (settings.max_iters.outer * ((settings.max_iters.inner + 1) * 2400036 + 4 * 3)) fun T =>
    Engine.run env T components fluid runInputs settings :=
  C107_engine 10 env rfl components fluid runInputs settings (by
    refine ⟨fun _ => one_pos, by decide, fun _ => ?_⟩
    show (((3 : UInt32).toNat : ℝ) - 1) * 1e-14 * 1 < 1
    rw [show (3 : UInt32).toNat = 3 from rfl]
    norm_num)

/-- Volumes of different enthalpies: four systems may be needed, and four always suffice. -/
noncomputable def uneven : Inputs ℝ :=
  { SvdExample.inputs with chx := { SvdExample.inputs.chx with enth := 14e5 } }

example : AsksAtMost 4 (fun T => solve T uneven ⟨.Positive, .Positive, .Positive, .Positive⟩) ∧
    ¬ AsksAtMost 3 (fun T => solve T uneven ⟨.Positive, .Positive, .Positive, .Positive⟩) := by
  refine ⟨C107_solve _ _, C107_four _ ?_ ?_ ?_⟩ <;> norm_num [uneven, SvdExample.inputs]

end GridExample
end Sett
