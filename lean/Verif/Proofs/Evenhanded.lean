import Verif.Spec.Mirror
import Verif.Model.Dopri5
import Verif.Proofs.Lits

/-! # `Dopri5` does not care in which order it is given the two temperatures -/

namespace Sett

open Spec

namespace dopri5

@[simp] theorem swap3_swap3 {α : Type} (y : V3 α) : swap3 (swap3 y) = y := rfl

theorem swap3_stage (y : V3 ℝ) (h : ℝ) (ks : List (V3 ℝ)) (row : List ℝ) :
    stage (swap3 y) h (ks.map swap3) row = swap3 (stage y h ks row) := by
  unfold stage
  induction ks generalizing y row with
  | nil => rfl
  | cons k ks ih =>
    cases row with
    | nil => rfl
    | cons w row =>
      simp only [List.map_cons, List.zip_cons_cons, List.foldl_cons]
      exact ih (add3 y (scale3 (scale3 k h) w)) row

theorem swap3_weighted (ks : List (V3 ℝ)) (ws : List ℝ) :
    weighted (ks.map swap3) ws = swap3 (weighted ks ws) := by
  cases ks with
  | nil => rfl
  | cons k ks =>
    cases ws with
    | nil => rfl
    | cons w ws =>
      simp only [List.map_cons, weighted]
      rw [show scale3 (swap3 k) w = swap3 (scale3 k w) from rfl]
      generalize scale3 k w = acc
      induction ks generalizing acc ws with
      | nil => rfl
      | cons k ks ih =>
        cases ws with
        | nil => rfl
        | cons w ws =>
          simp only [List.map_cons, List.zip_cons_cons, List.foldl_cons]
          exact ih ws (add3 acc (scale3 k w))

theorem swap3_errorNorm (p : Problem ℝ) (y z v : V3 ℝ) :
    errorNorm p (swap3 y) (swap3 z) (swap3 v) = errorNorm p y z v := by
  simp only [errorNorm, swap3]
  rw [add_right_comm]

theorem swap3_initNorm (p : Problem ℝ) (y v : V3 ℝ) : initNorm p (swap3 y) (swap3 v) = initNorm p y v := by
  simp only [initNorm, swap3]
  rw [add_right_comm]

theorem swap3_dot (a b : V3 ℝ) : dot3 (swap3 a) (swap3 b) = dot3 a b := by
  simp only [dot3, swap3]
  rw [add_right_comm]

theorem swap3_firstGuess (p : Problem ℝ) (y f0 : V3 ℝ) : firstGuess p (swap3 y) (swap3 f0) = firstGuess p y f0 := by
  simp only [firstGuess, swap3_initNorm]

theorem swap3_secondGuess (p : Problem ℝ) (y f0 f1 : V3 ℝ) (h : ℝ) :
    secondGuess p (swap3 y) (swap3 f0) (swap3 f1) h = secondGuess p y f0 f1 h := by
  simp only [secondGuess, swap3_initNorm, show sub3 (swap3 f1) (swap3 f0) = swap3 (sub3 f1 f0) from rfl]

/-- The state of the integrator with the two temperatures exchanged. -/
def swapState (s : State ℝ) : State ℝ :=
  { s with
    y := swap3 s.y
    rcont0 := swap3 s.rcont0
    rcont1 := swap3 s.rcont1
    rcont2 := swap3 s.rcont2
    rcont3 := swap3 s.rcont3
    rcont4 := swap3 s.rcont4
    yOut := s.yOut.map swap3 }

theorem swap_stiffness {s s' : State ℝ} (h1 : s'.accepted = s.accepted) (h2 : s'.iasti = s.iasti)
    (h3 : s'.nonStiff = s.nonStiff) (h : ℝ) (a b c d : V3 ℝ) :
    stiffness s' h (swap3 a) (swap3 b) (swap3 c) (swap3 d) = stiffness s h a b c d := by
  have e : ∀ a b : V3 ℝ, sub3 (swap3 a) (swap3 b) = swap3 (sub3 a b) := fun _ _ => rfl
  simp only [stiffness, e, swap3_dot, h1, h2, h3]

theorem swap_output (p : Problem ℝ) (fuel : Nat) (s : State ℝ) :
    output p fuel (swapState s) = (output p fuel s).map swapState := by
  induction fuel generalizing s with
  | zero => rfl
  | succ fuel ih =>
    simp only [output]
    rw [show (swapState s).xd = s.xd from rfl, show (swapState s).x = s.x from rfl,
      show (swapState s).xOld = s.xOld from rfl]
    split
    · split
      · rw [← ih]
        congr 1
        simp only [swapState, List.map_append, List.map_cons, List.map_nil]
        rfl
      · rfl
    · rfl

theorem swap_stages (s : State ℝ) (h : ℝ) (k0 : V3 ℝ) (cont cont' : (k2 k3 k4 k5 k6 yStiff yNext : V3 ℝ) → Stepper ℝ)
    (hc : ∀ a b c d e f g, cont' (swap3 a) (swap3 b) (swap3 c) (swap3 d) (swap3 e) (swap3 f) (swap3 g)
      = swapStepper (cont a b c d e f g)) :
    stages (swapState s) h (swap3 k0) cont' = swapStepper (stages s h k0 cont) := by
  have st : ∀ ks row, stage (swapState s).y h (ks.map swap3) row = swap3 (stage s.y h ks row) :=
    fun ks row => swap3_stage s.y h ks row
  simp only [stages, swapStepper]
  have e1 := fun (k0 : V3 ℝ) row => st [k0] row
  have e2 := fun (k0 k1 : V3 ℝ) row => st [k0, k1] row
  have e3 := fun (k0 k1 k2 : V3 ℝ) row => st [k0, k1, k2] row
  have e4 := fun (k0 k1 k2 k3 : V3 ℝ) row => st [k0, k1, k2, k3] row
  have e5 := fun (k0 k1 k2 k3 k4 : V3 ℝ) row => st [k0, k1, k2, k3, k4] row
  have e6 := fun (k0 k1 k2 k3 k4 k5 : V3 ℝ) row => st [k0, k1, k2, k3, k4, k5] row
  simp only [List.map_cons, List.map_nil] at e1 e2 e3 e4 e5 e6
  rw [e1]
  refine congrArg _ (funext fun k1 => ?_)
  obtain ⟨k1, rfl⟩ : ∃ k, k1 = swap3 k := ⟨swap3 k1, rfl⟩
  rw [e2, swap3_swap3]
  refine congrArg _ (funext fun k2 => ?_)
  obtain ⟨k2, rfl⟩ : ∃ k, k2 = swap3 k := ⟨swap3 k2, rfl⟩
  rw [e3, swap3_swap3]
  refine congrArg _ (funext fun k3 => ?_)
  obtain ⟨k3, rfl⟩ : ∃ k, k3 = swap3 k := ⟨swap3 k3, rfl⟩
  rw [e4, swap3_swap3]
  refine congrArg _ (funext fun k4 => ?_)
  obtain ⟨k4, rfl⟩ : ∃ k, k4 = swap3 k := ⟨swap3 k4, rfl⟩
  rw [e5, swap3_swap3]
  refine congrArg _ (funext fun k5 => ?_)
  obtain ⟨k5, rfl⟩ : ∃ k, k5 = swap3 k := ⟨swap3 k5, rfl⟩
  rw [e6, swap3_swap3]
  refine congrArg _ (funext fun k6 => ?_)
  obtain ⟨k6, rfl⟩ : ∃ k, k6 = swap3 k := ⟨swap3 k6, rfl⟩
  rw [swap3_swap3]
  exact hc _ _ _ _ _ _ _

theorem swap_conclude (p : Problem ℝ) (outs : Nat) (next : State ℝ → V3 ℝ → Stepper ℝ)
    (hn : ∀ s k, next (swapState s) (swap3 k) = swapStepper (next s k))
    (s : State ℝ) (last : Bool) (h : ℝ) (k0 k2 k3 k4 k5 k6 yStiff yNext : V3 ℝ) :
    conclude p outs next (swapState s) last h (swap3 k0) (swap3 k2) (swap3 k3) (swap3 k4) (swap3 k5) (swap3 k6)
        (swap3 yStiff) (swap3 yNext)
      = swapStepper (conclude p outs next s last h k0 k2 k3 k4 k5 k6 yStiff yNext) := by
  have ew := fun w => swap3_weighted [k0, k2, k3, k4, k5, k6] w
  simp only [List.map_cons, List.map_nil] at ew
  unfold conclude
  have ee : errorNorm p (swapState s).y (swap3 yNext)
      (scale3 (weighted [swap3 k0, swap3 k2, swap3 k3, swap3 k4, swap3 k5, swap3 k6] e) h)
      = errorNorm p s.y yNext (scale3 (weighted [k0, k2, k3, k4, k5, k6] e) h) := by
    rw [ew, show ∀ w : V3 ℝ, scale3 (swap3 w) h = swap3 (scale3 w h) from fun _ => rfl]
    exact swap3_errorNorm p s.y yNext _
  simp only [ee]
  rw [show (swapState s).facOld = s.facOld from rfl, show (swapState s).reject = s.reject from rfl]
  generalize errorNorm p s.y yNext (scale3 (weighted [k0, k2, k3, k4, k5, k6] e) h) = err
  rcases accept p s.facOld s.reject err h with ⟨b, hNew⟩
  cases b with
  | false => exact hn { s with h := hNew, reject := true } k0
  | true =>
    simp only
    rw [swap_stiffness (s := { s with accepted := s.accepted + 1 }) ?_ ?_ ?_]
    any_goals rfl
    cases stiffness { s with accepted := s.accepted + 1 } h k6 k5 yNext yStiff with
    | none => rfl
    | some st =>
      simp only
      have ea : advance (swapState s) h err (swap3 k0) (swap3 k2) (swap3 k3) (swap3 k4) (swap3 k5) (swap3 k6)
          (swap3 yNext) st = swapState (advance s h err k0 k2 k3 k4 k5 k6 yNext st) := by
        unfold advance swapState
        simp only [ew]
        rfl
      rw [ea, swap_output]
      cases output p outs (advance s h err k0 k2 k3 k4 k5 k6 yNext st) with
      | none => rfl
      | some s' =>
        simp only [Option.map_some]
        cases last with
        | true => rfl
        | false => exact hn { s' with h := hNew } k6

theorem swap_loop (p : Problem ℝ) (outs passes : Nat) (s : State ℝ) (k0 : V3 ℝ) :
    loop p outs passes (swapState s) (swap3 k0) = swapStepper (loop p outs passes s k0) := by
  induction passes generalizing s k0 with
  | zero => rfl
  | succ passes ih =>
    simp only [loop]
    rw [show (swapState s).h = s.h from rfl, show (swapState s).x = s.x from rfl]
    split
    · rfl
    · exact swap_stages s _ k0 _ _ fun a b c d e f g => swap_conclude p outs _ ih s _ _ k0 a b c d e f g

/-- The integrator treats the two temperatures alike. -/
theorem evenhanded (outs : Nat) : Evenhanded (solve outs) := by
  intro x xend dx y rtol atol
  simp only [solve, hinit, swapStepper]
  refine congrArg _ (funext fun f0 => ?_)
  obtain ⟨f0, rfl⟩ : ∃ k, f0 = swap3 k := ⟨swap3 f0, rfl⟩
  rw [swap3_firstGuess, swap3_swap3]
  refine congrArg (Stepper.eval _ _) (funext fun f1 => ?_)
  obtain ⟨f1, rfl⟩ : ∃ k, f1 = swap3 k := ⟨swap3 f1, rfl⟩
  rw [swap3_secondGuess, swap3_swap3]
  refine congrArg (Stepper.eval _ _) (funext fun k0 => ?_)
  obtain ⟨k0, rfl⟩ : ∃ k, k0 = swap3 k := ⟨swap3 k0, rfl⟩
  rw [swap3_swap3]
  generalize secondGuess _ y f0 f1 _ = h
  exact swap_loop _ outs 100001 { x, xOld := x, xd := x, h, hOld := h, y, rcont0 := ⟨0.0, 0.0, 0.0⟩
                                  rcont1 := ⟨0.0, 0.0, 0.0⟩, rcont2 := ⟨0.0, 0.0, 0.0⟩, rcont3 := ⟨0.0, 0.0, 0.0⟩
                                  rcont4 := ⟨0.0, 0.0, 0.0⟩, facOld := 1.0e-4, reject := false, accepted := 0
                                  iasti := 0, nonStiff := 0, xOut := [], yOut := [] } k0

end dopri5
end Sett
