import Verif.Spec.Work
import Verif.Model.Dopri5
import Verif.Model.Api
import Verif.Props.Grid

/-! # C107: a run solves at most a number of linear systems known in advance -/

namespace Sett

open Spec state_equations

variable {α : Type}

namespace Spec.AsksAtMost

variable {β γ : Type} {n m : Nat} {F : MatrixDecomposition α → β}

theorem mono (h : AsksAtMost n F) : ∀ {m}, n ≤ m → AsksAtMost m F := by
  induction h with
  | answer n b => exact fun _ => .answer _ b
  | ask n A b G _ ih =>
    intro m hm
    obtain ⟨m, rfl⟩ := Nat.exists_eq_add_of_le' hm
    rw [← add_assoc]
    exact .ask _ A b G fun x => ih x (Nat.le_add_left _ _)

theorem bind {G : β → MatrixDecomposition α → γ} (h : AsksAtMost n F) (hG : ∀ b, AsksAtMost m (G b)) :
    AsksAtMost (n + m) fun T => G (F T) T := by
  induction h with
  | answer n b => exact (hG b).mono (Nat.le_add_left _ _)
  | ask n A b H _ ih =>
    rw [Nat.add_right_comm]
    exact .ask _ A b (fun x T => G (H x T) T) ih

theorem map (h : AsksAtMost n F) (g : β → γ) : AsksAtMost n fun T => g (F T) :=
  h.bind (m := 0) (G := fun b _ => g b) fun b => .answer 0 (g b)

theorem congr {G : MatrixDecomposition α → β} (h : AsksAtMost n F) (e : ∀ T, G T = F T) : AsksAtMost n G := by
  rw [show G = F from funext e]; exact h

theorem after {ε : Type} (x : Except ε β) (G : β → MatrixDecomposition α → Except ε γ) (h : ∀ b, AsksAtMost n (G b)) :
    AsksAtMost n fun T => x >>= fun b => G b T := by
  cases x with
  | error e => exact .answer _ _
  | ok b => exact h b

/-- What is computed without asking does not depend on the solver. -/
theorem eq_of_zero (h : AsksAtMost 0 F) (T T' : MatrixDecomposition α) : F T = F T' := by
  cases h; rfl

/-- The answers to at most `n` systems decide. -/
theorem decided (h : AsksAtMost n F) (T : MatrixDecomposition α) : ∃ L : List (Mat10 α × Vec10 α), L.length ≤ n ∧
    ∀ T' : MatrixDecomposition α, (∀ q ∈ L, T' q.1 q.2 = T q.1 q.2) → F T' = F T := by
  induction h with
  | answer n b => exact ⟨[], Nat.zero_le _, fun _ _ => rfl⟩
  | ask n A b G _ ih =>
    obtain ⟨L, hL, h⟩ := ih (T A b)
    refine ⟨(A, b) :: L, by simpa using hL, fun T' hT' => ?_⟩
    have e := hT' (A, b) (by simp)
    simp only at e ⊢
    rw [e]
    exact h T' fun q hq => hT' q (by simp [hq])

end Spec.AsksAtMost

variable [Scalar α]

theorem asks_solveLoop (system : System α) (fuel : Nat) :
    ∀ dir, AsksAtMost fuel fun T => (solveLoop T system fuel dir).1 := by
  induction fuel with
  | zero => exact fun dir => .answer _ _
  | succ fuel ih =>
    intro dir
    refine (AsksAtMost.ask fuel (system.stencil.create_matrix dir) system.b (fun x T =>
      match x.map Solution.ofVec with
      | none => .error .decomposition
      | some s => if dir = FlowDirection.from_solution s then .ok s
        else (solveLoop T system fuel (FlowDirection.from_solution s)).1) fun x => ?_).congr fun T => ?_
    · cases x with
      | none => exact .answer _ _
      | some v =>
        simp only [Option.map_some]
        split
        · exact .answer _ _
        · exact ih _
    · simp only [solveLoop, System.solve]
      cases T (system.stencil.create_matrix dir) system.b with
      | none => rfl
      | some v =>
        simp only [Option.map_some]
        split <;> rfl

/-- **C107**, one instant: `solve` solves at most four systems. -/
theorem C107_solve (inputs : Inputs α) (hint : FlowDirection) : AsksAtMost 4 fun T => solve T inputs hint :=
  asks_solveLoop (System.new inputs) 4 hint

theorem asks_system (cycle : Cycle α) (dir : FlowDirection) (t : α) (y : V3 α) :
    AsksAtMost 4 fun T => system { cycle with Solver := T } dir t y :=
  ((C107_solve (cycle.calculate_inputs t { P := y.y0, T_c := y.y1, T_e := y.y2 }) dir).map fun r =>
    match r with
    | .error _ => .error (.panic "integrator.rs:135")
    | .ok solution => .ok { time := t, conditions := { P := y.y0, T_c := y.y1, T_e := y.y2 }, hint := dir, solution
                            dy := { y0 := solution.dP_dt, y1 := solution.dTc_dt, y2 := solution.dTe_dt } }).congr
    fun T => rfl

theorem asks_stepper {P E : Nat} {s : Stepper α} (h : Bounded P E s) (cycle : Cycle α) :
    ∀ dir, AsksAtMost (4 * E) fun T => s.run { cycle with Solver := T } dir := by
  induction h with
  | failed E => exact fun dir => .answer _ _
  | done E xs ys _ => exact fun dir => .answer _ _
  | eval E t y k _ ih =>
    intro dir
    rw [Nat.mul_succ, Nat.add_comm]
    refine ((asks_system cycle dir t y).bind
      (γ := Panics (Option (List α × List (V3 α)) × List (Evaluation α))) (G := fun r T =>
      match r with
      | .error e => .error e
      | .ok ev =>
        match (k ev.dy).run { cycle with Solver := T } (FlowDirection.from_solution ev.solution) with
        | .error e => .error e
        | .ok (out, log) => .ok (out, ev :: log)) fun r => ?_).congr fun T => by rw [Stepper.run]; rfl
    cases r with
    | error e => exact .answer _ _
    | ok ev =>
      exact (ih ev.dy (FlowDirection.from_solution ev.solution)).map
        (γ := Panics (Option (List α × List (V3 α)) × List (Evaluation α))) fun r =>
        match r with
        | .error e => .error e
        | .ok (out, log) => .ok (out, ev :: log)

/-- The integrator of the environment asks for at most `E` derivatives and gives at most `P` points. -/
def BoundedOde (P E : Nat) (ode : Ode α) : Prop := ∀ x xEnd dx y rtol atol, Bounded P E (ode x xEnd dx y rtol atol)

theorem asks_integration {P E : Nat} {env : Env α} (h : BoundedOde P E env.ode) (cycle : Cycle α) (ic : Conditions α)
    (n : UInt32) (tol : OdeTolerance α) :
    AsksAtMost (4 * E) fun T => integrationTryFrom env { cycle with Solver := T } ic n tol := by
  cases ht : timeStep env.build cycle.period n with
  | error e =>
    cases e with
    | panic p =>
      refine (AsksAtMost.answer _ (.error (.panic p))).congr fun T => ?_
      simp only [integrationTryFrom, ht]
    | err x => exact x.elim
  | ok dx =>
    refine ((asks_stepper (h 0.0 (cycle.period + 1e-14) dx { y0 := ic.P, y1 := ic.T_c, y2 := ic.T_e } tol.rel tol.abs)
      cycle FlowDirection.default).map (γ := Exec CycleError (List (Point α))) fun r =>
      match r with
      | .error (.panic s) => .error (.panic s)
      | .ok (none, _) => .error (.err .integration)
      | .ok (some (xs, ys), _) => .ok (toPoints xs ys)).congr fun T => ?_
    simp only [integrationTryFrom, ht]
    rfl

theorem asks_values (cycle : Cycle α) (pts : List (Point α)) :
    ∀ dir, AsksAtMost (4 * pts.length) fun T => stateValuesFrom { cycle with Solver := T } dir pts := by
  induction pts with
  | nil => exact fun dir => .answer _ _
  | cons p ps ih =>
    intro dir
    rw [List.length_cons, Nat.mul_succ, Nat.add_comm]
    refine ((C107_solve (cycle.calculate_inputs p.time p.conditions) dir).bind (γ := Panics (List (state_equations.Values α))) (G := fun r T =>
      match r with
      | .error _ => .error (.panic "integrator.rs:97")
      | .ok solution =>
        match stateValuesFrom { cycle with Solver := T } (FlowDirection.from_solution solution) ps with
        | .error e => .error e
        | .ok vs => .ok ({ time := p.time, conditions := p.conditions, solution } :: vs)) fun r => ?_).congr fun T => rfl
    cases r with
    | error e => exact .answer _ _
    | ok s =>
      exact (ih (FlowDirection.from_solution s)).map (γ := Panics (List (state_equations.Values α))) fun r =>
        match r with
        | .error e => .error e
        | .ok vs => .ok ({ time := p.time, conditions := p.conditions, solution := s } :: vs)

theorem asks_steady {P E : Nat} {env : Env α} (h : BoundedOde P E env.ode) (cycle : Cycle α) (i : SteadyStateInputs α)
    {N : Nat} (hN : ∀ T ic pts, integrationTryFrom env { cycle with Solver := T } ic i.num_points i.ode_tol = .ok pts →
      pts.length ≤ N) (fuel : Nat) :
    ∀ ic, AsksAtMost (fuel * (4 * E) + (4 * E + 4 * N)) fun T => (steadyLoop env { cycle with Solver := T } i fuel ic).1 := by
  induction fuel with
  | zero => exact fun ic => .answer _ _
  | succ fuel ih =>
    intro ic
    have last : AsksAtMost (β := Exec CycleError (List (state_equations.Values α))) (4 * E + 4 * N) fun T =>
        match integrationTryFrom env { cycle with Solver := T } ic i.num_points i.ode_tol with
        | .error e => .error e
        | .ok points => ((intoStateValues { cycle with Solver := T } points).lift :
            Exec CycleError (List (state_equations.Values α))) := by
      refine ((asks_integration h cycle ic i.num_points i.ode_tol).bind (m := 4 * N)
        (γ := Exec CycleError (List (state_equations.Values α))) (G := fun r T =>
        match r with
        | .error e => .error e
        | .ok points => ((intoStateValues { cycle with Solver := T } (points.take N)).lift :
            Exec CycleError (List (state_equations.Values α)))) fun r => ?_).congr fun T => ?_
      · cases r with
        | error e => exact .answer _ _
        | ok points =>
          have hl : 4 * (points.take N).length ≤ 4 * N := by
            rw [List.length_take]
            exact Nat.mul_le_mul_left _ (Nat.min_le_left _ _)
          exact (((asks_values cycle (points.take N) FlowDirection.default).mono hl).map
            (γ := Exec CycleError (List (state_equations.Values α))) Panics.lift).congr fun T => rfl
      · cases e : integrationTryFrom env { cycle with Solver := T } ic i.num_points i.ode_tol with
        | error e => rfl
        | ok points => simp only [List.take_of_length_le (hN T ic points e)]
    rw [Nat.succ_mul, Nat.add_comm (fuel * (4 * E)), Nat.add_assoc]
    refine ((asks_integration h cycle ic 2 i.ode_tol).bind (m := fuel * (4 * E) + (4 * E + 4 * N))
      (γ := Exec CycleError (List (state_equations.Values α))) (G := fun r T =>
      match r with
      | .error e => .error e
      | .ok points =>
        match integrationIsConverged points i.conv_tol with
        | .error (.panic s) => .error (.panic s)
        | .ok true =>
          match integrationTryFrom env { cycle with Solver := T } ic i.num_points i.ode_tol with
          | .error e => .error e
          | .ok points => ((intoStateValues { cycle with Solver := T } points).lift :
              Exec CycleError (List (state_equations.Values α)))
        | .ok false =>
          match finalConditions points with
          | .error (.panic s) => .error (.panic s)
          | .ok fc => (steadyLoop env { cycle with Solver := T } i fuel { fc with P := i.pres_zero }).1)
      fun r => ?_).congr fun T => ?_
    · cases r with
      | error e => exact .answer _ _
      | ok points =>
        simp only
        split
        · exact .answer _ _
        · exact last.mono (Nat.le_add_left _ _)
        · split
          · exact .answer _ _
          · exact ih _
    · rw [steadyLoop]
      cases e : integrationTryFrom env { cycle with Solver := T } ic 2 i.ode_tol with
      | error e => rfl
      | ok points =>
        dsimp only
        cases integrationIsConverged points i.conv_tol with
        | error f =>
          cases f with
          | panic p => rfl
          | err x => exact x.elim
        | ok b =>
          cases b with
          | false =>
            dsimp only
            cases finalConditions points with
            | error f =>
              cases f with
              | panic p => rfl
              | err x => exact x.elim
            | ok fc => rfl
          | true =>
            simp only
            cases integrationTryFrom env { cycle with Solver := T } ic i.num_points i.ode_tol <;> rfl

/-- **C107.** With an integrator that asks for at most `E` derivatives per call, and gives at most `N` points, `Engine::run`
solves at most `outer · ((inner + 1) · 4 E + 4 N)` linear systems, whatever the engine and whatever the solver answers. -/
theorem C107_run {P E N : Nat} {env : Env α} (h : BoundedOde P E env.ode) (c : Components α) (fluid : Fluid α)
    (inputs : RunInputs α) (settings : RunSettings α)
    (hN : ∀ T s ic pts, integrationTryFrom env (Run.new T c s).toCycle ic settings.resolution settings.ode_tol = .ok pts →
      pts.length ≤ N) :
    AsksAtMost (settings.max_iters.outer * ((settings.max_iters.inner + 1) * (4 * E) + 4 * N)) fun T =>
      Engine.run env T c fluid inputs settings := by
  have key : ∀ fuel s, AsksAtMost (fuel * ((settings.max_iters.inner + 1) * (4 * E) + 4 * N)) fun T =>
      (Engine.runLoop env T c settings fuel s).1 := by
    intro fuel
    induction fuel with
    | zero => exact fun s => .answer _ _
    | succ fuel ih =>
      intro s
      rw [Nat.succ_mul, Nat.add_comm]
      have inner : AsksAtMost ((settings.max_iters.inner + 1) * (4 * E) + 4 * N) fun T => Engine.inner env T c settings s := by
        rw [Nat.succ_mul, Nat.add_assoc]
        exact asks_steady h (Run.new (fun _ _ => none) c s).toCycle (Engine.steadyInputs settings s)
          (fun T ic pts e => hN T s ic pts e) _ _
      refine (inner.bind (γ := Exec RunError (Engine α)) (G := fun r T =>
        match r with
        | .error (.panic s) => .error (.panic s)
        | .error (.err _) => .error (.err .InnerLoop)
        | .ok vs =>
          match s.update c (Values.ofStateValues vs) settings.loop_tol.outer with
          | .error (.panic s) => .error (.panic s)
          | .ok (.changed new_state) => (Engine.runLoop env T c settings fuel new_state).1
          | .ok (.converged state') => .ok { components := c, state := state', values := Values.ofStateValues vs })
        fun r => ?_).congr fun T => ?_
      · rcases r with ⟨⟨⟩ | ⟨⟩⟩ | vs
        · exact .answer _ _
        · exact .answer _ _
        · simp only
          split
          · exact .answer _ _
          · exact ih _
          · exact .answer _ _
      · rw [Engine.runLoop]
        rcases Engine.inner env T c settings s with ⟨⟨⟩ | ⟨⟩⟩ | vs
        · rfl
        · rfl
        · simp only
          cases s.update c (Values.ofStateValues vs) settings.loop_tol.outer with
          | error f =>
            cases f with
            | panic p => rfl
            | err x => exact x.elim
          | ok u => cases u <;> rfl
  exact key _ _

/-- **C107**, the bound is attained: there are solvers with which `solve` needs all four systems, whatever the engine (if
the enthalpies of the first three volumes differ). -/
theorem C107_four (inputs : Inputs ℝ) (h0 : inputs.enth_norm ≠ 0) (h1 : inputs.comp.enth ≠ inputs.chx.enth)
    (h2 : inputs.chx.enth ≠ inputs.regen.enth_cold) :
    ¬ AsksAtMost 3 fun T => solve T inputs ⟨.Positive, .Positive, .Positive, .Positive⟩ := by
  classical
  intro h
  let d : Direction → Direction → FlowDirection := fun a b => ⟨a, b, .Positive, .Positive⟩
  let M : Direction → Direction → Mat10 ℝ := fun a b => (System.new inputs).stencil.create_matrix (d a b)
  let B := (System.new inputs).b
  let v : ℝ → ℝ → Option (Vec10 ℝ) := fun x y => some fun i => if i = 0 then x else if i = 1 then y else 0
  let T : MatrixDecomposition ℝ := fun A _ =>
    if A = M .Positive .Positive then v (-1) 1 else if A = M .Negative .Positive then v (-1) (-1)
    else if A = M .Negative .Negative then v 1 (-1) else v 1 1
  have pos : Direction.from_value (1 : ℝ) = .Positive := by simp [Direction.from_value]; norm_num
  have neg : Direction.from_value (-1 : ℝ) = .Negative := by simp [Direction.from_value]; norm_num
  have dir : ∀ x y : ℝ, FlowDirection.from_solution (Solution.ofVec fun i : Fin 10 => if i = 0 then x else if i = 1 then y else 0)
      = d (Direction.from_value x) (Direction.from_value y) := by
    intro x y
    have z : Direction.from_value (0 : ℝ) = .Positive := by simp [Direction.from_value]; norm_num
    simp [FlowDirection.from_solution, Solution.ofVec, d, z]
  -- the four matrices differ
  have first : ∀ b b', M .Positive b ≠ M .Negative b' := by
    intro b b' e
    have e1 : inputs.comp.enth / inputs.enth_norm = inputs.chx.enth / inputs.enth_norm := congrFun (congrFun e 1) 0
    exact h1 ((div_left_inj' h0).1 e1)
  have second : ∀ a a', M a .Positive ≠ M a' .Negative := by
    intro a a' e
    have e1 : inputs.chx.enth / inputs.enth_norm = inputs.regen.enth_cold / inputs.enth_norm := congrFun (congrFun e 3) 1
    exact h2 ((div_left_inj' h0).1 e1)
  have a0 : T (M .Positive .Positive) B = v (-1) 1 := if_pos rfl
  have a1 : T (M .Negative .Positive) B = v (-1) (-1) := by
    simp only [T]; rw [if_neg (first _ _).symm]; simp
  have a2 : T (M .Negative .Negative) B = v 1 (-1) := by
    simp only [T]; rw [if_neg (first _ _).symm, if_neg (second _ _).symm]; simp
  have a3 : T (M .Positive .Negative) B = v 1 1 := by
    simp only [T]; rw [if_neg (second _ _).symm, if_neg (first _ _), if_neg (first _ _)]
  -- one pass
  have pass : ∀ (U : MatrixDecomposition ℝ) (n : Nat) (a b : Direction) (x y : ℝ), U (M a b) B = v x y →
      d a b ≠ d (Direction.from_value x) (Direction.from_value y) → (solveLoop U (System.new inputs) (n + 1) (d a b)).1
        = (solveLoop U (System.new inputs) n (d (Direction.from_value x) (Direction.from_value y))).1 := by
    intro U n a b x y e hd
    have e' : System.solve U (System.new inputs) (d a b) = some (Solution.ofVec fun i => if i = 0 then x else if i = 1 then y else 0) := by
      show (U (M a b) B).map Solution.ofVec = _
      rw [e]; rfl
    simp only [solveLoop, e', dir, if_neg hd]
  have stop : ∀ (U : MatrixDecomposition ℝ) (n : Nat) (a b : Direction), U (M a b) B = none →
      (solveLoop U (System.new inputs) (n + 1) (d a b)).1 = .error .decomposition := by
    intro U n a b e
    have e' : System.solve U (System.new inputs) (d a b) = none := by
      show (U (M a b) B).map Solution.ofVec = _
      rw [e]; rfl
    simp only [solveLoop, e']
  have n0 : ∀ b b', d .Positive b ≠ d .Negative b' := fun b b' e => by cases congrArg FlowDirection.ck e
  have n1 : ∀ a a', d a .Positive ≠ d a' .Negative := fun a a' e => by cases congrArg FlowDirection.kr e
  have run : ∀ U : MatrixDecomposition ℝ,
      (U (M .Positive .Positive) B = T (M .Positive .Positive) B ∨ U (M .Positive .Positive) B = none) →
      (U (M .Negative .Positive) B = T (M .Negative .Positive) B ∨ U (M .Negative .Positive) B = none) →
      (U (M .Negative .Negative) B = T (M .Negative .Negative) B ∨ U (M .Negative .Negative) B = none) →
      (U (M .Positive .Negative) B = T (M .Positive .Negative) B ∨ U (M .Positive .Negative) B = none) →
      solve U inputs (d .Positive .Positive) =
        if U (M .Positive .Positive) B = none ∨ U (M .Negative .Positive) B = none ∨ U (M .Negative .Negative) B = none ∨
          U (M .Positive .Negative) B = none then .error .decomposition else .error .flow_directions := by
    intro U c0 c1 c2 c3
    show (solveLoop U (System.new inputs) 4 (d .Positive .Positive)).1 = _
    rcases c0 with c0 | c0
    swap
    · rw [stop _ _ _ _ c0, if_pos (.inl c0)]
    rw [a0] at c0
    rw [pass _ _ _ _ _ _ c0 (by rw [pos, neg]; exact n0 _ _), pos, neg]
    rcases c1 with c1 | c1
    swap
    · rw [stop _ _ _ _ c1, if_pos (.inr (.inl c1))]
    rw [a1] at c1
    rw [pass _ _ _ _ _ _ c1 (by rw [neg]; exact n1 _ _), neg]
    rcases c2 with c2 | c2
    swap
    · rw [stop _ _ _ _ c2, if_pos (.inr (.inr (.inl c2)))]
    rw [a2] at c2
    rw [pass _ _ _ _ _ _ c2 (by rw [pos, neg]; exact (n0 _ _).symm), pos, neg]
    rcases c3 with c3 | c3
    swap
    · rw [stop _ _ _ _ c3, if_pos (.inr (.inr (.inr c3)))]
    rw [a3] at c3
    rw [pass _ _ _ _ _ _ c3 (by rw [pos]; exact (n1 _ _).symm), c0, c1, c2, c3]
    simp [solveLoop, v]
  have whole : solve T inputs (d .Positive .Positive) = .error .flow_directions := by
    rw [run T (.inl rfl) (.inl rfl) (.inl rfl) (.inl rfl), a0, a1, a2, a3]
    simp [v]
  obtain ⟨L, hL, hdec⟩ := h.decided T
  have absent : ∃ a b, (a = .Positive ∨ a = .Negative) ∧ (b = .Positive ∨ b = .Negative) ∧ (M a b, B) ∉ L := by
    by_contra hc
    push Not at hc
    have hsub : [(M .Positive .Positive, B), (M .Negative .Positive, B), (M .Negative .Negative, B), (M .Positive .Negative, B)] ⊆ L := by
      intro q hq
      simp only [List.mem_cons, List.not_mem_nil, or_false] at hq
      rcases hq with rfl | rfl | rfl | rfl <;> exact hc _ _ (by simp) (by simp)
    have hnd : [(M .Positive .Positive, B), (M .Negative .Positive, B), (M .Negative .Negative, B), (M .Positive .Negative, B)].Nodup := by
      simp only [List.nodup_cons, List.mem_cons, List.not_mem_nil, or_false, not_or, Prod.mk.injEq, List.nodup_nil,
        and_true, not_false_eq_true]
      exact ⟨⟨fun e => absurd e (first _ _), fun e => absurd e (first _ _), fun e => absurd e (second _ _)⟩,
        ⟨fun e => absurd e (second _ _), fun e => absurd e (second _ _)⟩, fun e => absurd e (first _ _).symm⟩
    have := (List.subperm_of_subset hnd hsub).length_le
    simp at this
    omega
  obtain ⟨a, b, ha, hb, hab⟩ := absent
  let T' : MatrixDecomposition ℝ := fun A x => if (A, x) = (M a b, B) then none else T A x
  have hT' := hdec T' fun q hq => if_neg fun (e : (q.1, q.2) = (M a b, B)) => hab (by rw [← e]; exact hq)
  have same : ∀ A, T' A B = T A B ∨ T' A B = none := fun A => by
    by_cases e : (A, B) = (M a b, B)
    · exact .inr (if_pos e)
    · exact .inl (if_neg e)
  have hn : T' (M a b) B = none := if_pos rfl
  have hw : solve T' inputs (d .Positive .Positive) = solve T inputs (d .Positive .Positive) := hT'
  rw [whole, run T' (same _) (same _) (same _) (same _), if_pos] at hw
  · cases hw
  · rcases ha with rfl | rfl <;> rcases hb with rfl | rfl <;> simp [hn]

section
open dopri5

theorem output_length (p : Problem α) : ∀ (outs : Nat) (s s' : dopri5.State α), output p outs s = some s' →
    s'.xOut.length ≤ s.xOut.length + outs := by
  intro outs
  induction outs with
  | zero => intro s s' h; simp [output] at h
  | succ outs ih =>
    intro s s' h
    rw [output] at h
    split at h
    · split at h
      · have := ih _ _ h
        simp only [List.length_append, List.length_cons, List.length_nil] at this
        omega
      · cases h
    · cases h; omega

theorem bounded_loop [HasPowf α] (p : Problem α) (outs : Nat) {P : Nat} : ∀ (passes : Nat) (s : dopri5.State α) (k0 : V3 α),
    s.xOut.length + passes * outs ≤ P → Bounded P (6 * passes) (loop p outs passes s k0) := by
  intro passes
  induction passes with
  | zero => exact fun s k0 _ => .failed _
  | succ passes ih =>
    intro s k0 hs
    rw [Nat.succ_mul] at hs
    rw [loop]
    split
    · exact .failed _
    · rw [Nat.mul_succ]
      unfold stages
      refine .eval _ _ _ _ fun k1 => .eval _ _ _ _ fun k2 => .eval _ _ _ _ fun k3 => .eval _ _ _ _ fun k4 =>
        .eval _ _ _ _ fun k5 => .eval _ _ _ _ fun k6 => ?_
      unfold conclude
      simp only
      split
      · split
        · exact .failed _
        · split
          · exact .failed _
          · rename_i s' e
            have hl := output_length p outs _ _ e
            simp only [advance] at hl
            split
            · exact .done _ _ _ (by omega)
            · exact ih _ _ (by simp only; omega)
      · exact ih _ _ (by simp only; omega)

/-- **C107**, the integrator: DOPRI5 asks for at most 600 009 derivatives per call. -/
theorem C107_dopri5 [HasPowf α] (outs : Nat) : BoundedOde (100001 * outs) 600009 (dopri5.solve (α := α) outs) := by
  intro x xEnd dx y rtol atol
  unfold dopri5.solve hinit
  refine .eval 600008 _ _ _ fun f0 => .eval 600007 _ _ _ fun f1 => .eval 600006 _ _ _ fun k0 => ?_
  exact bounded_loop _ _ 100001 _ _ (by simp)

theorem run_length {P E : Nat} {s : Stepper α} (hs : Bounded P E s) {cycle : Cycle α} :
    ∀ {dir xs ys log}, s.run cycle dir = .ok (some (xs, ys), log) → xs.length ≤ P := by
  induction hs with
  | failed E => intro dir xs ys log h; simp [Stepper.run] at h
  | done E xs ys hl => intro dir xs' ys' log h; simp [Stepper.run] at h; rw [← h.1.1]; exact hl
  | eval E t y k _ ih =>
    intro dir xs ys log h
    rw [Stepper.run] at h
    split at h
    · cases h
    · rename_i ev _
      split at h
      · cases h
      · rename_i out log' e
        cases h
        exact ih ev.dy e

theorem points_length {P E : Nat} {env : Env α} (hb : BoundedOde P E env.ode) {cycle : Cycle α} {ic : Conditions α}
    {n : UInt32} {tol : OdeTolerance α} {pts : List (Point α)} (h : integrationTryFrom env cycle ic n tol = .ok pts) :
    pts.length ≤ P := by
  unfold integrationTryFrom at h
  split at h
  · cases h
  · split at h
    · cases h
    · cases h
    · rename_i xs ys log e
      cases h
      have := run_length (hb _ _ _ _ _ _) e
      simp only [toPoints, List.length_map, List.length_zip]
      omega

/-- **C107** for the engine as it is run, in exact arithmetic: at most
`outer · ((inner + 1) · 2 400 036 + 4 · resolution)` linear systems. -/
theorem C107_engine (outs : Nat) (env : Env ℝ) (ho : env.ode = dopri5.solve outs) (c : Components ℝ) (fluid : Fluid ℝ)
    (inputs : RunInputs ℝ) (settings : RunSettings ℝ) (hc : Spec.Turning c settings.resolution) :
    AsksAtMost (settings.max_iters.outer
        * ((settings.max_iters.inner + 1) * 2400036 + 4 * settings.resolution.toNat)) fun T =>
      Engine.run env T c fluid inputs settings := by
  refine C107_run (ho ▸ C107_dopri5 outs) c fluid inputs settings fun T s ic pts h => ?_
  have hT : (Run.new T c s).toCycle.period = 1 / c.ws.frequency ⟨s.pres⟩ := by
    show 1.0 / c.ws.frequency ⟨s.pres⟩ = _
    rw [lit_1]
  have hf := hc.positive ⟨s.pres⟩
  have g := (C72_integration outs env ho (Run.new T c s).toCycle ic settings.resolution settings.ode_tol hc.resolution (by
    rw [hT, lt_div_iff₀ hf]; exact hc.interval _) pts h).1
  have := congrArg List.length g
  rw [List.length_map, List.length_map, List.length_range] at this
  exact this.le

/-- **C107** in any arithmetic, machine numbers included, if no step of the integrator gives more than `outs` points. -/
theorem C107_run_engine [HasPowf α] [HasInfinity α] (outs : Nat) (env : Env α) (ho : env.ode = dopri5.solve outs)
    (config : Config α) :
    AsksAtMost (config.solver.toRunSettings.max_iters.outer
        * ((config.solver.toRunSettings.max_iters.inner + 1) * 2400036 + 4 * (100001 * outs))) fun T =>
      run_engine env T config := by
  unfold run_engine
  refine AsksAtMost.after _ _ fun fluid => AsksAtMost.after _ _ fun c => ?_
  have hb : BoundedOde (100001 * outs) 600009 env.ode := ho ▸ C107_dopri5 outs
  exact (C107_run hb c fluid.toFluid config.conditions.toRunInputs config.solver.toRunSettings
    fun T s ic pts h => points_length hb h).map fun e => e >>= fun engine => (RunResults.ofEngine engine).lift

end

end Sett
