import Verif.Model.Lib
import Verif.Props.Config
import Verif.Props.FixedApproach

/-! # C67, C68: the command-line entry point and the example programs -/

namespace Sett

open state_equations Spec

section
variable {α : Type} [Scalar α]

theorem lib_selectFluid (f : fluid.Config) :
    (∃ g : IdealGas α, lib.selectFluid f = .ok g ∧ selectFluid f = .ok g) ∨
    ∃ s s', lib.selectFluid (α := α) f = .error (.panic s) ∧
      selectFluid (α := α) f = .error (.panic s') := by
  rcases f with (_ | _ | _ | _) | (_ | _ | _ | _)
  all_goals first
    | exact .inl ⟨_, rfl, rfl⟩
    | exact .inr ⟨_, _, rfl, rfl⟩

/-- What `run_from_config` writes when the engine converges with results `r`. -/
def Spec.printout (r : api.RunResults α) : List (lib.Line α) :=
  [.rule, .time r.values.time, .P r.values.P, .T_c r.values.T_c, .T_e r.values.T_e, .results r]

theorem printed_values {e : Engine α} {r : api.RunResults α} (h : RunResults.ofEngine e = .ok r) :
    r.values.time = e.values.time ∧ r.values.P = e.values.P ∧ r.values.T_c = e.values.T_c ∧
      r.values.T_e = e.values.T_e := by
  unfold RunResults.ofEngine at h
  cases hp : performance.Performance.ofEngine e with
  | error x => rw [hp] at h; cases h
  | ok p => rw [hp] at h; cases h; exact ⟨rfl, rfl, rfl, rfl⟩

/-- **C67.** The example entry point and `run_engine` are the same computation: it completes exactly when
`run_engine` succeeds and then prints that very report; otherwise it prints nothing and panics, at the
`expect` when the run did not converge. -/
theorem C67_run_from_config (env : Env α) (lu : MatrixDecomposition α) (c : Config α) :
    (∃ r, run_engine env lu c = .ok r ∧ lib.run_from_config env lu c = (printout r, .ok ())) ∨
    (∃ x, run_engine env lu c = .error (.err x) ∧
      lib.run_from_config env lu c = ([], .error (.panic "lib.rs:52"))) ∨
    ∃ s s', run_engine env lu c = .error (.panic s) ∧
      lib.run_from_config env lu c = ([], .error (.panic s')) := by
  rcases lib_selectFluid (α := α) c.engine.fluid with ⟨g, f1, f2⟩ | ⟨s, s', f1, f2⟩
  swap
  · refine .inr (.inr ⟨s', s, ?_, ?_⟩)
    · unfold run_engine; rw [f2]; rfl
    · unfold lib.run_from_config; rw [f1]
  cases hb : c.engine.components.build with
  | error e =>
    obtain ⟨s⟩ | ⟨⟨⟩⟩ := e
    refine .inr (.inr ⟨s, s, ?_, ?_⟩)
    · unfold run_engine; rw [f2, hb]; rfl
    · unfold lib.run_from_config; rw [f1, hb]
  | ok k =>
    have hr : run_engine env lu c = (do
        let e ← Engine.run env lu k g.toFluid c.conditions.toRunInputs c.solver.toRunSettings
        (RunResults.ofEngine e).lift) := by
      unfold run_engine; rw [f2, hb]; rfl
    cases he : Engine.run env lu k g.toFluid c.conditions.toRunInputs c.solver.toRunSettings with
    | error x =>
      rw [he] at hr
      cases x with
      | panic s =>
        refine .inr (.inr ⟨s, s, hr, ?_⟩)
        unfold lib.run_from_config; rw [f1, hb]; simp only [he]
      | err x =>
        refine .inr (.inl ⟨x, hr, ?_⟩)
        unfold lib.run_from_config; rw [f1, hb]; simp only [he]
    | ok e =>
      rw [he] at hr
      obtain ⟨-, -, vs, -, -, -, h3, -⟩ := C36_values_are_steady env lu k g.toFluid _ _ e he
      obtain ⟨r, ho⟩ := results_ok e vs h3
      refine .inl ⟨r, by rw [hr]; simp [bind, Except.bind, ho, Panics.lift], ?_⟩
      obtain ⟨h1, h2, h3, h4⟩ := printed_values ho
      unfold lib.run_from_config; rw [f1, hb]; simp only [he, ho, printout, h1, h2, h3, h4]
      rfl

/-! ## C68 -/

/-- Settings that differ at most in how the outer loop is controlled. -/
structure Spec.SameInner (s s' : RunSettings α) : Prop where
  resolution : s'.resolution = s.resolution
  inner : s'.loop_tol.inner = s.loop_tol.inner
  ode : s'.ode_tol = s.ode_tol
  limit : s'.max_iters.inner = s.max_iters.inner

theorem inner_same {s s' : RunSettings α} (h : SameInner s s') (env : Env α)
    (U : MatrixDecomposition α) (c : Components α) (x : State α) :
    Engine.inner env U c s' x = Engine.inner env U c s x := by
  obtain ⟨h1, h2, h3, h4⟩ := h
  unfold Engine.inner Engine.steadyInputs
  rw [h1, h2, h3, h4]

theorem run_first (env : Env α) (U : MatrixDecomposition α) (c : Components α) (fluid : Fluid α)
    (inputs : RunInputs α) (s : RunSettings α) (hm : 1 ≤ s.max_iters.outer) :
    (∀ x, Engine.inner env U c s (State.new_hint c fluid inputs) = .error (.err x) →
      Engine.run env U c fluid inputs s = .error (.err .InnerLoop)) ∧
    (∀ p, Engine.inner env U c s (State.new_hint c fluid inputs) = .error (.panic p) →
      Engine.run env U c fluid inputs s = .error (.panic p)) ∧
    (Engine.inner env U c s (State.new_hint c fluid inputs) = .ok [] →
      Engine.run env U c fluid inputs s = .error (.panic "state.rs:419")) := by
  obtain ⟨n, hn⟩ : ∃ n, s.max_iters.outer = n + 1 := ⟨s.max_iters.outer - 1, by omega⟩
  unfold Engine.run Engine.runLogged
  rw [hn]
  refine ⟨fun x hx => ?_, fun p hp => ?_, fun h0 => ?_⟩
  · unfold Engine.runLoop; rw [hx]
  · unfold Engine.runLoop; rw [hp]
  · unfold Engine.runLoop; rw [h0]; rfl

/-- **C68**, any arithmetic.  The outer tolerance and the outer limit of a fixed-approach engine whose
temperatures are close to themselves have no effect on the outcome of a run. -/
theorem C68_outer_irrelevant (env : Env α) (U : MatrixDecomposition α) (w : ws.WorkingSpaces α)
    (k : chx.FixedApproach α) (r : regen.FixedApproach α) (l : hhx.FixedApproach α)
    (fluid : Fluid α) (inputs : RunInputs α) (s s' : RunSettings α) (h : SameInner s s')
    (hm : 1 ≤ s.max_iters.outer) (hm' : 1 ≤ s'.max_iters.outer)
    (hc : SelfClose s.loop_tol.outer
      (State.new_hint (fixedApproachEngine w k r l) fluid inputs).temp)
    (hc' : SelfClose s'.loop_tol.outer
      (State.new_hint (fixedApproachEngine w k r l) fluid inputs).temp) :
    Engine.run env U (fixedApproachEngine w k r l) fluid inputs s'
      = Engine.run env U (fixedApproachEngine w k r l) fluid inputs s := by
  have hi' := inner_same h env U (fixedApproachEngine w k r l)
    (State.new_hint (fixedApproachEngine w k r l) fluid inputs)
  obtain ⟨a1, a2, a3⟩ := run_first env U (fixedApproachEngine w k r l) fluid inputs s hm
  obtain ⟨b1, b2, b3⟩ := run_first env U (fixedApproachEngine w k r l) fluid inputs s' hm'
  rw [hi'] at b1 b2 b3
  cases hi : Engine.inner env U (fixedApproachEngine w k r l) s
      (State.new_hint (fixedApproachEngine w k r l) fluid inputs) with
  | error e =>
    cases e with
    | err x => rw [a1 x hi, b1 x hi]
    | panic p => rw [a2 p hi, b2 p hi]
  | ok vs =>
    by_cases hv : vs = []
    · rw [hv] at hi; rw [a3 hi, b3 hi]
    · have g := C39_one_iteration env U w k r l fluid inputs s vs hm hi hv hc
      have g' := C39_one_iteration env U w k r l fluid inputs s' vs hm' (hi'.trans hi) hv hc'
      unfold Engine.run
      rw [g, g']

end

/-- **C68** for configurations, exact arithmetic: of two configurations with fixed-approach exchangers that
differ only in the outer loop's positive tolerances and positive limit, both give the same outcome. -/
theorem C68_run_engine (env : Env ℝ) (lu : MatrixDecomposition ℝ) (c c' : Config ℝ)
    (k : chx.FixedApproach.Config ℝ) (r : regen.FixedApproach.Config ℝ)
    (l : hhx.FixedApproach.Config ℝ) (hk : c.engine.components.chx = .FixedApproach k)
    (hr : c.engine.components.regen = .FixedApproach r)
    (hl : c.engine.components.hhx = .FixedApproach l) (h1 : c'.engine = c.engine)
    (h2 : c'.conditions = c.conditions) (h3 : c'.solver.inner_loop = c.solver.inner_loop)
    (h4 : c'.solver.ode = c.solver.ode)
    (hm : c.solver.outer_loop.max_iterations.toNat ≠ 0)
    (hm' : c'.solver.outer_loop.max_iterations.toNat ≠ 0)
    (ha : 0 < c.solver.outer_loop.tolerance.abs) (hb : 0 < c.solver.outer_loop.tolerance.rel)
    (ha' : 0 < c'.solver.outer_loop.tolerance.abs) (hb' : 0 < c'.solver.outer_loop.tolerance.rel) :
    run_engine env lu c' = run_engine env lu c := by
  obtain ⟨⟨f, ⟨kc, lc, rc, wc⟩⟩, ⟨i, o, d⟩, cd⟩ := c
  obtain ⟨e', ⟨i', o', d'⟩, cd'⟩ := c'
  simp only at hk hr hl h1 h2 h3 h4 hm hm' ha hb ha' hb'
  subst hk hr hl h1 h2 h3 h4
  unfold run_engine
  simp only
  congr 1
  funext g
  cases hw : wc.build with
  | error p =>
    have : ComponentsConfig.build ⟨.FixedApproach k, .FixedApproach l, .FixedApproach r, wc⟩
        = .error p := by unfold ComponentsConfig.build; simp only [hw]; rfl
    rw [this]
    obtain ⟨s⟩ | ⟨⟨⟩⟩ := p
    rfl
  | ok w =>
    have : ComponentsConfig.build ⟨.FixedApproach k, .FixedApproach l, .FixedApproach r, wc⟩
        = .ok (fixedApproachEngine w (chx.FixedApproach.ofConfig k) (regen.FixedApproach.ofConfig r)
            (hhx.FixedApproach.ofConfig l)) := by
      unfold ComponentsConfig.build; simp only [hw]; rfl
    rw [this]
    have hq := C68_outer_irrelevant env lu w (chx.FixedApproach.ofConfig k)
      (regen.FixedApproach.ofConfig r) (hhx.FixedApproach.ofConfig l) g.toFluid cd'.toRunInputs
      (SolverConfig.toRunSettings ⟨i', o, d'⟩) (SolverConfig.toRunSettings ⟨i', o', d'⟩)
      ⟨rfl, rfl, rfl, rfl⟩ (Nat.one_le_iff_ne_zero.2 hm) (Nat.one_le_iff_ne_zero.2 hm')
      ⟨within_self _ ha hb _, within_self _ ha hb _, within_self _ ha hb _, within_self _ ha hb _,
        within_self _ ha hb _⟩
      ⟨within_self _ ha' hb' _, within_self _ ha' hb' _, within_self _ ha' hb' _,
        within_self _ ha' hb' _, within_self _ ha' hb' _⟩
    show (do
      let engine ← Engine.run env lu _ g.toFluid cd'.toRunInputs
        (SolverConfig.toRunSettings ⟨i', o', d'⟩)
      (RunResults.ofEngine engine).lift) = (do
      let engine ← Engine.run env lu _ g.toFluid cd'.toRunInputs
        (SolverConfig.toRunSettings ⟨i', o, d'⟩)
      (RunResults.ofEngine engine).lift)
    rw [hq]

/-! ## The example programs -/

/-- The two printed outcomes agree whenever `run_engine` does. -/
theorem ran_congr {α : Type} [Scalar α] (env : Env α) (lu : MatrixDecomposition α) (c c' : Config α)
    (h : run_engine env lu c' = run_engine env lu c) :
    (lib.run_from_config env lu c').1 = (lib.run_from_config env lu c).1 ∧
      ((lib.run_from_config env lu c').2 = .ok () ↔ (lib.run_from_config env lu c).2 = .ok ()) := by
  rcases C67_run_from_config env lu c with ⟨r, a1, a2⟩ | ⟨x, a1, a2⟩ | ⟨s, s', a1, a2⟩ <;>
  rcases C67_run_from_config env lu c' with ⟨r', b1, b2⟩ | ⟨x', b1, b2⟩ | ⟨t, t', b1, b2⟩ <;>
  rw [h, a1] at b1 <;> cases b1 <;> rw [a2, b2] <;> simp

/-- **C68.** The TOML example and the legacy JSON example write the same output, although their outer
tolerances differ. -/
theorem C68_examples_agree [HasInfinity ℝ] (env : Env ℝ) (lu : MatrixDecomposition ℝ) :
    (examples.legacyMain env lu).1 = (examples.configMain env lu).1 ∧
      ((examples.legacyMain env lu).2 = .ok () ↔ (examples.configMain env lu).2 = .ok ()) := by
  apply ran_congr
  refine C68_run_engine env lu examples.config (examples.legacy).toConfig _ _ _ rfl rfl rfl rfl rfl rfl
    rfl (show (20 : UInt32).toNat ≠ 0 by decide) (show (20 : UInt32).toNat ≠ 0 by decide) ?_ ?_ ?_ ?_ <;>
  norm_num [examples.config, examples.legacy, Legacy.toConfig, LegacySolverConfig.toSolver]

/-- The components of the sweep example are those of the configuration examples. -/
theorem simple_components [HasInfinity ℝ] :
    (examples.config (α := ℝ)).engine.components.build = .ok examples.simpleComponents := by
  have h1 : (chx.FixedApproach.default : chx.FixedApproach ℝ)
      = chx.FixedApproach.ofConfig ⟨4e-5, 40.0, 0.0, 0.0⟩ := by
    simp only [chx.FixedApproach.default, chx.FixedApproach.ofConfig, ParasiticPower.default]
    norm_num
  have h2 : (regen.FixedApproach.default : regen.FixedApproach ℝ)
      = regen.FixedApproach.ofConfig ⟨1e-4, 10.0, 0.0, 0.0⟩ := by
    simp only [regen.FixedApproach.default, regen.FixedApproach.ofConfig, ParasiticPower.default]
    norm_num
  have h3 : (hhx.FixedApproach.default : hhx.FixedApproach ℝ)
      = hhx.FixedApproach.ofConfig ⟨1e-4, 100.0, 0.0, 0.0, 0.0⟩ := by
    simp only [hhx.FixedApproach.default, hhx.FixedApproach.ofConfig, ParasiticPower.default]
    norm_num
  unfold examples.simpleComponents
  rw [h1, h2, h3]
  rfl

/-- **C68.** The first step of the sweep example is the run of the configuration examples: it writes the same
four series when they succeed and panics without output when they do not. -/
theorem C68_sweep_first [HasInfinity ℝ] (env : Env ℝ) (lu : MatrixDecomposition ℝ) :
    (∃ r, run_engine env lu examples.config = .ok r ∧ examples.simpleStep env lu 0
      = ([.rule, .T_hot 500, .time r.values.time, .P r.values.P, .T_c r.values.T_c,
          .T_e r.values.T_e], .ok ())) ∨
    ((∀ r, run_engine env lu examples.config ≠ .ok r) ∧
      ∃ s, examples.simpleStep env lu 0 = ([], .error (.panic s)) ∧
        examples.simpleMain env lu = ([], .error (.panic s))) := by
  have hT : (examples.simpleSource 0 : ℝ) = 500.0 := by
    unfold examples.simpleSource
    show (500.0 : ℝ) + 5.0 * ((0 : ℕ) : ℝ) = 500.0
    norm_num
  have h5 : (500.0 : ℝ) = 500 := by norm_num
  have hr : run_engine env lu examples.config = (do
      let e ← Engine.run env lu examples.simpleComponents IdealGas.hydrogen.toFluid
        ⟨10e6, 300.0, 500.0⟩ examples.simpleSettings
      (RunResults.ofEngine e).lift) := by
    unfold run_engine
    rw [simple_components]
    rfl
  have hfail : ∀ s, examples.simpleStep env lu 0 = ([], .error (.panic s)) →
      examples.simpleMain env lu = ([], .error (.panic s)) := by
    intro s hs
    unfold examples.simpleMain examples.simpleFrom
    rw [hs]
  cases he : Engine.run env lu examples.simpleComponents IdealGas.hydrogen.toFluid
      ⟨10e6, 300.0, 500.0⟩ examples.simpleSettings with
  | error x =>
    right
    rw [he] at hr
    cases x with
    | panic s =>
      have : examples.simpleStep env lu 0 = ([], .error (.panic s)) := by
        unfold examples.simpleStep; rw [hT, he]
      exact ⟨fun r h => (by rw [hr] at h; cases h), s, this, hfail s this⟩
    | err x =>
      have : examples.simpleStep env lu 0 = ([], .error (.panic "run_simple_engine.rs:62")) := by
        unfold examples.simpleStep; rw [hT, he]
      exact ⟨fun r h => (by rw [hr] at h; cases h), _, this, hfail _ this⟩
  | ok e =>
    left
    rw [he] at hr
    obtain ⟨-, -, vs, -, -, -, h3, -⟩ := C36_values_are_steady env lu _ _ _ _ e he
    obtain ⟨r, ho⟩ := results_ok e vs h3
    obtain ⟨h1, h2, h3, h4⟩ := printed_values ho
    refine ⟨r, by rw [hr]; simp [bind, Except.bind, ho, Panics.lift], ?_⟩
    unfold examples.simpleStep
    rw [hT, he, h1, h2, h3, h4, h5]

/-- **C68.** The sweep writes six lines for each of the source temperatures 500, 505, …, 1000 in order,
provided every step's engine converges; otherwise it stops at the first step that does not. -/
theorem C68_sweep [HasInfinity ℝ] (env : Env ℝ) (lu : MatrixDecomposition ℝ) :
    ∃ n : ℕ, n ≤ 101 ∧ (∀ i < n, ∃ e, Engine.run env lu examples.simpleComponents IdealGas.hydrogen.toFluid
          ⟨10e6, 300.0, 500 + 5 * i⟩ examples.simpleSettings = .ok e) ∧
      (examples.simpleMain env lu).1.filterMap (fun | .T_hot t => some t | _ => none)
        = (List.range n).map (fun i : ℕ => (500 + 5 * i : ℝ)) ∧
      (examples.simpleMain env lu).1.length = 6 * n ∧
      ((examples.simpleMain env lu).2 = .ok () ↔ n = 101) ∧
      (n < 101 → ∀ e, Engine.run env lu examples.simpleComponents IdealGas.hydrogen.toFluid
          ⟨10e6, 300.0, 500 + 5 * n⟩ examples.simpleSettings ≠ .ok e) := by
  have hT : ∀ i : ℕ, (examples.simpleSource i : ℝ) = 500 + 5 * i := by
    intro i
    unfold examples.simpleSource
    show (500.0 : ℝ) + 5.0 * ((i : ℕ) : ℝ) = 500 + 5 * i
    norm_num
  have key : ∀ m step, ∃ n ≤ m, (∀ i < n, ∃ e, Engine.run env lu examples.simpleComponents
          IdealGas.hydrogen.toFluid ⟨10e6, 300.0, 500 + 5 * ((step + i : ℕ) : ℝ)⟩
          examples.simpleSettings = .ok e) ∧
      (examples.simpleFrom env lu m step).1.filterMap (fun | .T_hot t => some t | _ => none)
        = (List.range n).map (fun i : ℕ => (500 + 5 * ((step + i : ℕ) : ℝ))) ∧
      (examples.simpleFrom env lu m step).1.length = 6 * n ∧
      ((examples.simpleFrom env lu m step).2 = .ok () ↔ n = m) ∧
      (n < m → ∀ e, Engine.run env lu examples.simpleComponents IdealGas.hydrogen.toFluid
          ⟨10e6, 300.0, 500 + 5 * ((step + n : ℕ) : ℝ)⟩ examples.simpleSettings ≠ .ok e) := by
    intro m
    induction m with
    | zero => intro step; exact ⟨0, le_rfl, by simp, by simp [examples.simpleFrom],
        by simp [examples.simpleFrom], by simp [examples.simpleFrom], by simp⟩
    | succ m ih =>
      intro step
      cases he : Engine.run env lu examples.simpleComponents IdealGas.hydrogen.toFluid
          ⟨10e6, 300.0, 500 + 5 * (step : ℝ)⟩ examples.simpleSettings with
      | error x =>
        have hs : ∃ f, examples.simpleStep env lu step = ([], .error f) := by
          unfold examples.simpleStep
          rw [hT, he]
          cases x <;> exact ⟨_, rfl⟩
        obtain ⟨f, hs⟩ := hs
        have hf : examples.simpleFrom env lu (m + 1) step = ([], .error f) := by
          unfold examples.simpleFrom; rw [hs]
        refine ⟨0, by omega, by simp, by simp [hf], by simp [hf], by simp [hf], fun _ e => ?_⟩
        rw [Nat.add_zero, he]; simp
      | ok e =>
        obtain ⟨n, h0, h1, h2, h3, h4, h5⟩ := ih (step + 1)
        have hs : examples.simpleStep env lu step = ([.rule, .T_hot (500 + 5 * (step : ℝ)),
            .time e.values.time, .P e.values.P, .T_c e.values.T_c, .T_e e.values.T_e], .ok ()) := by
          unfold examples.simpleStep
          rw [hT, he]
        have hf : examples.simpleFrom env lu (m + 1) step
            = ([.rule, .T_hot (500 + 5 * (step : ℝ)), .time e.values.time, .P e.values.P,
                .T_c e.values.T_c, .T_e e.values.T_e] ++ (examples.simpleFrom env lu m (step + 1)).1,
              (examples.simpleFrom env lu m (step + 1)).2) := by
          conv_lhs => unfold examples.simpleFrom
          rw [hs]
        refine ⟨n + 1, by omega, ?_, ?_, ?_, ?_, ?_⟩
        · intro i hi
          cases i with
          | zero => exact ⟨e, he⟩
          | succ i =>
            obtain ⟨e', he'⟩ := h1 i (by omega)
            exact ⟨e', by rw [show step + (i + 1) = step + 1 + i by omega]; exact he'⟩
        · rw [hf, List.filterMap_append, h2, List.range_succ_eq_map, List.map_cons, List.map_map]
          simp only [List.filterMap_cons, List.filterMap_nil, List.singleton_append, Nat.add_zero]
          congr 1
          apply List.map_congr_left
          intro i _
          simp only [Function.comp, Nat.succ_eq_add_one]
          rw [show step + (i + 1) = step + 1 + i by omega]
        · rw [hf, List.length_append, h3]; simp only [List.length_cons, List.length_nil]; omega
        · rw [hf, h4]; omega
        · intro hn
          rw [show step + (n + 1) = step + 1 + n by omega]
          exact h5 (by omega)
  obtain ⟨n, h0, h1, h2, h3, h4, h5⟩ := key 101 0
  simp only [Nat.zero_add] at h1 h2 h5
  exact ⟨n, h0, h1, h2, h3, h4, h5⟩

end Sett
