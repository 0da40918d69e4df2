import Verif.Props.Config
import Verif.Props.Engine

/-! # C99: a search that comes back to where it has been never ends -/

namespace Sett

open Spec state_equations api

variable {α : Type} [Scalar α]

/-! ## Inner loop -/

theorem substituted_limit {env : Env α} {cycle : Cycle α} {i : SteadyStateInputs α} (m : Nat) {n : Nat}
    {ic : Conditions α} (h : Substituted env cycle i n ic) :
    Substituted env cycle { i with max_iters := m } n ic := by
  induction h with
  | hints => exact .hints (i := { i with max_iters := m })
  | next _ h1 h2 ih => exact .next (i := { i with max_iters := m }) ih h1 h2

theorem substituted_shift {env : Env α} {cycle : Cycle α} {i : SteadyStateInputs α} {a b k : Nat}
    {ic ic' : Conditions α} (ha : Substituted env cycle i a ic) (hb : Substituted env cycle i b ic)
    (h : Substituted env cycle i (a + k) ic') : Substituted env cycle i (b + k) ic' := by
  induction k generalizing ic' with
  | zero =>
    obtain rfl := C33_unique _ _ _ _ _ _ ha h
    exact hb
  | succ k ih =>
    cases h with
    | next h0 h1 h2 => exact .next (ih h0) h1 h2

theorem substituted_lower {env : Env α} {cycle : Cycle α} {i : SteadyStateInputs α} {n m : Nat}
    {ic : Conditions α} (h : Substituted env cycle i n ic) (hm : m ≤ n) :
    ∃ ic', Substituted env cycle i m ic' := by
  induction h with
  | hints => obtain rfl : m = 0 := by omega
             exact ⟨_, .hints⟩
  | @next n ic f l h0 h1 h2 ih =>
    rcases Nat.lt_or_ge n m with h | h
    · obtain rfl : m = n + 1 := by omega
      exact ⟨_, .next h0 h1 h2⟩
    · exact ih h

/-- **C99**, inner loop: when a cycle starts from the very conditions an earlier cycle started from, no
iteration limit makes the search for the steady state succeed: it is reported as not converged under
every limit.  Any arithmetic, any integrator. -/
theorem C99_inner (env : Env α) (cycle : Cycle α) (i : SteadyStateInputs α) {n p : Nat} (hp : n < p)
    {ic : Conditions α} (h : Substituted env cycle i n ic) (h' : Substituted env cycle i p ic) (m : Nat) :
    findSteadyState env cycle { i with max_iters := m } = .error (.err .not_converged) := by
  rw [C33_not_converged_iff]
  have far : ∀ k, ∃ ic', Substituted env cycle i (p + k) ic' := by
    intro k
    induction k with
    | zero => exact ⟨_, h'⟩
    | succ k ih =>
      obtain ⟨ic', hk⟩ := ih
      obtain ⟨q, hq⟩ : ∃ q, p + k = n + q := ⟨p + k - n, by omega⟩
      have := substituted_shift h h' (k := q) (ic' := ic') (hq ▸ hk)
      exact substituted_lower this (by omega)
  obtain ⟨ic', h1⟩ := far m
  obtain ⟨ic'', h2⟩ := substituted_lower h1 (show m ≤ p + m by omega)
  exact ⟨ic'', substituted_limit m h2⟩

/-! ## Outer loop -/

/-- The working spaces do the same whatever the pressures they are shown. -/
structure Spec.BlindDrive (c : Components α) : Prop where
  frequency : ∀ q q', c.ws.frequency q = c.ws.frequency q'
  volumes : ∀ q q', c.ws.volumes q = c.ws.volumes q'
  parasitics : ∀ q q', c.ws.parasitics q = c.ws.parasitics q'
  thermal_resistance : ∀ q q', c.ws.thermal_resistance q = c.ws.thermal_resistance q'

/-- Two states that agree in what the next iteration depends on: the gas, all temperatures, and the
pressure at time zero. -/
structure Spec.SameOutset (s s' : State α) : Prop where
  fluid : s'.fluid = s.fluid
  temp : s'.temp = s.temp
  pres : s'.pres.t_zero = s.pres.t_zero
  imbalance : s'.regen_imbalance = s.regen_imbalance

section
variable {env : Env α} {U : MatrixDecomposition α} {c : Components α} {settings : RunSettings α}

theorem outset_inner {s s' : State α} (n : GasName) (hg : s.fluid = (IdealGas.new n).toFluid)
    (hw : BlindDrive c) (h : SameOutset s s') :
    Engine.inner env U c settings s' = Engine.inner env U c settings s := by
  obtain ⟨f, p, t, m, q, i⟩ := s
  obtain ⟨f', p', t', m', q', i'⟩ := s'
  obtain ⟨h1, h2, h3, h4⟩ := h
  simp only at h1 h2 h3 h4 hg
  subst h1 h2 h4 hg
  have e1 := fun q => hw.frequency q ⟨p⟩
  have e2 := fun q => hw.volumes q ⟨p⟩
  have e3 := fun q => hw.parasitics q ⟨p⟩
  simp only [Engine.inner, Engine.steadyInputs, Run.new, Run.toCycle, h3, State.ws, e1, e2, e3]
  rfl

theorem outset_recomputed {s s' t : State α} {v : Values α} (hw : BlindDrive c) (h : SameOutset s s')
    (hr : Recomputed c s v t) : Recomputed c s' v t := by
  obtain ⟨a1, a2, a3, a4, a5, a6, a7, a8, a9, a10⟩ := hr
  exact ⟨a1.trans h.fluid.symm, by rw [a2, h.temp], by rw [a3, h.temp], a4.trans h.imbalance.symm, a5, a6,
    by rw [h.temp, hw.thermal_resistance _ ⟨s.pres⟩]; exact a7, by rw [h.temp, h.fluid]; exact a8,
    by rw [h.temp, h.fluid]; exact a9, by rw [h.temp, h.fluid, h.imbalance]; exact a10⟩

/-- **C99**, outer loop, one iteration: for an ideal gas and a drive that does not react to pressures, two
states with the same temperatures and the same pressure at time zero have the same successor; averages and
flows of earlier iterations are forgotten. -/
theorem C99_memoryless {fluid : Fluid α} {inputs : RunInputs α} (n : GasName)
    (hg : fluid = (IdealGas.new n).toFluid) (hw : BlindDrive c) {a b : Nat} {s s' : State α}
    (h : Visited env U c settings (State.new_hint c fluid inputs) a s)
    (h' : Visited env U c settings (State.new_hint c fluid inputs) b s')
    (ht : s'.temp = s.temp) (hp : s'.pres.t_zero = s.pres.t_zero) :
    Engine.inner env U c settings s' = Engine.inner env U c settings s ∧
      ∀ t, Visited env U c settings (State.new_hint c fluid inputs) (a + 1) t ↔
        Visited env U c settings (State.new_hint c fluid inputs) (b + 1) t := by
  obtain ⟨i1, -, -, i2⟩ := visited_invariant _ _ _ _ _ _ h
  obtain ⟨j1, -, -, j2⟩ := visited_invariant _ _ _ _ _ _ h'
  have so : SameOutset s s' := ⟨j1.trans i1.symm, ht, hp, by
    cases e : s.regen_imbalance; cases e' : s'.regen_imbalance
    rw [e] at i2; rw [e'] at j2
    simp only at i2 j2
    rw [i2, j2]⟩
  have so' : SameOutset s' s := ⟨so.fluid.symm, so.temp.symm, so.pres.symm, so.imbalance.symm⟩
  have hI := outset_inner (env := env) (U := U) (settings := settings) n (i1.trans hg) hw so
  refine ⟨hI, fun t => ⟨fun g => ?_, fun g => ?_⟩⟩
  · cases g with
    | next g0 g1 g2 g3 =>
      obtain rfl := visited_unique g0 h
      exact .next h' (hI.trans g1) (outset_recomputed hw so g2) (by rw [ht]; exact g3)
  · cases g with
    | next g0 g1 g2 g3 =>
      obtain rfl := visited_unique g0 h'
      exact .next h (hI.symm.trans g1) (outset_recomputed hw so' g2) (by rw [← ht]; exact g3)

theorem visited_limit {start : State α} (m : Nat) {n : Nat} {s : State α}
    (h : Visited env U c settings start n s) :
    Visited env U c { settings with max_iters := { settings.max_iters with outer := m } } start n s := by
  induction h with
  | start => exact .start
  | next _ h1 h2 h3 ih => exact .next ih h1 h2 h3

theorem visited_lower {start : State α} {n m : Nat} {s : State α}
    (h : Visited env U c settings start n s) (hm : m ≤ n) :
    ∃ s', Visited env U c settings start m s' := by
  induction h with
  | start => obtain rfl : m = 0 := by omega
             exact ⟨_, .start⟩
  | @next n s s' vs h0 h1 h2 h3 ih =>
    rcases Nat.lt_or_ge n m with h | h
    · obtain rfl : m = n + 1 := by omega
      exact ⟨_, .next h0 h1 h2 h3⟩
    · exact ih h

/-- **C99**, outer loop: when the temperatures and the pressure at time zero of an iteration equal those of
an earlier one, no iteration limit makes the run succeed: every limit gives the error of the outer loop.
Any arithmetic, any integrator, any exchangers. -/
theorem C99_outer {fluid : Fluid α} {inputs : RunInputs α} (n : GasName)
    (hg : fluid = (IdealGas.new n).toFluid) (hw : BlindDrive c) {a b : Nat} (hab : a < b) {s s' : State α}
    (h : Visited env U c settings (State.new_hint c fluid inputs) a s)
    (h' : Visited env U c settings (State.new_hint c fluid inputs) b s')
    (ht : s'.temp = s.temp) (hp : s'.pres.t_zero = s.pres.t_zero) (m : Nat) :
    Engine.run env U c fluid inputs { settings with max_iters := { settings.max_iters with outer := m } }
      = .error (.err .OuterLoop) := by
  set V := Visited env U c settings (State.new_hint c fluid inputs) with hV
  obtain ⟨-, hn⟩ := C99_memoryless n hg hw h h' ht hp
  have shift : ∀ k t, V (a + 1 + k) t → V (b + 1 + k) t := by
    intro k
    induction k with
    | zero => intro t g; exact (hn t).1 g
    | succ k ih =>
      intro t g
      cases g with
      | next g0 g1 g2 g3 => exact .next (ih _ g0) g1 g2 g3
  obtain ⟨t, h1⟩ : ∃ t, V (b + 1) t := by
    obtain ⟨t, g⟩ := visited_lower h' (show a + 1 ≤ b by omega)
    exact ⟨t, (hn t).1 g⟩
  have far : ∀ k, ∃ t, V (b + 1 + k) t := by
    intro k
    induction k with
    | zero => exact ⟨t, h1⟩
    | succ k ih =>
      obtain ⟨t', hk⟩ := ih
      obtain ⟨q, hq⟩ : ∃ q, b + 1 + k = a + 1 + q := ⟨b + k - a, by omega⟩
      exact visited_lower (shift q t' (hq ▸ hk)) (by omega)
  obtain ⟨t', h2⟩ := far m
  obtain ⟨t'', h3⟩ := visited_lower h2 (show m ≤ b + 1 + m by omega)
  exact (C38_outer_loop_iff ..).2 ⟨t'', visited_limit m h3⟩

end

/-! ## Configurations -/

/-- The configuration with another limit of outer iterations. -/
def Spec.withOuterLimit (m : UInt32) (c : Config α) : Config α :=
  { c with solver := { c.solver with outer_loop := { c.solver.outer_loop with max_iterations := m } } }

theorem asked_blind {c : Config α} {x : Components α} {g : IdealGas α} (h : Asked c x g) : BlindDrive x := by
  obtain ⟨xw, xk, xr, xl⟩ := x
  have hw := h.ws
  generalize c.engine.components.ws = w at hw
  simp only at hw
  cases hw with
  | sinusoidal _ _ h1 h2 h3 h4 =>
    exact ⟨fun q q' => by simp only [h1], fun q q' => by funext t; rw [h2, h2, h4, h4],
      fun q q' => by simp only [h4], fun q q' => by simp only [h3]⟩
  | rhombic _ _ h1 h2 h3 h4 =>
    obtain ⟨d, -, h2⟩ := h2
    exact ⟨fun q q' => by simp only [h1], fun q q' => by funext t; rw [h2, h2, h4, h4],
      fun q q' => by simp only [h4], fun q q' => by simp only [h3]⟩

/-- **C99**, configurations: when the outer loop of a configuration meets temperatures and a pressure at time
zero it has met before, `run_engine` reports the error of the outer loop for this configuration with any
other limit of outer iterations. -/
theorem C99_run_engine (env : Env α) (lu : MatrixDecomposition α) (c : Config α) (hs : Supported c) :
    ∃ x g, Asked c x g ∧ ∀ (a b : Nat) (s s' : State α), a < b →
      Visited env lu x (settingsOf c) (State.new_hint x g.toFluid (inputsOf c)) a s →
      Visited env lu x (settingsOf c) (State.new_hint x g.toFluid (inputsOf c)) b s' →
      s'.temp = s.temp → s'.pres.t_zero = s.pres.t_zero →
      ∀ m, run_engine env lu (withOuterLimit m c) = .error (.err .OuterLoop) := by
  rcases build_cases c with ⟨-, x, g, h1, h2, h3⟩ | ⟨h', -⟩
  swap; · exact absurd hs h'
  refine ⟨x, g, h3, ?_⟩
  intro a b s s' hab h h' ht hp m
  have key := C99_outer (fluid := g.toFluid) (Spec.gas c.engine.fluid) (by rw [h3.fluid]) (asked_blind h3) hab
    h h' ht hp m.toNat
  unfold run_engine
  rw [show (withOuterLimit m c).engine = c.engine from rfl, h1, h2]
  simp only [Panics.lift, bind, Except.bind]
  erw [key]

end Sett
