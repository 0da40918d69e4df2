import Verif.Spec.Walls
import Verif.Props.Config
import Verif.Props.Performance

/-! # C98: a fixed-approach engine reports its starting guess as its averages -/

namespace Sett

open Spec state_equations api

section
variable {α : Type} [Scalar α] {c : Components α} {env : Env α} {U : MatrixDecomposition α}
  {fluid : Fluid α} {inputs : RunInputs α} {settings : RunSettings α}

/-- Exchangers whose approach is a constant. -/
structure ConstantApproaches (c : Components α) : Prop where
  chx : ∀ q, c.chx.approach q = c.chx.initial_approach
  regen : ∀ q, c.regen.approach q = c.regen.initial_approach
  hhx : ∀ q, c.hhx.approach q = c.hhx.initial_approach

theorem constant_temps (hc : ConstantApproaches c) {s s' : State α} {v : Values α}
    (h1 : s.temp = (State.new_hint c fluid inputs).temp)
    (h2 : s.regen_imbalance = (State.new_hint c fluid inputs).regen_imbalance)
    (h : Recomputed c s v s') :
    s'.temp = (State.new_hint c fluid inputs).temp ∧
      s'.regen_imbalance = (State.new_hint c fluid inputs).regen_imbalance := by
  have e1 := h.chx; have e2 := h.hhx; have e3 := h.regen
  have e4 := h.sink; have e5 := h.source
  rw [hc.chx, h1] at e1
  rw [hc.hhx, h1] at e2
  rw [hc.regen, h2, e1, e2] at e3
  rw [h1] at e4 e5
  refine ⟨?_, h.imbalance.trans h2⟩
  obtain ⟨f, p, ⟨t1, t2, t3, t4, t5⟩, m, q, i⟩ := s'
  simp only at e1 e2 e3 e4 e5
  subst e1 e2 e3 e4 e5
  rfl

/-- **C98**, engine: an engine with constant approaches is returned, if at all, in the state it was started
from, before anything was computed.  Any arithmetic. -/
theorem C98_engine (hc : ConstantApproaches c) (e : Engine α)
    (h : Engine.run env U c fluid inputs settings = .ok e) :
    e.state = State.new_hint c fluid inputs := by
  obtain ⟨n, vs, s', -, h2, -, -, -, h6, h7⟩ := (C36_ok_iff _ _ _ _ _ _ e).1 h
  have key : ∀ n s, Visited env U c settings (State.new_hint c fluid inputs) n s →
      s.temp = (State.new_hint c fluid inputs).temp ∧
      s.regen_imbalance = (State.new_hint c fluid inputs).regen_imbalance ∧
      (s = State.new_hint c fluid inputs ∨ ¬Close settings.loop_tol.outer
        (State.new_hint c fluid inputs).temp (State.new_hint c fluid inputs).temp) := by
    intro n s hs
    induction hs with
    | start => exact ⟨rfl, rfl, .inl rfl⟩
    | next hv hi hr hn ih =>
      obtain ⟨i1, i2, -⟩ := ih
      obtain ⟨j1, j2⟩ := constant_temps hc i1 i2 hr
      rw [i1, j1] at hn
      exact ⟨j1, j2, .inr hn⟩
  obtain ⟨k1, k2, k3⟩ := key n _ h2
  obtain ⟨j1, -⟩ := constant_temps hc k1 k2 h6
  rw [k1, j1] at h7
  exact k3.resolve_right fun hn => hn h7

/-- **C98.** Whenever an engine whose three exchangers are configured by their approaches runs, its report
says: no mass flow through any exchanger, no heat flow through any exchanger, and a mean, greatest and least
pressure all equal to the configured starting pressure; whatever the reported series are. -/
theorem C98_run_engine (env : Env α) (lu : MatrixDecomposition α) (c : Config α) (hc : FixedApproaches c)
    (r : RunResults α) (h : run_engine env lu c = .ok r) :
    r.mass_flow = ⟨0.0, 0.0, 0.0⟩ ∧
      r.heat_flow.chx = 0.0 ∧ r.heat_flow.regen = 0.0 ∧ r.heat_flow.hhx = 0.0 ∧
      r.pressure = ⟨c.conditions.pres_zero, c.conditions.pres_zero, c.conditions.pres_zero,
        c.conditions.pres_zero⟩ := by
  obtain ⟨-, x, g, e, hx, he, hr⟩ := C50_ok_only_if_run_ok env lu c r h
  have hk : ConstantApproaches x := by
    obtain ⟨⟨p1, h1⟩, ⟨p2, h2⟩, ⟨p3, h3⟩⟩ := hc
    have a1 := hx.chx; have a2 := hx.regen; have a3 := hx.hhx
    rw [h1] at a1; rw [h2] at a2; rw [h3] at a3
    refine ⟨fun q => ?_, fun q => ?_, fun q => ?_⟩
    · generalize x.chx = y at a1
      cases a1 with
      | fixedApproach p _ h1 h2 h3 => rw [h2, h3]
    · generalize x.regen = y at a2
      cases a2 with
      | fixedApproach p _ h1 h2 h3 => rw [h2, h3]
    · generalize x.hhx = y at a3
      cases a3 with
      | fixedApproach p _ h1 h2 h3 => rw [h2, h3]
  have hs := C98_engine hk e he
  obtain ⟨s1, s2, s3, s4, s5, -⟩ := results_state hr
  rw [s1, s2, s3, s4, s5, hs]
  exact ⟨rfl, rfl, rfl, rfl, rfl⟩
end
end Sett
