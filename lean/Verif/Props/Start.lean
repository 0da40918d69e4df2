import Verif.Props.Engine
import Verif.Props.HeatExchangers
import Verif.Props.NoPanicExample

/-! # C63: the starting state and the temperature ladder -/

namespace Sett

open Spec state_equations api

/-- The approach a run starts from, by kind of exchanger: the fixed one, or 10 K where it is to be computed
(0 K for a cold exchanger of negative conductance). -/
noncomputable def Spec.firstChx : chx.Config ℝ → ℝ
  | .FixedApproach p => p.DT
  | .FixedConductance p => if p.UA < 0 then 0 else 10
  | _ => 0
@[inherit_doc Spec.firstChx]
noncomputable def Spec.firstRegen : regen.Config ℝ → ℝ
  | .FixedApproach p => p.DT
  | .FixedConductance _ => 10
  | _ => 0
@[inherit_doc Spec.firstChx]
noncomputable def Spec.firstHhx : hhx.Config ℝ → ℝ
  | .FixedApproach p => p.DT
  | .FixedConductance _ => 10
  | _ => 0

/-- The ladder of temperatures given the three approaches: sink and cold exchanger, cold exchanger and cold
regenerator side, hot regenerator side and hot exchanger, hot exchanger and source. -/
structure Spec.Ladder (t : Temperatures ℝ) (k r l : ℝ) : Prop where
  chx : t.chx - t.sink = k
  cold : t.regen.cold - t.chx = r
  hot : t.hhx - t.regen.hot = r
  hhx : t.source - t.hhx = l
  avg : 0 < t.chx + r / 2 → 0 < t.hhx - r / 2 → t.regen.avg = Spec.logMean (t.chx + r / 2) (t.hhx - r / 2)

theorem ladder_of {t : Temperatures ℝ} {k r l : ℝ} (h1 : t.chx = t.sink + k) (h2 : t.hhx = t.source - l)
    (h3 : t.regen = RegenImbalance.regen_temp ⟨0⟩ t.chx t.hhx r) : Spec.Ladder t k r l := by
  have hc : t.regen.cold = t.chx + r := by rw [h3]; norm_num [RegenImbalance.regen_temp]
  have hh : t.regen.hot = t.hhx - r := by rw [h3]; norm_num [RegenImbalance.regen_temp]
  refine ⟨by rw [h1]; ring, by rw [hc]; ring, by rw [hh]; ring, by rw [h2]; ring, fun p q => ?_⟩
  have := C21_average_is_log_mean ⟨0⟩ t.chx t.hhx r
  simp only [← h3, hc, hh, Spec.effectiveEnds, add_sub_cancel_left, sub_sub_cancel] at this
  exact this p q

/-- **C63**, start.  A run of a supported configuration starts at the configured sink and source
temperatures with the first approaches of its exchangers, all pressures at the configured one, and no
flow. -/
theorem C63_start (c : Config ℝ) (x : Components ℝ) (g : IdealGas ℝ) (hx : Spec.Asked c x g)
    (env : Env ℝ) (lu : MatrixDecomposition ℝ) (s : State ℝ)
    (h : Visited env lu x (Spec.settingsOf c) (State.new_hint x g.toFluid (Spec.inputsOf c)) 0 s) :
    Spec.Ladder s.temp (Spec.firstChx c.engine.components.chx)
      (Spec.firstRegen c.engine.components.regen) (Spec.firstHhx c.engine.components.hhx) ∧
    s.temp.sink = c.conditions.temp_sink ∧ s.temp.source = c.conditions.temp_source ∧
    s.pres = ⟨c.conditions.pres_zero, c.conditions.pres_zero, c.conditions.pres_zero,
      c.conditions.pres_zero⟩ ∧
    s.mass_flow = ⟨0, 0, 0⟩ ∧ s.heat_flow = ⟨0, 0, 0⟩ := by
  cases h
  have hk : x.chx.initial_approach = Spec.firstChx c.engine.components.chx := by
    have := hx.chx
    generalize x.chx = y at this
    generalize c.engine.components.chx = d at this
    cases this with
    | fixedApproach _ _ _ _ hi => exact hi
    | fixedConductance p y _ _ hi =>
      rw [hi]
      simp only [Spec.firstChx]
      norm_num
  have hr : x.regen.initial_approach = Spec.firstRegen c.engine.components.regen := by
    have := hx.regen
    generalize x.regen = y at this
    generalize c.engine.components.regen = d at this
    cases this with
    | fixedApproach _ _ _ _ hi => exact hi
    | fixedConductance p y _ _ hi =>
      rw [hi]
      simp only [Spec.firstRegen]
      norm_num
  have hl : x.hhx.initial_approach = Spec.firstHhx c.engine.components.hhx := by
    have := hx.hhx
    generalize x.hhx = y at this
    generalize c.engine.components.hhx = d at this
    cases this with
    | fixedApproach _ _ _ _ hi => exact hi
    | fixedConductance p y _ _ hi =>
      rw [hi]
      simp only [Spec.firstHhx]
      norm_num
  refine ⟨ladder_of ?_ ?_ ?_, rfl, rfl, rfl, ?_, ?_⟩
  · rw [← hk]; rfl
  · rw [← hl]; rfl
  · rw [← hr]
    show RegenImbalance.regen_temp ⟨0.0⟩ _ _ _ = _
    rw [show (0.0 : ℝ) = 0 by norm_num]
    rfl
  · show MassFlows.constant 0.0 = _
    norm_num [MassFlows.constant]
  · show HeatFlows.constant 0.0 = _
    norm_num [HeatFlows.constant]

/-- **C63**, every later state of the outer sequence has a ladder with the approaches the components
report: the regenerator approach is the same on both sides, and the average regenerator temperature follows
from the other four. -/
theorem C63_ladder (env : Env ℝ) (U : MatrixDecomposition ℝ) (c : Components ℝ) (fluid : Fluid ℝ)
    (inputs : RunInputs ℝ) (settings : RunSettings ℝ) (n : Nat) (s : State ℝ)
    (h : Visited env U c settings (State.new_hint c fluid inputs) n s) :
    s.temp.sink = inputs.temp_sink ∧ s.temp.source = inputs.temp_source ∧
    ∃ k r l, Spec.Ladder s.temp k r l ∧
      ((n = 0 ∧ k = c.chx.initial_approach ∧ r = c.regen.initial_approach ∧
        l = c.hhx.initial_approach) ∨
      (n ≠ 0 ∧ (∃ q, k = c.chx.approach q) ∧ (∃ q, r = c.regen.approach q) ∧
        ∃ q, l = c.hhx.approach q)) := by
  obtain ⟨-, h1, h2, h3⟩ := visited_invariant env U c fluid inputs settings h
  refine ⟨h1, h2, ?_⟩
  cases h with
  | start =>
    refine ⟨_, _, _, ladder_of rfl rfl ?_, .inl ⟨rfl, rfl, rfl, rfl⟩⟩
    show RegenImbalance.regen_temp ⟨0.0⟩ _ _ _ = _
    rw [show (0.0 : ℝ) = 0 by norm_num]
    rfl
  | @next m p _ vs hp hi hr hn =>
    refine ⟨c.chx.approach (coldView p.fluid p.temp s.pres s.mass_flow s.heat_flow),
      c.regen.approach (regenView p.fluid p.temp s.pres s.mass_flow s.heat_flow),
      c.hhx.approach (hotView p.fluid p.temp s.pres s.mass_flow s.heat_flow),
      ladder_of (by rw [hr.chx, hr.sink]) (by rw [hr.hhx, hr.source]) ?_,
      .inr ⟨by omega, ⟨_, rfl⟩, ⟨_, rfl⟩, ⟨_, rfl⟩⟩⟩
    rw [hr.imbalance] at h3
    rw [hr.regen]
    congr 1
    cases hq : p.regen_imbalance
    rw [hq] at h3
    simp only at h3
    rw [h3]; norm_num

/-- **C63**, order.  In a state of the outer sequence whose three approaches are not negative the
temperatures are ordered from sink to cold regenerator side and from hot regenerator side to source; if
moreover the regenerator approach is less than the difference between the exchangers, the average
regenerator temperature lies strictly between them. -/
theorem C63_order (env : Env ℝ) (U : MatrixDecomposition ℝ) (c : Components ℝ) (fluid : Fluid ℝ)
    (inputs : RunInputs ℝ) (settings : RunSettings ℝ) (n : Nat) (s : State ℝ)
    (h : Visited env U c settings (State.new_hint c fluid inputs) n s)
    (hk : 0 ≤ s.temp.chx - inputs.temp_sink) (hr : 0 ≤ s.temp.regen.cold - s.temp.chx)
    (hl : 0 ≤ inputs.temp_source - s.temp.hhx) :
    inputs.temp_sink ≤ s.temp.chx ∧ s.temp.chx ≤ s.temp.regen.cold ∧
      s.temp.regen.hot ≤ s.temp.hhx ∧ s.temp.hhx ≤ inputs.temp_source ∧
      (0 < s.temp.chx → s.temp.regen.cold < s.temp.hhx →
        s.temp.chx < s.temp.regen.avg ∧ s.temp.regen.avg < s.temp.hhx ∧
        s.temp.chx < s.temp.regen.hot) := by
  obtain ⟨h1, h2, k, r, l, hL, -⟩ := C63_ladder env U c fluid inputs settings n s h
  have e1 := hL.chx; have e2 := hL.cold; have e3 := hL.hot; have e4 := hL.hhx
  refine ⟨by linarith, by linarith, by linarith, by linarith, fun hp hlt => ?_⟩
  have hlt' : s.temp.chx + r / 2 < s.temp.hhx - r / 2 := by linarith
  rw [hL.avg (by linarith) (by linarith)]
  obtain ⟨g1, g2⟩ := logMean_between (by linarith : 0 < s.temp.chx + r / 2) hlt'
  exact ⟨by linarith, by linarith, by linarith⟩

/-- C63 on the worked configuration: 260 K sink, 700 K source, approaches 40 K, 0 K and 100 K. -/
example : ∃ s : State ℝ,
    Visited SoundRun.env SoundRun.pick SoundRun.components (Spec.settingsOf SoundRun.config)
      SoundRun.start 0 s ∧ Spec.Ladder s.temp 40 0 100 ∧ s.temp.sink = 260 := by
  refine ⟨_, .start, ?_⟩
  rcases build_cases SoundRun.config with ⟨-, k, g, h1, h2, h3⟩ | ⟨h, -⟩
  · rw [SoundRun.config_builds] at h2
    cases h2
    obtain rfl := h3.fluid
    obtain ⟨a, b, -⟩ := C63_start _ _ _ h3 SoundRun.env SoundRun.pick _ .start
    exact ⟨a, b⟩
  · exact absurd SoundRun.config_supported h

/-- C63: the order theorem applies to it. -/
example : SoundRun.start.temp.chx < SoundRun.start.temp.regen.avg ∧
    SoundRun.start.temp.regen.avg < SoundRun.start.temp.hhx := by
  have h := C63_order SoundRun.env SoundRun.pick SoundRun.components SoundRun.fluid SoundRun.runInputs
    SoundRun.settings 0 SoundRun.start .start
  rw [SoundRun.chx_temp, SoundRun.cold_temp, SoundRun.hhx_temp] at h
  rw [SoundRun.chx_temp, SoundRun.hhx_temp]
  have h' := (h (by norm_num [SoundRun.runInputs]) (by norm_num)
    (by norm_num [SoundRun.runInputs])).2.2.2.2 (by norm_num) (by norm_num)
  exact ⟨h'.1, h'.2.1⟩

end Sett
