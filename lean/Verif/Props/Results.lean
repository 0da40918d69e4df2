import Verif.Spec.Report
import Verif.Props.Start
import Verif.Props.Reported
import Verif.Props.Config
import Verif.Props.Performance

/-! # C65: every reported scalar follows from the reported series and the configuration -/

namespace Sett

open Spec state_equations api

section
variable {c : Config ℝ} {x : Components ℝ} {g : IdealGas ℝ}

theorem asked_drive (h : Asked c x g) (q : ws.State ℝ) :
    x.ws.frequency q = (driveNumbers c.engine.components.ws).frequency ∧
    (x.ws.thermal_resistance q).comp = (driveNumbers c.engine.components.ws).wallComp ∧
    (x.ws.thermal_resistance q).exp = (driveNumbers c.engine.components.ws).wallExp ∧
    (x.ws.parasitics q).comp.mechanical = (driveNumbers c.engine.components.ws).workComp ∧
    (x.ws.parasitics q).exp.mechanical = (driveNumbers c.engine.components.ws).workExp ∧
    (x.ws.parasitics q).exp.thermal = (driveNumbers c.engine.components.ws).heatExp := by
  have := h.ws
  generalize x.ws = y at this
  generalize c.engine.components.ws = d at this
  cases this with
  | sinusoidal p y h1 h2 h3 h4 =>
    refine ⟨h1 q, ?_, ?_, ?_, ?_, ?_⟩ <;> simp only [driveNumbers, h3, h4]
  | rhombic p y h1 h2 h3 h4 =>
    refine ⟨h1 q, ?_, ?_, ?_, ?_, ?_⟩ <;> simp only [driveNumbers, h3, h4]

theorem asked_chx (h : Asked c x g) :
    (∀ q, x.chx.hydraulic_resistance q = (chxNumbers c.engine.components.chx).resistance) ∧
    (∀ q, (x.chx.parasitics q).mechanical = (chxNumbers c.engine.components.chx).work) ∧
    ∀ d, (chxNumbers c.engine.components.chx).fixed = some d →
      x.chx.initial_approach = d ∧ ∀ q, x.chx.approach q = d := by
  have := h.chx
  generalize x.chx = y at this
  generalize c.engine.components.chx = d at this
  cases this with
  | fixedApproach p _ h1 h2 h3 h4 h5 =>
    refine ⟨h4, fun q => by rw [h5]; rfl, fun d hd => ?_⟩
    cases hd; exact ⟨h3, h2⟩
  | fixedConductance p _ h1 h2 h3 h4 h5 =>
    exact ⟨h4, fun q => by rw [h5]; rfl, fun d hd => by cases hd⟩

theorem asked_regen (h : Asked c x g) :
    (∀ q, x.regen.hydraulic_resistance q = (regenNumbers c.engine.components.regen).resistance) ∧
    (∀ q, (x.regen.parasitics q).thermal = (regenNumbers c.engine.components.regen).heat) ∧
    ∀ d, (regenNumbers c.engine.components.regen).fixed = some d →
      x.regen.initial_approach = d ∧ ∀ q, x.regen.approach q = d := by
  have := h.regen
  generalize x.regen = y at this
  generalize c.engine.components.regen = d at this
  cases this with
  | fixedApproach p _ h1 h2 h3 h4 h5 =>
    refine ⟨h4, fun q => by rw [h5]; rfl, fun d hd => ?_⟩
    cases hd; exact ⟨h3, h2⟩
  | fixedConductance p _ h1 h2 h3 h4 h5 =>
    exact ⟨h4, fun q => by rw [h5]; rfl, fun d hd => by cases hd⟩

theorem asked_hhx (h : Asked c x g) :
    (∀ q, x.hhx.hydraulic_resistance q = (hhxNumbers c.engine.components.hhx).resistance) ∧
    (∀ q, (x.hhx.parasitics q).mechanical = (hhxNumbers c.engine.components.hhx).work) ∧
    (∀ q, (x.hhx.parasitics q).thermal = (hhxNumbers c.engine.components.hhx).heat) ∧
    ∀ d, (hhxNumbers c.engine.components.hhx).fixed = some d →
      x.hhx.initial_approach = d ∧ ∀ q, x.hhx.approach q = d := by
  have := h.hhx
  generalize x.hhx = y at this
  generalize c.engine.components.hhx = d at this
  cases this with
  | fixedApproach p _ h1 h2 h3 h4 h5 =>
    refine ⟨h4, fun q => by rw [h5]; rfl, fun q => by rw [h5]; rfl, fun d hd => ?_⟩
    cases hd; exact ⟨h3, h2⟩
  | fixedConductance p _ h1 h2 h3 h4 h5 =>
    exact ⟨h4, fun q => by rw [h5]; rfl, fun q => by rw [h5]; rfl, fun d hd => by cases hd⟩

theorem asked_gas (h : Asked c x g) : g.gas_constant = gasConstant c.engine.fluid := by
  rw [h.fluid]
  cases c.engine.fluid <;> rfl

theorem asked_dens (h : Asked c x g) (T P : ℝ) :
    g.toFluid.dens T P = P / (gasConstant c.engine.fluid * T) := by
  rw [← asked_gas h]; rfl

end

theorem pvWork_map {α : Type} (f : α → ℝ) (p : α → ℝ) (rate : ℝ → ℝ) (l : List α) :
    pvWork (l.map f) (l.map p) rate = trapezoid (l.map f) (l.map fun a => p a * rate (f a)) := by
  unfold pvWork
  congr 1
  rw [List.zipWith_map, List.zipWith_self]

/-- **C65.** Every scalar of a report follows from the reported series, the reported temperatures and the
configured numbers. -/
theorem C65_recomputes (env : Env ℝ) (lu : MatrixDecomposition ℝ) (c : Config ℝ) (r : RunResults ℝ)
    (h : run_engine env lu c = .ok r) :
    ∃ x g, Asked c x g ∧ Recomputes c (fun t => (x.ws.volumes ⟨r.pressure⟩ t).1.deriv)
      (fun t => (x.ws.volumes ⟨r.pressure⟩ t).2.deriv) r := by
  obtain ⟨-, x, g, e, hx, he, hr⟩ := C50_ok_only_if_run_ok env lu c r h
  refine ⟨x, g, hx, ?_⟩
  obtain ⟨-, -, vs, -, -, -, hv, -⟩ := C36_values_are_steady env lu x g.toFluid _ _ e he
  obtain ⟨hc, hfl, -⟩ := C37_returned_engine env lu x g.toFluid _ _ e he
  obtain ⟨s1, s2, s3, s4, s5, s6, s7⟩ := results_state hr
  obtain ⟨p1, p2, p3, p4⟩ := results_powers hv hr
  obtain ⟨q1, q2, q3⟩ := results_pressures hv hr
  obtain ⟨u1, u2⟩ := results_heats hv hr
  obtain ⟨t1, t2, -⟩ := C44_torque_efficiency e r hr
  obtain ⟨p, hp, -, -, -, -, -, hval⟩ := results_performance hr
  have v1 : r.values.time = times vs := by rw [hval, hv, ofStateValues_eq]; rfl
  have v2 : r.values.T_c = vs.map fun v => v.conditions.T_c := by rw [hval, hv, ofStateValues_eq]
  have v3 : r.values.T_e = vs.map fun v => v.conditions.T_e := by rw [hval, hv, ofStateValues_eq]
  have v4 : r.values.Q_dot_k = vs.map fun v => v.solution.Q_dot_k := by
    rw [hval, hv, ofStateValues_eq]
  have v5 : r.values.Q_dot_l = vs.map fun v => v.solution.Q_dot_l := by
    rw [hval, hv, ofStateValues_eq]
  have v6 : r.values.m_dot_ck = vs.map fun v => v.solution.m_dot_ck := by
    rw [hval, hv, ofStateValues_eq]
  have v7 : r.values.m_dot_kr = vs.map fun v => v.solution.m_dot_kr := by
    rw [hval, hv, ofStateValues_eq]
  have v8 : r.values.m_dot_rl = vs.map fun v => v.solution.m_dot_rl := by
    rw [hval, hv, ofStateValues_eq]
  have v9 : r.values.m_dot_le = vs.map fun v => v.solution.m_dot_le := by
    rw [hval, hv, ofStateValues_eq]
  obtain ⟨d1, d2, d3, d4, d5, d6⟩ := asked_drive hx e.state.ws
  obtain ⟨k1, k2, -⟩ := asked_chx hx
  obtain ⟨g1, g2, -⟩ := asked_regen hx
  obtain ⟨l1, l2, l3, -⟩ := asked_hhx hx
  rw [hc] at p3 p4 u1 u2 t1
  simp only [d1, d2, d3, d4, d5, d6, k2, g2, l2, l3] at p3 p4 u1 u2 t1
  refine ⟨?_, ?_, p3, p4, t1, t2, ?_, ?_, ?_⟩
  · rw [p1, cycleWork, hc, v1, q1, q2]
    unfold times
    rw [pvWork_map, pvWork_map, ← trapezoid_add, ← d1, s1]
    simp only [dVc, dVe, hc]; rfl
  · rw [p2, cycleWork, hc, v1, q3]
    unfold times
    rw [pvWork_map, pvWork_map, ← trapezoid_add, ← d1, s1]
    simp only [dVc, dVe, hc]; rfl
  · rw [u1, v1, v5, v3, s6, List.map_map]
    have : trapezoid (times vs) (vs.map ((fun T => (e.state.temp.hhx - T)
        / (driveNumbers c.engine.components.ws).wallExp) ∘ fun v => v.conditions.T_e))
        = -trapezoid (times vs) (vs.map fun v => (v.conditions.T_e - e.state.temp.hhx)
        / (driveNumbers c.engine.components.ws).wallExp) := by
      rw [← trapezoid_neg]
      congr 1
      apply List.map_congr_left
      intro v _
      simp only [Function.comp]; ring
    rw [this]; ring
  · rw [u2, v1, v4, v2, s6, List.map_map, p3]
    simp only [Function.comp_def]
    ring
  · intro i p ck kr rl le hp hck hkr hrl hle
    rw [q3, List.getElem?_map] at hp
    cases hi : vs[i]? with
    | none => rw [hi] at hp; cases hp
    | some v =>
      rw [hi] at hp; cases hp
      rw [v6, List.getElem?_map, hi] at hck; cases hck
      rw [v7, List.getElem?_map, hi] at hkr; cases hkr
      rw [v8, List.getElem?_map, hi] at hrl; cases hrl
      rw [v9, List.getElem?_map, hi] at hle; cases hle
      obtain ⟨pc, pe, a1, a2, -, a4, a5⟩ := C41_pressures e vs hv r hr i v hi
      refine ⟨pc, pe, a1, a2, a4, a5.trans ?_⟩
      simp only [dropChx, dropRegen, dropHhx, Spec.drop, hc, hfl, asked_dens hx, k1, g1, l1, s6]
      have key : ∀ R m n T G P : ℝ, R * ((m + n) / 2 / (P / (G * T))) = G / (2 * P) * (R * (m + n) * T) := by
        intro R m n T G P
        rw [div_div_eq_mul_div]
        rw [div_mul_eq_mul_div, div_div, mul_div_assoc', div_mul_eq_mul_div]
        congr 1; ring
      rw [key, key, key]
      ring

/-- **C65**, temperatures: the reported ladder. -/
theorem C65_ladder (env : Env ℝ) (lu : MatrixDecomposition ℝ) (c : Config ℝ) (r : RunResults ℝ)
    (h : run_engine env lu c = .ok r) : ReportedLadder c r.temperature ∧ r.regen_imbalance = 0 := by
  obtain ⟨-, x, g, e, hx, he, hr⟩ := C50_ok_only_if_run_ok env lu c r h
  obtain ⟨n, vs, s', -, hv, -, -, -, -⟩ := (C36_ok_iff env lu x g.toFluid _ _ e).1 he
  obtain ⟨-, -, -, -, -, s6, s7⟩ := results_state hr
  obtain ⟨-, -, -, i4, -⟩ := C37_visited_invariant env lu x g.toFluid _ _ n e.state hv
  obtain ⟨h1, h2, k, a, l, hL, hc⟩ := C63_ladder env lu x g.toFluid _ _ n e.state hv
  obtain ⟨-, -, k3⟩ := asked_chx hx
  obtain ⟨-, -, g3⟩ := asked_regen hx
  obtain ⟨-, -, -, l3⟩ := asked_hhx hx
  have hk : ∀ d, (chxNumbers c.engine.components.chx).fixed = some d → k = d := by
    intro d hd
    rcases hc with ⟨-, rfl, -⟩ | ⟨-, ⟨q, rfl⟩, -⟩
    · exact (k3 d hd).1
    · exact (k3 d hd).2 q
  have ha : ∀ d, (regenNumbers c.engine.components.regen).fixed = some d → a = d := by
    intro d hd
    rcases hc with ⟨-, -, rfl, -⟩ | ⟨-, -, ⟨q, rfl⟩, -⟩
    · exact (g3 d hd).1
    · exact (g3 d hd).2 q
  have hl : ∀ d, (hhxNumbers c.engine.components.hhx).fixed = some d → l = d := by
    intro d hd
    rcases hc with ⟨-, -, -, rfl⟩ | ⟨-, -, -, ⟨q, rfl⟩⟩
    · exact (l3 d hd).1
    · exact (l3 d hd).2 q
  have e1 := hL.chx; have e2 := hL.cold; have e3 := hL.hot; have e4 := hL.hhx
  have e5 := hL.avg
  refine ⟨?_, by rw [s7, i4]; norm_num⟩
  rw [s6]
  refine ⟨h1, h2, fun d hd => ?_, fun d hd => ?_, ?_, fun d hd => ?_, fun hp hq => ?_⟩
  · have := hk d hd; simp only; linarith
  · have := ha d hd; simp only; linarith
  · simp only; linarith
  · have := hl d hd; simp only; linarith
  · simp only at hp hq ⊢
    have x1 : (e.state.temp.chx + e.state.temp.regen.cold) / 2 = e.state.temp.chx + a / 2 := by
      linarith
    have x2 : (e.state.temp.hhx + e.state.temp.regen.hot) / 2 = e.state.temp.hhx - a / 2 := by
      linarith
    rw [x1] at hp ⊢
    rw [x2] at hq ⊢
    exact e5 hp hq

/-- **C65**, pressures: when the integrator reports its starting point first, the reported series starts at
time zero and at the configured pressure, which is also the reported `t_zero`; and it lies between the
reported minimum and maximum, whatever the integrator does. -/
theorem C65_pressure (env : Env ℝ) (lu : MatrixDecomposition ℝ) (c : Config ℝ) (r : RunResults ℝ)
    (h : run_engine env lu c = .ok r) :
    (ReportsStart env.ode → r.pressure.t_zero = c.conditions.pres_zero ∧
      r.values.P.head? = some c.conditions.pres_zero ∧ r.values.time.head? = some 0) ∧
    r.pressure.min ≤ r.pressure.t_zero ∧ r.pressure.t_zero ≤ r.pressure.max := by
  obtain ⟨-, x, g, e, hx, he, hr⟩ := C50_ok_only_if_run_ok env lu c r h
  obtain ⟨n, vs, s', -, hv, hi, hvs, -, -⟩ := (C36_ok_iff env lu x g.toFluid _ _ e).1 he
  obtain ⟨s1, -⟩ := results_state hr
  obtain ⟨-, -, -, -, i5⟩ := C37_visited_invariant env lu x g.toFluid _ _ n e.state hv
  obtain ⟨p, hp, -, -, -, -, -, hval⟩ := results_performance hr
  constructor
  · intro ho
    have ht : e.state.pres.t_zero = c.conditions.pres_zero := i5 ho
    obtain ⟨v, a1, a2, a3⟩ := inner_head env lu x _ ho hi
    refine ⟨by rw [s1, ht], ?_, ?_⟩
    · rw [hval, hvs, ofStateValues_eq]
      simp only [List.head?_map, a1, Option.map_some, a3, ht]
    · rw [hval, hvs, ofStateValues_eq]
      simp only [List.head?_map, a1, Option.map_some, a2]
      norm_num
  · rcases C40_previous_iteration_partial env lu x g.toFluid _ _ e he r hr with ⟨hc, -⟩ |
      ⟨m, s, ws, -, -, hc, -⟩
    · rw [hc]; exact ⟨le_refl _, le_refl _⟩
    · obtain ⟨⟨-, b1⟩, ⟨-, b2⟩, b3⟩ := C28_extrema _ _ hc
      have hm := List.mem_of_mem_head? b3
      exact ⟨b2 _ hm, b1 _ hm⟩

end Sett
