import Verif.Props.Directions
import Verif.Props.Grid
import Verif.Props.NoPanic
import Verif.Props.Averages

/-! # C103: the pressure answers the pistons, and gas passes every exchanger -/

namespace Sett

open Spec state_equations

/-! ## One working space -/

/-- Mass and energy of a working space that `m` enters with enthalpy `h`, without the rate of its temperature. -/
theorem space_inflow {V ρ u ρP ρT uP uT h P dV dP dT m Q : ℝ} (hm : massRate V ρ ρP ρT dV dP dT = m)
    (he : energyRate V ρ u ρP ρT uP uT dV dP dT = h * m - P * dV - Q) :
    (V * (ρ * uT + (u - h) * ρT)) * m
      = V ^ 2 * ρ * (uT * ρP - uP * ρT) * dP + V * (ρ ^ 2 * uT - P * ρT) * dV + V * (-ρT) * Q := by
  simp only [massRate, energyRate] at hm he
  linear_combination (-V * (ρ * uT + u * ρT)) * hm + V * ρT * he

section
variable {r : Run ℝ} {n : GasName} {t : ℝ} {y : Conditions ℝ} {s : Solution ℝ}

/-- Flows at the two ends and between them, in terms of the rates of pressure and volumes and of the parasitic heats. -/
structure Breath (r : Run ℝ) (t : ℝ) (s : Solution ℝ) : Prop where
  weights : ∃ a b z a' b' z' : ℝ, 0 < a ∧ 0 < b ∧ 0 < z ∧ 0 < a' ∧ 0 < b' ∧ 0 < z' ∧
    -s.m_dot_ck = a * s.dP_dt + b * (r.ws_vol_fn t).1.deriv + z * r.ws_parasitics.comp.thermal ∧
    s.m_dot_le = a' * s.dP_dt + b' * (r.ws_vol_fn t).2.deriv + z' * r.ws_parasitics.exp.thermal
  inside : ∃ k l m : ℝ, 0 ≤ k ∧ 0 ≤ l ∧ 0 ≤ m ∧ s.m_dot_ck - s.m_dot_kr = k * s.dP_dt ∧
    s.m_dot_kr - s.m_dot_rl = l * s.dP_dt ∧ s.m_dot_rl - s.m_dot_le = m * s.dP_dt

theorem breath (hf : r.fluid = (IdealGas.new n).toFluid) (hp : Physical r t y 100)
    (hb : Balances (r.calculate_inputs t y) (upwind (r.calculate_inputs t y) s) s) : Breath r t s := by
  have hst := C58_ideal_gas_stable r n hf t y hp
  set i := r.calculate_inputs t y with hi
  have hR := IdealGas.gas_constant_pos n
  have hP := hp.pres
  have hTc : 0 < y.T_c := by linarith [hp.comp_temp]
  have hTe : 0 < y.T_e := by linarith [hp.exp_temp]
  have hTk : 0 < r.temp.chx := by linarith [hp.chx_temp]
  have hTl : 0 < r.temp.hhx := by linarith [hp.hhx_temp]
  have hdT : ∀ T, 0 < T → r.fluid.dd_dT_P T y.P < 0 := fun T hT => by
    rw [hf]
    show (IdealGas.new n : IdealGas ℝ).dd_dT_P T y.P < 0
    simp only [IdealGas.dd_dT_P]
    scalars
    exact div_neg_of_neg_of_pos (neg_lt_zero.2 hP) (by positivity)
  have huT : ∀ T, 0 < T → 0 < r.fluid.du_dT_P T y.P := fun T hT => by
    rw [hf]; exact IdealGas.cv_pos n T hT
  have hdP : ∀ T, 0 < T → 0 ≤ r.fluid.dd_dP_T T y.P := fun T hT => by
    rw [hf]
    show 0 ≤ (1.0 : ℝ) / ((IdealGas.new n : IdealGas ℝ).gas_constant * T)
    positivity
  constructor
  · have e1 := space_inflow hb.comp_mass (h := (upwind i s).ck) (P := i.pres) (Q := i.comp.Q_dot) (by
      rw [mul_neg, ← neg_mul]; exact hb.comp_energy)
    have e2 := space_inflow hb.exp_mass hb.exp_energy
    have t1 : 0 < tempCoef i.comp (upwind i s).ck := by
      simp only [upwind]; split
      · exact hst.comp_out
      · exact hst.comp_in
    have t2 : 0 < tempCoef i.exp (upwind i s).le := by
      simp only [upwind]; split
      · exact hst.exp_in
      · exact hst.exp_out
    have s1 := hst.comp_stable
    have s2 := hst.exp_stable
    change tempCoef i.comp (upwind i s).ck * _ = stability i.comp * _ + _ + _ at e1
    change tempCoef i.exp (upwind i s).le * _ = stability i.exp * _ + _ + _ at e2
    have c1 : 0 < i.comp.vol := hp.comp_vol
    have c2 : 0 < i.exp.vol := hp.exp_vol
    have c3 : i.comp.dd_dT_P < 0 := hdT _ hTc
    have c4 : i.exp.dd_dT_P < 0 := hdT _ hTe
    have c5 : 0 < i.comp.du_dT_P := huT _ hTc
    have c6 : 0 < i.exp.du_dT_P := huT _ hTe
    have c7 : 0 < i.pres := hP
    have b1 : 0 < i.comp.vol * (i.comp.dens ^ 2 * i.comp.du_dT_P - i.pres * i.comp.dd_dT_P) :=
      mul_pos c1 (by have := mul_neg_of_pos_of_neg c7 c3; have := mul_nonneg (sq_nonneg i.comp.dens) c5.le; linarith)
    have b2 : 0 < i.exp.vol * (i.exp.dens ^ 2 * i.exp.du_dT_P - i.pres * i.exp.dd_dT_P) :=
      mul_pos c2 (by have := mul_neg_of_pos_of_neg c7 c4; have := mul_nonneg (sq_nonneg i.exp.dens) c6.le; linarith)
    have z1 : 0 < i.comp.vol * -i.comp.dd_dT_P := mul_pos c1 (neg_pos.2 c3)
    have z2 : 0 < i.exp.vol * -i.exp.dd_dT_P := mul_pos c2 (neg_pos.2 c4)
    refine ⟨_, _, _, _, _, _, div_pos s1 t1, div_pos b1 t1, div_pos z1 t1, div_pos s2 t2, div_pos b2 t2, div_pos z2 t2,
      ?_, ?_⟩
    · rw [div_mul_eq_mul_div, div_mul_eq_mul_div, div_mul_eq_mul_div, ← add_div, ← add_div, eq_div_iff t1.ne', mul_comm]
      exact e1
    · rw [div_mul_eq_mul_div, div_mul_eq_mul_div, div_mul_eq_mul_div, ← add_div, ← add_div, eq_div_iff t2.ne', mul_comm]
      exact e2
  · refine ⟨_, _, _, mul_nonneg hp.chx_vol (hdP _ hTk), mul_nonneg hp.regen_vol (hdP _ hp.regen_temp),
      mul_nonneg hp.hhx_vol (hdP _ hTl), ?_, ?_, ?_⟩
    · have := hb.chx_mass
      simp only [chxMass, massRate, mul_zero, add_zero] at this
      rw [← this, mul_assoc]; rfl
    · have := hb.regen_mass
      simp only [regenMass, massRate, mul_zero, add_zero] at this
      rw [← this, mul_assoc]; rfl
    · have := hb.hhx_mass
      simp only [hhxMass, massRate, mul_zero, add_zero] at this
      rw [← this, mul_assoc]; rfl

/-- The state equations of a run solved at a physical state. -/
theorem breath_of_solve (hf : r.fluid = (IdealGas.new n).toFluid) (hT : Sound r.solver) (hp : Physical r t y 100)
    {hint : FlowDirection} (h : solve r.solver (r.calculate_inputs t y) hint = .ok s) : Breath r t s :=
  breath hf hp (C07_upwind_balances _ hT _ hp.norm hint s h)

/-- **C103**, pressure.  At a physical state of a run with either ideal gas, let both working spaces grow or stand, and
let both lose heat or none.  Then the pressure falls, unless nothing of the kind happens, when it stands. Likewise, with
spaces that shrink and take heat up, it rises. -/
theorem C103_pressure (hf : r.fluid = (IdealGas.new n).toFluid) (hT : Sound r.solver) (hp : Physical r t y 100)
    (hint : FlowDirection) (h : solve r.solver (r.calculate_inputs t y) hint = .ok s) :
    (0 ≤ (r.ws_vol_fn t).1.deriv → 0 ≤ (r.ws_vol_fn t).2.deriv → 0 ≤ r.ws_parasitics.comp.thermal →
      0 ≤ r.ws_parasitics.exp.thermal → s.dP_dt ≤ 0 ∧
      (s.dP_dt = 0 → (r.ws_vol_fn t).1.deriv = 0 ∧ (r.ws_vol_fn t).2.deriv = 0 ∧ r.ws_parasitics.comp.thermal = 0 ∧
        r.ws_parasitics.exp.thermal = 0)) ∧
    ((r.ws_vol_fn t).1.deriv ≤ 0 → (r.ws_vol_fn t).2.deriv ≤ 0 → r.ws_parasitics.comp.thermal ≤ 0 →
      r.ws_parasitics.exp.thermal ≤ 0 → 0 ≤ s.dP_dt ∧
      (s.dP_dt = 0 → (r.ws_vol_fn t).1.deriv = 0 ∧ (r.ws_vol_fn t).2.deriv = 0 ∧ r.ws_parasitics.comp.thermal = 0 ∧
        r.ws_parasitics.exp.thermal = 0)) := by
  obtain ⟨⟨a, b, z, a', b', z', p1, p2, p3, p4, p5, p6, e1, e2⟩, k, l, m, q1, q2, q3, f1, f2, f3⟩ :=
    breath_of_solve hf hT hp h
  set u := (r.ws_vol_fn t).1.deriv
  set v := (r.ws_vol_fn t).2.deriv
  set q := r.ws_parasitics.comp.thermal
  set q' := r.ws_parasitics.exp.thermal
  have key : (a + a' + (k + l + m)) * s.dP_dt = -(b * u + z * q + b' * v + z' * q') := by
    linear_combination -e1 - e2 - f1 - f2 - f3
  have pos : 0 < a + a' + (k + l + m) := by linarith
  constructor
  · intro h1 h2 h3 h4
    have r1 := mul_nonneg p2.le h1; have r2 := mul_nonneg p3.le h3
    have r3 := mul_nonneg p5.le h2; have r4 := mul_nonneg p6.le h4
    refine ⟨?_, fun h0 => ?_⟩
    · by_contra hc
      have := mul_pos pos (not_le.1 hc)
      linarith
    · rw [h0, mul_zero] at key
      exact ⟨(mul_eq_zero.1 (show b * u = 0 by linarith)).resolve_left p2.ne',
        (mul_eq_zero.1 (show b' * v = 0 by linarith)).resolve_left p5.ne',
        (mul_eq_zero.1 (show z * q = 0 by linarith)).resolve_left p3.ne',
        (mul_eq_zero.1 (show z' * q' = 0 by linarith)).resolve_left p6.ne'⟩
  · intro h1 h2 h3 h4
    have r1 := mul_nonpos_of_nonneg_of_nonpos p2.le h1; have r2 := mul_nonpos_of_nonneg_of_nonpos p3.le h3
    have r3 := mul_nonpos_of_nonneg_of_nonpos p5.le h2; have r4 := mul_nonpos_of_nonneg_of_nonpos p6.le h4
    refine ⟨?_, fun h0 => ?_⟩
    · by_contra hc
      have := mul_neg_of_pos_of_neg pos (not_le.1 hc)
      linarith
    · rw [h0, mul_zero] at key
      exact ⟨(mul_eq_zero.1 (show b * u = 0 by linarith)).resolve_left p2.ne',
        (mul_eq_zero.1 (show b' * v = 0 by linarith)).resolve_left p5.ne',
        (mul_eq_zero.1 (show z * q = 0 by linarith)).resolve_left p3.ne',
        (mul_eq_zero.1 (show z' * q' = 0 by linarith)).resolve_left p6.ne'⟩

/-- The four flows between the five volumes. -/
def Spec.fourFlows (s : Solution ℝ) : List ℝ := [s.m_dot_ck, s.m_dot_kr, s.m_dot_rl, s.m_dot_le]

/-- **C103**, flows.  While the compression piston stands and its space exchanges no heat, gas flows at all four
interfaces towards the compression space if the pressure rises, away from it if the pressure falls.  While the expansion
piston stands, towards and away from the expansion space. -/
theorem C103_flows (hf : r.fluid = (IdealGas.new n).toFluid) (hT : Sound r.solver) (hp : Physical r t y 100)
    (hint : FlowDirection) (h : solve r.solver (r.calculate_inputs t y) hint = .ok s) :
    ((r.ws_vol_fn t).1.deriv = 0 → r.ws_parasitics.comp.thermal = 0 →
      (0 < s.dP_dt → ∀ m ∈ fourFlows s, m < 0) ∧ (s.dP_dt < 0 → ∀ m ∈ fourFlows s, 0 < m)) ∧
    ((r.ws_vol_fn t).2.deriv = 0 → r.ws_parasitics.exp.thermal = 0 →
      (0 < s.dP_dt → ∀ m ∈ fourFlows s, 0 < m) ∧ (s.dP_dt < 0 → ∀ m ∈ fourFlows s, m < 0)) := by
  obtain ⟨⟨a, b, z, a', b', z', p1, p2, p3, p4, p5, p6, e1, e2⟩, k, l, m, q1, q2, q3, f1, f2, f3⟩ :=
    breath_of_solve hf hT hp h
  have all : ∀ p : ℝ → Prop, p s.m_dot_ck → p s.m_dot_kr → p s.m_dot_rl → p s.m_dot_le → ∀ m ∈ fourFlows s, p m := by
    intro p h1 h2 h3 h4 m hm
    simp only [fourFlows, List.mem_cons, List.not_mem_nil, or_false] at hm
    rcases hm with rfl | rfl | rfl | rfl <;> assumption
  constructor
  · intro h1 h2
    rw [h1, h2, mul_zero, mul_zero, add_zero, add_zero] at e1
    refine ⟨fun hd => ?_, fun hd => ?_⟩
    · have := mul_pos p1 hd
      have := mul_nonneg q1 hd.le; have := mul_nonneg q2 hd.le; have := mul_nonneg q3 hd.le
      apply all (· < 0) <;> linarith
    · have := mul_neg_of_pos_of_neg p1 hd
      have := mul_nonpos_of_nonneg_of_nonpos q1 hd.le; have := mul_nonpos_of_nonneg_of_nonpos q2 hd.le
      have := mul_nonpos_of_nonneg_of_nonpos q3 hd.le
      apply all (0 < ·) <;> linarith
  · intro h1 h2
    rw [h1, h2, mul_zero, mul_zero, add_zero, add_zero] at e2
    refine ⟨fun hd => ?_, fun hd => ?_⟩
    · have := mul_pos p4 hd
      have := mul_nonneg q1 hd.le; have := mul_nonneg q2 hd.le; have := mul_nonneg q3 hd.le
      apply all (0 < ·) <;> linarith
    · have := mul_neg_of_pos_of_neg p4 hd
      have := mul_nonpos_of_nonneg_of_nonpos q1 hd.le; have := mul_nonpos_of_nonneg_of_nonpos q2 hd.le
      have := mul_nonpos_of_nonneg_of_nonpos q3 hd.le
      apply all (· < 0) <;> linarith

/-- One piston stands, the other moves, no parasitic heat: the four flows all go one way. -/
theorem one_way (hf : r.fluid = (IdealGas.new n).toFluid) (hT : Sound r.solver) (hp : Physical r t y 100)
    {hint : FlowDirection} (h : solve r.solver (r.calculate_inputs t y) hint = .ok s)
    (hc : (r.ws_vol_fn t).1.deriv = 0) (he : (r.ws_vol_fn t).2.deriv ≠ 0) (hq : r.ws_parasitics.comp.thermal = 0)
    (hq' : r.ws_parasitics.exp.thermal = 0) : (∀ m ∈ fourFlows s, 0 < m) ∨ ∀ m ∈ fourFlows s, m < 0 := by
  obtain ⟨g1, g2⟩ := C103_pressure hf hT hp hint h
  obtain ⟨g3, -⟩ := C103_flows hf hT hp hint h
  obtain ⟨g4, g5⟩ := g3 hc hq
  rcases lt_or_gt_of_ne he with hn | hn
  · obtain ⟨w1, w2⟩ := g2 hc.le hn.le hq.le hq'.le
    exact .inr (g4 (lt_of_le_of_ne w1 fun h0 => he (w2 h0.symm).2.1))
  · obtain ⟨w1, w2⟩ := g1 hc.ge hn.le hq.ge hq'.ge
    exact .inl (g5 (lt_of_le_of_ne w1 fun h0 => he (w2 h0).2.1))

end

/-! ## Averages over a cycle -/

theorem trapezoid_pos {x : List ℝ} {tf : ℝ} (hg : CycleGrid x tf) {y : List ℝ} (hl : y.length = x.length)
    (hy : ∀ a ∈ y, 0 ≤ a) (h1 : ∃ x0 x1 xs y0 ys, x = x0 :: x1 :: xs ∧ x0 < x1 ∧ y = y0 :: ys ∧ 0 < y0) :
    0 < trapezoid x y := by
  obtain ⟨x0, x1, xs, y0, ys, rfl, hx, rfl, hy0⟩ := h1
  cases ys with
  | nil => simp at hl
  | cons y1 ys =>
    have h2 : 0 ≤ y1 := hy _ (by simp)
    have hinc : (x1 :: xs).IsChain (· ≤ ·) := (List.isChain_cons_cons.1 hg.increasing).2
    have h3 := trapezoid_nonneg (x1 :: xs) (y1 :: ys) hinc fun a ha => hy a (by simp at ha ⊢; tauto)
    simp only [trapezoid]
    have : 0 < (x1 - x0) * (y0 + y1) := mul_pos (by linarith) (by linarith)
    linarith

/-- **C103**, averages.  Take an engine with either ideal gas whose compression piston is at a dead centre at time zero
while the expansion piston moves, with no parasitic heat.  If the cyclic steady state is found and its first sample is
warm, some gas passes each of the three exchangers on average. -/
theorem C103_never_still (outs : Nat) (env : Env ℝ) (ho : env.ode = dopri5.solve outs) (U : MatrixDecomposition ℝ)
    (hU : Sound U) (c : Components ℝ) (settings : RunSettings ℝ) (hc : Turning c settings.resolution) (s : State ℝ)
    (n : GasName) (hf : s.fluid = (IdealGas.new n).toFluid) (hsane : SaneRun (Run.new U c s))
    (hstand : (c.ws.volumes s.ws 0).1.deriv = 0) (hmove : (c.ws.volumes s.ws 0).2.deriv ≠ 0)
    (hq : (c.ws.parasitics s.ws).comp.thermal = 0) (hq' : (c.ws.parasitics s.ws).exp.thermal = 0)
    (vs : List (state_equations.Values ℝ)) (h : Engine.inner env U c settings s = .ok vs)
    (hwarm : ∀ v, vs.head? = some v → Warm v.conditions) (m : MassFlows ℝ)
    (hm : MassFlows.from_values (Values.ofStateValues vs) = .ok m) : 0 < m.chx ∧ 0 < m.regen ∧ 0 < m.hhx := by
  obtain ⟨g1, -, g3⟩ := inner_grid outs env ho U c settings hc s vs h
  have hfr := hc.positive s.ws
  have hres := hc.resolution
  obtain ⟨k, hk⟩ : ∃ k, settings.resolution.toNat = k + 2 := ⟨settings.resolution.toNat - 2, by omega⟩
  have hn1 : (0 : ℝ) < (settings.resolution.toNat : ℝ) - 1 := by
    rw [hk]; push_cast; have : (0 : ℝ) ≤ k := by positivity
    linarith
  set dt := 1 / c.ws.frequency ⟨s.pres⟩ / ((settings.resolution.toNat : ℝ) - 1) with hdt
  have hdt0 : 0 < dt := div_pos (one_div_pos.2 hfr) hn1
  have htimes : ∃ xs, vs.map (·.time) = 0 :: dt :: xs := by
    rw [g1, hk]
    simp [List.range_succ_eq_map]
  obtain ⟨xs, hxs⟩ := htimes
  obtain ⟨m1, m2, m3⟩ := massflows_ok hm
  cases vs with
  | nil => simp at hxs
  | cons v ws =>
  have hv0 : v.time = 0 := by simp only [List.map_cons, List.cons.injEq] at hxs; exact hxs.1
  have hw := hwarm v rfl
  obtain ⟨j, ic, -, -, -, pts, -, g4⟩ := (C33_ok_iff _ _ _ _).1 h
  obtain ⟨-, gs⟩ := C32_values_self_consistent _ _ _ g4
  obtain ⟨-, hint, hs, -⟩ := gs 0 v rfl
  have hone := one_way (r := Run.new U c s) (n := n) hf hU (SaneRun.physical hsane v.time hw) hs (by rw [hv0]; exact hstand)
    (by rw [hv0]; exact hmove) hq hq'
  simp only [fourFlows, List.mem_cons, List.not_mem_nil, or_false, forall_eq_or_imp, forall_eq] at hone
  have key : ∀ (f g : state_equations.Values ℝ → ℝ) (x : ℝ), f v + g v ≠ 0 →
      (Values.ofStateValues (v :: ws)).m_dot_avg ((v :: ws).map f) ((v :: ws).map g) = .ok x → 0 < x := by
    intro f g x hfg hx
    obtain ⟨tf, ht, rfl⟩ := m_dot_ok hx
    have hgrid : CycleGrid (Values.ofStateValues (v :: ws)).time tf := by
      refine ⟨?_, ht, ?_, ?_⟩
      · rw [ofStateValues_eq]; simp [hv0]
      · rw [ofStateValues_eq]
        show Increasing ((v :: ws).map (·.time))
        rw [g1]
        refine List.Pairwise.isChain ?_
        rw [List.pairwise_map]
        refine List.pairwise_lt_range.imp fun {a b} hab => ?_
        have : (a : ℝ) ≤ b := by exact_mod_cast hab.le
        exact mul_le_mul_of_nonneg_right this hdt0.le
      · rw [ofStateValues_eq] at ht
        change ((v :: ws).map (·.time)).getLast? = some tf at ht
        rw [List.getLast?_map, g3, Option.some.injEq] at ht
        rw [← ht]
        exact one_div_pos.2 hfr
    refine div_pos (trapezoid_pos hgrid ?_ ?_ ?_) hgrid.positive
    · rw [ofStateValues_eq]; simp
    · intro a ha
      obtain ⟨p, -, rfl⟩ := mem_zipWith ha
      positivity
    · rw [ofStateValues_eq]
      exact ⟨0, dt, xs, |f v + g v| / 2, List.zipWith (fun a b => |a + b| / 2) (ws.map f) (ws.map g), hxs, hdt0,
        by simp, by positivity⟩
  rw [ofStateValues_eq] at m1 m2 m3 key
  refine ⟨key (·.solution.m_dot_ck) (·.solution.m_dot_kr) _ ?_ m1, key (·.solution.m_dot_kr) (·.solution.m_dot_rl) _ ?_ m2,
    key (·.solution.m_dot_rl) (·.solution.m_dot_le) _ ?_ m3⟩ <;>
  · rcases hone with ⟨h1, h2, h3, h4⟩ | ⟨h1, h2, h3, h4⟩
    · exact ne_of_gt (by linarith)
    · exact ne_of_lt (by linarith)

end Sett
