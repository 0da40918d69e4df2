import Verif.Props.Breathing
import Verif.Props.Forever
import Verif.Props.Performance

/-! # C109: what flow resistance costs, and when it pays -/

namespace Sett

open Spec state_equations

section
variable {r : Run ℝ} {n : GasName} {t : ℝ} {y : Conditions ℝ} {s : Solution ℝ}

/-- **C109**, flows.  At a physical state of a run with either ideal gas and without parasitic heat, let one space shrink or
stand and the other grow or stand.  Then gas crosses no interface against the pistons. -/
theorem C109_flows (hf : r.fluid = (IdealGas.new n).toFluid) (hT : Sound r.solver) (hp : Physical r t y 100) (hq : NoParasiticHeat r)
    (hint : FlowDirection) (h : solve r.solver (r.calculate_inputs t y) hint = .ok s) :
    ((r.ws_vol_fn t).1.deriv ≤ 0 → 0 ≤ (r.ws_vol_fn t).2.deriv → ∀ m ∈ fourFlows s, 0 ≤ m) ∧
    (0 ≤ (r.ws_vol_fn t).1.deriv → (r.ws_vol_fn t).2.deriv ≤ 0 → ∀ m ∈ fourFlows s, m ≤ 0) := by
  obtain ⟨⟨a, b, z, a', b', z', p1, p2, p3, p4, p5, p6, e1, e2⟩, k, l, m, q1, q2, q3, f1, f2, f3⟩ :=
    breath_of_solve hf hT hp h
  rw [hq.comp, mul_zero, add_zero] at e1
  rw [hq.exp, mul_zero, add_zero] at e2
  have all : ∀ p : ℝ → Prop, p s.m_dot_ck → p s.m_dot_kr → p s.m_dot_rl → p s.m_dot_le → ∀ m ∈ fourFlows s, p m := by
    intro p h1 h2 h3 h4 m hm
    simp only [fourFlows, List.mem_cons, List.not_mem_nil, or_false] at hm
    rcases hm with rfl | rfl | rfl | rfl <;> assumption
  constructor <;> intro h1 h2
  · have g1 := mul_nonpos_of_nonneg_of_nonpos p2.le h1
    have g2 := mul_nonneg p5.le h2
    rcases le_total 0 s.dP_dt with hd | hd
    · have := mul_nonneg p4.le hd
      have := mul_nonneg q1 hd; have := mul_nonneg q2 hd; have := mul_nonneg q3 hd
      apply all (0 ≤ ·) <;> linarith
    · have := mul_nonpos_of_nonneg_of_nonpos p1.le hd
      have := mul_nonpos_of_nonneg_of_nonpos q1 hd; have := mul_nonpos_of_nonneg_of_nonpos q2 hd
      have := mul_nonpos_of_nonneg_of_nonpos q3 hd
      apply all (0 ≤ ·) <;> linarith
  · have g1 := mul_nonneg p2.le h1
    have g2 := mul_nonpos_of_nonneg_of_nonpos p5.le h2
    rcases le_total 0 s.dP_dt with hd | hd
    · have := mul_nonneg p1.le hd
      have := mul_nonneg q1 hd; have := mul_nonneg q2 hd; have := mul_nonneg q3 hd
      apply all (· ≤ 0) <;> linarith
    · have := mul_nonpos_of_nonneg_of_nonpos p4.le hd
      have := mul_nonpos_of_nonneg_of_nonpos q1 hd; have := mul_nonpos_of_nonneg_of_nonpos q2 hd
      have := mul_nonpos_of_nonneg_of_nonpos q3 hd
      apply all (· ≤ 0) <;> linarith

/-- Two spaces that change in step, the one beyond the exchangers by more: the gas of the other still goes its own way. -/
theorem in_step (hf : r.fluid = (IdealGas.helium : IdealGas ℝ).toFluid) (hT : Sound r.solver) (hp : Physical r t y 100)
    (hq : NoParasiticHeat r) {hint : FlowDirection} (h : solve r.solver (r.calculate_inputs t y) hint = .ok s)
    {κ : ℝ} (hκ : (r.ws_vol_fn t).2.deriv = κ * (r.ws_vol_fn t).1.deriv) (hV : κ * (r.ws_vol_fn t).1.value ≤ (r.ws_vol_fn t).2.value)
    (hk : r.vol_chx = 0) (hr : 0 < r.vol_regen) :
    s.m_dot_kr = s.m_dot_ck ∧ ∃ g, 0 < g ∧ s.m_dot_ck = -(g * (r.ws_vol_fn t).1.deriv) := by
  have hg := helium_perfect
  rw [← hf] at hg
  have hR : (0 : ℝ) < 2077.23 := by norm_num
  have hP := hp.pres
  have hTc : 0 < y.T_c := by linarith [hp.comp_temp]
  have hTe : 0 < y.T_e := by linarith [hp.exp_temp]
  have hTk : 0 < r.temp.chx := by linarith [hp.chx_temp]
  have hTl : 0 < r.temp.hhx := by linarith [hp.hhx_temp]
  have b := C07_upwind_balances r.solver hT _ hp.norm hint s h
  have fck : (upwind (r.calculate_inputs t y) s).ck = 5193.17 * faceTemp s.m_dot_ck y.T_c r.temp.chx + -(5193.17 * 250) := by
    simp only [upwind, faceTemp, Run.calculate_inputs, Run.comp_inputs, Run.chx_inputs, hg.enth]; split <;> rfl
  have fle : (upwind (r.calculate_inputs t y) s).le = 5193.17 * faceTemp s.m_dot_le r.temp.hhx y.T_e + -(5193.17 * 250) := by
    simp only [upwind, faceTemp, Run.calculate_inputs, Run.exp_inputs, Run.hhx_inputs, hg.enth]; split <;> rfl
  have c1 := b.comp_mass
  have c2 := b.comp_energy
  have x1 := b.exp_mass
  have x2 := b.exp_energy
  have k1 := b.chx_mass
  have r1 := b.regen_mass
  have l1 := b.hhx_mass
  rw [fck] at c2
  rw [fle] at x2
  simp only [compMass, compEnergy, expMass, expEnergy, chxMass, regenMass, hhxMass, Run.calculate_inputs, Run.comp_inputs,
    Run.chx_inputs, Run.regen_inputs, Run.hhx_inputs, Run.exp_inputs, hg.dens, hg.inte, hg.dd_dP_T, hg.dd_dT_P,
    hg.du_dP_T, hg.du_dT_P] at c1 c2 x1 x2 k1 r1 l1
  have q1 := space_flow (R := 2077.23) (cp := 5193.17) (h0 := -(5193.17 * 250)) (u0 := -((5193.17 - 2077.23) * 250)) hR hTc c1 c2
  have q2 := space_flow (R := 2077.23) (cp := 5193.17) (h0 := -(5193.17 * 250)) (u0 := -((5193.17 - 2077.23) * 250)) (m := -s.m_dot_le)
    (Tf := faceTemp s.m_dot_le r.temp.hhx y.T_e) (Q := r.ws_parasitics.exp.thermal) hR hTe (by rw [x1]; ring)
    (by rw [x2]; ring)
  rw [hq.comp, sub_zero] at q1
  rw [hq.exp, sub_zero, hκ] at q2
  have bFc : 100 ≤ faceTemp s.m_dot_ck y.T_c r.temp.chx := by
    rw [faceTemp]; split
    · exact hp.comp_temp
    · exact hp.chx_temp
  have bFe : 100 ≤ faceTemp s.m_dot_le r.temp.hhx y.T_e := by
    rw [faceTemp]; split
    · exact hp.hhx_temp
    · exact hp.exp_temp
  have pXc : 0 < 5193.17 * faceTemp s.m_dot_ck y.T_c r.temp.chx - (-((5193.17 - 2077.23) * 250) - -(5193.17 * 250)) := by
    norm_num at bFc ⊢; linarith
  have pXe : 0 < 5193.17 * faceTemp s.m_dot_le r.temp.hhx y.T_e - (-((5193.17 - 2077.23) * 250) - -(5193.17 * 250)) := by
    norm_num at bFe ⊢; linarith
  set Xc := 5193.17 * faceTemp s.m_dot_ck y.T_c r.temp.chx - (-((5193.17 - 2077.23) * 250) - -(5193.17 * 250))
  set Xe := 5193.17 * faceTemp s.m_dot_le r.temp.hhx y.T_e - (-((5193.17 - 2077.23) * 250) - -(5193.17 * 250))
  rw [hk] at k1
  simp only [massRate, zero_mul, mul_zero, add_zero] at k1
  set D := (r.vol_regen / r.temp.regen.avg + r.vol_hhx / r.temp.hhx) / 2077.23 with hD
  have hD0 : 0 < D := div_pos (add_pos_of_pos_of_nonneg (div_pos hr hp.regen_temp) (div_nonneg hp.hhx_vol hTl.le)) hR
  have sum : s.m_dot_ck - s.m_dot_le = D * s.dP_dt := by
    have e : s.m_dot_ck - s.m_dot_le = (s.m_dot_ck - s.m_dot_kr) + (s.m_dot_kr - s.m_dot_rl) + (s.m_dot_rl - s.m_dot_le) := by ring
    rw [e, ← k1, ← r1, ← l1, hD]
    simp only [massRate]
    have := hp.regen_temp.ne'
    field_simp
    ring
  refine ⟨by linarith, ?_⟩
  have vc := hp.comp_vol
  have ve := hp.exp_vol
  set u := (r.ws_vol_fn t).1.deriv
  set Vc := (r.ws_vol_fn t).1.value
  set Ve := (r.ws_vol_fn t).2.value
  obtain ⟨α, hα, hα1⟩ : ∃ α : ℝ, α = 5193.17 / 2077.23 ∧ 1 < α := ⟨_, rfl, by norm_num⟩
  rw [← hα] at q1 q2
  -- everything over the common denominator
  have hK : 0 < D * Xc * Xe + (α - 1) * (Vc * Xe + Ve * Xc) := by
    have : 0 < α - 1 := by linarith
    positivity
  have hN : 0 < D * Xe + (α - 1) * (Ve - κ * Vc) := by
    have h1 : 0 ≤ (α - 1) * (Ve - κ * Vc) := mul_nonneg (by linarith) (by linarith)
    have := mul_pos hD0 pXe
    linarith
  refine ⟨α * y.P * (D * Xe + (α - 1) * (Ve - κ * Vc)) / (D * Xc * Xe + (α - 1) * (Vc * Xe + Ve * Xc)), ?_, ?_⟩
  · have : 0 < α := by linarith
    positivity
  · have e : s.m_dot_ck * (D * Xc * Xe + (α - 1) * (Vc * Xe + Ve * Xc))
        = -(α * y.P * (D * Xe + (α - 1) * (Ve - κ * Vc)) * u) := by
      linear_combination (D * Xe + (α - 1) * Ve) * q1 - (α - 1) * Vc * q2 + (α - 1) * Vc * Xe * sum
    rw [div_mul_eq_mul_div, ← neg_div, eq_div_iff hK.ne', e]

end

/-! ## Whole runs -/

theorem trapezoid_some_pos : ∀ (x y : List ℝ), x.Pairwise (· < ·) → y.length = x.length → 2 ≤ x.length → (∀ a ∈ y, 0 ≤ a) →
    (∃ a ∈ y, 0 < a) → 0 < trapezoid x y
  | [], y, _, _, h2, _, _ => by simp at h2
  | [x0], y, _, _, h2, _, _ => by simp at h2
  | x0 :: x1 :: xs, [], _, hl, _, _, _ => by simp at hl
  | x0 :: x1 :: xs, [y0], _, hl, _, _, _ => by simp at hl
  | x0 :: x1 :: xs, y0 :: y1 :: ys, hx, hl, _, hy, hp => by
    have hx01 : x0 < x1 := (List.pairwise_cons.1 hx).1 x1 (by simp)
    have hx' := (List.pairwise_cons.1 hx).2
    have h0 : 0 ≤ y0 := hy _ (by simp)
    have h1 : 0 ≤ y1 := hy _ (by simp)
    have hrest := trapezoid_nonneg (x1 :: xs) (y1 :: ys) (hx'.imp le_of_lt).isChain fun a ha => hy a (by simp at ha ⊢; tauto)
    simp only [trapezoid]
    have c : 0 ≤ (x1 - x0) * (y0 + y1) := mul_nonneg (by linarith) (by linarith)
    rcases (add_nonneg h0 h1).eq_or_lt with hz | hz
    · have z0 : y0 = 0 := by linarith
      have z1 : y1 = 0 := by linarith
      obtain ⟨a, ha, pa⟩ := hp
      have ha' : a ∈ ys := by
        simp only [List.mem_cons] at ha
        rcases ha with rfl | rfl | ha
        · linarith
        · linarith
        · exact ha
      cases xs with
      | nil =>
        simp only [List.length_cons, List.length_nil] at hl
        rw [List.length_eq_zero_iff.1 (by omega : ys.length = 0)] at ha'
        simp at ha'
      | cons x2 xs =>
        have := trapezoid_some_pos (x1 :: x2 :: xs) (y1 :: ys) hx' (by simpa using hl) (by simp)
          (fun a ha => hy a (by simp at ha ⊢; tauto)) ⟨a, by simp [ha'], pa⟩
        linarith
    · have : 0 < (x1 - x0) * (y0 + y1) := mul_pos (by linarith) hz
      linarith

/-- The samples of a finished run: their times, and the equations they solve. -/
theorem run_samples {outs : Nat} {env : Env ℝ} (ho : env.ode = dopri5.solve outs) {U : MatrixDecomposition ℝ} {c : Components ℝ}
    {fluid : Fluid ℝ} {inputs : RunInputs ℝ} {settings : RunSettings ℝ} (hc : Turning c settings.resolution) {e : Engine ℝ}
    (h : Engine.run env U c fluid inputs settings = .ok e) :
    e.components = c ∧ e.state.fluid = fluid ∧ ∃ vs : List (state_equations.Values ℝ), e.values = Values.ofStateValues vs ∧
      vs.length = settings.resolution.toNat ∧ (times vs).Pairwise (· < ·) ∧
      (times vs = (List.range settings.resolution.toNat).map (fun k : Nat =>
        k * (1 / c.ws.frequency ⟨e.state.pres⟩ / ((settings.resolution.toNat : ℝ) - 1)))) ∧
      ∀ v ∈ vs, ∃ hint, solve U ((Run.new U c e.state).calculate_inputs v.time v.conditions) hint = .ok v.solution := by
  obtain ⟨n, vs, s', -, h2, h3, h4, h5, -⟩ := (C36_ok_iff env U c fluid inputs settings e).1 h
  obtain ⟨f1, -⟩ := visited_invariant env U c fluid inputs settings h2
  obtain ⟨g1, -, -⟩ := inner_grid outs env ho U c settings hc e.state vs h3
  have hfr := hc.positive e.state.ws
  have hres := hc.resolution
  have hn1 : (0 : ℝ) < (settings.resolution.toNat : ℝ) - 1 := by
    have : (2 : ℝ) ≤ settings.resolution.toNat := by exact_mod_cast hres
    linarith
  have hdt0 : 0 < 1 / c.ws.frequency ⟨e.state.pres⟩ / ((settings.resolution.toNat : ℝ) - 1) := div_pos (one_div_pos.2 hfr) hn1
  refine ⟨h5, f1, vs, h4, by simpa using congrArg List.length g1, ?_, g1, fun v hv => ?_⟩
  · show (vs.map (·.time)).Pairwise (· < ·)
    rw [g1, List.pairwise_map]
    refine List.pairwise_lt_range.imp fun {a b} hab => ?_
    have : (a : ℝ) < b := by exact_mod_cast hab
    exact mul_lt_mul_of_pos_right this hdt0
  · obtain ⟨m, ic, -, -, -, pts, -, g4⟩ := (C33_ok_iff _ _ _ _).1 h3
    obtain ⟨-, gs⟩ := C32_values_self_consistent _ _ _ g4
    obtain ⟨k, hk, rfl⟩ := List.mem_iff_getElem.1 hv
    obtain ⟨-, hint, hs, -⟩ := gs k _ (List.getElem?_eq_getElem hk)
    exact ⟨hint, hs⟩

/-- Reported series that are warm come from warm samples. -/
theorem warm_samples {e : Engine ℝ} {vs : List (state_equations.Values ℝ)} (h : e.values = Values.ofStateValues vs)
    (hP : ∀ x ∈ e.values.P, 0 < x) (hc : ∀ x ∈ e.values.T_c, 100 ≤ x) (he : ∀ x ∈ e.values.T_e, 100 ≤ x) :
    ∀ v ∈ vs, Warm v.conditions := by
  rw [h, ofStateValues_eq] at hP hc he
  intro v hv
  exact ⟨hP _ (List.mem_map_of_mem hv), hc _ (List.mem_map_of_mem hv), he _ (List.mem_map_of_mem hv)⟩

section runs
variable {outs : Nat} {env : Env ℝ} {U : MatrixDecomposition ℝ} {c : Components ℝ} {n : GasName} {inputs : RunInputs ℝ}
  {settings : RunSettings ℝ} {e : Engine ℝ} {r : api.RunResults ℝ}

/-- **C109**, no gain.  A run of either ideal gas without parasitic heat whose reported gas is warm, with a drive whose two
spaces never grow together nor shrink together: whatever the flow resistances, the indicated power is at most the ideal one. -/
theorem C109_no_gain (ho : env.ode = dopri5.solve outs) (hU : Sound U) (hc : Turning c settings.resolution)
    (h : Engine.run env U c (IdealGas.new n).toFluid inputs settings = .ok e) (hr : RunResults.ofEngine e = .ok r)
    (hs : SaneRun (Run.new U c e.state)) (hq : NoParasiticHeat (Run.new U c e.state))
    (hP : ∀ x ∈ e.values.P, 0 < x) (hTc : ∀ x ∈ e.values.T_c, 100 ≤ x) (hTe : ∀ x ∈ e.values.T_e, 100 ≤ x)
    (hd : ∀ t, (c.ws.volumes e.state.ws t).1.deriv * (c.ws.volumes e.state.ws t).2.deriv ≤ 0)
    (hk : 0 ≤ c.chx.hydraulic_resistance e.state.chx) (hg : 0 ≤ c.regen.hydraulic_resistance e.state.regen)
    (hl : 0 ≤ c.hhx.hydraulic_resistance e.state.hhx) : r.power.indicated ≤ r.power.ideal_indicated := by
  obtain ⟨h1, h2, vs, h3, -, h5, -, h6⟩ := run_samples ho hc h
  have hw := warm_samples h3 hP hTc hTe
  have key := C42_pressure_drop_loss e vs h3 r hr
  have hfr : 0 < e.components.ws.frequency ⟨e.state.pres⟩ := by rw [h1]; exact hc.positive e.state.ws
  have hR := IdealGas.gas_constant_pos n
  have dens : ∀ T P, 0 < T → 0 < P → 0 < e.state.fluid.dens T P := by
    intro T P hT hP
    rw [h2]
    show 0 < P / ((IdealGas.new n : IdealGas ℝ).gas_constant * T)
    positivity
  have hTk : 0 < e.state.temp.chx := lt_of_lt_of_le (by norm_num) hs.chx_temp
  have hTr : 0 < e.state.temp.regen.avg := hs.regen_temp
  have hTl : 0 < e.state.temp.hhx := lt_of_lt_of_le (by norm_num) hs.hhx_temp
  have pos : ∀ R m m' d : ℝ, 0 ≤ R → 0 < d → 0 ≤ m → 0 ≤ m' → 0 ≤ Spec.drop R m m' d := by
    intro R m m' d hR hd hm hm'; unfold Spec.drop; positivity
  have neg : ∀ R m m' d : ℝ, 0 ≤ R → 0 < d → m ≤ 0 → m' ≤ 0 → Spec.drop R m m' d ≤ 0 := by
    intro R m m' d hR hd hm hm'
    have := pos R (-m) (-m') d hR hd (by linarith) (by linarith)
    have e : Spec.drop R (-m) (-m') d = -Spec.drop R m m' d := by unfold Spec.drop; ring
    linarith
  have samples : ∀ v ∈ vs, 0 ≤ -((dropChx e v + dropRegen e v + dropHhx e v) / 2 * (dVc e v.time - dVe e v.time)) := by
    intro v hv
    obtain ⟨hint, hsol⟩ := h6 v hv
    obtain ⟨w1, w2⟩ := C109_flows (r := Run.new U c e.state) (n := n) h2 hU (SaneRun.physical hs v.time (hw v hv)) hq hint hsol
    have p := (hw v hv).pres
    rw [dVc, dVe, h1]
    unfold dropChx dropRegen dropHhx
    rw [h1]
    have hd' := hd v.time
    change (c.ws.volumes ⟨e.state.pres⟩ v.time).1.deriv * (c.ws.volumes ⟨e.state.pres⟩ v.time).2.deriv ≤ 0 at hd'
    change (c.ws.volumes ⟨e.state.pres⟩ v.time).1.deriv ≤ 0 → 0 ≤ (c.ws.volumes ⟨e.state.pres⟩ v.time).2.deriv → _ at w1
    change 0 ≤ (c.ws.volumes ⟨e.state.pres⟩ v.time).1.deriv → (c.ws.volumes ⟨e.state.pres⟩ v.time).2.deriv ≤ 0 → _ at w2
    set a := (c.ws.volumes ⟨e.state.pres⟩ v.time).1.deriv
    set b := (c.ws.volumes ⟨e.state.pres⟩ v.time).2.deriv
    rw [neg_nonneg]
    rcases mul_nonpos_iff.1 hd' with ⟨a0, b0⟩ | ⟨a0, b0⟩
    · have m := w2 a0 b0
      simp only [fourFlows, List.mem_cons, List.not_mem_nil, or_false, forall_eq_or_imp, forall_eq] at m
      obtain ⟨m1, m2, m3, m4⟩ := m
      have d1 := neg _ _ _ _ hk (dens _ _ hTk p) m1 m2
      have d2 := neg _ _ _ _ hg (dens _ _ hTr p) m2 m3
      have d3 := neg _ _ _ _ hl (dens _ _ hTl p) m3 m4
      exact mul_nonpos_of_nonpos_of_nonneg (by linarith) (by linarith)
    · have m := w1 a0 b0
      simp only [fourFlows, List.mem_cons, List.not_mem_nil, or_false, forall_eq_or_imp, forall_eq] at m
      obtain ⟨m1, m2, m3, m4⟩ := m
      have d1 := pos _ _ _ _ hk (dens _ _ hTk p) m1 m2
      have d2 := pos _ _ _ _ hg (dens _ _ hTr p) m2 m3
      have d3 := pos _ _ _ _ hl (dens _ _ hTl p) m3 m4
      exact mul_nonpos_of_nonneg_of_nonpos (by linarith) (by linarith)
  have hint := trapezoid_nonneg (times vs) (vs.map fun v => -((dropChx e v + dropRegen e v + dropHhx e v) / 2
    * (dVc e v.time - dVe e v.time))) (h5.imp le_of_lt).isChain (by simpa using samples)
  have flip := trapezoid_sub (times vs) vs (fun _ => 0) (fun v => (dropChx e v + dropRegen e v + dropHhx e v) / 2
    * (dVc e v.time - dVe e v.time))
  rw [trapezoid_zero (times vs) (vs.map fun _ => 0) (by simp)] at flip
  simp only [zero_sub] at flip
  rw [flip] at hint
  have := mul_nonneg hfr.le hint
  rw [mul_neg, ← key] at this
  linarith

/-- **C109**, gain.  Let the two spaces of an engine with helium grow and shrink in step, the expansion space by `κ > 1` times
as much, the cooler have no volume and the regenerator some, and let no heat leak into the spaces.  A run whose reported gas is
warm reports more indicated power than the ideal one if there is flow resistance in the cooler and none elsewhere. -/
theorem C109_gain (ho : env.ode = dopri5.solve outs) (hU : Sound U) (hc : Turning c settings.resolution)
    (h : Engine.run env U c (IdealGas.helium : IdealGas ℝ).toFluid inputs settings = .ok e) (hr : RunResults.ofEngine e = .ok r)
    (hs : SaneRun (Run.new U c e.state)) (hq : NoParasiticHeat (Run.new U c e.state))
    (hP : ∀ x ∈ e.values.P, 0 < x) (hTc : ∀ x ∈ e.values.T_c, 100 ≤ x) (hTe : ∀ x ∈ e.values.T_e, 100 ≤ x) {κ : ℝ} (hκ : 1 < κ)
    (hd : ∀ t, (c.ws.volumes e.state.ws t).2.deriv = κ * (c.ws.volumes e.state.ws t).1.deriv)
    (hV : ∀ t, κ * (c.ws.volumes e.state.ws t).1.value ≤ (c.ws.volumes e.state.ws t).2.value)
    (hvk : (Run.new U c e.state).vol_chx = 0) (hvr : 0 < (Run.new U c e.state).vol_regen)
    (hk : 0 < c.chx.hydraulic_resistance e.state.chx) (hg : c.regen.hydraulic_resistance e.state.regen = 0)
    (hl : c.hhx.hydraulic_resistance e.state.hhx = 0)
    (hmove : ∃ k < settings.resolution.toNat, (c.ws.volumes e.state.ws
      (k * (1 / c.ws.frequency ⟨e.state.pres⟩ / ((settings.resolution.toNat : ℝ) - 1)))).1.deriv ≠ 0) :
    r.power.ideal_indicated < r.power.indicated := by
  obtain ⟨h1, h2, vs, h3, h4, h5, htimes, h6⟩ := run_samples ho hc h
  have hw := warm_samples h3 hP hTc hTe
  have key := C42_pressure_drop_loss e vs h3 r hr
  have hfr : 0 < e.components.ws.frequency ⟨e.state.pres⟩ := by rw [h1]; exact hc.positive e.state.ws
  have hTk : 0 < e.state.temp.chx := lt_of_lt_of_le (by norm_num) hs.chx_temp
  have samples : ∀ v ∈ vs, ∃ g, 0 < g ∧ (dropChx e v + dropRegen e v + dropHhx e v) / 2 * (dVc e v.time - dVe e v.time)
      = g * (c.ws.volumes e.state.ws v.time).1.deriv ^ 2 := by
    intro v hv
    obtain ⟨hint, hsol⟩ := h6 v hv
    obtain ⟨w1, g, g0, w2⟩ := in_step (r := Run.new U c e.state) h2 hU (SaneRun.physical hs v.time (hw v hv)) hq hsol (κ := κ)
      (hd v.time) (hV v.time) hvk hvr
    change v.solution.m_dot_ck = -(g * (c.ws.volumes e.state.ws v.time).1.deriv) at w2
    have p := (hw v hv).pres
    have d0 : 0 < e.state.fluid.dens e.state.temp.chx v.conditions.P := by
      rw [h2]
      show 0 < v.conditions.P / ((IdealGas.new .Helium : IdealGas ℝ).gas_constant * e.state.temp.chx)
      have := IdealGas.gas_constant_pos .Helium
      positivity
    have d1 : dVc e v.time = (c.ws.volumes e.state.ws v.time).1.deriv := by rw [dVc, h1]; rfl
    have d2 : dVe e v.time = κ * (c.ws.volumes e.state.ws v.time).1.deriv := by rw [dVe, h1]; exact hd v.time
    refine ⟨c.chx.hydraulic_resistance e.state.chx * g / e.state.fluid.dens e.state.temp.chx v.conditions.P / 2 * (κ - 1), ?_, ?_⟩
    · have : 0 < κ - 1 := by linarith
      positivity
    · rw [d1, d2]
      unfold dropChx dropRegen dropHhx Spec.drop
      rw [h1, hg, hl, w1, w2]
      ring
  have hpos := trapezoid_some_pos (times vs) (vs.map fun v => (dropChx e v + dropRegen e v + dropHhx e v) / 2
    * (dVc e v.time - dVe e v.time)) h5 (by simp [times]) (by simpa [times, h4] using hc.resolution) (by
      intro a ha
      obtain ⟨v, hv, rfl⟩ := List.mem_map.1 ha
      obtain ⟨g, g0, e1⟩ := samples v hv
      rw [e1]
      positivity) (by
      obtain ⟨k, hk, hne⟩ := hmove
      have hk' : k < vs.length := by rw [h4]; exact hk
      have ht : vs[k].time = k * (1 / c.ws.frequency ⟨e.state.pres⟩ / ((settings.resolution.toNat : ℝ) - 1)) := by
        have := congrArg (·[k]?) htimes
        simpa [times, hk, hk'] using this
      obtain ⟨g, g0, e1⟩ := samples vs[k] (List.getElem_mem hk')
      refine ⟨_, List.mem_map_of_mem (List.getElem_mem hk'), ?_⟩
      rw [e1, ht]
      positivity)
  have := mul_pos hfr hpos
  rw [← key] at this
  linarith

end runs

end Sett
