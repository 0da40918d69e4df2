import Verif.Props.Shadow
import Verif.Proofs.Sampled

/-! # C84: the reported figures are near those of the motion of the gas -/

namespace Sett

open Spec state_equations api Set

section
variable {U : MatrixDecomposition ℝ} {c : Components ℝ} {s : State ℝ} {n : GasName} {L : Limits}

theorem smooth_drop (hf : s.fluid = (IdealGas.new n).toFluid) (hs : SaneRun (Run.new U c s)) (values : Values ℝ) :
    Smooth (Run.new U c s) L (pressureDrop ⟨c, s, values⟩) := by
  obtain ⟨h0, h1, h2, h3, -⟩ := duo_near (L := L) (r := Run.new U c s) (n := n) hf hs
  have s0 : Smooth (Run.new U c s) L (fun v => v.solution.m_dot_ck) := h0
  have s1 : Smooth (Run.new U c s) L (fun v => v.solution.m_dot_kr) := h1
  have s2 : Smooth (Run.new U c s) L (fun v => v.solution.m_dot_rl) := h2
  have s3 : Smooth (Run.new U c s) L (fun v => v.solution.m_dot_le) := h3
  have drop : ∀ (R T : ℝ) {m m' : state_equations.Values ℝ → ℝ}, Smooth (Run.new U c s) L m →
      Smooth (Run.new U c s) L m' →
      Smooth (Run.new U c s) L (fun v => R * (((m v + m' v) / 2) / s.fluid.dens T v.conditions.P)) := by
    intro R T m m' h h'
    refine (((Smooth.const (R * ((IdealGas.new n : IdealGas ℝ).gas_constant * T) / 2)).mul (h.add h')).mul
      Smooth.overPres).congr fun v => ?_
    rw [hf]
    show R * (((m v + m' v) / 2) / (v.conditions.P / ((IdealGas.new n : IdealGas ℝ).gas_constant * T))) = _
    rw [div_div_eq_mul_div]
    ring
  exact ((drop _ _ s0 s1).add (drop _ _ s1 s2)).add (drop _ _ s2 s3)

theorem pressureDrop_eq (e : Engine ℝ) (v : state_equations.Values ℝ) :
    pressureDrop e v = dropChx e v + dropRegen e v + dropHhx e v := rfl

theorem cycleMean_neg (T : ℝ) (g : ℝ → ℝ) : cycleMean T (fun t => -g t) = -cycleMean T g := by
  unfold cycleMean; rw [intervalIntegral.integral_neg, neg_div]

/-- **C84**, any samples: the figures computed from samples within `δ` of a motion and no further than `Δ` apart are
within a multiple of `δ + Δ` of the figures of the motion. -/
theorem C84_sampled (hf : s.fluid = (IdealGas.new n).toFluid) (hs : SaneRun (Run.new U c s)) (hT : Sound U) {K : ℝ}
    (hK : 0 ≤ K) (hd : SteadyDrive (Run.new U c s) K) (hp : 0 < c.ws.frequency s.ws) :
    ∃ A, 0 ≤ A ∧ ∀ V vs Δ δ (e : Engine ℝ) (res : RunResults ℝ), 0 ≤ Δ → Sampled (Run.new U c s) L V vs Δ δ →
      e.components = c → e.state = s → e.values = Values.ofStateValues vs → RunResults.ofEngine e = .ok res →
      FiguresWithin (A * (δ + Δ)) (figuresOf e V) res := by
  set r := Run.new U c s with hr
  have hper : r.period = 1 / c.ws.frequency s.ws := by
    show 1.0 / c.ws.frequency s.ws = _
    rw [lit_1]
  have hfr : 1 / r.period = c.ws.frequency s.ws := by rw [hper, one_div_one_div]
  have hp' : 0 < r.period := by rw [hper]; positivity
  obtain ⟨-, -, -, -, h4, -, h6, -⟩ := duo_near (L := L) (r := r) (n := n) hf hs
  have mean := fun {φ} (hφ : Smooth r L φ) => smooth_mean (n := n) hf hs hT hK hd hp' hφ
  have sd := smooth_drop (L := L) (U := U) hf hs (Values.ofStateValues [])
  obtain ⟨a0, p0, m0⟩ := mean ((Smooth.pres.mul Smooth.rateC).add (Smooth.pres.mul Smooth.rateE))
  obtain ⟨a1, p1, m1⟩ := mean (((Smooth.pres.add (sd.div 2)).mul Smooth.rateC).add
    ((Smooth.pres.sub (sd.div 2)).mul Smooth.rateE))
  obtain ⟨a2, p2, m2⟩ := mean (φ := fun v => v.solution.Q_dot_l) h6
  obtain ⟨a3, p3, m3⟩ := mean ((Smooth.exp.sub (Smooth.const s.temp.hhx)).div (c.ws.thermal_resistance s.ws).exp)
  obtain ⟨a4, p4, m4⟩ := mean (φ := fun v => v.solution.Q_dot_k) h4
  obtain ⟨a5, p5, m5⟩ := mean ((Smooth.comp.sub (Smooth.const s.temp.chx)).div (c.ws.thermal_resistance s.ws).comp)
  have hω : 0 < 2 * Real.pi * c.ws.frequency s.ws := by positivity
  refine ⟨a0 + a1 + a2 + a3 + a4 + a5 + a1 / (2 * Real.pi * c.ws.frequency s.ws), by positivity, ?_⟩
  rintro V vs Δ δ ⟨c', s', values⟩ res hΔ hS hc hst hv hres
  dsimp only at hc hst hv
  replace hc := hc.symm
  replace hst := hst.symm
  subst hc
  subst hst
  have hδ : 0 ≤ δ := by
    have := hS.first
    cases hvs : vs with
    | nil => rw [hvs] at this; cases this
    | cons v vs' => exact (stateGap_nonneg _ _).trans (hS.near v (by rw [hvs]; simp))
  have hx : 0 ≤ δ + Δ := add_nonneg hδ hΔ
  obtain ⟨w1, w0, w2, w3⟩ := results_powers hv hres
  obtain ⟨q1, q2⟩ := results_heats hv hres
  obtain ⟨t1, -⟩ := C44_torque_efficiency _ _ hres
  replace m0 := m0 V vs Δ δ hΔ hS
  replace m1 := m1 V vs Δ δ hΔ hS
  replace m2 := m2 V vs Δ δ hΔ hS
  replace m3 := m3 V vs Δ δ hΔ hS
  replace m4 := m4 V vs Δ δ hΔ hS
  replace m5 := m5 V vs Δ δ hΔ hS
  rw [hfr] at m0 m1 m2 m3 m4 m5
  set e : Engine ℝ := ⟨c, s, values⟩ with he
  have hV := hS.motion.time
  have n0 : res.power.ideal_indicated = c.ws.frequency s.ws * trapezoid (times vs) (vs.map fun v =>
      v.conditions.P * (r.ws_vol_fn v.time).1.deriv + v.conditions.P * (r.ws_vol_fn v.time).2.deriv) := w0
  have n1 : res.power.indicated = c.ws.frequency s.ws * trapezoid (times vs) (vs.map fun v =>
      (v.conditions.P + pressureDrop ⟨c, s, Values.ofStateValues []⟩ v / 2) * (r.ws_vol_fn v.time).1.deriv
      + (v.conditions.P - pressureDrop ⟨c, s, Values.ofStateValues []⟩ v / 2) * (r.ws_vol_fn v.time).2.deriv) := w1
  rw [← n0] at m0
  rw [← n1] at m1
  have i0 : (figuresOf e V).ideal = cycleMean r.period (fun t => (V t).conditions.P * (r.ws_vol_fn (V t).time).1.deriv
      + (V t).conditions.P * (r.ws_vol_fn (V t).time).2.deriv) := by
    simp only [hV, ← mul_add]
    rw [hper]
    rfl
  have i1 : (figuresOf e V).indicated = cycleMean r.period (fun t =>
      ((V t).conditions.P + pressureDrop ⟨c, s, Values.ofStateValues []⟩ (V t) / 2) * (r.ws_vol_fn (V t).time).1.deriv
      + ((V t).conditions.P - pressureDrop ⟨c, s, Values.ofStateValues []⟩ (V t) / 2)
        * (r.ws_vol_fn (V t).time).2.deriv) := by
    simp only [hV]
    rw [hper]
    rfl
  rw [← i0] at m0
  rw [← i1] at m1
  have i2 : (figuresOf e V).input = cycleMean r.period (fun t => (V t).solution.Q_dot_l)
      - cycleMean r.period (fun t => ((V t).conditions.T_e - s.temp.hhx) / (c.ws.thermal_resistance s.ws).exp)
      + ((c.hhx.parasitics s.hhx).thermal + (c.regen.parasitics s.regen).thermal
        + (c.ws.parasitics s.ws).exp.thermal) := by
    rw [sub_eq_add_neg, ← cycleMean_neg, hper]
    simp only [← neg_div, neg_sub]
    rfl
  have i3 : (figuresOf e V).rejection = cycleMean r.period (fun t => (V t).solution.Q_dot_k)
      + cycleMean r.period (fun t => ((V t).conditions.T_c - s.temp.chx) / (c.ws.thermal_resistance s.ws).comp)
      + ((figuresOf e V).ideal - (figuresOf e V).indicated)
      + ((figuresOf e V).indicated - (figuresOf e V).shaft) + ((c.hhx.parasitics s.hhx).thermal
        + (c.regen.parasitics s.regen).thermal + (c.ws.parasitics s.ws).exp.thermal) := by
    rw [hper]
    rfl
  have i4 : (figuresOf e V).shaft = (figuresOf e V).indicated - (c.ws.parasitics s.ws).comp.mechanical
      - (c.ws.parasitics s.ws).exp.mechanical := rfl
  have i5 : (figuresOf e V).net = (figuresOf e V).shaft - (c.chx.parasitics s.chx).mechanical
      - (c.hhx.parasitics s.hhx).mechanical := rfl
  have i6 : (figuresOf e V).torque = (figuresOf e V).shaft / (2 * Real.pi * c.ws.frequency s.ws) := rfl
  have w2' : res.power.shaft = res.power.indicated - (c.ws.parasitics s.ws).comp.mechanical
      - (c.ws.parasitics s.ws).exp.mechanical := w2
  have w3' : res.power.net = res.power.shaft - (c.chx.parasitics s.chx).mechanical
      - (c.hhx.parasitics s.hhx).mechanical := w3
  have t1' : res.shaft_torque * (2 * Real.pi * c.ws.frequency s.ws) = res.power.shaft := t1 hp.ne'
  have total : ∀ x y, |x| ≤ y * (δ + Δ) → y ≤ a0 + a1 + a2 + a3 + a4 + a5 + a1 / (2 * Real.pi * c.ws.frequency s.ws) →
      |x| ≤ (a0 + a1 + a2 + a3 + a4 + a5 + a1 / (2 * Real.pi * c.ws.frequency s.ws)) * (δ + Δ) := fun x y h h' =>
    h.trans (mul_le_mul_of_nonneg_right h' hx)
  have pω : 0 ≤ a1 / (2 * Real.pi * c.ws.frequency s.ws) := by positivity
  have hsh : |res.power.shaft - (figuresOf e V).shaft| ≤ a1 * (δ + Δ) := by
    rw [w2', i4]
    exact le_of_eq_of_le (congrArg _ (by ring)) m1
  refine ⟨total _ a0 m0 (by linarith), total _ a1 m1 (by linarith), total _ a1 hsh (by linarith),
    total _ a1 ?_ (by linarith), total _ (a1 / (2 * Real.pi * c.ws.frequency s.ws)) ?_ (by linarith),
    total _ (a2 + a3) ?_ (by linarith), total _ (a4 + a5 + a0 + a1) ?_ (by linarith)⟩
  · rw [w3', i5]
    exact le_of_eq_of_le (congrArg _ (by ring)) hsh
  · rw [i6, eq_div_of_mul_eq hω.ne' t1', ← sub_div, abs_div, abs_of_pos hω, div_mul_eq_mul_div]
    exact div_le_div_of_nonneg_right hsh hω.le
  · rw [q1, i2, add_mul]
    refine le_trans (le_of_eq ?_) ((abs_sub _ _).trans (add_le_add m2 m3))
    congr 1
    simp only [he]
    ring
  · rw [q2, i3]
    have e1 : |(c.ws.frequency s.ws * trapezoid (times vs) (vs.map fun v => v.solution.Q_dot_k)
          - cycleMean r.period (fun t => (V t).solution.Q_dot_k))
        + (c.ws.frequency s.ws * trapezoid (times vs) (vs.map fun v => (v.conditions.T_c - s.temp.chx)
            / (c.ws.thermal_resistance s.ws).comp)
          - cycleMean r.period (fun t => ((V t).conditions.T_c - s.temp.chx) / (c.ws.thermal_resistance s.ws).comp))
        + ((res.power.ideal_indicated - (figuresOf e V).ideal) - (res.power.indicated - (figuresOf e V).indicated))|
        ≤ (a4 + a5 + a0 + a1) * (δ + Δ) := by
      refine (abs_add_le _ _).trans ?_
      have h1 := (abs_add_le _ _).trans (add_le_add m4 m5)
      have h2 := (abs_sub _ _).trans (add_le_add m0 m1)
      linarith
    refine le_of_eq_of_le (congrArg _ ?_) e1
    rw [i4]
    simp only [he]
    ring

/-- **C84.** The figures reported for a completed run are those of a motion of the gas: there is a constant `C` for the
engine, its final state, the limits and the drive such that, when the last integration took steps no longer than `H`
and its questions stayed `C H` clear of the limits, the gas has a motion from the start of the reported cycle whose
powers, torque and heat flows, averaged by integrals over time, differ from the reported ones by at most
`C (H + Δ)`, with `Δ` the interval between reported points.  The motion returns to its temperatures within the
convergence tolerance plus `C H`. -/
theorem C84_figures (hf : s.fluid = (IdealGas.new n).toFluid) (hs : SaneRun (Run.new U c s)) (hT : Sound U)
    (hc : Complete U) (L : Limits) {K : ℝ} (hK : 0 ≤ K) (hd : SteadyDrive (Run.new U c s) K)
    (hw : DriveWithin (Run.new U c s) L) : ∃ C, 0 ≤ C ∧
      ∀ (outs : Nat) (env : Env ℝ) (fluid : Fluid ℝ) (inputs : RunInputs ℝ) (settings : RunSettings ℝ) (e : Engine ℝ)
        (res : RunResults ℝ), env.ode = dopri5.solve outs → Spec.Turning c settings.resolution →
      Engine.run env U c fluid inputs settings = .ok e → e.state = s → RunResults.ofEngine e = .ok res → ∃ ic log l,
        ic.P = inputs.pres_zero ∧ e.values.T_c.head? = some ic.T_c ∧ e.values.T_e.head? = some ic.T_e ∧
        Conversation env (Run.new U c s).toCycle ic settings.resolution settings.ode_tol log ∧
        Integrates (AnsweredIn log) settings.ode_tol.rel settings.ode_tol.abs (stateVector ic)
          ((Run.new U c s).period + 1e-14) l ∧
        ∀ H : ℝ, (∀ x ∈ l, x.h ≤ H) → (∀ q ∈ log, Inside L (C * H) q.conditions) →
          ∃ V, Motion (Run.new U c s) L V ∧ (V 0).conditions = ic ∧
            |(V (1 / c.ws.frequency s.ws)).conditions.T_c - (V 0).conditions.T_c| ≤ settings.loop_tol.inner.abs + C * H ∧
            |(V (1 / c.ws.frequency s.ws)).conditions.T_e - (V 0).conditions.T_e| ≤ settings.loop_tol.inner.abs + C * H ∧
            FiguresWithin (C * (H + 1 / c.ws.frequency s.ws / ((settings.resolution.toNat : ℝ) - 1)))
              (figuresOf e V) res := by
  set r := Run.new U c s with hr
  have hper : r.period = 1 / c.ws.frequency s.ws := by
    show 1.0 / c.ws.frequency s.ws = _
    rw [lit_1]
  by_cases hp : 0 < c.ws.frequency s.ws
  swap
  · exact ⟨0, le_rfl, fun _ _ _ _ _ _ _ _ ht => absurd (ht.positive _) hp⟩
  have hp' : 0 < r.period := by rw [hper]; positivity
  obtain ⟨D, hD, hret⟩ := C83_returns (r := r) hf hs hT hc L hK hd hw hp'
  obtain ⟨A, hA, hfig⟩ := C84_sampled (L := L) hf hs hT hK hd hp
  refine ⟨D + A * (D + 1), by positivity, ?_⟩
  intro outs env fluid inputs settings e res ho ht hrun hst hres
  obtain ⟨m, vs, s', -, -, hin, hv, hcomp, -⟩ := (C36_ok_iff env U c fluid inputs settings e).1 hrun
  obtain ⟨k1, k2, k3, k4⟩ := C72_run outs env ho U c fluid inputs settings ht e hrun
  obtain ⟨g1, g2, g3⟩ := inner_grid outs env ho U c settings ht _ _ hin
  rw [hst] at hin g1 g2 g3
  have hn : (1 : ℝ) < settings.resolution.toNat := by exact_mod_cast ht.resolution
  obtain ⟨ic, log, l, h0, h1, h2, h3⟩ := hret outs env (innerRequest settings s) vs ho ht.resolution (by
    rw [hper, lt_div_iff₀ hp]
    exact ht.interval s.ws) hin
  obtain ⟨-, ic', -, -, -, pts, -, h6⟩ := (C33_ok_iff _ _ _ _).1 hin
  obtain ⟨-, hgood⟩ := C32_values_self_consistent _ _ _ h6
  have start : ic.P = inputs.pres_zero ∧ e.values.T_c.head? = some ic.T_c ∧ e.values.T_e.head? = some ic.T_e := by
    rw [hv, ofStateValues_eq]
    rw [← hst, k4] at g2
    cases hvs : vs with
    | nil => rw [hvs] at g2; cases g2
    | cons v vs' =>
      rw [hvs] at g2 h0
      simp only [List.head?_cons, Option.map_some, Option.some.injEq] at g2 h0
      rw [← h0, g2]
      exact ⟨rfl, rfl, rfl⟩
  refine ⟨ic, log, l, start.1, start.2.1, start.2.2, h1, h2, fun H hH hinside => ?_⟩
  obtain ⟨y', hl⟩ := h2.joined
  obtain ⟨s0, hs0, -⟩ := leads_cover hl h2.forward (add_pos hp' (by norm_num)) 0
    ⟨le_rfl, (add_pos hp' (by norm_num)).le⟩
  have hH0 : 0 ≤ H := (h2.forward s0 hs0).le.trans (hH s0 hs0)
  have hle : D * H ≤ (D + A * (D + 1)) * H := mul_le_mul_of_nonneg_right (by linarith [mul_nonneg hA (by linarith : 0 ≤ D + 1)]) hH0
  obtain ⟨Y, y0, y1, y2, y3, y4, y5⟩ := h3 H hH (fun q hq => inside_mono (hinside q hq) hle)
  have exS : ∀ t, ∃ S : Solution ℝ, t ∈ Icc 0 r.period → Follows r Y t S := by
    intro t
    by_cases h : t ∈ Icc 0 r.period
    · obtain ⟨S, hS⟩ := y1.follows t ⟨h.1, lt_of_le_of_lt h.2 (lt_add_of_pos_right _ (by norm_num))⟩
      exact ⟨S, fun _ => hS⟩
    · exact ⟨Solution.ofVec 0, fun h' => absurd h' h⟩
  choose S hS using exS
  have hmotion : Motion r L (fun t => ⟨t, Y t, S t⟩) :=
    ⟨fun _ => rfl, y1, fun t h => hS t h, fun t h => y2 t ⟨h.1, h.2.trans (le_add_of_nonneg_right (by norm_num))⟩⟩
  set Δ := 1 / c.ws.frequency s.ws / ((settings.resolution.toNat : ℝ) - 1) with hΔ
  have hΔ0 : 0 ≤ Δ := div_nonneg (by positivity) (by linarith)
  have hsam : Sampled r L (fun t => ⟨t, Y t, S t⟩) vs Δ (D * H) := by
    refine ⟨hmotion, ?_, ?_, ?_, fun v hv => (y3 v hv).1, ?_, fun v hv => (y3 v hv).2⟩
    · have : (vs.map (·.time)).head? = some 0 := by
        rw [g1, List.head?_map, List.head?_range, if_neg (by have := ht.resolution; omega)]
        simp
      rwa [List.head?_map] at this
    · rw [hper]; exact g3
    · rw [g1, List.isChain_map, List.isChain_range]
      intro k hk
      have : (((k + 1 : ℕ) : ℝ)) * Δ = k * Δ + Δ := by push_cast; ring
      show (k : ℝ) * Δ ≤ ((k + 1 : ℕ) : ℝ) * Δ ∧ ((k + 1 : ℕ) : ℝ) * Δ - (k : ℝ) * Δ ≤ Δ
      rw [this]
      constructor <;> linarith
    · intro v hv
      obtain ⟨j, hj, rfl⟩ := List.mem_iff_getElem.1 hv
      obtain ⟨-, hint, e, -⟩ := hgood j _ (List.getElem?_eq_getElem hj)
      exact ⟨hint, e⟩
  have hwide := hfig _ vs Δ (D * H) e res hΔ0 hsam hcomp hst hv hres
  have hb : A * (D * H + Δ) ≤ (D + A * (D + 1)) * (H + Δ) := by
    have : 0 ≤ D * (H + Δ) := by positivity
    have : 0 ≤ A * D * Δ := by positivity
    have : 0 ≤ A * H := by positivity
    nlinarith
  refine ⟨_, hmotion, y0, ?_, ?_, ?_⟩
  · rw [← hper]; exact y4.trans (add_le_add_right hle _)
  · rw [← hper]; exact y5.trans (add_le_add_right hle _)
  · exact ⟨hwide.ideal.trans hb, hwide.indicated.trans hb, hwide.shaft.trans hb, hwide.net.trans hb,
      hwide.torque.trans hb, hwide.input.trans hb, hwide.rejection.trans hb⟩

/-- **C84**, efficiency: where both heat inputs are at least `q` in size, the reported efficiency is that of the motion to
within `δ / q + |net| δ / q²`. -/
theorem C84_efficiency {δ q : ℝ} {m : MotionFigures} (e : Engine ℝ) {res : RunResults ℝ}
    (hres : RunResults.ofEngine e = .ok res) (h : FiguresWithin δ m res) (hq : 0 < q) (h1 : q ≤ |m.input|)
    (h2 : q ≤ |res.heat_flow.input|) :
    |res.efficiency.mechanical - m.net / m.input| ≤ δ / q + |m.net| * δ / q ^ 2 := by
  obtain ⟨-, h3, -⟩ := C44_torque_efficiency _ _ hres
  have n1 : m.input ≠ 0 := fun h0 => by rw [h0, abs_zero] at h1; linarith
  have n2 : res.heat_flow.input ≠ 0 := fun h0 => by rw [h0, abs_zero] at h2; linarith
  rw [eq_div_of_mul_eq n2 (h3 n2)]
  have hδ : 0 ≤ δ := (abs_nonneg _).trans h.net
  rw [show res.power.net / res.heat_flow.input - m.net / m.input
      = (res.power.net - m.net) / res.heat_flow.input
        - m.net * (res.heat_flow.input - m.input) / (res.heat_flow.input * m.input) by field_simp; ring]
  refine (abs_sub _ _).trans (add_le_add ?_ ?_)
  · rw [abs_div]
    exact div_le_div₀ hδ h.net hq h2
  · rw [abs_div, abs_mul, abs_mul, pow_two]
    exact div_le_div₀ (by positivity) (mul_le_mul_of_nonneg_left h.input (abs_nonneg _)) (by positivity)
      (mul_le_mul h2 h1 hq.le (abs_nonneg _))

end

end Sett
