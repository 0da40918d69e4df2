import Verif.Props.Directions
import Verif.Proofs.Near
import Verif.Spec.Lipschitz

/-! # C70: the state equations are Lipschitz -/

namespace Sett

open Spec state_equations

/-- Two instants of a run with their solutions. -/
structure Duo (r : Run ℝ) (L : Limits) where
  t : ℝ
  y : Conditions ℝ
  s : Solution ℝ
  t' : ℝ
  y' : Conditions ℝ
  s' : Solution ℝ
  w : WithinLimits r L t y
  w' : WithinLimits r L t' y'
  b : Balances (r.calculate_inputs t y) (upwind (r.calculate_inputs t y) s) s
  b' : Balances (r.calculate_inputs t' y') (upwind (r.calculate_inputs t' y') s') s'

/-- How far the two instants are apart. -/
def Duo.gap {r : Run ℝ} {L : Limits} (i : Duo r L) : ℝ := stateGap i.y i.y' + driveGap r i.t i.t'

theorem stateGap_nonneg (y y' : Conditions ℝ) : 0 ≤ stateGap y y' := by unfold stateGap; positivity
theorem driveGap_nonneg (r : Run ℝ) (t t' : ℝ) : 0 ≤ driveGap r t t' := by unfold driveGap; positivity

section calculus

variable {ι : Type} {ε : ι → ℝ} (hε : ∀ i, 0 ≤ ε i) {x x' : ι → ℝ}

include hε

theorem near_poly (a : Coefs ℝ) (h : Near ε x x') :
    Near ε (fun i => poly a (x i)) (fun i => poly a (x' i)) := by
  have c := Near.const (ε := ε) hε
  exact ((((((((((c a.c5).mul h).add (c a.c4)).mul h).add (c a.c3)).mul h).add (c a.c2)).mul h).add
    (c a.c1)).mul h).add (c a.c0)

theorem near_enth (g : IdealGas ℝ) (h : Near ε x x') :
    Near ε (fun i => g.enth (x i) 0) (fun i => g.enth (x' i) 0) := by
  have c := Near.const (ε := ε) hε
  have d := h.sub (c g.ref_temp)
  have k : ∀ a : ℝ, Near ε (fun i => a * (x i - g.ref_temp)) (fun i => a * (x' i - g.ref_temp)) :=
    fun a => (c a).mul d
  exact (((((((((((k g.enth_coefs.c5).mul h).add (k g.enth_coefs.c4)).mul h).add
    (k g.enth_coefs.c3)).mul h).add (k g.enth_coefs.c2)).mul h).add (k g.enth_coefs.c1)).mul h).add
    (k g.enth_coefs.c0))

end calculus

theorem enth_continuous (n : GasName) : Continuous fun T => (IdealGas.new n : IdealGas ℝ).enth T 0 := by
  simp only [IdealGas.enth, poly, Coefs.map]
  fun_prop

theorem cp_continuous (n : GasName) : Continuous fun T => (IdealGas.new n : IdealGas ℝ).cp T 0 := by
  unfold IdealGas.cp poly
  fun_prop

/-- A working space at two instants. -/
structure SpaceDuo {ι : Type} (n : GasName) (ε T T' P P' V V' W W' : ι → ℝ) (w w' : ι → WorkingSpace ℝ) :
    Prop where
  vol : ∀ i, (w i).vol = V i ∧ (w' i).vol = V' i
  rate : ∀ i, (w i).dV_dt = W i ∧ (w' i).dV_dt = W' i
  dens : ∀ i, (w i).dens = P i / ((IdealGas.new n : IdealGas ℝ).gas_constant * T i) ∧
    (w' i).dens = P' i / ((IdealGas.new n : IdealGas ℝ).gas_constant * T' i)
  inte : ∀ i, (w i).inte = (IdealGas.new n : IdealGas ℝ).inte (T i) (P i) ∧
    (w' i).inte = (IdealGas.new n : IdealGas ℝ).inte (T' i) (P' i)
  enth : ∀ i, (w i).enth = (IdealGas.new n : IdealGas ℝ).enth (T i) 0 ∧
    (w' i).enth = (IdealGas.new n : IdealGas ℝ).enth (T' i) 0
  dP : ∀ i, (w i).dd_dP_T = 1 / ((IdealGas.new n : IdealGas ℝ).gas_constant * T i) ∧
    (w' i).dd_dP_T = 1 / ((IdealGas.new n : IdealGas ℝ).gas_constant * T' i)
  dT : ∀ i, (w i).dd_dT_P = -(P i / ((IdealGas.new n : IdealGas ℝ).gas_constant * T i ^ 2)) ∧
    (w' i).dd_dT_P = -(P' i / ((IdealGas.new n : IdealGas ℝ).gas_constant * T' i ^ 2))
  uP : ∀ i, (w i).du_dP_T = 0 ∧ (w' i).du_dP_T = 0
  uT : ∀ i, (w i).du_dT_P = (IdealGas.new n : IdealGas ℝ).cp (T i) 0
      - (IdealGas.new n : IdealGas ℝ).gas_constant ∧
    (w' i).du_dT_P = (IdealGas.new n : IdealGas ℝ).cp (T' i) 0
      - (IdealGas.new n : IdealGas ℝ).gas_constant
  heat : ∃ q, ∀ i, (w i).Q_dot = q ∧ (w' i).Q_dot = q

section space

variable {ι : Type} {n : GasName} {ε T T' P P' V V' W W' : ι → ℝ} {w w' : ι → WorkingSpace ℝ}
  {Tmax : ℝ}

/-- What is near and what is away from zero, in a working space. -/
structure SpaceNear (ε : ι → ℝ) (w w' : ι → WorkingSpace ℝ) (hk hk' : ι → ℝ) : Prop where
  vol : Near ε (fun i => (w i).vol) (fun i => (w' i).vol)
  rate : Near ε (fun i => (w i).dV_dt) (fun i => (w' i).dV_dt)
  dens : Near ε (fun i => (w i).dens) (fun i => (w' i).dens)
  inte : Near ε (fun i => (w i).inte) (fun i => (w' i).inte)
  enth : Near ε (fun i => (w i).enth) (fun i => (w' i).enth)
  dP : Near ε (fun i => (w i).dd_dP_T) (fun i => (w' i).dd_dP_T)
  dT : Near ε (fun i => (w i).dd_dT_P) (fun i => (w' i).dd_dT_P)
  uP : Near ε (fun i => (w i).du_dP_T) (fun i => (w' i).du_dP_T)
  uT : Near ε (fun i => (w i).du_dT_P) (fun i => (w' i).du_dT_P)
  heat : Near ε (fun i => (w i).Q_dot) (fun i => (w' i).Q_dot)
  contracts : Above (fun i => -((w i).vol * (w i).dd_dT_P)) (fun i => -((w' i).vol * (w' i).dd_dT_P))
  stable : Above (fun i => stability (w i)) (fun i => stability (w' i))
  own : Above (fun i => tempCoef (w i) (w i).enth) (fun i => tempCoef (w' i) (w' i).enth)
  other : Above (fun i => tempCoef (w i) (hk i)) (fun i => tempCoef (w' i) (hk' i))

theorem SpaceDuo.near (hε : ∀ i, 0 ≤ ε i) (h : SpaceDuo n ε T T' P P' V V' W W' w w')
    (nT : Near ε T T') (nP : Near ε P P') (nV : Near ε V V') (nW : Near ε W W')
    (aP : Above P P') (aV : Above V V') (hT : ∀ i, T i ∈ Set.Icc 100 Tmax)
    (hT' : ∀ i, T' i ∈ Set.Icc 100 Tmax) {Tk Tk' : ι → ℝ} {Θ : ℝ} (hk : ∀ i, Tk i ∈ Set.Icc 100 Θ)
    (hk' : ∀ i, Tk' i ∈ Set.Icc 100 Θ) :
    SpaceNear ε w w' (fun i => (IdealGas.new n : IdealGas ℝ).enth (Tk i) 0)
      (fun i => (IdealGas.new n : IdealGas ℝ).enth (Tk' i) 0) := by
  set g : IdealGas ℝ := IdealGas.new n with hg
  have hR : 0 < g.gas_constant := IdealGas.gas_constant_pos n
  have c := Near.const (ε := ε) hε
  have aT : Above T T' := ⟨100, by norm_num, fun i => ⟨(hT i).1, (hT' i).1⟩⟩
  have aR : Above (fun _ : ι => g.gas_constant) (fun _ => g.gas_constant) := Above.const hR
  have nRT := (c g.gas_constant).mul nT
  have aRT := aR.mul aT
  have nRT2 := (c g.gas_constant).mul (nT.pow hε 2)
  have aRT2 := aR.mul (aT.pow 2)
  have nvol := nV.congr (fun i => (h.vol i).1) (fun i => (h.vol i).2)
  have nenth' := near_enth hε g nT
  have nenth := nenth'.congr (fun i => (h.enth i).1) (fun i => (h.enth i).2)
  have ninte : Near ε (fun i => (w i).inte) (fun i => (w' i).inte) :=
    (nenth'.sub ((c g.gas_constant).mul (nT.sub (c g.ref_temp)))).congr
      (fun i => (h.inte i).1) (fun i => (h.inte i).2)
  have ndens := (nP.div nRT aRT).congr (fun i => (h.dens i).1) (fun i => (h.dens i).2)
  have ndP := ((c 1).div nRT aRT).congr (fun i => (h.dP i).1) (fun i => (h.dP i).2)
  have ndT := (nP.div nRT2 aRT2).neg.congr (fun i => (h.dT i).1) (fun i => (h.dT i).2)
  have nuP := (c 0).congr (fun i => (h.uP i).1) (fun i => (h.uP i).2)
  have ncp : Near ε (fun i => g.cp (T i) 0) (fun i => g.cp (T' i) 0) := near_poly hε _ nT
  have nuT := (ncp.sub (c g.gas_constant)).congr (fun i => (h.uT i).1) (fun i => (h.uT i).2)
  have acv : Above (fun i => g.cp (T i) 0 - g.gas_constant) (fun i => g.cp (T' i) 0 - g.gas_constant) :=
    Above.comp (φ := fun T => g.cp T 0 - g.gas_constant) ((cp_continuous n).sub continuous_const).continuousOn
      (fun T hT => IdealGas.cv_pos n T (by linarith [hT.1])) hT hT'
  have aeV := aV.mul (aP.div aRT2 nRT2)
  have hmargin : ∀ i, 250 * (g.cp_coefs.c0 - g.gas_constant) ≤ g.margin (T i) ∧
      250 * (g.cp_coefs.c0 - g.gas_constant) ≤ g.margin (T' i) := fun i =>
    ⟨IdealGas.margin_ge n _ (by linarith [(hT i).1]), IdealGas.margin_ge n _ (by linarith [(hT' i).1])⟩
  have coef : ∀ (x : ℝ) i, tempCoef (w i) x = V i * (P i / (g.gas_constant * T i ^ 2)) * (g.margin (T i) + x)
      ∧ tempCoef (w' i) x = V' i * (P' i / (g.gas_constant * T' i ^ 2)) * (g.margin (T' i) + x) := by
    intro x i
    have hTi : T i ≠ 0 := by linarith [(hT i).1]
    have hTi' : T' i ≠ 0 := by linarith [(hT' i).1]
    constructor
    · rw [tempCoef_ideal (n := n) (T i) hTi (P i) (V i) x (w i)
        ⟨(h.vol i).1, (h.dens i).1, (h.inte i).1, (h.dT i).1.trans (by
          simp only [IdealGas.dd_dT_P]; scalars; ring), (h.uT i).1⟩, ← mul_div_assoc]
    · rw [tempCoef_ideal (n := n) (T' i) hTi' (P' i) (V' i) x (w' i)
        ⟨(h.vol i).2, (h.dens i).2, (h.inte i).2, (h.dT i).2.trans (by
          simp only [IdealGas.dd_dT_P]; scalars; ring), (h.uT i).2⟩, ← mul_div_assoc]
  have aM : ∀ {x x' : ι → ℝ}, Above (fun i => 250 * (g.cp_coefs.c0 - g.gas_constant) + x i)
      (fun i => 250 * (g.cp_coefs.c0 - g.gas_constant) + x' i) →
      Above (fun i => g.margin (T i) + x i) (fun i => g.margin (T' i) + x' i) := by
    rintro x x' ⟨c, hc, ha⟩
    exact ⟨c, hc, fun i => ⟨by linarith [(ha i).1, (hmargin i).1], by linarith [(ha i).2, (hmargin i).2]⟩⟩
  obtain ⟨q, hq⟩ := h.heat
  refine ⟨nvol, nW.congr (fun i => (h.rate i).1) (fun i => (h.rate i).2), ndens, ninte, nenth, ndP, ndT,
    nuP, nuT, (c q).congr (fun i => (hq i).1) (fun i => (hq i).2), ?_, ?_, ?_, ?_⟩
  · refine aeV.congr (fun i => ?_) (fun i => ?_)
    · rw [(h.vol i).1, (h.dT i).1]; ring
    · rw [(h.vol i).2, (h.dT i).2]; ring
  · refine (((aV.pow 2).mul (aP.div aRT nRT)).mul (acv.mul ((Above.const one_pos).div aRT nRT))).congr
      (fun i => ?_) (fun i => ?_)
    · rw [stability, (h.vol i).1, (h.dens i).1, (h.uT i).1, (h.dP i).1, (h.uP i).1]; ring
    · rw [stability, (h.vol i).2, (h.dens i).2, (h.uT i).2, (h.dP i).2, (h.uP i).2]; ring
  · refine (aeV.mul (aM (Above.comp (φ := fun T => 250 * (g.cp_coefs.c0 - g.gas_constant) + g.enth T 0)
      (continuous_const.add (enth_continuous n)).continuousOn
      (fun T hT => by linarith [IdealGas.enth_gt n T hT.1]) hT hT'))).congr (fun i => ?_) (fun i => ?_)
    · rw [(coef _ i).1, (h.enth i).1]
    · rw [(coef _ i).2, (h.enth i).2]
  · exact (aeV.mul (aM (Above.comp (φ := fun T => 250 * (g.cp_coefs.c0 - g.gas_constant) + g.enth T 0)
      (continuous_const.add (enth_continuous n)).continuousOn
      (fun T hT => by linarith [IdealGas.enth_gt n T hT.1]) hk hk'))).congr (fun i => (coef _ i).1)
      (fun i => (coef _ i).2)

end space

theorem above_pos {ι : Type} {f g : ι → ℝ} (h : Above f g) (i : ι) : 0 < f i ∧ 0 < g i := by
  obtain ⟨c, hc, h⟩ := h
  exact ⟨hc.trans_le (h i).1, hc.trans_le (h i).2⟩

section main

variable {r : Run ℝ} {n : GasName} {L : Limits}

theorem Duo.gap_nonneg (i : Duo r L) : 0 ≤ i.gap :=
  add_nonneg (stateGap_nonneg _ _) (driveGap_nonneg _ _ _)

theorem fluid_eqs (hf : r.fluid = (IdealGas.new n).toFluid) (T P : ℝ) :
    r.fluid.dens T P = P / ((IdealGas.new n : IdealGas ℝ).gas_constant * T) ∧
    r.fluid.inte T P = (IdealGas.new n : IdealGas ℝ).inte T P ∧
    r.fluid.enth T P = (IdealGas.new n : IdealGas ℝ).enth T 0 ∧
    r.fluid.dd_dP_T T P = 1 / ((IdealGas.new n : IdealGas ℝ).gas_constant * T) ∧
    r.fluid.dd_dT_P T P = -(P / ((IdealGas.new n : IdealGas ℝ).gas_constant * T ^ 2)) ∧
    r.fluid.du_dP_T T P = 0 ∧
    r.fluid.du_dT_P T P = (IdealGas.new n : IdealGas ℝ).cp T 0
      - (IdealGas.new n : IdealGas ℝ).gas_constant := by
  rw [hf]
  refine ⟨rfl, rfl, rfl, ?_, ?_, ?_, rfl⟩
  · show (1.0 : ℝ) / _ = _; norm_num
  · simp only [IdealGas.toFluid, IdealGas.dd_dT_P]; scalars; ring
  · show (0.0 : ℝ) = 0; norm_num

/-- All ten unknowns at two instants. -/
theorem duo_near (hf : r.fluid = (IdealGas.new n).toFluid) (hs : SaneRun r) :
    let ε : Duo r L → ℝ := Duo.gap
    Near ε (fun i => i.s.m_dot_ck) (fun i => i.s'.m_dot_ck) ∧
    Near ε (fun i => i.s.m_dot_kr) (fun i => i.s'.m_dot_kr) ∧
    Near ε (fun i => i.s.m_dot_rl) (fun i => i.s'.m_dot_rl) ∧
    Near ε (fun i => i.s.m_dot_le) (fun i => i.s'.m_dot_le) ∧
    Near ε (fun i => i.s.Q_dot_k) (fun i => i.s'.Q_dot_k) ∧
    Near ε (fun i => i.s.Q_dot_r) (fun i => i.s'.Q_dot_r) ∧
    Near ε (fun i => i.s.Q_dot_l) (fun i => i.s'.Q_dot_l) ∧
    Near ε (fun i => i.s.dTc_dt) (fun i => i.s'.dTc_dt) ∧
    Near ε (fun i => i.s.dTe_dt) (fun i => i.s'.dTe_dt) ∧
    Near ε (fun i => i.s.dP_dt) (fun i => i.s'.dP_dt) := by
  intro ε
  have hε : ∀ i, 0 ≤ ε i := Duo.gap_nonneg
  have c := Near.const (ε := ε) hε
  have F := fluid_eqs hf
  set g : IdealGas ℝ := IdealGas.new n with hg
  -- the seven quantities everything is made of
  have nP : Near ε (fun i => i.y.P) (fun i => i.y'.P) := by
    refine Near.of_bounds hε (B := L.Pmax) (K := 1) (fun i => ?_) (fun i => ?_) (fun i => ?_)
    · rw [abs_of_pos (L.Pmin_pos.trans_le i.w.pres.1)]; exact i.w.pres.2
    · rw [abs_of_pos (L.Pmin_pos.trans_le i.w'.pres.1)]; exact i.w'.pres.2
    · rw [one_mul]; simp only [ε, Duo.gap, stateGap]
      have := driveGap_nonneg r i.t i.t'
      linarith [abs_nonneg (i.y.T_c - i.y'.T_c), abs_nonneg (i.y.T_e - i.y'.T_e)]
  have aP : Above (fun i : Duo r L => i.y.P) (fun i => i.y'.P) :=
    ⟨L.Pmin, L.Pmin_pos, fun i => ⟨i.w.pres.1, i.w'.pres.1⟩⟩
  have nTc : Near ε (fun i => i.y.T_c) (fun i => i.y'.T_c) := by
    refine Near.of_bounds hε (B := L.Tmax) (K := 1) (fun i => ?_) (fun i => ?_) (fun i => ?_)
    · rw [abs_of_pos (by linarith [i.w.comp_temp.1])]; exact i.w.comp_temp.2
    · rw [abs_of_pos (by linarith [i.w'.comp_temp.1])]; exact i.w'.comp_temp.2
    · rw [one_mul]; simp only [ε, Duo.gap, stateGap]
      have := driveGap_nonneg r i.t i.t'
      linarith [abs_nonneg (i.y.P - i.y'.P), abs_nonneg (i.y.T_e - i.y'.T_e)]
  have nTe : Near ε (fun i => i.y.T_e) (fun i => i.y'.T_e) := by
    refine Near.of_bounds hε (B := L.Tmax) (K := 1) (fun i => ?_) (fun i => ?_) (fun i => ?_)
    · rw [abs_of_pos (by linarith [i.w.exp_temp.1])]; exact i.w.exp_temp.2
    · rw [abs_of_pos (by linarith [i.w'.exp_temp.1])]; exact i.w'.exp_temp.2
    · rw [one_mul]; simp only [ε, Duo.gap, stateGap]
      have := driveGap_nonneg r i.t i.t'
      linarith [abs_nonneg (i.y.P - i.y'.P), abs_nonneg (i.y.T_c - i.y'.T_c)]
  have drive : ∀ f : ℝ → ℝ, (∀ t t', |f t - f t'| ≤ driveGap r t t') → (B : ℝ) →
      (∀ i : Duo r L, |f i.t| ≤ B ∧ |f i.t'| ≤ B) → Near ε (fun i => f i.t) (fun i => f i.t') := by
    intro f h1 B h2
    refine Near.of_bounds hε (B := B) (K := 1) (fun i => (h2 i).1) (fun i => (h2 i).2) (fun i => ?_)
    rw [one_mul]
    exact (h1 i.t i.t').trans (by simp only [ε, Duo.gap]; linarith [stateGap_nonneg i.y i.y'])
  have nVc := drive (fun t => (r.ws_vol_fn t).1.value) (fun t t' => by
      unfold driveGap; linarith [abs_nonneg ((r.ws_vol_fn t).2.value - (r.ws_vol_fn t').2.value),
        abs_nonneg ((r.ws_vol_fn t).1.deriv - (r.ws_vol_fn t').1.deriv),
        abs_nonneg ((r.ws_vol_fn t).2.deriv - (r.ws_vol_fn t').2.deriv)]) L.Vmax
    (fun i => ⟨by rw [abs_of_pos (hs.comp_vol _)]; exact i.w.comp_vol.2,
      by rw [abs_of_pos (hs.comp_vol _)]; exact i.w'.comp_vol.2⟩)
  have nVe := drive (fun t => (r.ws_vol_fn t).2.value) (fun t t' => by
      unfold driveGap; linarith [abs_nonneg ((r.ws_vol_fn t).1.value - (r.ws_vol_fn t').1.value),
        abs_nonneg ((r.ws_vol_fn t).1.deriv - (r.ws_vol_fn t').1.deriv),
        abs_nonneg ((r.ws_vol_fn t).2.deriv - (r.ws_vol_fn t').2.deriv)]) L.Vmax
    (fun i => ⟨by rw [abs_of_pos (hs.exp_vol _)]; exact i.w.exp_vol.2,
      by rw [abs_of_pos (hs.exp_vol _)]; exact i.w'.exp_vol.2⟩)
  have nWc := drive (fun t => (r.ws_vol_fn t).1.deriv) (fun t t' => by
      unfold driveGap; linarith [abs_nonneg ((r.ws_vol_fn t).1.value - (r.ws_vol_fn t').1.value),
        abs_nonneg ((r.ws_vol_fn t).2.value - (r.ws_vol_fn t').2.value),
        abs_nonneg ((r.ws_vol_fn t).2.deriv - (r.ws_vol_fn t').2.deriv)]) L.Wmax
    (fun i => ⟨i.w.comp_rate, i.w'.comp_rate⟩)
  have nWe := drive (fun t => (r.ws_vol_fn t).2.deriv) (fun t t' => by
      unfold driveGap; linarith [abs_nonneg ((r.ws_vol_fn t).1.value - (r.ws_vol_fn t').1.value),
        abs_nonneg ((r.ws_vol_fn t).2.value - (r.ws_vol_fn t').2.value),
        abs_nonneg ((r.ws_vol_fn t).1.deriv - (r.ws_vol_fn t').1.deriv)]) L.Wmax
    (fun i => ⟨i.w.exp_rate, i.w'.exp_rate⟩)
  have aVc : Above (fun i : Duo r L => (r.ws_vol_fn i.t).1.value) (fun i => (r.ws_vol_fn i.t').1.value) :=
    ⟨L.Vmin, L.Vmin_pos, fun i => ⟨i.w.comp_vol.1, i.w'.comp_vol.1⟩⟩
  have aVe : Above (fun i : Duo r L => (r.ws_vol_fn i.t).2.value) (fun i => (r.ws_vol_fn i.t').2.value) :=
    ⟨L.Vmin, L.Vmin_pos, fun i => ⟨i.w.exp_vol.1, i.w'.exp_vol.1⟩⟩
  -- the two working spaces
  have C : SpaceNear ε (fun i => (r.calculate_inputs i.t i.y).comp)
      (fun i => (r.calculate_inputs i.t' i.y').comp) (fun _ => g.enth r.temp.chx 0) (fun _ => g.enth r.temp.chx 0) := by
    have D : SpaceDuo n ε (fun i : Duo r L => i.y.T_c) (fun i => i.y'.T_c) (fun i => i.y.P) (fun i => i.y'.P)
        (fun i => (r.ws_vol_fn i.t).1.value) (fun i => (r.ws_vol_fn i.t').1.value)
        (fun i => (r.ws_vol_fn i.t).1.deriv) (fun i => (r.ws_vol_fn i.t').1.deriv)
        (fun i => (r.calculate_inputs i.t i.y).comp) (fun i => (r.calculate_inputs i.t' i.y').comp) :=
      ⟨fun i => ⟨rfl, rfl⟩, fun i => ⟨rfl, rfl⟩, fun i => ⟨(F _ _).1, (F _ _).1⟩,
      fun i => ⟨(F _ _).2.1, (F _ _).2.1⟩, fun i => ⟨(F _ _).2.2.1, (F _ _).2.2.1⟩,
      fun i => ⟨(F _ _).2.2.2.1, (F _ _).2.2.2.1⟩, fun i => ⟨(F _ _).2.2.2.2.1, (F _ _).2.2.2.2.1⟩,
      fun i => ⟨(F _ _).2.2.2.2.2.1, (F _ _).2.2.2.2.2.1⟩,
      fun i => ⟨(F _ _).2.2.2.2.2.2, (F _ _).2.2.2.2.2.2⟩, ⟨r.ws_parasitics.comp.thermal, fun i => ⟨rfl, rfl⟩⟩⟩
    exact D.near hε nTc nP nVc nWc aP aVc (Tmax := L.Tmax) (fun i => i.w.comp_temp) (fun i => i.w'.comp_temp)
      (fun _ => ⟨hs.chx_temp, le_rfl⟩) (fun _ => ⟨hs.chx_temp, le_rfl⟩)
  have E : SpaceNear ε (fun i => (r.calculate_inputs i.t i.y).exp)
      (fun i => (r.calculate_inputs i.t' i.y').exp) (fun _ => g.enth r.temp.hhx 0) (fun _ => g.enth r.temp.hhx 0) := by
    have D : SpaceDuo n ε (fun i : Duo r L => i.y.T_e) (fun i => i.y'.T_e) (fun i => i.y.P) (fun i => i.y'.P)
        (fun i => (r.ws_vol_fn i.t).2.value) (fun i => (r.ws_vol_fn i.t').2.value)
        (fun i => (r.ws_vol_fn i.t).2.deriv) (fun i => (r.ws_vol_fn i.t').2.deriv)
        (fun i => (r.calculate_inputs i.t i.y).exp) (fun i => (r.calculate_inputs i.t' i.y').exp) :=
      ⟨fun i => ⟨rfl, rfl⟩, fun i => ⟨rfl, rfl⟩, fun i => ⟨(F _ _).1, (F _ _).1⟩,
      fun i => ⟨(F _ _).2.1, (F _ _).2.1⟩, fun i => ⟨(F _ _).2.2.1, (F _ _).2.2.1⟩,
      fun i => ⟨(F _ _).2.2.2.1, (F _ _).2.2.2.1⟩, fun i => ⟨(F _ _).2.2.2.2.1, (F _ _).2.2.2.2.1⟩,
      fun i => ⟨(F _ _).2.2.2.2.2.1, (F _ _).2.2.2.2.2.1⟩,
      fun i => ⟨(F _ _).2.2.2.2.2.2, (F _ _).2.2.2.2.2.2⟩, ⟨r.ws_parasitics.exp.thermal, fun i => ⟨rfl, rfl⟩⟩⟩
    exact D.near hε nTe nP nVe nWe aP aVe (Tmax := L.Tmax) (fun i => i.w.exp_temp) (fun i => i.w'.exp_temp)
      (fun _ => ⟨hs.hhx_temp, le_rfl⟩) (fun _ => ⟨hs.hhx_temp, le_rfl⟩)
  have coef : ∀ {w w' : Duo r L → WorkingSpace ℝ} {k k' x x' : Duo r L → ℝ}, SpaceNear ε w w' k k' →
      Near ε x x' → Near ε (fun i => tempCoef (w i) (x i)) (fun i => tempCoef (w' i) (x' i)) := by
    intro w w' k k' x x' h hx
    exact h.vol.mul ((h.dens.mul h.uT).add ((h.inte.sub hx).mul h.dT))
  have stab : ∀ {w w' : Duo r L → WorkingSpace ℝ} {k k' : Duo r L → ℝ}, SpaceNear ε w w' k k' →
      Near ε (fun i => stability (w i)) (fun i => stability (w' i)) := by
    intro w w' k k' h
    exact ((h.vol.pow hε 2).mul h.dens).mul ((h.uT.mul h.dP).sub (h.uP.mul h.dT))
  -- the exchangers
  have hk : ∀ P, r.fluid.enth r.temp.chx P = g.enth r.temp.chx 0 := fun P => (F _ P).2.2.1
  have hl : ∀ P, r.fluid.enth r.temp.hhx P = g.enth r.temp.hhx 0 := fun P => (F _ P).2.2.1
  have nx : ∀ (V T : ℝ), Near ε (fun i => V * r.fluid.dd_dP_T T i.y.P)
      (fun i => V * r.fluid.dd_dP_T T i.y'.P) := fun V T =>
    (c (V * (1 / (g.gas_constant * T)))).congr (fun i => by rw [(F _ _).2.2.2.1])
      (fun i => by rw [(F _ _).2.2.2.1])
  have nen : ∀ T : ℝ, Near ε (fun i => r.fluid.enth T i.y.P) (fun i => r.fluid.enth T i.y'.P) := fun T =>
    (c (g.enth T 0)).congr (fun i => (F _ _).2.2.1) (fun i => (F _ _).2.2.1)
  have nin : ∀ T : ℝ, Near ε (fun i => r.fluid.inte T i.y.P) (fun i => r.fluid.inte T i.y'.P) := fun T =>
    (c (g.inte T 0)).congr (fun i => (F _ _).2.1) (fun i => (F _ _).2.1)
  have nK : Near ε (fun i => exchangerCompliance (r.calculate_inputs i.t i.y))
      (fun i => exchangerCompliance (r.calculate_inputs i.t' i.y')) :=
    ((nx r.vol_chx r.temp.chx).add (nx r.vol_regen r.temp.regen.avg)).add (nx r.vol_hhx r.temp.hhx)
  have hR : 0 < g.gas_constant := IdealGas.gas_constant_pos n
  have hK : ∀ t y, 0 ≤ exchangerCompliance (r.calculate_inputs t y) := by
    intro t y
    have h1 : ∀ T, 0 < T → 0 ≤ r.fluid.dd_dP_T T y.P := fun T hT => by
      rw [(F _ _).2.2.2.1]; positivity
    exact add_nonneg (add_nonneg (mul_nonneg hs.chx_vol (h1 _ (by linarith [hs.chx_temp])))
      (mul_nonneg hs.regen_vol (h1 _ hs.regen_temp)))
      (mul_nonneg hs.hhx_vol (h1 _ (by linarith [hs.hhx_temp])))
  -- the flows
  have two : ∀ (t : ℝ) (y : Conditions ℝ) (s : Solution ℝ),
      Balances (r.calculate_inputs t y) (upwind (r.calculate_inputs t y) s) s →
      TwoFlows (tempCoef (r.calculate_inputs t y).comp (r.calculate_inputs t y).comp.enth)
        (tempCoef (r.calculate_inputs t y).comp (g.enth r.temp.chx 0))
        (tempCoef (r.calculate_inputs t y).exp (g.enth r.temp.hhx 0))
        (tempCoef (r.calculate_inputs t y).exp (r.calculate_inputs t y).exp.enth)
        (stability (r.calculate_inputs t y).comp) (stability (r.calculate_inputs t y).exp)
        (-((r.calculate_inputs t y).comp.vol * (r.calculate_inputs t y).comp.dens
            * (r.calculate_inputs t y).comp.du_dT_P * (r.calculate_inputs t y).comp.dens
            * (r.calculate_inputs t y).comp.dV_dt)
          + (r.calculate_inputs t y).comp.vol * (r.calculate_inputs t y).comp.dd_dT_P
            * (y.P * (r.calculate_inputs t y).comp.dV_dt + (r.calculate_inputs t y).comp.Q_dot))
        ((r.calculate_inputs t y).exp.vol * (r.calculate_inputs t y).exp.dens
            * (r.calculate_inputs t y).exp.du_dT_P * (r.calculate_inputs t y).exp.dens
            * (r.calculate_inputs t y).exp.dV_dt
          - (r.calculate_inputs t y).exp.vol * (r.calculate_inputs t y).exp.dd_dT_P
            * (y.P * (r.calculate_inputs t y).exp.dV_dt + (r.calculate_inputs t y).exp.Q_dot))
        (exchangerCompliance (r.calculate_inputs t y)) s.m_dot_ck s.m_dot_le s.dP_dt := by
    intro t y s hb
    have e1 := comp_eliminated hb
    have e2 := exp_eliminated hb
    rw [upwind_ck, show (r.calculate_inputs t y).chx.enth = g.enth r.temp.chx 0 from hk y.P] at e1
    rw [upwind_le, show (r.calculate_inputs t y).hhx.enth = g.enth r.temp.hhx 0 from hl y.P] at e2
    rw [show (r.calculate_inputs t y).pres = y.P from rfl] at e1 e2
    exact ⟨by rw [e1]; ring, by rw [e2]; ring, exchangers_store hb⟩
  obtain ⟨np, nm, nn⟩ := near_rate hε (fun i : Duo r L => two i.t i.y i.s i.b)
    (fun i : Duo r L => two i.t' i.y' i.s' i.b')
    (coef C C.enth) (coef C (c _)) (coef E (c _)) (coef E E.enth) (stab C) (stab E)
    ((((((C.vol.mul C.dens).mul C.uT).mul C.dens).mul C.rate).neg).add
      ((C.vol.mul C.dT).mul ((nP.mul C.rate).add C.heat)))
    (((((E.vol.mul E.dens).mul E.uT).mul E.dens).mul E.rate).sub
      ((E.vol.mul E.dT).mul ((nP.mul E.rate).add E.heat)))
    nK C.own C.other E.other E.own C.stable E.stable (fun i => hK _ _) (fun i => hK _ _)
  have nkr : Near ε (fun i => i.s.m_dot_kr) (fun i => i.s'.m_dot_kr) := by
    refine (nm.sub ((nx r.vol_chx r.temp.chx).mul np)).congr (fun i => ?_) (fun i => ?_)
    · have := i.b.chx_mass; simp only [chxMass, massRate] at this
      change r.vol_chx * (r.fluid.dd_dP_T r.temp.chx i.y.P * _ + _) + _ = _ at this
      linarith
    · have := i.b'.chx_mass; simp only [chxMass, massRate] at this
      change r.vol_chx * (r.fluid.dd_dP_T r.temp.chx i.y'.P * _ + _) + _ = _ at this
      linarith
  have nrl : Near ε (fun i => i.s.m_dot_rl) (fun i => i.s'.m_dot_rl) := by
    refine (nn.add ((nx r.vol_hhx r.temp.hhx).mul np)).congr (fun i => ?_) (fun i => ?_)
    · have := i.b.hhx_mass; simp only [hhxMass, massRate] at this
      change r.vol_hhx * (r.fluid.dd_dP_T r.temp.hhx i.y.P * _ + _) + _ = _ at this
      linarith
    · have := i.b'.hhx_mass; simp only [hhxMass, massRate] at this
      change r.vol_hhx * (r.fluid.dd_dP_T r.temp.hhx i.y'.P * _ + _) + _ = _ at this
      linarith
  -- enthalpy carried
  have carried : ∀ {m m' a a' b b' : Duo r L → ℝ}, Near ε m m' → Near ε a a' → Near ε b b' →
      Near ε (fun i => a i * max (m i) 0 + b i * min (m i) 0)
        (fun i => a' i * max (m' i) 0 + b' i * min (m' i) 0) := fun hm ha hb =>
    (ha.mul hm.posPart).add (hb.mul hm.negPart)
  have cform : ∀ a b m : ℝ, (if 0 ≤ m then a else b) * m = a * max m 0 + b * min m 0 := by
    intro a b m
    split <;> rename_i h
    · rw [max_eq_left h, min_eq_right h]; ring
    · rw [max_eq_right (not_le.1 h).le, min_eq_left (not_le.1 h).le]; ring
  have h1 := carried nm C.enth (nen r.temp.chx)
  have h2 := carried nkr (nen r.temp.chx) (nen r.temp.regen.cold)
  have h3 := carried nrl (nen r.temp.regen.hot) (nen r.temp.hhx)
  have h4 := carried nn (nen r.temp.hhx) E.enth
  have store : ∀ V T : ℝ, Near ε (fun i => V * (r.fluid.inte T i.y.P * (r.fluid.dd_dP_T T i.y.P * i.s.dP_dt)))
      (fun i => V * (r.fluid.inte T i.y'.P * (r.fluid.dd_dP_T T i.y'.P * i.s'.dP_dt))) := fun V T =>
    (((nin T).mul (nx V T)).mul np).congr (fun i => by ring) (fun i => by ring)
  have ek : ∀ t y, (r.calculate_inputs t y).chx.enth = r.fluid.enth r.temp.chx y.P := fun _ _ => rfl
  have el : ∀ t y, (r.calculate_inputs t y).hhx.enth = r.fluid.enth r.temp.hhx y.P := fun _ _ => rfl
  have ec : ∀ t y, (r.calculate_inputs t y).regen.enth_cold = r.fluid.enth r.temp.regen.cold y.P := fun _ _ => rfl
  have eh : ∀ t y, (r.calculate_inputs t y).regen.enth_hot = r.fluid.enth r.temp.regen.hot y.P := fun _ _ => rfl
  have uP0 : ∀ T P, r.fluid.du_dP_T T P = 0 := fun T P => (F T P).2.2.2.2.2.1
  refine ⟨nm, nkr, nrl, nn, ?_, ?_, ?_, ?_, ?_, np⟩
  · refine ((h1.sub h2).sub (store r.vol_chx r.temp.chx)).congr (fun i => ?_) (fun i => ?_)
    · have := i.b.chx_energy
      simp only [chxEnergy, energyRate, upwind, cform, ek, ec] at this
      change r.vol_chx * (r.fluid.dens r.temp.chx i.y.P * (r.fluid.du_dP_T r.temp.chx i.y.P * _ + _) +
        r.fluid.inte r.temp.chx i.y.P * (r.fluid.dd_dP_T r.temp.chx i.y.P * _ + _)) + _ = _ at this
      rw [uP0] at this
      linear_combination this
    · have := i.b'.chx_energy
      simp only [chxEnergy, energyRate, upwind, cform, ek, ec] at this
      change r.vol_chx * (r.fluid.dens r.temp.chx i.y'.P * (r.fluid.du_dP_T r.temp.chx i.y'.P * _ + _) +
        r.fluid.inte r.temp.chx i.y'.P * (r.fluid.dd_dP_T r.temp.chx i.y'.P * _ + _)) + _ = _ at this
      rw [uP0] at this
      linear_combination this
  · refine ((h2.sub h3).sub (store r.vol_regen r.temp.regen.avg)).congr (fun i => ?_) (fun i => ?_)
    · have := i.b.regen_energy
      simp only [regenEnergy, energyRate, upwind, cform, ek, ec, el, eh] at this
      change r.vol_regen * (r.fluid.dens r.temp.regen.avg i.y.P * (r.fluid.du_dP_T r.temp.regen.avg i.y.P * _ + _) +
        r.fluid.inte r.temp.regen.avg i.y.P * (r.fluid.dd_dP_T r.temp.regen.avg i.y.P * _ + _)) + _ = _ at this
      rw [uP0] at this
      linear_combination this
    · have := i.b'.regen_energy
      simp only [regenEnergy, energyRate, upwind, cform, ek, ec, el, eh] at this
      change r.vol_regen * (r.fluid.dens r.temp.regen.avg i.y'.P * (r.fluid.du_dP_T r.temp.regen.avg i.y'.P * _ + _) +
        r.fluid.inte r.temp.regen.avg i.y'.P * (r.fluid.dd_dP_T r.temp.regen.avg i.y'.P * _ + _)) + _ = _ at this
      rw [uP0] at this
      linear_combination this
  · refine ((store r.vol_hhx r.temp.hhx).sub (h3.sub h4)).congr (fun i => ?_) (fun i => ?_)
    · have := i.b.hhx_energy
      simp only [hhxEnergy, energyRate, upwind, cform, el, eh] at this
      change r.vol_hhx * (r.fluid.dens r.temp.hhx i.y.P * (r.fluid.du_dP_T r.temp.hhx i.y.P * _ + _) +
        r.fluid.inte r.temp.hhx i.y.P * (r.fluid.dd_dP_T r.temp.hhx i.y.P * _ + _)) + _ = _ at this
      rw [uP0] at this
      linear_combination -this
    · have := i.b'.hhx_energy
      simp only [hhxEnergy, energyRate, upwind, cform, el, eh] at this
      change r.vol_hhx * (r.fluid.dens r.temp.hhx i.y'.P * (r.fluid.du_dP_T r.temp.hhx i.y'.P * _ + _) +
        r.fluid.inte r.temp.hhx i.y'.P * (r.fluid.dd_dP_T r.temp.hhx i.y'.P * _ + _)) + _ = _ at this
      rw [uP0] at this
      linear_combination -this
  · refine (((nm.add ((C.vol.mul C.dP).mul np)).add (C.dens.mul C.rate)).div (C.vol.mul C.dT).neg
      C.contracts).congr (fun i => ?_) (fun i => ?_)
    · have h0 := (above_pos C.contracts i).1
      have := i.b.comp_mass; simp only [compMass, massRate] at this
      rw [eq_div_iff h0.ne']; linear_combination -this
    · have h0 := (above_pos C.contracts i).2
      have := i.b'.comp_mass; simp only [compMass, massRate] at this
      rw [eq_div_iff h0.ne']; linear_combination -this
  · refine ((((E.vol.mul E.dP).mul np).add (E.dens.mul E.rate)).sub nn |>.div (E.vol.mul E.dT).neg
      E.contracts).congr (fun i => ?_) (fun i => ?_)
    · have h0 := (above_pos E.contracts i).1
      have := i.b.exp_mass; simp only [expMass, massRate] at this
      rw [eq_div_iff h0.ne']; linear_combination -this
    · have h0 := (above_pos E.contracts i).2
      have := i.b'.exp_mass; simp only [expMass, massRate] at this
      rw [eq_div_iff h0.ne']; linear_combination -this


/-- Within limits the state is physical. -/
theorem physical_of_within (hs : SaneRun r) {t : ℝ} {y : Conditions ℝ} (h : WithinLimits r L t y) :
    Physical r t y 100 :=
  ⟨hs.norm, L.Pmin_pos.trans_le h.pres.1, hs.comp_vol t, hs.exp_vol t, hs.chx_vol, hs.regen_vol, hs.hhx_vol,
    hs.regen_temp, h.comp_temp.1, hs.chx_temp, hs.hhx_temp, h.exp_temp.1⟩

/-- **C70.** Within given limits, all ten unknowns (flows, heats, rates of temperature and pressure) are
Lipschitz in the state and in the positions and speeds of the pistons: the reversals of flow, where the
enthalpies carried jump, do not make the solution jump, whatever the hints. -/
theorem C70_lipschitz (hf : r.fluid = (IdealGas.new n).toFluid) (hs : SaneRun r) (hT : Sound r.solver)
    (L : Limits) : ∃ C, 0 ≤ C ∧ ∀ (t t' : ℝ) (y y' : Conditions ℝ) (hint hint' : FlowDirection)
      (s s' : Solution ℝ), WithinLimits r L t y → WithinLimits r L t' y' →
      solve r.solver (r.calculate_inputs t y) hint = .ok s →
      solve r.solver (r.calculate_inputs t' y') hint' = .ok s' →
      solutionGap s s' ≤ C * (stateGap y y' + driveGap r t t') := by
  obtain ⟨⟨c0, p0, h0⟩, ⟨c1, p1, h1⟩, ⟨c2, p2, h2⟩, ⟨c3, p3, h3⟩, ⟨c4, p4, h4⟩, ⟨c5, p5, h5⟩, ⟨c6, p6, h6⟩,
    ⟨c7, p7, h7⟩, ⟨c8, p8, h8⟩, ⟨c9, p9, h9⟩⟩ := duo_near (L := L) hf hs
  refine ⟨c0 + c1 + c2 + c3 + c4 + c5 + c6 + c7 + c8 + c9, by positivity, ?_⟩
  intro t t' y y' hint hint' s s' w w' e e'
  let i : Duo r L := ⟨t, y, s, t', y', s', w, w', C07_upwind_balances _ hT _ hs.norm hint s e,
    C07_upwind_balances _ hT _ hs.norm hint' s' e'⟩
  have k0 := (h0 i).2.2; have k1 := (h1 i).2.2; have k2 := (h2 i).2.2; have k3 := (h3 i).2.2
  have k4 := (h4 i).2.2; have k5 := (h5 i).2.2; have k6 := (h6 i).2.2; have k7 := (h7 i).2.2
  have k8 := (h8 i).2.2; have k9 := (h9 i).2.2
  simp only [i, Duo.gap] at k0 k1 k2 k3 k4 k5 k6 k7 k8 k9
  simp only [solutionGap, add_mul]
  linarith

/-- **C70**, bounded: within given limits none of the unknowns exceeds some bound. -/
theorem C70_bounded (hf : r.fluid = (IdealGas.new n).toFluid) (hs : SaneRun r) (hT : Sound r.solver)
    (L : Limits) : ∃ C, 0 ≤ C ∧ ∀ (t : ℝ) (y : Conditions ℝ) (hint : FlowDirection) (s : Solution ℝ),
      WithinLimits r L t y → solve r.solver (r.calculate_inputs t y) hint = .ok s →
      |s.m_dot_ck| ≤ C ∧ |s.m_dot_kr| ≤ C ∧ |s.m_dot_rl| ≤ C ∧ |s.m_dot_le| ≤ C ∧ |s.Q_dot_k| ≤ C ∧
      |s.Q_dot_r| ≤ C ∧ |s.Q_dot_l| ≤ C ∧ |s.dTc_dt| ≤ C ∧ |s.dTe_dt| ≤ C ∧ |s.dP_dt| ≤ C := by
  obtain ⟨⟨c0, p0, h0⟩, ⟨c1, p1, h1⟩, ⟨c2, p2, h2⟩, ⟨c3, p3, h3⟩, ⟨c4, p4, h4⟩, ⟨c5, p5, h5⟩, ⟨c6, p6, h6⟩,
    ⟨c7, p7, h7⟩, ⟨c8, p8, h8⟩, ⟨c9, p9, h9⟩⟩ := duo_near (L := L) hf hs
  refine ⟨c0 + c1 + c2 + c3 + c4 + c5 + c6 + c7 + c8 + c9, by positivity, ?_⟩
  intro t y hint s w e
  have hb := C07_upwind_balances _ hT _ hs.norm hint s e
  let i : Duo r L := ⟨t, y, s, t, y, s, w, w, hb, hb⟩
  have k0 := (h0 i).1; have k1 := (h1 i).1; have k2 := (h2 i).1; have k3 := (h3 i).1
  have k4 := (h4 i).1; have k5 := (h5 i).1; have k6 := (h6 i).1; have k7 := (h7 i).1
  have k8 := (h8 i).1; have k9 := (h9 i).1
  simp only [i] at k0 k1 k2 k3 k4 k5 k6 k7 k8 k9
  refine ⟨?_, ?_, ?_, ?_, ?_, ?_, ?_, ?_, ?_, ?_⟩ <;> linarith

end main

end Sett
