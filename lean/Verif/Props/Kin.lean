import Verif.Props.Lipschitz
import Verif.Spec.Kin

/-! # C70 for the exchanger temperatures: the estimates hold uniformly over runs of one engine -/

namespace Sett

open Spec state_equations

/-- Two instants of two runs of the same engine, with their solutions. -/
structure Kins (B : Run ℝ) (n : GasName) (L : Limits) (τ Θ : ℝ) where
  r : Run ℝ
  t : ℝ
  y : Conditions ℝ
  s : Solution ℝ
  r' : Run ℝ
  t' : ℝ
  y' : Conditions ℝ
  s' : Solution ℝ
  k : Kin B τ Θ r
  k' : Kin B τ Θ r'
  s₁ : SaneRun r
  s₁' : SaneRun r'
  f : r.fluid = (IdealGas.new n).toFluid
  f' : r'.fluid = (IdealGas.new n).toFluid
  w : WithinLimits r L t y
  w' : WithinLimits r' L t' y'
  b : Balances (r.calculate_inputs t y) (upwind (r.calculate_inputs t y) s) s
  b' : Balances (r'.calculate_inputs t' y') (upwind (r'.calculate_inputs t' y') s') s'

section
variable {B : Run ℝ} {n : GasName} {L : Limits} {τ Θ : ℝ}

/-- How far the two instants are apart. -/
def Kins.gap (i : Kins B n L τ Θ) : ℝ := stateGap i.y i.y' + pistonGap i.r i.t i.r' i.t' + tempGap i.r.temp i.r'.temp

theorem pistonGap_nonneg (r : Run ℝ) (t : ℝ) (r' : Run ℝ) (t' : ℝ) : 0 ≤ pistonGap r t r' t' := by
  unfold pistonGap; positivity
theorem tempGap_nonneg (T T' : Temperatures ℝ) : 0 ≤ tempGap T T' := by unfold tempGap; positivity

theorem Kins.gap_nonneg (i : Kins B n L τ Θ) : 0 ≤ i.gap :=
  add_nonneg (add_nonneg (stateGap_nonneg _ _) (pistonGap_nonneg _ _ _ _)) (tempGap_nonneg _ _)

/-- All ten unknowns at two instants of two runs. -/
theorem kins_near (hτ : 0 < τ) :
    let ε : Kins B n L τ Θ → ℝ := Kins.gap
    Near ε (fun i => i.s.m_dot_ck) (fun i => i.s'.m_dot_ck) ∧
    Near ε (fun i => i.s.m_dot_kr) (fun i => i.s'.m_dot_kr) ∧
    Near ε (fun i => i.s.m_dot_rl) (fun i => i.s'.m_dot_rl) ∧
    Near ε (fun i => i.s.m_dot_le) (fun i => i.s'.m_dot_le) ∧
    Near ε (fun i => i.s.Q_dot_k) (fun i => i.s'.Q_dot_k) ∧
    Near ε (fun i => i.s.Q_dot_r) (fun i => i.s'.Q_dot_r) ∧
    Near ε (fun i => i.s.Q_dot_l) (fun i => i.s'.Q_dot_l) ∧
    Near ε (fun i => i.s.dTc_dt) (fun i => i.s'.dTc_dt) ∧
    Near ε (fun i => i.s.dTe_dt) (fun i => i.s'.dTe_dt) ∧
    Near ε (fun i => i.s.dP_dt) (fun i => i.s'.dP_dt) := by
  intro ε
  have hε : ∀ i, 0 ≤ ε i := Kins.gap_nonneg
  have c := Near.const (ε := ε) hε
  have F := fun i : Kins B n L τ Θ => fluid_eqs i.f
  have F' := fun i : Kins B n L τ Θ => fluid_eqs i.f'
  set g : IdealGas ℝ := IdealGas.new n with hg
  have hR : 0 < g.gas_constant := IdealGas.gas_constant_pos n
  -- the twelve quantities everything is made of
  have basic : ∀ {f f' : Kins B n L τ Θ → ℝ} (M : ℝ), (∀ i, |f i| ≤ M) → (∀ i, |f' i| ≤ M) →
      (∀ i, |f i - f' i| ≤ i.gap) → Near ε f f' := fun M h1 h2 h3 =>
    Near.of_bounds hε (B := M) (K := 1) h1 h2 fun i => by rw [one_mul]; exact h3 i
  have parts : ∀ i : Kins B n L τ Θ, 0 ≤ stateGap i.y i.y' ∧ 0 ≤ pistonGap i.r i.t i.r' i.t' ∧
      0 ≤ tempGap i.r.temp i.r'.temp := fun i => ⟨stateGap_nonneg _ _, pistonGap_nonneg _ _ _ _, tempGap_nonneg _ _⟩
  have sg : ∀ {i : Kins B n L τ Θ} {x : ℝ}, x ≤ stateGap i.y i.y' → x ≤ i.gap := fun {i x} h => by
    obtain ⟨-, h2, h3⟩ := parts i
    unfold Kins.gap; linarith
  have pg : ∀ {i : Kins B n L τ Θ} {x : ℝ}, x ≤ pistonGap i.r i.t i.r' i.t' → x ≤ i.gap := fun {i x} h => by
    obtain ⟨h1, -, h3⟩ := parts i
    unfold Kins.gap; linarith
  have tg : ∀ {i : Kins B n L τ Θ} {x : ℝ}, x ≤ tempGap i.r.temp i.r'.temp → x ≤ i.gap := fun {i x} h => by
    obtain ⟨h1, h2, -⟩ := parts i
    unfold Kins.gap; linarith
  have within : ∀ {a b x : ℝ}, 0 ≤ a → a ≤ x ∧ x ≤ b → |x| ≤ b := fun ha h => by
    rw [abs_of_nonneg (ha.trans h.1)]; exact h.2
  have nP : Near ε (fun i => i.y.P) (fun i => i.y'.P) :=
    basic L.Pmax (fun i => within L.Pmin_pos.le i.w.pres) (fun i => within L.Pmin_pos.le i.w'.pres)
      (fun i => sg (by unfold stateGap; linarith [abs_nonneg (i.y.T_c - i.y'.T_c), abs_nonneg (i.y.T_e - i.y'.T_e)]))
  have aP : Above (fun i : Kins B n L τ Θ => i.y.P) (fun i => i.y'.P) :=
    ⟨L.Pmin, L.Pmin_pos, fun i => ⟨i.w.pres.1, i.w'.pres.1⟩⟩
  have nTc : Near ε (fun i => i.y.T_c) (fun i => i.y'.T_c) :=
    basic L.Tmax (fun i => within (by norm_num) i.w.comp_temp) (fun i => within (by norm_num) i.w'.comp_temp)
      (fun i => sg (by unfold stateGap; linarith [abs_nonneg (i.y.P - i.y'.P), abs_nonneg (i.y.T_e - i.y'.T_e)]))
  have nTe : Near ε (fun i => i.y.T_e) (fun i => i.y'.T_e) :=
    basic L.Tmax (fun i => within (by norm_num) i.w.exp_temp) (fun i => within (by norm_num) i.w'.exp_temp)
      (fun i => sg (by unfold stateGap; linarith [abs_nonneg (i.y.P - i.y'.P), abs_nonneg (i.y.T_c - i.y'.T_c)]))
  have piston : ∀ i : Kins B n L τ Θ,
      |(i.r.ws_vol_fn i.t).1.value - (i.r'.ws_vol_fn i.t').1.value| ≤ i.gap ∧
      |(i.r.ws_vol_fn i.t).2.value - (i.r'.ws_vol_fn i.t').2.value| ≤ i.gap ∧
      |(i.r.ws_vol_fn i.t).1.deriv - (i.r'.ws_vol_fn i.t').1.deriv| ≤ i.gap ∧
      |(i.r.ws_vol_fn i.t).2.deriv - (i.r'.ws_vol_fn i.t').2.deriv| ≤ i.gap := by
    intro i
    have h1 := abs_nonneg ((i.r.ws_vol_fn i.t).1.value - (i.r'.ws_vol_fn i.t').1.value)
    have h2 := abs_nonneg ((i.r.ws_vol_fn i.t).2.value - (i.r'.ws_vol_fn i.t').2.value)
    have h3 := abs_nonneg ((i.r.ws_vol_fn i.t).1.deriv - (i.r'.ws_vol_fn i.t').1.deriv)
    have h4 := abs_nonneg ((i.r.ws_vol_fn i.t).2.deriv - (i.r'.ws_vol_fn i.t').2.deriv)
    refine ⟨pg ?_, pg ?_, pg ?_, pg ?_⟩ <;> unfold pistonGap <;> linarith
  have nVc : Near ε (fun i => (i.r.ws_vol_fn i.t).1.value) (fun i => (i.r'.ws_vol_fn i.t').1.value) :=
    basic L.Vmax (fun i => within L.Vmin_pos.le i.w.comp_vol) (fun i => within L.Vmin_pos.le i.w'.comp_vol)
      (fun i => (piston i).1)
  have nVe : Near ε (fun i => (i.r.ws_vol_fn i.t).2.value) (fun i => (i.r'.ws_vol_fn i.t').2.value) :=
    basic L.Vmax (fun i => within L.Vmin_pos.le i.w.exp_vol) (fun i => within L.Vmin_pos.le i.w'.exp_vol)
      (fun i => (piston i).2.1)
  have nWc : Near ε (fun i => (i.r.ws_vol_fn i.t).1.deriv) (fun i => (i.r'.ws_vol_fn i.t').1.deriv) :=
    basic L.Wmax (fun i => i.w.comp_rate) (fun i => i.w'.comp_rate) (fun i => (piston i).2.2.1)
  have nWe : Near ε (fun i => (i.r.ws_vol_fn i.t).2.deriv) (fun i => (i.r'.ws_vol_fn i.t').2.deriv) :=
    basic L.Wmax (fun i => i.w.exp_rate) (fun i => i.w'.exp_rate) (fun i => (piston i).2.2.2)
  have aVc : Above (fun i : Kins B n L τ Θ => (i.r.ws_vol_fn i.t).1.value) (fun i => (i.r'.ws_vol_fn i.t').1.value) :=
    ⟨L.Vmin, L.Vmin_pos, fun i => ⟨i.w.comp_vol.1, i.w'.comp_vol.1⟩⟩
  have aVe : Above (fun i : Kins B n L τ Θ => (i.r.ws_vol_fn i.t).2.value) (fun i => (i.r'.ws_vol_fn i.t').2.value) :=
    ⟨L.Vmin, L.Vmin_pos, fun i => ⟨i.w.exp_vol.1, i.w'.exp_vol.1⟩⟩
  have temps : ∀ i : Kins B n L τ Θ, |i.r.temp.chx - i.r'.temp.chx| ≤ i.gap ∧ |i.r.temp.hhx - i.r'.temp.hhx| ≤ i.gap ∧
      |i.r.temp.regen.cold - i.r'.temp.regen.cold| ≤ i.gap ∧ |i.r.temp.regen.avg - i.r'.temp.regen.avg| ≤ i.gap ∧
      |i.r.temp.regen.hot - i.r'.temp.regen.hot| ≤ i.gap := by
    intro i
    have h1 := abs_nonneg (i.r.temp.chx - i.r'.temp.chx)
    have h2 := abs_nonneg (i.r.temp.hhx - i.r'.temp.hhx)
    have h3 := abs_nonneg (i.r.temp.regen.cold - i.r'.temp.regen.cold)
    have h4 := abs_nonneg (i.r.temp.regen.avg - i.r'.temp.regen.avg)
    have h5 := abs_nonneg (i.r.temp.regen.hot - i.r'.temp.regen.hot)
    refine ⟨tg ?_, tg ?_, tg ?_, tg ?_, tg ?_⟩ <;> unfold tempGap <;> linarith
  have nTk : Near ε (fun i => i.r.temp.chx) (fun i => i.r'.temp.chx) :=
    basic Θ (fun i => within (by norm_num) i.k.chx) (fun i => within (by norm_num) i.k'.chx) (fun i => (temps i).1)
  have nTl : Near ε (fun i => i.r.temp.hhx) (fun i => i.r'.temp.hhx) :=
    basic Θ (fun i => within (by norm_num) i.k.hhx) (fun i => within (by norm_num) i.k'.hhx) (fun i => (temps i).2.1)
  have nTrc : Near ε (fun i => i.r.temp.regen.cold) (fun i => i.r'.temp.regen.cold) :=
    basic Θ (fun i => i.k.cold) (fun i => i.k'.cold) (fun i => (temps i).2.2.1)
  have nTr : Near ε (fun i => i.r.temp.regen.avg) (fun i => i.r'.temp.regen.avg) :=
    basic Θ (fun i => within hτ.le i.k.regen) (fun i => within hτ.le i.k'.regen) (fun i => (temps i).2.2.2.1)
  have nTrh : Near ε (fun i => i.r.temp.regen.hot) (fun i => i.r'.temp.regen.hot) :=
    basic Θ (fun i => i.k.hot) (fun i => i.k'.hot) (fun i => (temps i).2.2.2.2)
  have aTk : Above (fun i : Kins B n L τ Θ => i.r.temp.chx) (fun i => i.r'.temp.chx) :=
    ⟨100, by norm_num, fun i => ⟨i.k.chx.1, i.k'.chx.1⟩⟩
  have aTl : Above (fun i : Kins B n L τ Θ => i.r.temp.hhx) (fun i => i.r'.temp.hhx) :=
    ⟨100, by norm_num, fun i => ⟨i.k.hhx.1, i.k'.hhx.1⟩⟩
  have aTr : Above (fun i : Kins B n L τ Θ => i.r.temp.regen.avg) (fun i => i.r'.temp.regen.avg) :=
    ⟨τ, hτ, fun i => ⟨i.k.regen.1, i.k'.regen.1⟩⟩
  -- the two working spaces
  have C : SpaceNear ε (fun i => (i.r.calculate_inputs i.t i.y).comp)
      (fun i => (i.r'.calculate_inputs i.t' i.y').comp) (fun i => g.enth i.r.temp.chx 0) (fun i => g.enth i.r'.temp.chx 0) := by
    have D : SpaceDuo n ε (fun i : Kins B n L τ Θ => i.y.T_c) (fun i => i.y'.T_c) (fun i => i.y.P) (fun i => i.y'.P)
        (fun i => (i.r.ws_vol_fn i.t).1.value) (fun i => (i.r'.ws_vol_fn i.t').1.value)
        (fun i => (i.r.ws_vol_fn i.t).1.deriv) (fun i => (i.r'.ws_vol_fn i.t').1.deriv)
        (fun i => (i.r.calculate_inputs i.t i.y).comp) (fun i => (i.r'.calculate_inputs i.t' i.y').comp) :=
      ⟨fun i => ⟨rfl, rfl⟩, fun i => ⟨rfl, rfl⟩, fun i => ⟨(F i _ _).1, (F' i _ _).1⟩,
      fun i => ⟨(F i _ _).2.1, (F' i _ _).2.1⟩, fun i => ⟨(F i _ _).2.2.1, (F' i _ _).2.2.1⟩,
      fun i => ⟨(F i _ _).2.2.2.1, (F' i _ _).2.2.2.1⟩, fun i => ⟨(F i _ _).2.2.2.2.1, (F' i _ _).2.2.2.2.1⟩,
      fun i => ⟨(F i _ _).2.2.2.2.2.1, (F' i _ _).2.2.2.2.2.1⟩,
      fun i => ⟨(F i _ _).2.2.2.2.2.2, (F' i _ _).2.2.2.2.2.2⟩, ⟨B.ws_parasitics.comp.thermal, fun i => ⟨by rw [← i.k.parasitics]; rfl, by rw [← i.k'.parasitics]; rfl⟩⟩⟩
    exact D.near hε nTc nP nVc nWc aP aVc (Tmax := L.Tmax) (fun i => i.w.comp_temp) (fun i => i.w'.comp_temp)
      (fun i => i.k.chx) (fun i => i.k'.chx)
  have E : SpaceNear ε (fun i => (i.r.calculate_inputs i.t i.y).exp)
      (fun i => (i.r'.calculate_inputs i.t' i.y').exp) (fun i => g.enth i.r.temp.hhx 0) (fun i => g.enth i.r'.temp.hhx 0) := by
    have D : SpaceDuo n ε (fun i : Kins B n L τ Θ => i.y.T_e) (fun i => i.y'.T_e) (fun i => i.y.P) (fun i => i.y'.P)
        (fun i => (i.r.ws_vol_fn i.t).2.value) (fun i => (i.r'.ws_vol_fn i.t').2.value)
        (fun i => (i.r.ws_vol_fn i.t).2.deriv) (fun i => (i.r'.ws_vol_fn i.t').2.deriv)
        (fun i => (i.r.calculate_inputs i.t i.y).exp) (fun i => (i.r'.calculate_inputs i.t' i.y').exp) :=
      ⟨fun i => ⟨rfl, rfl⟩, fun i => ⟨rfl, rfl⟩, fun i => ⟨(F i _ _).1, (F' i _ _).1⟩,
      fun i => ⟨(F i _ _).2.1, (F' i _ _).2.1⟩, fun i => ⟨(F i _ _).2.2.1, (F' i _ _).2.2.1⟩,
      fun i => ⟨(F i _ _).2.2.2.1, (F' i _ _).2.2.2.1⟩, fun i => ⟨(F i _ _).2.2.2.2.1, (F' i _ _).2.2.2.2.1⟩,
      fun i => ⟨(F i _ _).2.2.2.2.2.1, (F' i _ _).2.2.2.2.2.1⟩,
      fun i => ⟨(F i _ _).2.2.2.2.2.2, (F' i _ _).2.2.2.2.2.2⟩, ⟨B.ws_parasitics.exp.thermal, fun i => ⟨by rw [← i.k.parasitics]; rfl, by rw [← i.k'.parasitics]; rfl⟩⟩⟩
    exact D.near hε nTe nP nVe nWe aP aVe (Tmax := L.Tmax) (fun i => i.w.exp_temp) (fun i => i.w'.exp_temp)
      (fun i => i.k.hhx) (fun i => i.k'.hhx)
  have coef : ∀ {w w' : Kins B n L τ Θ → WorkingSpace ℝ} {k k' x x' : Kins B n L τ Θ → ℝ}, SpaceNear ε w w' k k' →
      Near ε x x' → Near ε (fun i => tempCoef (w i) (x i)) (fun i => tempCoef (w' i) (x' i)) := by
    intro w w' k k' x x' h hx
    exact h.vol.mul ((h.dens.mul h.uT).add ((h.inte.sub hx).mul h.dT))
  have stab : ∀ {w w' : Kins B n L τ Θ → WorkingSpace ℝ} {k k' : Kins B n L τ Θ → ℝ}, SpaceNear ε w w' k k' →
      Near ε (fun i => stability (w i)) (fun i => stability (w' i)) := by
    intro w w' k k' h
    exact ((h.vol.pow hε 2).mul h.dens).mul ((h.uT.mul h.dP).sub (h.uP.mul h.dT))
  -- the exchangers
  have nx : ∀ {V : Run ℝ → ℝ} {T T' : Kins B n L τ Θ → ℝ}, (∀ i : Kins B n L τ Θ, V i.r = V B ∧ V i.r' = V B) →
      Near ε T T' → Above T T' →
      Near ε (fun i => V i.r * i.r.fluid.dd_dP_T (T i) i.y.P) (fun i => V i.r' * i.r'.fluid.dd_dP_T (T' i) i.y'.P) :=
    fun {V T T'} hV nT aT => ((c (V B)).mul ((c 1).div ((c g.gas_constant).mul nT) ((Above.const hR).mul aT))).congr
      (fun i => by rw [(F i _ _).2.2.2.1, (hV i).1]) (fun i => by rw [(F' i _ _).2.2.2.1, (hV i).2])
  have nen : ∀ {T T' : Kins B n L τ Θ → ℝ}, Near ε T T' →
      Near ε (fun i => i.r.fluid.enth (T i) i.y.P) (fun i => i.r'.fluid.enth (T' i) i.y'.P) := fun nT =>
    (near_enth hε g nT).congr (fun i => (F i _ _).2.2.1) (fun i => (F' i _ _).2.2.1)
  have nin : ∀ {T T' : Kins B n L τ Θ → ℝ}, Near ε T T' →
      Near ε (fun i => i.r.fluid.inte (T i) i.y.P) (fun i => i.r'.fluid.inte (T' i) i.y'.P) := fun nT =>
    ((near_enth hε g nT).sub ((c g.gas_constant).mul (nT.sub (c g.ref_temp)))).congr
      (fun i => (F i _ _).2.1) (fun i => (F' i _ _).2.1)
  have vk : ∀ i : Kins B n L τ Θ, i.r.vol_chx = B.vol_chx ∧ i.r'.vol_chx = B.vol_chx := fun i => ⟨i.k.chx_vol, i.k'.chx_vol⟩
  have vr : ∀ i : Kins B n L τ Θ, i.r.vol_regen = B.vol_regen ∧ i.r'.vol_regen = B.vol_regen :=
    fun i => ⟨i.k.regen_vol, i.k'.regen_vol⟩
  have vl : ∀ i : Kins B n L τ Θ, i.r.vol_hhx = B.vol_hhx ∧ i.r'.vol_hhx = B.vol_hhx := fun i => ⟨i.k.hhx_vol, i.k'.hhx_vol⟩
  have nxk := nx (V := Run.vol_chx) vk nTk aTk
  have nxr := nx (V := Run.vol_regen) vr nTr aTr
  have nxl := nx (V := Run.vol_hhx) vl nTl aTl
  have nK : Near ε (fun i => exchangerCompliance (i.r.calculate_inputs i.t i.y))
      (fun i => exchangerCompliance (i.r'.calculate_inputs i.t' i.y')) := (nxk.add nxr).add nxl
  have hK : ∀ r : Run ℝ, r.fluid = (IdealGas.new n).toFluid → SaneRun r → ∀ t y,
      0 ≤ exchangerCompliance (r.calculate_inputs t y) := by
    intro r hf hs t y
    have h1 : ∀ T, 0 < T → 0 ≤ r.fluid.dd_dP_T T y.P := fun T hT => by
      rw [(fluid_eqs hf _ _).2.2.2.1]; positivity
    exact add_nonneg (add_nonneg (mul_nonneg hs.chx_vol (h1 _ (by linarith [hs.chx_temp])))
      (mul_nonneg hs.regen_vol (h1 _ hs.regen_temp)))
      (mul_nonneg hs.hhx_vol (h1 _ (by linarith [hs.hhx_temp])))
  -- the flows
  have two : ∀ (r : Run ℝ), r.fluid = (IdealGas.new n).toFluid → ∀ (t : ℝ) (y : Conditions ℝ) (s : Solution ℝ),
      Balances (r.calculate_inputs t y) (upwind (r.calculate_inputs t y) s) s →
      TwoFlows (tempCoef (r.calculate_inputs t y).comp (r.calculate_inputs t y).comp.enth)
        (tempCoef (r.calculate_inputs t y).comp (g.enth r.temp.chx 0))
        (tempCoef (r.calculate_inputs t y).exp (g.enth r.temp.hhx 0))
        (tempCoef (r.calculate_inputs t y).exp (r.calculate_inputs t y).exp.enth)
        (stability (r.calculate_inputs t y).comp) (stability (r.calculate_inputs t y).exp)
        (-((r.calculate_inputs t y).comp.vol * (r.calculate_inputs t y).comp.dens
            * (r.calculate_inputs t y).comp.du_dT_P * (r.calculate_inputs t y).comp.dens
            * (r.calculate_inputs t y).comp.dV_dt)
          + (r.calculate_inputs t y).comp.vol * (r.calculate_inputs t y).comp.dd_dT_P
            * (y.P * (r.calculate_inputs t y).comp.dV_dt + (r.calculate_inputs t y).comp.Q_dot))
        ((r.calculate_inputs t y).exp.vol * (r.calculate_inputs t y).exp.dens
            * (r.calculate_inputs t y).exp.du_dT_P * (r.calculate_inputs t y).exp.dens
            * (r.calculate_inputs t y).exp.dV_dt
          - (r.calculate_inputs t y).exp.vol * (r.calculate_inputs t y).exp.dd_dT_P
            * (y.P * (r.calculate_inputs t y).exp.dV_dt + (r.calculate_inputs t y).exp.Q_dot))
        (exchangerCompliance (r.calculate_inputs t y)) s.m_dot_ck s.m_dot_le s.dP_dt := by
    intro r hf t y s hb
    have hk : ∀ P, r.fluid.enth r.temp.chx P = g.enth r.temp.chx 0 := fun P => (fluid_eqs hf _ P).2.2.1
    have hl : ∀ P, r.fluid.enth r.temp.hhx P = g.enth r.temp.hhx 0 := fun P => (fluid_eqs hf _ P).2.2.1
    have e1 := comp_eliminated hb
    have e2 := exp_eliminated hb
    rw [upwind_ck, show (r.calculate_inputs t y).chx.enth = g.enth r.temp.chx 0 from hk y.P] at e1
    rw [upwind_le, show (r.calculate_inputs t y).hhx.enth = g.enth r.temp.hhx 0 from hl y.P] at e2
    rw [show (r.calculate_inputs t y).pres = y.P from rfl] at e1 e2
    exact ⟨by rw [e1]; ring, by rw [e2]; ring, exchangers_store hb⟩
  obtain ⟨np, nm, nn⟩ := near_rate hε (fun i : Kins B n L τ Θ => two i.r i.f i.t i.y i.s i.b)
    (fun i : Kins B n L τ Θ => two i.r' i.f' i.t' i.y' i.s' i.b')
    (coef C C.enth) (coef C (near_enth hε g nTk)) (coef E (near_enth hε g nTl)) (coef E E.enth) (stab C) (stab E)
    ((((((C.vol.mul C.dens).mul C.uT).mul C.dens).mul C.rate).neg).add
      ((C.vol.mul C.dT).mul ((nP.mul C.rate).add C.heat)))
    (((((E.vol.mul E.dens).mul E.uT).mul E.dens).mul E.rate).sub
      ((E.vol.mul E.dT).mul ((nP.mul E.rate).add E.heat)))
    nK C.own C.other E.other E.own C.stable E.stable (fun i => hK _ i.f i.s₁ _ _) (fun i => hK _ i.f' i.s₁' _ _)
  have nkr : Near ε (fun i => i.s.m_dot_kr) (fun i => i.s'.m_dot_kr) := by
    refine (nm.sub (nxk.mul np)).congr (fun i => ?_) (fun i => ?_)
    · have := i.b.chx_mass; simp only [chxMass, massRate] at this
      change i.r.vol_chx * (i.r.fluid.dd_dP_T i.r.temp.chx i.y.P * _ + _) + _ = _ at this
      linarith
    · have := i.b'.chx_mass; simp only [chxMass, massRate] at this
      change i.r'.vol_chx * (i.r'.fluid.dd_dP_T i.r'.temp.chx i.y'.P * _ + _) + _ = _ at this
      linarith
  have nrl : Near ε (fun i => i.s.m_dot_rl) (fun i => i.s'.m_dot_rl) := by
    refine (nn.add (nxl.mul np)).congr (fun i => ?_) (fun i => ?_)
    · have := i.b.hhx_mass; simp only [hhxMass, massRate] at this
      change i.r.vol_hhx * (i.r.fluid.dd_dP_T i.r.temp.hhx i.y.P * _ + _) + _ = _ at this
      linarith
    · have := i.b'.hhx_mass; simp only [hhxMass, massRate] at this
      change i.r'.vol_hhx * (i.r'.fluid.dd_dP_T i.r'.temp.hhx i.y'.P * _ + _) + _ = _ at this
      linarith
  -- enthalpy carried
  have carried : ∀ {m m' a a' b b' : Kins B n L τ Θ → ℝ}, Near ε m m' → Near ε a a' → Near ε b b' →
      Near ε (fun i => a i * max (m i) 0 + b i * min (m i) 0)
        (fun i => a' i * max (m' i) 0 + b' i * min (m' i) 0) := fun hm ha hb =>
    (ha.mul hm.posPart).add (hb.mul hm.negPart)
  have cform : ∀ a b m : ℝ, (if 0 ≤ m then a else b) * m = a * max m 0 + b * min m 0 := by
    intro a b m
    split <;> rename_i h
    · rw [max_eq_left h, min_eq_right h]; ring
    · rw [max_eq_right (not_le.1 h).le, min_eq_left (not_le.1 h).le]; ring
  have h1 := carried nm C.enth (nen nTk)
  have h2 := carried nkr (nen nTk) (nen nTrc)
  have h3 := carried nrl (nen nTrh) (nen nTl)
  have h4 := carried nn (nen nTl) E.enth
  have store : ∀ {V : Run ℝ → ℝ} {T T' : Kins B n L τ Θ → ℝ}, Near ε T T' →
      Near ε (fun i => V i.r * i.r.fluid.dd_dP_T (T i) i.y.P) (fun i => V i.r' * i.r'.fluid.dd_dP_T (T' i) i.y'.P) →
      Near ε (fun i => V i.r * (i.r.fluid.inte (T i) i.y.P * (i.r.fluid.dd_dP_T (T i) i.y.P * i.s.dP_dt)))
      (fun i => V i.r' * (i.r'.fluid.inte (T' i) i.y'.P * (i.r'.fluid.dd_dP_T (T' i) i.y'.P * i.s'.dP_dt))) :=
    fun nT hx => (((nin nT).mul hx).mul np).congr (fun i => by ring) (fun i => by ring)
  have ek : ∀ (r : Run ℝ) t y, (r.calculate_inputs t y).chx.enth = r.fluid.enth r.temp.chx y.P := fun _ _ _ => rfl
  have el : ∀ (r : Run ℝ) t y, (r.calculate_inputs t y).hhx.enth = r.fluid.enth r.temp.hhx y.P := fun _ _ _ => rfl
  have ec : ∀ (r : Run ℝ) t y, (r.calculate_inputs t y).regen.enth_cold = r.fluid.enth r.temp.regen.cold y.P := fun _ _ _ => rfl
  have eh : ∀ (r : Run ℝ) t y, (r.calculate_inputs t y).regen.enth_hot = r.fluid.enth r.temp.regen.hot y.P := fun _ _ _ => rfl
  have uP0 : ∀ (i : Kins B n L τ Θ) T P, i.r.fluid.du_dP_T T P = 0 := fun i T P => (F i T P).2.2.2.2.2.1
  have uP0' : ∀ (i : Kins B n L τ Θ) T P, i.r'.fluid.du_dP_T T P = 0 := fun i T P => (F' i T P).2.2.2.2.2.1
  refine ⟨nm, nkr, nrl, nn, ?_, ?_, ?_, ?_, ?_, np⟩
  · refine ((h1.sub h2).sub (store (V := Run.vol_chx) nTk nxk)).congr (fun i => ?_) (fun i => ?_)
    · have := i.b.chx_energy
      simp only [chxEnergy, energyRate, upwind, cform, ek, ec] at this
      change i.r.vol_chx * (i.r.fluid.dens i.r.temp.chx i.y.P * (i.r.fluid.du_dP_T i.r.temp.chx i.y.P * _ + _) +
        i.r.fluid.inte i.r.temp.chx i.y.P * (i.r.fluid.dd_dP_T i.r.temp.chx i.y.P * _ + _)) + _ = _ at this
      rw [uP0] at this
      linear_combination this
    · have := i.b'.chx_energy
      simp only [chxEnergy, energyRate, upwind, cform, ek, ec] at this
      change i.r'.vol_chx * (i.r'.fluid.dens i.r'.temp.chx i.y'.P * (i.r'.fluid.du_dP_T i.r'.temp.chx i.y'.P * _ + _) +
        i.r'.fluid.inte i.r'.temp.chx i.y'.P * (i.r'.fluid.dd_dP_T i.r'.temp.chx i.y'.P * _ + _)) + _ = _ at this
      rw [uP0'] at this
      linear_combination this
  · refine ((h2.sub h3).sub (store (V := Run.vol_regen) nTr nxr)).congr (fun i => ?_) (fun i => ?_)
    · have := i.b.regen_energy
      simp only [regenEnergy, energyRate, upwind, cform, ek, ec, el, eh] at this
      change i.r.vol_regen * (i.r.fluid.dens i.r.temp.regen.avg i.y.P * (i.r.fluid.du_dP_T i.r.temp.regen.avg i.y.P * _ + _) +
        i.r.fluid.inte i.r.temp.regen.avg i.y.P * (i.r.fluid.dd_dP_T i.r.temp.regen.avg i.y.P * _ + _)) + _ = _ at this
      rw [uP0] at this
      linear_combination this
    · have := i.b'.regen_energy
      simp only [regenEnergy, energyRate, upwind, cform, ek, ec, el, eh] at this
      change i.r'.vol_regen * (i.r'.fluid.dens i.r'.temp.regen.avg i.y'.P * (i.r'.fluid.du_dP_T i.r'.temp.regen.avg i.y'.P * _ + _) +
        i.r'.fluid.inte i.r'.temp.regen.avg i.y'.P * (i.r'.fluid.dd_dP_T i.r'.temp.regen.avg i.y'.P * _ + _)) + _ = _ at this
      rw [uP0'] at this
      linear_combination this
  · refine ((store (V := Run.vol_hhx) nTl nxl).sub (h3.sub h4)).congr (fun i => ?_) (fun i => ?_)
    · have := i.b.hhx_energy
      simp only [hhxEnergy, energyRate, upwind, cform, el, eh] at this
      change i.r.vol_hhx * (i.r.fluid.dens i.r.temp.hhx i.y.P * (i.r.fluid.du_dP_T i.r.temp.hhx i.y.P * _ + _) +
        i.r.fluid.inte i.r.temp.hhx i.y.P * (i.r.fluid.dd_dP_T i.r.temp.hhx i.y.P * _ + _)) + _ = _ at this
      rw [uP0] at this
      linear_combination -this
    · have := i.b'.hhx_energy
      simp only [hhxEnergy, energyRate, upwind, cform, el, eh] at this
      change i.r'.vol_hhx * (i.r'.fluid.dens i.r'.temp.hhx i.y'.P * (i.r'.fluid.du_dP_T i.r'.temp.hhx i.y'.P * _ + _) +
        i.r'.fluid.inte i.r'.temp.hhx i.y'.P * (i.r'.fluid.dd_dP_T i.r'.temp.hhx i.y'.P * _ + _)) + _ = _ at this
      rw [uP0'] at this
      linear_combination -this
  · refine (((nm.add ((C.vol.mul C.dP).mul np)).add (C.dens.mul C.rate)).div (C.vol.mul C.dT).neg
      C.contracts).congr (fun i => ?_) (fun i => ?_)
    · have h0 := (above_pos C.contracts i).1
      have := i.b.comp_mass; simp only [compMass, massRate] at this
      rw [eq_div_iff h0.ne']; linear_combination -this
    · have h0 := (above_pos C.contracts i).2
      have := i.b'.comp_mass; simp only [compMass, massRate] at this
      rw [eq_div_iff h0.ne']; linear_combination -this
  · refine ((((E.vol.mul E.dP).mul np).add (E.dens.mul E.rate)).sub nn |>.div (E.vol.mul E.dT).neg
      E.contracts).congr (fun i => ?_) (fun i => ?_)
    · have h0 := (above_pos E.contracts i).1
      have := i.b.exp_mass; simp only [expMass, massRate] at this
      rw [eq_div_iff h0.ne']; linear_combination -this
    · have h0 := (above_pos E.contracts i).2
      have := i.b'.exp_mass; simp only [expMass, massRate] at this
      rw [eq_div_iff h0.ne']; linear_combination -this



/-- **C70**, exchanger temperatures included.  Over all runs of one engine (any drive, any temperatures of the
exchangers within bounds), the ten unknowns are Lipschitz in the state, the positions and speeds of the pistons, and
the temperatures of the exchangers and the regenerator, with one constant. -/
theorem C70_kin (hf : B.fluid = (IdealGas.new n).toFluid) (hT : Sound B.solver) (L : Limits) (hτ : 0 < τ) :
    ∃ C, 0 < C ∧ ∀ (r r' : Run ℝ), Kin B τ Θ r → Kin B τ Θ r' → SaneRun r → SaneRun r' →
      ∀ (t t' : ℝ) (y y' : Conditions ℝ) (hint hint' : FlowDirection) (s s' : Solution ℝ),
      WithinLimits r L t y → WithinLimits r' L t' y' → solve r.solver (r.calculate_inputs t y) hint = .ok s →
      solve r'.solver (r'.calculate_inputs t' y') hint' = .ok s' →
      solutionGap s s' ≤ C * (stateGap y y' + pistonGap r t r' t' + tempGap r.temp r'.temp) := by
  obtain ⟨⟨c0, p0, h0⟩, ⟨c1, p1, h1⟩, ⟨c2, p2, h2⟩, ⟨c3, p3, h3⟩, ⟨c4, p4, h4⟩, ⟨c5, p5, h5⟩, ⟨c6, p6, h6⟩,
    ⟨c7, p7, h7⟩, ⟨c8, p8, h8⟩, ⟨c9, p9, h9⟩⟩ := kins_near (B := B) (n := n) (L := L) (Θ := Θ) hτ
  refine ⟨c0 + c1 + c2 + c3 + c4 + c5 + c6 + c7 + c8 + c9 + 1, by positivity, ?_⟩
  intro r r' k k' hs hs' t t' y y' hint hint' s s' w w' e e'
  rw [k.solver] at e
  rw [k'.solver] at e'
  let i : Kins B n L τ Θ := ⟨r, t, y, s, r', t', y', s', k, k', hs, hs', k.fluid.trans hf, k'.fluid.trans hf, w, w',
    C07_upwind_balances _ hT _ hs.norm hint s e, C07_upwind_balances _ hT _ hs'.norm hint' s' e'⟩
  have k0 := (h0 i).2.2; have k1 := (h1 i).2.2; have k2 := (h2 i).2.2; have k3 := (h3 i).2.2
  have k4 := (h4 i).2.2; have k5 := (h5 i).2.2; have k6 := (h6 i).2.2; have k7 := (h7 i).2.2
  have k8 := (h8 i).2.2; have k9 := (h9 i).2.2
  have hg : 0 ≤ i.gap := i.gap_nonneg
  simp only [i, Kins.gap] at k0 k1 k2 k3 k4 k5 k6 k7 k8 k9 hg
  simp only [solutionGap, add_mul, one_mul]
  linarith

end

end Sett
