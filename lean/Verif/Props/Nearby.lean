import Verif.Props.Kin
import Verif.Props.Shadow
import Verif.Spec.SecondLaw
import Verif.Spec.Nearby

/-! # C106: engines that are nearly the same move nearly the same -/

namespace Sett

open Spec state_equations Set

/-- Two instants of two engines, with their solutions. -/
structure Pair (n : GasName) (L : Limits) (D : DesignLimits) where
  r : Run ℝ
  t : ℝ
  y : Conditions ℝ
  s : Solution ℝ
  r' : Run ℝ
  t' : ℝ
  y' : Conditions ℝ
  s' : Solution ℝ
  k : WithinDesign D r
  k' : WithinDesign D r'
  s₁ : SaneRun r
  s₁' : SaneRun r'
  f : r.fluid = (IdealGas.new n).toFluid
  f' : r'.fluid = (IdealGas.new n).toFluid
  w : WithinLimits r L t y
  w' : WithinLimits r' L t' y'
  b : Balances (r.calculate_inputs t y) (upwind (r.calculate_inputs t y) s) s
  b' : Balances (r'.calculate_inputs t' y') (upwind (r'.calculate_inputs t' y') s') s'

section
variable {n : GasName} {L : Limits} {D : DesignLimits}

/-- How far the two instants are apart. -/
def Pair.gap (i : Pair n L D) : ℝ := stateGap i.y i.y' + pistonGap i.r i.t i.r' i.t' + designGap i.r i.r'

theorem designGap_nonneg (r r' : Run ℝ) : 0 ≤ designGap r r' := by
  have := tempGap_nonneg r.temp r'.temp
  unfold designGap; positivity

theorem Pair.gap_nonneg (i : Pair n L D) : 0 ≤ i.gap :=
  add_nonneg (add_nonneg (stateGap_nonneg _ _) (pistonGap_nonneg _ _ _ _)) (designGap_nonneg _ _)

/-- All ten unknowns at two instants of two engines. -/
theorem pair_near :
    let ε : Pair n L D → ℝ := Pair.gap
    Near ε (fun i => i.s.m_dot_ck) (fun i => i.s'.m_dot_ck) ∧
    Near ε (fun i => i.s.m_dot_kr) (fun i => i.s'.m_dot_kr) ∧
    Near ε (fun i => i.s.m_dot_rl) (fun i => i.s'.m_dot_rl) ∧
    Near ε (fun i => i.s.m_dot_le) (fun i => i.s'.m_dot_le) ∧
    Near ε (fun i => i.s.Q_dot_k) (fun i => i.s'.Q_dot_k) ∧
    Near ε (fun i => i.s.Q_dot_r) (fun i => i.s'.Q_dot_r) ∧
    Near ε (fun i => i.s.Q_dot_l) (fun i => i.s'.Q_dot_l) ∧
    Near ε (fun i => i.s.dTc_dt) (fun i => i.s'.dTc_dt) ∧
    Near ε (fun i => i.s.dTe_dt) (fun i => i.s'.dTe_dt) ∧
    Near ε (fun i => i.s.dP_dt) (fun i => i.s'.dP_dt) := by
  intro ε
  have hε : ∀ i, 0 ≤ ε i := Pair.gap_nonneg
  have c := Near.const (ε := ε) hε
  have F := fun i : Pair n L D => fluid_eqs i.f
  have F' := fun i : Pair n L D => fluid_eqs i.f'
  set g : IdealGas ℝ := IdealGas.new n with hg
  have hR : 0 < g.gas_constant := IdealGas.gas_constant_pos n
  -- the twelve quantities everything is made of
  have basic : ∀ {f f' : Pair n L D → ℝ} (M : ℝ), (∀ i, |f i| ≤ M) → (∀ i, |f' i| ≤ M) →
      (∀ i, |f i - f' i| ≤ i.gap) → Near ε f f' := fun M h1 h2 h3 =>
    Near.of_bounds hε (B := M) (K := 1) h1 h2 fun i => by rw [one_mul]; exact h3 i
  have parts : ∀ i : Pair n L D, 0 ≤ stateGap i.y i.y' ∧ 0 ≤ pistonGap i.r i.t i.r' i.t' ∧
      0 ≤ designGap i.r i.r' := fun i => ⟨stateGap_nonneg _ _, pistonGap_nonneg _ _ _ _, designGap_nonneg _ _⟩
  have sg : ∀ {i : Pair n L D} {x : ℝ}, x ≤ stateGap i.y i.y' → x ≤ i.gap := fun {i x} h => by
    obtain ⟨-, h2, h3⟩ := parts i
    unfold Pair.gap; linarith
  have pg : ∀ {i : Pair n L D} {x : ℝ}, x ≤ pistonGap i.r i.t i.r' i.t' → x ≤ i.gap := fun {i x} h => by
    obtain ⟨h1, -, h3⟩ := parts i
    unfold Pair.gap; linarith
  have tg : ∀ {i : Pair n L D} {x : ℝ}, x ≤ designGap i.r i.r' → x ≤ i.gap := fun {i x} h => by
    obtain ⟨h1, h2, -⟩ := parts i
    unfold Pair.gap; linarith
  have within : ∀ {a b x : ℝ}, 0 ≤ a → a ≤ x ∧ x ≤ b → |x| ≤ b := fun ha h => by
    rw [abs_of_nonneg (ha.trans h.1)]; exact h.2
  have nP : Near ε (fun i => i.y.P) (fun i => i.y'.P) :=
    basic L.Pmax (fun i => within L.Pmin_pos.le i.w.pres) (fun i => within L.Pmin_pos.le i.w'.pres)
      (fun i => sg (by unfold stateGap; linarith [abs_nonneg (i.y.T_c - i.y'.T_c), abs_nonneg (i.y.T_e - i.y'.T_e)]))
  have aP : Above (fun i : Pair n L D => i.y.P) (fun i => i.y'.P) :=
    ⟨L.Pmin, L.Pmin_pos, fun i => ⟨i.w.pres.1, i.w'.pres.1⟩⟩
  have nTc : Near ε (fun i => i.y.T_c) (fun i => i.y'.T_c) :=
    basic L.Tmax (fun i => within (by norm_num) i.w.comp_temp) (fun i => within (by norm_num) i.w'.comp_temp)
      (fun i => sg (by unfold stateGap; linarith [abs_nonneg (i.y.P - i.y'.P), abs_nonneg (i.y.T_e - i.y'.T_e)]))
  have nTe : Near ε (fun i => i.y.T_e) (fun i => i.y'.T_e) :=
    basic L.Tmax (fun i => within (by norm_num) i.w.exp_temp) (fun i => within (by norm_num) i.w'.exp_temp)
      (fun i => sg (by unfold stateGap; linarith [abs_nonneg (i.y.P - i.y'.P), abs_nonneg (i.y.T_c - i.y'.T_c)]))
  have piston : ∀ i : Pair n L D,
      |(i.r.ws_vol_fn i.t).1.value - (i.r'.ws_vol_fn i.t').1.value| ≤ i.gap ∧
      |(i.r.ws_vol_fn i.t).2.value - (i.r'.ws_vol_fn i.t').2.value| ≤ i.gap ∧
      |(i.r.ws_vol_fn i.t).1.deriv - (i.r'.ws_vol_fn i.t').1.deriv| ≤ i.gap ∧
      |(i.r.ws_vol_fn i.t).2.deriv - (i.r'.ws_vol_fn i.t').2.deriv| ≤ i.gap := by
    intro i
    have h1 := abs_nonneg ((i.r.ws_vol_fn i.t).1.value - (i.r'.ws_vol_fn i.t').1.value)
    have h2 := abs_nonneg ((i.r.ws_vol_fn i.t).2.value - (i.r'.ws_vol_fn i.t').2.value)
    have h3 := abs_nonneg ((i.r.ws_vol_fn i.t).1.deriv - (i.r'.ws_vol_fn i.t').1.deriv)
    have h4 := abs_nonneg ((i.r.ws_vol_fn i.t).2.deriv - (i.r'.ws_vol_fn i.t').2.deriv)
    refine ⟨pg ?_, pg ?_, pg ?_, pg ?_⟩ <;> unfold pistonGap <;> linarith
  have nVc : Near ε (fun i => (i.r.ws_vol_fn i.t).1.value) (fun i => (i.r'.ws_vol_fn i.t').1.value) :=
    basic L.Vmax (fun i => within L.Vmin_pos.le i.w.comp_vol) (fun i => within L.Vmin_pos.le i.w'.comp_vol)
      (fun i => (piston i).1)
  have nVe : Near ε (fun i => (i.r.ws_vol_fn i.t).2.value) (fun i => (i.r'.ws_vol_fn i.t').2.value) :=
    basic L.Vmax (fun i => within L.Vmin_pos.le i.w.exp_vol) (fun i => within L.Vmin_pos.le i.w'.exp_vol)
      (fun i => (piston i).2.1)
  have nWc : Near ε (fun i => (i.r.ws_vol_fn i.t).1.deriv) (fun i => (i.r'.ws_vol_fn i.t').1.deriv) :=
    basic L.Wmax (fun i => i.w.comp_rate) (fun i => i.w'.comp_rate) (fun i => (piston i).2.2.1)
  have nWe : Near ε (fun i => (i.r.ws_vol_fn i.t).2.deriv) (fun i => (i.r'.ws_vol_fn i.t').2.deriv) :=
    basic L.Wmax (fun i => i.w.exp_rate) (fun i => i.w'.exp_rate) (fun i => (piston i).2.2.2)
  have aVc : Above (fun i : Pair n L D => (i.r.ws_vol_fn i.t).1.value) (fun i => (i.r'.ws_vol_fn i.t').1.value) :=
    ⟨L.Vmin, L.Vmin_pos, fun i => ⟨i.w.comp_vol.1, i.w'.comp_vol.1⟩⟩
  have aVe : Above (fun i : Pair n L D => (i.r.ws_vol_fn i.t).2.value) (fun i => (i.r'.ws_vol_fn i.t').2.value) :=
    ⟨L.Vmin, L.Vmin_pos, fun i => ⟨i.w.exp_vol.1, i.w'.exp_vol.1⟩⟩
  have temps : ∀ i : Pair n L D, |i.r.temp.chx - i.r'.temp.chx| ≤ i.gap ∧ |i.r.temp.hhx - i.r'.temp.hhx| ≤ i.gap ∧
      |i.r.temp.regen.cold - i.r'.temp.regen.cold| ≤ i.gap ∧ |i.r.temp.regen.avg - i.r'.temp.regen.avg| ≤ i.gap ∧
      |i.r.temp.regen.hot - i.r'.temp.regen.hot| ≤ i.gap ∧ |i.r.vol_chx - i.r'.vol_chx| ≤ i.gap ∧
      |i.r.vol_regen - i.r'.vol_regen| ≤ i.gap ∧ |i.r.vol_hhx - i.r'.vol_hhx| ≤ i.gap ∧
      |i.r.ws_parasitics.comp.thermal - i.r'.ws_parasitics.comp.thermal| ≤ i.gap ∧
      |i.r.ws_parasitics.exp.thermal - i.r'.ws_parasitics.exp.thermal| ≤ i.gap := by
    intro i
    have h1 := abs_nonneg (i.r.temp.chx - i.r'.temp.chx)
    have h2 := abs_nonneg (i.r.temp.hhx - i.r'.temp.hhx)
    have h3 := abs_nonneg (i.r.temp.regen.cold - i.r'.temp.regen.cold)
    have h4 := abs_nonneg (i.r.temp.regen.avg - i.r'.temp.regen.avg)
    have h5 := abs_nonneg (i.r.temp.regen.hot - i.r'.temp.regen.hot)
    have h6 := abs_nonneg (i.r.vol_chx - i.r'.vol_chx)
    have h7 := abs_nonneg (i.r.vol_regen - i.r'.vol_regen)
    have h8 := abs_nonneg (i.r.vol_hhx - i.r'.vol_hhx)
    have h9 := abs_nonneg (i.r.ws_parasitics.comp.thermal - i.r'.ws_parasitics.comp.thermal)
    have h10 := abs_nonneg (i.r.ws_parasitics.exp.thermal - i.r'.ws_parasitics.exp.thermal)
    refine ⟨tg ?_, tg ?_, tg ?_, tg ?_, tg ?_, tg ?_, tg ?_, tg ?_, tg ?_, tg ?_⟩ <;> unfold designGap tempGap <;> linarith
  have nTk : Near ε (fun i => i.r.temp.chx) (fun i => i.r'.temp.chx) :=
    basic D.Tmax (fun i => within (by norm_num) i.k.chx) (fun i => within (by norm_num) i.k'.chx) (fun i => (temps i).1)
  have nTl : Near ε (fun i => i.r.temp.hhx) (fun i => i.r'.temp.hhx) :=
    basic D.Tmax (fun i => within (by norm_num) i.k.hhx) (fun i => within (by norm_num) i.k'.hhx) (fun i => (temps i).2.1)
  have nTrc : Near ε (fun i => i.r.temp.regen.cold) (fun i => i.r'.temp.regen.cold) :=
    basic D.Tmax (fun i => i.k.cold) (fun i => i.k'.cold) (fun i => (temps i).2.2.1)
  have nTr : Near ε (fun i => i.r.temp.regen.avg) (fun i => i.r'.temp.regen.avg) :=
    basic D.Tmax (fun i => within D.Tmin_pos.le i.k.regen) (fun i => within D.Tmin_pos.le i.k'.regen) (fun i => (temps i).2.2.2.1)
  have nTrh : Near ε (fun i => i.r.temp.regen.hot) (fun i => i.r'.temp.regen.hot) :=
    basic D.Tmax (fun i => i.k.hot) (fun i => i.k'.hot) (fun i => (temps i).2.2.2.2.1)
  have nVk : Near ε (fun i => i.r.vol_chx) (fun i => i.r'.vol_chx) :=
    basic D.Xmax (fun i => within le_rfl i.k.chx_vol) (fun i => within le_rfl i.k'.chx_vol) (fun i => (temps i).2.2.2.2.2.1)
  have nVr : Near ε (fun i => i.r.vol_regen) (fun i => i.r'.vol_regen) :=
    basic D.Xmax (fun i => within le_rfl i.k.regen_vol) (fun i => within le_rfl i.k'.regen_vol)
      (fun i => (temps i).2.2.2.2.2.2.1)
  have nVl : Near ε (fun i => i.r.vol_hhx) (fun i => i.r'.vol_hhx) :=
    basic D.Xmax (fun i => within le_rfl i.k.hhx_vol) (fun i => within le_rfl i.k'.hhx_vol)
      (fun i => (temps i).2.2.2.2.2.2.2.1)
  have nQc : Near ε (fun i => i.r.ws_parasitics.comp.thermal) (fun i => i.r'.ws_parasitics.comp.thermal) :=
    basic D.Qmax (fun i => i.k.comp_heat) (fun i => i.k'.comp_heat) (fun i => (temps i).2.2.2.2.2.2.2.2.1)
  have nQe : Near ε (fun i => i.r.ws_parasitics.exp.thermal) (fun i => i.r'.ws_parasitics.exp.thermal) :=
    basic D.Qmax (fun i => i.k.exp_heat) (fun i => i.k'.exp_heat) (fun i => (temps i).2.2.2.2.2.2.2.2.2)
  have aTk : Above (fun i : Pair n L D => i.r.temp.chx) (fun i => i.r'.temp.chx) :=
    ⟨100, by norm_num, fun i => ⟨i.k.chx.1, i.k'.chx.1⟩⟩
  have aTl : Above (fun i : Pair n L D => i.r.temp.hhx) (fun i => i.r'.temp.hhx) :=
    ⟨100, by norm_num, fun i => ⟨i.k.hhx.1, i.k'.hhx.1⟩⟩
  have aTr : Above (fun i : Pair n L D => i.r.temp.regen.avg) (fun i => i.r'.temp.regen.avg) :=
    ⟨D.Tmin, D.Tmin_pos, fun i => ⟨i.k.regen.1, i.k'.regen.1⟩⟩
  -- the two working spaces
  have C : SpaceNear ε (fun i => (i.r.calculate_inputs i.t i.y).comp)
      (fun i => (i.r'.calculate_inputs i.t' i.y').comp) (fun i => g.enth i.r.temp.chx 0) (fun i => g.enth i.r'.temp.chx 0) := by
    have S : SpaceDuo n ε (fun i : Pair n L D => i.y.T_c) (fun i => i.y'.T_c) (fun i => i.y.P) (fun i => i.y'.P)
        (fun i => (i.r.ws_vol_fn i.t).1.value) (fun i => (i.r'.ws_vol_fn i.t').1.value)
        (fun i => (i.r.ws_vol_fn i.t).1.deriv) (fun i => (i.r'.ws_vol_fn i.t').1.deriv)
        (fun i => { (i.r.calculate_inputs i.t i.y).comp with Q_dot := 0 })
        (fun i => { (i.r'.calculate_inputs i.t' i.y').comp with Q_dot := 0 }) :=
      ⟨fun i => ⟨rfl, rfl⟩, fun i => ⟨rfl, rfl⟩, fun i => ⟨(F i _ _).1, (F' i _ _).1⟩,
      fun i => ⟨(F i _ _).2.1, (F' i _ _).2.1⟩, fun i => ⟨(F i _ _).2.2.1, (F' i _ _).2.2.1⟩,
      fun i => ⟨(F i _ _).2.2.2.1, (F' i _ _).2.2.2.1⟩, fun i => ⟨(F i _ _).2.2.2.2.1, (F' i _ _).2.2.2.2.1⟩,
      fun i => ⟨(F i _ _).2.2.2.2.2.1, (F' i _ _).2.2.2.2.2.1⟩,
      fun i => ⟨(F i _ _).2.2.2.2.2.2, (F' i _ _).2.2.2.2.2.2⟩, ⟨0, fun i => ⟨rfl, rfl⟩⟩⟩
    have N := S.near hε nTc nP nVc nWc aP aVc (Tmax := L.Tmax) (fun i => i.w.comp_temp) (fun i => i.w'.comp_temp)
      (fun i => i.k.chx) (fun i => i.k'.chx)
    exact ⟨N.vol, N.rate, N.dens, N.inte, N.enth, N.dP, N.dT, N.uP, N.uT, nQc, N.contracts, N.stable, N.own, N.other⟩
  have E : SpaceNear ε (fun i => (i.r.calculate_inputs i.t i.y).exp)
      (fun i => (i.r'.calculate_inputs i.t' i.y').exp) (fun i => g.enth i.r.temp.hhx 0) (fun i => g.enth i.r'.temp.hhx 0) := by
    have S : SpaceDuo n ε (fun i : Pair n L D => i.y.T_e) (fun i => i.y'.T_e) (fun i => i.y.P) (fun i => i.y'.P)
        (fun i => (i.r.ws_vol_fn i.t).2.value) (fun i => (i.r'.ws_vol_fn i.t').2.value)
        (fun i => (i.r.ws_vol_fn i.t).2.deriv) (fun i => (i.r'.ws_vol_fn i.t').2.deriv)
        (fun i => { (i.r.calculate_inputs i.t i.y).exp with Q_dot := 0 })
        (fun i => { (i.r'.calculate_inputs i.t' i.y').exp with Q_dot := 0 }) :=
      ⟨fun i => ⟨rfl, rfl⟩, fun i => ⟨rfl, rfl⟩, fun i => ⟨(F i _ _).1, (F' i _ _).1⟩,
      fun i => ⟨(F i _ _).2.1, (F' i _ _).2.1⟩, fun i => ⟨(F i _ _).2.2.1, (F' i _ _).2.2.1⟩,
      fun i => ⟨(F i _ _).2.2.2.1, (F' i _ _).2.2.2.1⟩, fun i => ⟨(F i _ _).2.2.2.2.1, (F' i _ _).2.2.2.2.1⟩,
      fun i => ⟨(F i _ _).2.2.2.2.2.1, (F' i _ _).2.2.2.2.2.1⟩,
      fun i => ⟨(F i _ _).2.2.2.2.2.2, (F' i _ _).2.2.2.2.2.2⟩, ⟨0, fun i => ⟨rfl, rfl⟩⟩⟩
    have N := S.near hε nTe nP nVe nWe aP aVe (Tmax := L.Tmax) (fun i => i.w.exp_temp) (fun i => i.w'.exp_temp)
      (fun i => i.k.hhx) (fun i => i.k'.hhx)
    exact ⟨N.vol, N.rate, N.dens, N.inte, N.enth, N.dP, N.dT, N.uP, N.uT, nQe, N.contracts, N.stable, N.own, N.other⟩
  have coef : ∀ {w w' : Pair n L D → WorkingSpace ℝ} {k k' x x' : Pair n L D → ℝ}, SpaceNear ε w w' k k' →
      Near ε x x' → Near ε (fun i => tempCoef (w i) (x i)) (fun i => tempCoef (w' i) (x' i)) := by
    intro w w' k k' x x' h hx
    exact h.vol.mul ((h.dens.mul h.uT).add ((h.inte.sub hx).mul h.dT))
  have stab : ∀ {w w' : Pair n L D → WorkingSpace ℝ} {k k' : Pair n L D → ℝ}, SpaceNear ε w w' k k' →
      Near ε (fun i => stability (w i)) (fun i => stability (w' i)) := by
    intro w w' k k' h
    exact ((h.vol.pow hε 2).mul h.dens).mul ((h.uT.mul h.dP).sub (h.uP.mul h.dT))
  -- the exchangers
  have nx : ∀ {V V' T T' : Pair n L D → ℝ}, Near ε V V' → Near ε T T' → Above T T' →
      Near ε (fun i => V i * i.r.fluid.dd_dP_T (T i) i.y.P) (fun i => V' i * i.r'.fluid.dd_dP_T (T' i) i.y'.P) :=
    fun nV nT aT => (nV.mul ((c 1).div ((c g.gas_constant).mul nT) ((Above.const hR).mul aT))).congr
      (fun i => by rw [(F i _ _).2.2.2.1]) (fun i => by rw [(F' i _ _).2.2.2.1])
  have nen : ∀ {T T' : Pair n L D → ℝ}, Near ε T T' →
      Near ε (fun i => i.r.fluid.enth (T i) i.y.P) (fun i => i.r'.fluid.enth (T' i) i.y'.P) := fun nT =>
    (near_enth hε g nT).congr (fun i => (F i _ _).2.2.1) (fun i => (F' i _ _).2.2.1)
  have nin : ∀ {T T' : Pair n L D → ℝ}, Near ε T T' →
      Near ε (fun i => i.r.fluid.inte (T i) i.y.P) (fun i => i.r'.fluid.inte (T' i) i.y'.P) := fun nT =>
    ((near_enth hε g nT).sub ((c g.gas_constant).mul (nT.sub (c g.ref_temp)))).congr
      (fun i => (F i _ _).2.1) (fun i => (F' i _ _).2.1)
  have nxk := nx nVk nTk aTk
  have nxr := nx nVr nTr aTr
  have nxl := nx nVl nTl aTl
  have nK : Near ε (fun i => exchangerCompliance (i.r.calculate_inputs i.t i.y))
      (fun i => exchangerCompliance (i.r'.calculate_inputs i.t' i.y')) := (nxk.add nxr).add nxl
  have hK : ∀ r : Run ℝ, r.fluid = (IdealGas.new n).toFluid → SaneRun r → ∀ t y,
      0 ≤ exchangerCompliance (r.calculate_inputs t y) := by
    intro r hf hs t y
    have h1 : ∀ T, 0 < T → 0 ≤ r.fluid.dd_dP_T T y.P := fun T hT => by
      rw [(fluid_eqs hf _ _).2.2.2.1]; positivity
    exact add_nonneg (add_nonneg (mul_nonneg hs.chx_vol (h1 _ (by linarith [hs.chx_temp])))
      (mul_nonneg hs.regen_vol (h1 _ hs.regen_temp)))
      (mul_nonneg hs.hhx_vol (h1 _ (by linarith [hs.hhx_temp])))
  -- the flows
  have two : ∀ (r : Run ℝ), r.fluid = (IdealGas.new n).toFluid → ∀ (t : ℝ) (y : Conditions ℝ) (s : Solution ℝ),
      Balances (r.calculate_inputs t y) (upwind (r.calculate_inputs t y) s) s →
      TwoFlows (tempCoef (r.calculate_inputs t y).comp (r.calculate_inputs t y).comp.enth)
        (tempCoef (r.calculate_inputs t y).comp (g.enth r.temp.chx 0))
        (tempCoef (r.calculate_inputs t y).exp (g.enth r.temp.hhx 0))
        (tempCoef (r.calculate_inputs t y).exp (r.calculate_inputs t y).exp.enth)
        (stability (r.calculate_inputs t y).comp) (stability (r.calculate_inputs t y).exp)
        (-((r.calculate_inputs t y).comp.vol * (r.calculate_inputs t y).comp.dens
            * (r.calculate_inputs t y).comp.du_dT_P * (r.calculate_inputs t y).comp.dens
            * (r.calculate_inputs t y).comp.dV_dt)
          + (r.calculate_inputs t y).comp.vol * (r.calculate_inputs t y).comp.dd_dT_P
            * (y.P * (r.calculate_inputs t y).comp.dV_dt + (r.calculate_inputs t y).comp.Q_dot))
        ((r.calculate_inputs t y).exp.vol * (r.calculate_inputs t y).exp.dens
            * (r.calculate_inputs t y).exp.du_dT_P * (r.calculate_inputs t y).exp.dens
            * (r.calculate_inputs t y).exp.dV_dt
          - (r.calculate_inputs t y).exp.vol * (r.calculate_inputs t y).exp.dd_dT_P
            * (y.P * (r.calculate_inputs t y).exp.dV_dt + (r.calculate_inputs t y).exp.Q_dot))
        (exchangerCompliance (r.calculate_inputs t y)) s.m_dot_ck s.m_dot_le s.dP_dt := by
    intro r hf t y s hb
    have hk : ∀ P, r.fluid.enth r.temp.chx P = g.enth r.temp.chx 0 := fun P => (fluid_eqs hf _ P).2.2.1
    have hl : ∀ P, r.fluid.enth r.temp.hhx P = g.enth r.temp.hhx 0 := fun P => (fluid_eqs hf _ P).2.2.1
    have e1 := comp_eliminated hb
    have e2 := exp_eliminated hb
    rw [upwind_ck, show (r.calculate_inputs t y).chx.enth = g.enth r.temp.chx 0 from hk y.P] at e1
    rw [upwind_le, show (r.calculate_inputs t y).hhx.enth = g.enth r.temp.hhx 0 from hl y.P] at e2
    rw [show (r.calculate_inputs t y).pres = y.P from rfl] at e1 e2
    exact ⟨by rw [e1]; ring, by rw [e2]; ring, exchangers_store hb⟩
  obtain ⟨np, nm, nn⟩ := near_rate hε (fun i : Pair n L D => two i.r i.f i.t i.y i.s i.b)
    (fun i : Pair n L D => two i.r' i.f' i.t' i.y' i.s' i.b')
    (coef C C.enth) (coef C (near_enth hε g nTk)) (coef E (near_enth hε g nTl)) (coef E E.enth) (stab C) (stab E)
    ((((((C.vol.mul C.dens).mul C.uT).mul C.dens).mul C.rate).neg).add
      ((C.vol.mul C.dT).mul ((nP.mul C.rate).add C.heat)))
    (((((E.vol.mul E.dens).mul E.uT).mul E.dens).mul E.rate).sub
      ((E.vol.mul E.dT).mul ((nP.mul E.rate).add E.heat)))
    nK C.own C.other E.other E.own C.stable E.stable (fun i => hK _ i.f i.s₁ _ _) (fun i => hK _ i.f' i.s₁' _ _)
  have nkr : Near ε (fun i => i.s.m_dot_kr) (fun i => i.s'.m_dot_kr) := by
    refine (nm.sub (nxk.mul np)).congr (fun i => ?_) (fun i => ?_)
    · have := i.b.chx_mass; simp only [chxMass, massRate] at this
      change i.r.vol_chx * (i.r.fluid.dd_dP_T i.r.temp.chx i.y.P * _ + _) + _ = _ at this
      linarith
    · have := i.b'.chx_mass; simp only [chxMass, massRate] at this
      change i.r'.vol_chx * (i.r'.fluid.dd_dP_T i.r'.temp.chx i.y'.P * _ + _) + _ = _ at this
      linarith
  have nrl : Near ε (fun i => i.s.m_dot_rl) (fun i => i.s'.m_dot_rl) := by
    refine (nn.add (nxl.mul np)).congr (fun i => ?_) (fun i => ?_)
    · have := i.b.hhx_mass; simp only [hhxMass, massRate] at this
      change i.r.vol_hhx * (i.r.fluid.dd_dP_T i.r.temp.hhx i.y.P * _ + _) + _ = _ at this
      linarith
    · have := i.b'.hhx_mass; simp only [hhxMass, massRate] at this
      change i.r'.vol_hhx * (i.r'.fluid.dd_dP_T i.r'.temp.hhx i.y'.P * _ + _) + _ = _ at this
      linarith
  -- enthalpy carried
  have carried : ∀ {m m' a a' b b' : Pair n L D → ℝ}, Near ε m m' → Near ε a a' → Near ε b b' →
      Near ε (fun i => a i * max (m i) 0 + b i * min (m i) 0)
        (fun i => a' i * max (m' i) 0 + b' i * min (m' i) 0) := fun hm ha hb =>
    (ha.mul hm.posPart).add (hb.mul hm.negPart)
  have cform : ∀ a b m : ℝ, (if 0 ≤ m then a else b) * m = a * max m 0 + b * min m 0 := by
    intro a b m
    split <;> rename_i h
    · rw [max_eq_left h, min_eq_right h]; ring
    · rw [max_eq_right (not_le.1 h).le, min_eq_left (not_le.1 h).le]; ring
  have h1 := carried nm C.enth (nen nTk)
  have h2 := carried nkr (nen nTk) (nen nTrc)
  have h3 := carried nrl (nen nTrh) (nen nTl)
  have h4 := carried nn (nen nTl) E.enth
  have store : ∀ {V : Run ℝ → ℝ} {T T' : Pair n L D → ℝ}, Near ε T T' →
      Near ε (fun i => V i.r * i.r.fluid.dd_dP_T (T i) i.y.P) (fun i => V i.r' * i.r'.fluid.dd_dP_T (T' i) i.y'.P) →
      Near ε (fun i => V i.r * (i.r.fluid.inte (T i) i.y.P * (i.r.fluid.dd_dP_T (T i) i.y.P * i.s.dP_dt)))
      (fun i => V i.r' * (i.r'.fluid.inte (T' i) i.y'.P * (i.r'.fluid.dd_dP_T (T' i) i.y'.P * i.s'.dP_dt))) :=
    fun nT hx => (((nin nT).mul hx).mul np).congr (fun i => by ring) (fun i => by ring)
  have ek : ∀ (r : Run ℝ) t y, (r.calculate_inputs t y).chx.enth = r.fluid.enth r.temp.chx y.P := fun _ _ _ => rfl
  have el : ∀ (r : Run ℝ) t y, (r.calculate_inputs t y).hhx.enth = r.fluid.enth r.temp.hhx y.P := fun _ _ _ => rfl
  have ec : ∀ (r : Run ℝ) t y, (r.calculate_inputs t y).regen.enth_cold = r.fluid.enth r.temp.regen.cold y.P := fun _ _ _ => rfl
  have eh : ∀ (r : Run ℝ) t y, (r.calculate_inputs t y).regen.enth_hot = r.fluid.enth r.temp.regen.hot y.P := fun _ _ _ => rfl
  have uP0 : ∀ (i : Pair n L D) T P, i.r.fluid.du_dP_T T P = 0 := fun i T P => (F i T P).2.2.2.2.2.1
  have uP0' : ∀ (i : Pair n L D) T P, i.r'.fluid.du_dP_T T P = 0 := fun i T P => (F' i T P).2.2.2.2.2.1
  refine ⟨nm, nkr, nrl, nn, ?_, ?_, ?_, ?_, ?_, np⟩
  · refine ((h1.sub h2).sub (store (V := Run.vol_chx) nTk nxk)).congr (fun i => ?_) (fun i => ?_)
    · have := i.b.chx_energy
      simp only [chxEnergy, energyRate, upwind, cform, ek, ec] at this
      change i.r.vol_chx * (i.r.fluid.dens i.r.temp.chx i.y.P * (i.r.fluid.du_dP_T i.r.temp.chx i.y.P * _ + _) +
        i.r.fluid.inte i.r.temp.chx i.y.P * (i.r.fluid.dd_dP_T i.r.temp.chx i.y.P * _ + _)) + _ = _ at this
      rw [uP0] at this
      linear_combination this
    · have := i.b'.chx_energy
      simp only [chxEnergy, energyRate, upwind, cform, ek, ec] at this
      change i.r'.vol_chx * (i.r'.fluid.dens i.r'.temp.chx i.y'.P * (i.r'.fluid.du_dP_T i.r'.temp.chx i.y'.P * _ + _) +
        i.r'.fluid.inte i.r'.temp.chx i.y'.P * (i.r'.fluid.dd_dP_T i.r'.temp.chx i.y'.P * _ + _)) + _ = _ at this
      rw [uP0'] at this
      linear_combination this
  · refine ((h2.sub h3).sub (store (V := Run.vol_regen) nTr nxr)).congr (fun i => ?_) (fun i => ?_)
    · have := i.b.regen_energy
      simp only [regenEnergy, energyRate, upwind, cform, ek, ec, el, eh] at this
      change i.r.vol_regen * (i.r.fluid.dens i.r.temp.regen.avg i.y.P * (i.r.fluid.du_dP_T i.r.temp.regen.avg i.y.P * _ + _) +
        i.r.fluid.inte i.r.temp.regen.avg i.y.P * (i.r.fluid.dd_dP_T i.r.temp.regen.avg i.y.P * _ + _)) + _ = _ at this
      rw [uP0] at this
      linear_combination this
    · have := i.b'.regen_energy
      simp only [regenEnergy, energyRate, upwind, cform, ek, ec, el, eh] at this
      change i.r'.vol_regen * (i.r'.fluid.dens i.r'.temp.regen.avg i.y'.P * (i.r'.fluid.du_dP_T i.r'.temp.regen.avg i.y'.P * _ + _) +
        i.r'.fluid.inte i.r'.temp.regen.avg i.y'.P * (i.r'.fluid.dd_dP_T i.r'.temp.regen.avg i.y'.P * _ + _)) + _ = _ at this
      rw [uP0'] at this
      linear_combination this
  · refine ((store (V := Run.vol_hhx) nTl nxl).sub (h3.sub h4)).congr (fun i => ?_) (fun i => ?_)
    · have := i.b.hhx_energy
      simp only [hhxEnergy, energyRate, upwind, cform, el, eh] at this
      change i.r.vol_hhx * (i.r.fluid.dens i.r.temp.hhx i.y.P * (i.r.fluid.du_dP_T i.r.temp.hhx i.y.P * _ + _) +
        i.r.fluid.inte i.r.temp.hhx i.y.P * (i.r.fluid.dd_dP_T i.r.temp.hhx i.y.P * _ + _)) + _ = _ at this
      rw [uP0] at this
      linear_combination -this
    · have := i.b'.hhx_energy
      simp only [hhxEnergy, energyRate, upwind, cform, el, eh] at this
      change i.r'.vol_hhx * (i.r'.fluid.dens i.r'.temp.hhx i.y'.P * (i.r'.fluid.du_dP_T i.r'.temp.hhx i.y'.P * _ + _) +
        i.r'.fluid.inte i.r'.temp.hhx i.y'.P * (i.r'.fluid.dd_dP_T i.r'.temp.hhx i.y'.P * _ + _)) + _ = _ at this
      rw [uP0'] at this
      linear_combination -this
  · refine (((nm.add ((C.vol.mul C.dP).mul np)).add (C.dens.mul C.rate)).div (C.vol.mul C.dT).neg
      C.contracts).congr (fun i => ?_) (fun i => ?_)
    · have h0 := (above_pos C.contracts i).1
      have := i.b.comp_mass; simp only [compMass, massRate] at this
      rw [eq_div_iff h0.ne']; linear_combination -this
    · have h0 := (above_pos C.contracts i).2
      have := i.b'.comp_mass; simp only [compMass, massRate] at this
      rw [eq_div_iff h0.ne']; linear_combination -this
  · refine ((((E.vol.mul E.dP).mul np).add (E.dens.mul E.rate)).sub nn |>.div (E.vol.mul E.dT).neg
      E.contracts).congr (fun i => ?_) (fun i => ?_)
    · have h0 := (above_pos E.contracts i).1
      have := i.b.exp_mass; simp only [expMass, massRate] at this
      rw [eq_div_iff h0.ne']; linear_combination -this
    · have h0 := (above_pos E.contracts i).2
      have := i.b'.exp_mass; simp only [expMass, massRate] at this
      rw [eq_div_iff h0.ne']; linear_combination -this



/-- **C106.** Over all engines within limits (any drive, linear solver, volumes and temperatures of the exchangers,
parasitic heats), the ten unknowns are Lipschitz in the state of the gas, the positions and speeds of the pistons and
the design of the engine, with one constant that depends on the limits only. -/
theorem C106_rates (n : GasName) (L : Limits) (D : DesignLimits) :
    ∃ C, 0 < C ∧ ∀ (r r' : Run ℝ), r.fluid = (IdealGas.new n).toFluid → r'.fluid = (IdealGas.new n).toFluid →
      WithinDesign D r → WithinDesign D r' → SaneRun r → SaneRun r' → Sound r.solver → Sound r'.solver →
      ∀ (t t' : ℝ) (y y' : Conditions ℝ) (hint hint' : FlowDirection) (s s' : Solution ℝ),
      WithinLimits r L t y → WithinLimits r' L t' y' → solve r.solver (r.calculate_inputs t y) hint = .ok s →
      solve r'.solver (r'.calculate_inputs t' y') hint' = .ok s' →
      solutionGap s s' ≤ C * (stateGap y y' + pistonGap r t r' t' + designGap r r') := by
  obtain ⟨⟨c0, p0, h0⟩, ⟨c1, p1, h1⟩, ⟨c2, p2, h2⟩, ⟨c3, p3, h3⟩, ⟨c4, p4, h4⟩, ⟨c5, p5, h5⟩, ⟨c6, p6, h6⟩,
    ⟨c7, p7, h7⟩, ⟨c8, p8, h8⟩, ⟨c9, p9, h9⟩⟩ := pair_near (n := n) (L := L) (D := D)
  refine ⟨c0 + c1 + c2 + c3 + c4 + c5 + c6 + c7 + c8 + c9 + 1, by positivity, ?_⟩
  intro r r' hf hf' k k' hs hs' hT hT' t t' y y' hint hint' s s' w w' e e'
  let i : Pair n L D := ⟨r, t, y, s, r', t', y', s', k, k', hs, hs', hf, hf', w, w',
    C07_upwind_balances _ hT _ hs.norm hint s e, C07_upwind_balances _ hT' _ hs'.norm hint' s' e'⟩
  have k0 := (h0 i).2.2; have k1 := (h1 i).2.2; have k2 := (h2 i).2.2; have k3 := (h3 i).2.2
  have k4 := (h4 i).2.2; have k5 := (h5 i).2.2; have k6 := (h6 i).2.2; have k7 := (h7 i).2.2
  have k8 := (h8 i).2.2; have k9 := (h9 i).2.2
  have hg : 0 ≤ i.gap := i.gap_nonneg
  simp only [i, Pair.gap] at k0 k1 k2 k3 k4 k5 k6 k7 k8 k9 hg
  simp only [solutionGap, add_mul, one_mul]
  linarith

/-- **C106**, motions: the states of two engines separate by no more than the distance they start with plus what the
difference of drives and designs adds up to, times an exponential. -/
theorem C106_motions (n : GasName) (L : Limits) (D : DesignLimits) :
    ∃ C, 0 < C ∧ ∀ (r r' : Run ℝ), r.fluid = (IdealGas.new n).toFluid → r'.fluid = (IdealGas.new n).toFluid →
      WithinDesign D r → WithinDesign D r' → SaneRun r → SaneRun r' → Sound r.solver → Sound r'.solver →
      ∀ (a b G : ℝ) (y z : ℝ → Conditions ℝ), Trajectory r y a b → Trajectory r' z a b →
      (∀ t ∈ Icc a b, WithinLimits r L t (y t) ∧ WithinLimits r' L t (z t)) →
      (∀ t ∈ Icc a b, pistonGap r t r' t + designGap r r' ≤ G) →
      ∀ t ∈ Icc a b, stateGap (y t) (z t) ≤ 3 * ((stateGap (y a) (z a) + C * G * (t - a)) * Real.exp (C * (t - a))) ∧
        ∀ (hint hint' : FlowDirection) (s s' : Solution ℝ), solve r.solver (r.calculate_inputs t (y t)) hint = .ok s →
          solve r'.solver (r'.calculate_inputs t (z t)) hint' = .ok s' →
          solutionGap s s' ≤ C * (stateGap (y t) (z t) + G) := by
  obtain ⟨C, hC, hlip⟩ := C106_rates n L D
  refine ⟨3 * C, by positivity, ?_⟩
  intro r r' hf hf' k k' hs hs' hT hT' a b G y z ty tz hw hG t ht
  have hG0 : 0 ≤ G := (add_nonneg (pistonGap_nonneg _ _ _ _) (designGap_nonneg _ _)).trans (hG t ht)
  have point' : ∀ t ∈ Icc a b, ∀ (hint hint' : FlowDirection) (s s' : Solution ℝ),
      solve r.solver (r.calculate_inputs t (y t)) hint = .ok s →
      solve r'.solver (r'.calculate_inputs t (z t)) hint' = .ok s' →
      solutionGap s s' ≤ C * (stateGap (y t) (z t) + G) := by
    intro t ht hint hint' s s' e e'
    refine (hlip r r' hf hf' k k' hs hs' hT hT' t t _ _ hint hint' s s' (hw t ht).1 (hw t ht).2 e e').trans ?_
    refine mul_le_mul_of_nonneg_left ?_ hC.le
    linarith [hG t ht]
  refine ⟨?_, fun hint hint' s s' e e' => (point' t ht hint hint' s s' e e').trans ?_⟩
  swap
  · refine mul_le_mul_of_nonneg_right (by linarith) (add_nonneg (stateGap_nonneg _ _) hG0)
  have hv : ∀ t ∈ Ico a b, ∃ v, HasDerivWithinAt (fun t => point (y t) - point (z t)) v (Ici t) t ∧
      ‖v‖ ≤ 3 * C * ‖point (y t) - point (z t)‖ + C * G := by
    intro t ht
    have ht' : t ∈ Icc a b := ⟨ht.1, ht.2.le⟩
    obtain ⟨s, ⟨hint, hsol⟩, dp, dc, dx⟩ := ty.follows t ht
    obtain ⟨s', ⟨hint', hsol'⟩, dp', dc', dx'⟩ := tz.follows t ht
    have h := point' t ht' hint hint' s s' hsol hsol'
    have h3 : C * stateGap (y t) (z t) ≤ 3 * C * ‖point (y t) - point (z t)‖ := by
      have := mul_le_mul_of_nonneg_left (stateGap_le (y t) (z t)) hC.le
      linarith
    refine ⟨_, (dp.prodMk (dc.prodMk dx)).sub (dp'.prodMk (dc'.prodMk dx')), ?_⟩
    simp only [solutionGap] at h
    have n0 := abs_nonneg (s.m_dot_ck - s'.m_dot_ck); have n1 := abs_nonneg (s.m_dot_kr - s'.m_dot_kr)
    have n2 := abs_nonneg (s.m_dot_rl - s'.m_dot_rl); have n3 := abs_nonneg (s.m_dot_le - s'.m_dot_le)
    have n4 := abs_nonneg (s.Q_dot_k - s'.Q_dot_k); have n5 := abs_nonneg (s.Q_dot_r - s'.Q_dot_r)
    have n6 := abs_nonneg (s.Q_dot_l - s'.Q_dot_l); have n7 := abs_nonneg (s.dTc_dt - s'.dTc_dt)
    have n8 := abs_nonneg (s.dTe_dt - s'.dTe_dt); have n9 := abs_nonneg (s.dP_dt - s'.dP_dt)
    simp only [Prod.mk_sub_mk, Prod.norm_mk, Real.norm_eq_abs] at h3 ⊢
    refine max_le (by linarith) (max_le (by linarith) (by linarith))
  choose! v hv hv' using hv
  have hcont : ContinuousOn (fun t => point (y t) - point (z t)) (Icc a b) :=
    (ty.cont.pres.prodMk (ty.cont.comp.prodMk ty.cont.exp)).sub (tz.cont.pres.prodMk (tz.cont.comp.prodMk tz.cont.exp))
  have h := norm_le_gronwallBound_of_norm_deriv_right_le hcont hv (norm_point (y a) (z a)) hv' t ht
  refine (stateGap_le (y t) (z t)).trans (mul_le_mul_of_nonneg_left (h.trans ?_) (by norm_num))
  refine (gronwall_le (by positivity) (by positivity)).trans (mul_le_mul_of_nonneg_right ?_ (Real.exp_pos _).le)
  have h5 : 0 ≤ C * G * (t - a) := mul_nonneg (by positivity) (by linarith [ht.1])
  linarith

/-- **C106**, existence: if the gas of one engine has a motion over a time `b` that stays clear enough of the limits,
then in every engine near it (drive and design within `G`) the gas has a motion over the same time from every start near
that of the first, and the two stay together. -/
theorem C106_exists (n : GasName) (L : Limits) (D : DesignLimits) :
    ∃ C, 0 < C ∧ ∀ (r r' : Run ℝ), r.fluid = (IdealGas.new n).toFluid → r'.fluid = (IdealGas.new n).toFluid →
      WithinDesign D r → WithinDesign D r' → SaneRun r → SaneRun r' → Sound r.solver → Sound r'.solver →
      Complete r'.solver → ∀ (K : ℝ), 0 ≤ K → SteadyDrive r' K → DriveWithin r L → DriveWithin r' L →
      ∀ (b G ρ : ℝ) (y : ℝ → Conditions ℝ) (z₀ : Conditions ℝ), 0 ≤ b → Trajectory r y 0 b →
      (∀ t ∈ Icc 0 b, pistonGap r t r' t + designGap r r' ≤ G) →
      3 * ((stateGap (y 0) z₀ + C * G * b) * Real.exp (C * b)) ≤ ρ → (∀ t ∈ Icc 0 b, Inside L ρ (y t)) →
      ∃ z : ℝ → Conditions ℝ, z 0 = z₀ ∧ Trajectory r' z 0 b ∧
        ∀ t ∈ Icc 0 b, WithinLimits r' L t (z t) ∧ stateGap (y t) (z t) ≤ ρ := by
  obtain ⟨C, hC, hlip⟩ := C106_rates n L D
  refine ⟨3 * C, by positivity, ?_⟩
  intro r r' hf hf' k k' hs hs' hT hT' hc' K hK hd' hw hw' b G ρ y z₀ hb ty hG hρ hin
  have h0 : (0 : ℝ) ∈ Icc 0 b := ⟨le_rfl, hb⟩
  have hG0 : 0 ≤ G := (add_nonneg (pistonGap_nonneg _ _ _ _) (designGap_nonneg _ _)).trans (hG 0 h0)
  have hδ0 := stateGap_nonneg (y 0) z₀
  have hρ0 : 0 ≤ ρ := le_trans (by positivity) hρ
  have i0 : ∀ t ∈ Icc 0 b, Inside L 0 (y t) := fun t ht => inside_mono (hin t ht) hρ0
  have hPP : L.Pmin ≤ L.Pmax := by have := (i0 0 h0).pres; linarith
  have hTT : 100 ≤ L.Tmax := by have := (i0 0 h0).comp_temp; linarith
  obtain ⟨M, C', hM, hC', hA⟩ := runRates_tame hf' hs' hT' L hK hd'
  -- the rates of the second engine, continued to all states
  let A : ℝ → V3 ℝ → V3 ℝ → Prop := fun t y k => runRates r' L t (clamp L y) k
  have tame : Tame A M C' := by
    refine ⟨fun t y k h => hA.bound _ _ _ h, fun t y k t' y' k' h h' => (hA.lip _ _ _ _ _ _ h h').trans ?_⟩
    exact mul_le_mul_of_nonneg_left (add_le_add (clamp_lip L y y') le_rfl) hC'.le
  have all : ∀ t y, ∃ k, A t y k := by
    intro t y
    have w := clamp_within hw' hPP hTT t y
    obtain ⟨s, h⟩ := C59_run_solve r' n hf' hT' hc' t _ (physical_of_within hs' w)
    exact ⟨_, w, .default, s, h _, rfl⟩
  obtain ⟨Z, hZ0, hZ⟩ := exists_exact hM hC' tame all (stateVector z₀) hb
  have hv : ∀ t ∈ Ico 0 b, ∃ v, HasDerivWithinAt (fun t => point (y t) - vec (Z t)) v (Ici t) t ∧
      ‖v‖ ≤ 3 * C * ‖point (y t) - vec (Z t)‖ + C * G := by
    intro t ht
    have ht' : t ∈ Icc 0 b := ⟨ht.1, ht.2.le⟩
    obtain ⟨s, ⟨hint, hsol⟩, dp, dc, dx⟩ := ty.follows t ht
    obtain ⟨k₂, ⟨w₂, hint', s', hsol', rfl⟩, dz⟩ := hZ.moves t ht
    have h := hlip r r' hf hf' k k' hs hs' hT hT' t t _ _ hint hint' s s' (within_of_inside hw (i0 t ht') t) w₂ hsol hsol'
    have hcl : ‖point (y t) - point (conditionsOf (clamp L (Z t)))‖ ≤ ‖point (y t) - vec (Z t)‖ := by
      have e : clamp L (stateVector (y t)) = stateVector (y t) := clamp_of_inside (i0 t ht')
      have := clamp_lip L (stateVector (y t)) (Z t)
      rw [e] at this
      exact this
    have h3 : C * (stateGap (y t) (conditionsOf (clamp L (Z t))) + pistonGap r t r' t + designGap r r')
        ≤ 3 * C * ‖point (y t) - vec (Z t)‖ + C * G := by
      have h5 := (stateGap_le (y t) (conditionsOf (clamp L (Z t)))).trans (mul_le_mul_of_nonneg_left hcl (by norm_num))
      have := mul_le_mul_of_nonneg_left (add_le_add h5 (hG t ht')) hC.le
      linarith
    refine ⟨_, (dp.prodMk (dc.prodMk dx)).sub dz, ?_⟩
    refine le_trans ?_ (h.trans h3)
    simp only [solutionGap]
    have n0 := abs_nonneg (s.m_dot_ck - s'.m_dot_ck); have n1 := abs_nonneg (s.m_dot_kr - s'.m_dot_kr)
    have n2 := abs_nonneg (s.m_dot_rl - s'.m_dot_rl); have n3 := abs_nonneg (s.m_dot_le - s'.m_dot_le)
    have n4 := abs_nonneg (s.Q_dot_k - s'.Q_dot_k); have n5 := abs_nonneg (s.Q_dot_r - s'.Q_dot_r)
    have n6 := abs_nonneg (s.Q_dot_l - s'.Q_dot_l); have n7 := abs_nonneg (s.dTc_dt - s'.dTc_dt)
    have n8 := abs_nonneg (s.dTe_dt - s'.dTe_dt); have n9 := abs_nonneg (s.dP_dt - s'.dP_dt)
    show max |s.dP_dt - s'.dP_dt| (max |s.dTc_dt - s'.dTc_dt| |s.dTe_dt - s'.dTe_dt|) ≤ _
    refine max_le (by linarith) (max_le (by linarith) (by linarith))
  choose! v hv hv' using hv
  have hcont : ContinuousOn (fun t => point (y t) - vec (Z t)) (Icc 0 b) :=
    (ty.cont.pres.prodMk (ty.cont.comp.prodMk ty.cont.exp)).sub hZ.cont
  have start : ‖point (y 0) - vec (Z 0)‖ ≤ stateGap (y 0) z₀ := by rw [hZ0]; exact norm_point (y 0) z₀
  have near : ∀ t ∈ Icc 0 b, ‖point (y t) - vec (Z t)‖ ≤ ρ / 3 := by
    intro t ht
    have h := norm_le_gronwallBound_of_norm_deriv_right_le hcont hv start hv' t ht
    refine h.trans ((gronwall_le (by positivity) (by positivity)).trans ?_)
    rw [sub_zero, le_div_iff₀ (by norm_num), mul_comm _ (3 : ℝ)]
    refine le_trans (mul_le_mul_of_nonneg_left ?_ (by norm_num)) hρ
    have h5 : C * G * t ≤ 3 * C * G * b := by
      have := mul_le_mul_of_nonneg_left ht.2 (mul_nonneg hC.le hG0)
      have := mul_nonneg (mul_nonneg hC.le hG0) hb
      linarith
    refine mul_le_mul (by linarith) (Real.exp_le_exp.2 ?_) (Real.exp_pos _).le (by positivity)
    exact mul_le_mul_of_nonneg_left ht.2 (by positivity)
  have inside : ∀ t ∈ Icc 0 b, Inside L 0 (conditionsOf (Z t)) := by
    intro t ht
    refine inside_near (y := stateVector (y t)) (e := ρ) (by rw [zero_add]; exact hin t ht) ?_
    rw [norm_sub_rev]
    exact (near t ht).trans (by linarith)
  refine ⟨fun t => conditionsOf (Z t), by simp only [hZ0]; rfl, ⟨?_, ?_, ?_⟩, ?_⟩
  · have := hZ.cont
    exact ⟨continuous_fst.comp_continuousOn this, continuous_fst.comp_continuousOn (continuous_snd.comp_continuousOn this),
      continuous_snd.comp_continuousOn (continuous_snd.comp_continuousOn this)⟩
  · intro t ht
    have w := within_of_inside hw' (inside t ht) t
    exact ⟨L.Pmin_pos.trans_le w.pres.1, w.comp_temp.1, w.exp_temp.1⟩
  · intro t ht
    obtain ⟨k, hk, hk'⟩ := hZ.moves t ht
    obtain ⟨-, hint, s, e, rfl⟩ := hk
    rw [clamp_of_inside (inside t ⟨ht.1, ht.2.le⟩)] at e
    exact ⟨s, ⟨hint, e⟩, hk'.fst, hk'.snd.fst, hk'.snd.snd⟩
  · intro t ht
    refine ⟨within_of_inside hw' (inside t ht) t, (stateGap_le (y t) (conditionsOf (Z t))).trans ?_⟩
    have := near t ht
    change 3 * ‖point (y t) - vec (Z t)‖ ≤ ρ
    linarith

/-- **C106**, work: over a time `b - a` the gases of two engines do nearly the same work. -/
theorem C106_work (n : GasName) (L : Limits) (D : DesignLimits) :
    ∃ C, 0 < C ∧ ∀ (r r' : Run ℝ), r.fluid = (IdealGas.new n).toFluid → r'.fluid = (IdealGas.new n).toFluid →
      WithinDesign D r → WithinDesign D r' → SaneRun r → SaneRun r' → Sound r.solver → Sound r'.solver →
      ContinuousDrive r → ContinuousDrive r' →
      ∀ (a b G : ℝ) (y z : ℝ → Conditions ℝ), a ≤ b → Trajectory r y a b → Trajectory r' z a b →
      (∀ t ∈ Icc a b, WithinLimits r L t (y t) ∧ WithinLimits r' L t (z t)) →
      (∀ t ∈ Icc a b, pistonGap r t r' t + designGap r r' ≤ G) →
      |workOf r y a b - workOf r' z a b| ≤
        (6 * L.Wmax * ((stateGap (y a) (z a) + C * G * (b - a)) * Real.exp (C * (b - a))) + L.Pmax * G) * (b - a) := by
  obtain ⟨C, hC, h⟩ := C106_motions n L D
  refine ⟨C, hC, ?_⟩
  intro r r' hf hf' k k' hs hs' hT hT' hd hd' a b G y z hab ty tz hw hG
  have hm := h r r' hf hf' k k' hs hs' hT hT' a b G y z ty tz hw hG
  have ha : a ∈ Icc a b := ⟨le_rfl, hab⟩
  have hG0 : 0 ≤ G := (add_nonneg (pistonGap_nonneg _ _ _ _) (designGap_nonneg _ _)).trans (hG a ha)
  have hW0 : 0 ≤ L.Wmax := (abs_nonneg _).trans (hw a ha).1.comp_rate
  have hδ0 := stateGap_nonneg (y a) (z a)
  have i1 : IntervalIntegrable (fun t => (y t).P * ((r.ws_vol_fn t).1.deriv + (r.ws_vol_fn t).2.deriv))
      MeasureTheory.volume a b := by
    refine ContinuousOn.intervalIntegrable ?_
    rw [uIcc_of_le hab]
    exact ty.cont.pres.mul (hd.comp_rate.add hd.exp_rate).continuousOn
  have i2 : IntervalIntegrable (fun t => (z t).P * ((r'.ws_vol_fn t).1.deriv + (r'.ws_vol_fn t).2.deriv))
      MeasureTheory.volume a b := by
    refine ContinuousOn.intervalIntegrable ?_
    rw [uIcc_of_le hab]
    exact tz.cont.pres.mul (hd'.comp_rate.add hd'.exp_rate).continuousOn
  rw [workOf, workOf, ← intervalIntegral.integral_sub i1 i2, ← Real.norm_eq_abs, ← abs_of_nonneg (sub_nonneg.2 hab)]
  rw [abs_of_nonneg (sub_nonneg.2 hab)]
  nth_rw 3 [← abs_of_nonneg (sub_nonneg.2 hab)]
  refine intervalIntegral.norm_integral_le_of_norm_le_const fun t ht => ?_
  rw [uIoc_of_le hab] at ht
  have ht' : t ∈ Icc a b := ⟨ht.1.le, ht.2⟩
  obtain ⟨w, w'⟩ := hw t ht'
  have hS : |(y t).P - (z t).P| ≤ 3 * ((stateGap (y a) (z a) + C * G * (b - a)) * Real.exp (C * (b - a))) := by
    have h1 := (hm t ht').1
    have h2 : |(y t).P - (z t).P| ≤ stateGap (y t) (z t) := by
      simp only [stateGap]
      linarith [abs_nonneg ((y t).T_c - (z t).T_c), abs_nonneg ((y t).T_e - (z t).T_e)]
    refine h2.trans (h1.trans (mul_le_mul_of_nonneg_left ?_ (by norm_num)))
    have h5 : C * G * (t - a) ≤ C * G * (b - a) := mul_le_mul_of_nonneg_left (by linarith [ht.2]) (by positivity)
    have h6 : 0 ≤ C * G * (b - a) := mul_nonneg (by positivity) (by linarith)
    refine mul_le_mul (by linarith) (Real.exp_le_exp.2 ?_) (Real.exp_pos _).le (by linarith)
    exact mul_le_mul_of_nonneg_left (by linarith [ht.2]) hC.le
  have hR : |(r.ws_vol_fn t).1.deriv + (r.ws_vol_fn t).2.deriv| ≤ 2 * L.Wmax := by
    linarith [abs_add_le (r.ws_vol_fn t).1.deriv (r.ws_vol_fn t).2.deriv, w.comp_rate, w.exp_rate]
  have hR' : |((r.ws_vol_fn t).1.deriv + (r.ws_vol_fn t).2.deriv)
      - ((r'.ws_vol_fn t).1.deriv + (r'.ws_vol_fn t).2.deriv)| ≤ G := by
    have h1 := hG t ht'
    have h2 := designGap_nonneg r r'
    have h3 := abs_add_le ((r.ws_vol_fn t).1.deriv - (r'.ws_vol_fn t).1.deriv)
      ((r.ws_vol_fn t).2.deriv - (r'.ws_vol_fn t).2.deriv)
    rw [show (r.ws_vol_fn t).1.deriv - (r'.ws_vol_fn t).1.deriv + ((r.ws_vol_fn t).2.deriv - (r'.ws_vol_fn t).2.deriv)
      = (r.ws_vol_fn t).1.deriv + (r.ws_vol_fn t).2.deriv - ((r'.ws_vol_fn t).1.deriv + (r'.ws_vol_fn t).2.deriv) by ring]
      at h3
    simp only [pistonGap] at h1
    linarith [abs_nonneg ((r.ws_vol_fn t).1.value - (r'.ws_vol_fn t).1.value),
      abs_nonneg ((r.ws_vol_fn t).2.value - (r'.ws_vol_fn t).2.value)]
  have hP : |(z t).P| ≤ L.Pmax := by
    rw [abs_of_pos (L.Pmin_pos.trans_le w'.pres.1)]; exact w'.pres.2
  rw [Real.norm_eq_abs]
  set S := 3 * ((stateGap (y a) (z a) + C * G * (b - a)) * Real.exp (C * (b - a))) with hSd
  set u := (r.ws_vol_fn t).1.deriv + (r.ws_vol_fn t).2.deriv
  set u' := (r'.ws_vol_fn t).1.deriv + (r'.ws_vol_fn t).2.deriv
  calc |(y t).P * u - (z t).P * u'| = |((y t).P - (z t).P) * u + (z t).P * (u - u')| := by congr 1; ring
    _ ≤ |(y t).P - (z t).P| * |u| + |(z t).P| * |u - u'| := by
        rw [← abs_mul, ← abs_mul]; exact abs_add_le _ _
    _ ≤ S * (2 * L.Wmax) + L.Pmax * G := by
        refine add_le_add (mul_le_mul hS hR (abs_nonneg _) ((abs_nonneg _).trans hS))
          (mul_le_mul hP hR' (abs_nonneg _) ((abs_nonneg _).trans hP))
    _ = _ := by rw [hSd]; ring

/-- **C106**, drives: over a stretch of time sinusoidal drives of nearly the same speed, phase angle and volumes move the
pistons nearly alike. -/
theorem C106_sinusoidal {F S B : ℝ} (hF : 0 ≤ F) (hS : 0 ≤ S) (hB : 0 ≤ B) : ∃ K, 0 ≤ K ∧
    ∀ (r r' : Run ℝ) (d d' : ws.SinusoidalDrive ℝ), r.ws_vol_fn = d.volumes → r'.ws_vol_fn = d'.volumes →
      |d.frequency| ≤ F → |d'.comp_geometry.swept_volume| ≤ S → |d'.exp_geometry.swept_volume| ≤ S →
      ∀ t ∈ Icc 0 B, pistonGap r t r' t ≤ K * sinusoidGap d d' := by
  have hpi := Real.pi_pos
  -- of angles, positions and speeds
  have sinL : ∀ x y : ℝ, |Real.sin x - Real.sin y| ≤ |x - y| := fun x y => Real.abs_sin_sub_sin_le x y
  have cosL : ∀ x y : ℝ, |Real.cos x - Real.cos y| ≤ |x - y| := fun x y => Real.abs_cos_sub_cos_le x y
  have value : ∀ c c' s s' x x' : ℝ, |s'| ≤ S →
      |(c + 1 / 2 * s * (1 + Real.cos x)) - (c' + 1 / 2 * s' * (1 + Real.cos x'))|
        ≤ |c - c'| + |s - s'| + S * |x - x'| := by
    intro c c' s s' x x' hs'
    have e : (c + 1 / 2 * s * (1 + Real.cos x)) - (c' + 1 / 2 * s' * (1 + Real.cos x'))
        = (c - c') + ((s - s') * (0.5 * (1 + Real.cos x)) + s' * (0.5 * (Real.cos x - Real.cos x'))) := by norm_num; ring
    have h1 : |(s - s') * (0.5 * (1 + Real.cos x))| ≤ |s - s'| * 1 := by
      rw [abs_mul]
      refine mul_le_mul_of_nonneg_left (abs_le.2 ⟨?_, ?_⟩) (abs_nonneg _) <;>
        linarith [Real.neg_one_le_cos x, Real.cos_le_one x]
    have h2 : |s' * (0.5 * (Real.cos x - Real.cos x'))| ≤ S * |x - x'| := by
      rw [abs_mul, abs_mul, abs_of_pos (by norm_num : (0 : ℝ) < 0.5)]
      refine mul_le_mul hs' ?_ (by positivity) hS
      linarith [cosL x x', abs_nonneg (Real.cos x - Real.cos x'), abs_nonneg (x - x')]
    rw [e]
    linarith [abs_add_le (c - c') ((s - s') * (0.5 * (1 + Real.cos x)) + s' * (0.5 * (Real.cos x - Real.cos x'))),
      abs_add_le ((s - s') * (0.5 * (1 + Real.cos x))) (s' * (0.5 * (Real.cos x - Real.cos x')))]
  have rate : ∀ s s' x x' w w' : ℝ, |s'| ≤ S → |w| ≤ 2 * Real.pi * F →
      |(-(1 / 2) * s * Real.sin x * w) - (-(1 / 2) * s' * Real.sin x' * w')|
        ≤ (2 * Real.pi * F) * |s - s'| + S * (2 * Real.pi * F) * |x - x'| + S * |w - w'| := by
    intro s s' x x' w w' hs' hw
    have e : (-(1 / 2) * s * Real.sin x * w) - (-(1 / 2) * s' * Real.sin x' * w')
        = (s - s') * (-0.5 * Real.sin x) * w + (s' * (-0.5 * (Real.sin x - Real.sin x')) * w
          + s' * (-0.5 * Real.sin x') * (w - w')) := by ring
    have hs1 : ∀ x, |(-0.5 : ℝ) * Real.sin x| ≤ 1 := fun x => abs_le.2 ⟨by linarith [Real.neg_one_le_sin x, Real.sin_le_one x],
      by linarith [Real.neg_one_le_sin x, Real.sin_le_one x]⟩
    have h1 : |(s - s') * (-0.5 * Real.sin x) * w| ≤ |s - s'| * 1 * (2 * Real.pi * F) := by
      rw [abs_mul, abs_mul]
      exact mul_le_mul (mul_le_mul_of_nonneg_left (hs1 x) (abs_nonneg _)) hw (abs_nonneg _) (by positivity)
    have h2 : |s' * (-0.5 * (Real.sin x - Real.sin x')) * w| ≤ S * |x - x'| * (2 * Real.pi * F) := by
      rw [abs_mul, abs_mul, abs_mul, abs_of_neg (by norm_num : (-0.5 : ℝ) < 0)]
      refine mul_le_mul (mul_le_mul hs' ?_ (by positivity) hS) hw (abs_nonneg _) (by positivity)
      linarith [sinL x x', abs_nonneg (Real.sin x - Real.sin x'), abs_nonneg (x - x')]
    have h3 : |s' * (-0.5 * Real.sin x') * (w - w')| ≤ S * 1 * |w - w'| := by
      rw [abs_mul, abs_mul]
      exact mul_le_mul_of_nonneg_right (mul_le_mul hs' (hs1 x') (abs_nonneg _) hS) (abs_nonneg _)
    rw [e]
    linarith [abs_add_le ((s - s') * (-0.5 * Real.sin x) * w) (s' * (-0.5 * (Real.sin x - Real.sin x')) * w
          + s' * (-0.5 * Real.sin x') * (w - w')),
      abs_add_le (s' * (-0.5 * (Real.sin x - Real.sin x')) * w) (s' * (-0.5 * Real.sin x') * (w - w'))]
  obtain ⟨W, hW⟩ : ∃ W, W = 2 * Real.pi * F := ⟨_, rfl⟩
  have hW0 : 0 ≤ W := hW ▸ by positivity
  refine ⟨1 + W + (2 * S + 2 * S * W) * (2 * Real.pi * B + Real.pi) + 2 * S * (2 * Real.pi), by positivity, ?_⟩
  intro r r' d d' hr hr' hf hc he t ht
  have hw : |2 * Real.pi * d.frequency| ≤ 2 * Real.pi * F := by
    rw [abs_mul, abs_of_pos (by positivity)]; exact mul_le_mul_of_nonneg_left hf (by positivity)
  have hww : |2 * Real.pi * d.frequency - 2 * Real.pi * d'.frequency| = 2 * Real.pi * |d.frequency - d'.frequency| := by
    rw [← mul_sub, abs_mul, abs_of_pos (by positivity)]
  have x1 : |2 * Real.pi * d.frequency * t - 2 * Real.pi * d'.frequency * t|
      ≤ 2 * Real.pi * B * |d.frequency - d'.frequency| := by
    rw [← sub_mul, abs_mul, hww, abs_of_nonneg ht.1]
    have := mul_le_mul_of_nonneg_left ht.2 (by positivity : 0 ≤ 2 * Real.pi * |d.frequency - d'.frequency|)
    linarith
  have x2 : |(2 * Real.pi * d.frequency * t + d.phase_angle * Real.pi / 180)
      - (2 * Real.pi * d'.frequency * t + d'.phase_angle * Real.pi / 180)|
      ≤ 2 * Real.pi * B * |d.frequency - d'.frequency| + Real.pi * |d.phase_angle - d'.phase_angle| := by
    rw [show (2 * Real.pi * d.frequency * t + d.phase_angle * Real.pi / 180)
      - (2 * Real.pi * d'.frequency * t + d'.phase_angle * Real.pi / 180)
      = (2 * Real.pi * d.frequency * t - 2 * Real.pi * d'.frequency * t)
        + (Real.pi / 180) * (d.phase_angle - d'.phase_angle) by ring]
    refine (abs_add_le _ _).trans (add_le_add x1 ?_)
    rw [abs_mul, abs_of_pos (by positivity)]
    exact mul_le_mul_of_nonneg_right (by linarith) (abs_nonneg _)
  have v1 := value d.comp_geometry.clearance_volume d'.comp_geometry.clearance_volume d.comp_geometry.swept_volume
    d'.comp_geometry.swept_volume (2 * Real.pi * d.frequency * t) (2 * Real.pi * d'.frequency * t) hc
  have v2 := value d.exp_geometry.clearance_volume d'.exp_geometry.clearance_volume d.exp_geometry.swept_volume
    d'.exp_geometry.swept_volume (2 * Real.pi * d.frequency * t + d.phase_angle * Real.pi / 180)
    (2 * Real.pi * d'.frequency * t + d'.phase_angle * Real.pi / 180) he
  have r1 := rate d.comp_geometry.swept_volume d'.comp_geometry.swept_volume (2 * Real.pi * d.frequency * t)
    (2 * Real.pi * d'.frequency * t) (2 * Real.pi * d.frequency) (2 * Real.pi * d'.frequency) hc hw
  have r2 := rate d.exp_geometry.swept_volume d'.exp_geometry.swept_volume
    (2 * Real.pi * d.frequency * t + d.phase_angle * Real.pi / 180)
    (2 * Real.pi * d'.frequency * t + d'.phase_angle * Real.pi / 180)
    (2 * Real.pi * d.frequency) (2 * Real.pi * d'.frequency) he hw
  rw [← hW] at r1 r2
  rw [hww] at r1 r2
  obtain ⟨g, hg⟩ : ∃ g, g = sinusoidGap d d' := ⟨_, rfl⟩
  have n1 := abs_nonneg (d.frequency - d'.frequency)
  have n2 := abs_nonneg (d.phase_angle - d'.phase_angle)
  have n3 := abs_nonneg (d.comp_geometry.clearance_volume - d'.comp_geometry.clearance_volume)
  have n4 := abs_nonneg (d.exp_geometry.clearance_volume - d'.exp_geometry.clearance_volume)
  have n5 := abs_nonneg (d.comp_geometry.swept_volume - d'.comp_geometry.swept_volume)
  have n6 := abs_nonneg (d.exp_geometry.swept_volume - d'.exp_geometry.swept_volume)
  have hg' := hg
  simp only [sinusoidGap] at hg'
  have hX : 2 * Real.pi * B * |d.frequency - d'.frequency| + Real.pi * |d.phase_angle - d'.phase_angle|
      ≤ (2 * Real.pi * B + Real.pi) * g := by
    have h1 : 2 * Real.pi * B * |d.frequency - d'.frequency| ≤ 2 * Real.pi * B * g :=
      mul_le_mul_of_nonneg_left (by linarith) (by positivity)
    have h2 : Real.pi * |d.phase_angle - d'.phase_angle| ≤ Real.pi * g :=
      mul_le_mul_of_nonneg_left (by linarith) hpi.le
    linarith
  have hX1 := x1.trans ((le_add_of_nonneg_right (mul_nonneg hpi.le n2)).trans hX)
  have hX2 := x2.trans hX
  have a1 := mul_le_mul_of_nonneg_left hX1 hS
  have a2 := mul_le_mul_of_nonneg_left hX2 hS
  have a3 := mul_le_mul_of_nonneg_left hX1 (mul_nonneg hS hW0)
  have a4 := mul_le_mul_of_nonneg_left hX2 (mul_nonneg hS hW0)
  have a5 : S * (2 * Real.pi * |d.frequency - d'.frequency|) ≤ S * (2 * Real.pi * g) :=
    mul_le_mul_of_nonneg_left (mul_le_mul_of_nonneg_left (by linarith) (by positivity)) hS
  have a6 : W * (|d.comp_geometry.swept_volume - d'.comp_geometry.swept_volume|
      + |d.exp_geometry.swept_volume - d'.exp_geometry.swept_volume|) ≤ W * g :=
    mul_le_mul_of_nonneg_left (by linarith) hW0
  rw [pistonGap, hr, hr', ← hg]
  simp only [ws.SinusoidalDrive.volumes]
  scalars
  linarith

end

end Sett
