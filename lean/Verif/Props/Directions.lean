import Verif.Props.WellPosed
import Mathlib.Topology.Order.IntermediateValue
import Mathlib.Topology.Algebra.Order.Field

/-! # C58: the flow directions are determined by the inputs -/

namespace Sett

open Spec state_equations

/-- Compression space with its temperature eliminated. -/
theorem comp_eliminated {i : Inputs ℝ} {h : Faces} {s : Solution ℝ} (hb : Balances i h s) :
    tempCoef i.comp h.ck * s.m_dot_ck = -stability i.comp * s.dP_dt
      - i.comp.vol * i.comp.dens * i.comp.du_dT_P * i.comp.dens * i.comp.dV_dt
      + i.comp.vol * i.comp.dd_dT_P * (i.pres * i.comp.dV_dt + i.comp.Q_dot) := by
  have h1 := hb.comp_mass
  have h2 := hb.comp_energy
  simp only [compMass, compEnergy, massRate, energyRate, tempCoef, stability] at h1 h2 ⊢
  linear_combination (i.comp.vol * (i.comp.dd_dT_P * i.comp.inte + i.comp.dens * i.comp.du_dT_P)) * h1
    - i.comp.vol * i.comp.dd_dT_P * h2

/-- Expansion space with its temperature eliminated. -/
theorem exp_eliminated {i : Inputs ℝ} {h : Faces} {s : Solution ℝ} (hb : Balances i h s) :
    tempCoef i.exp h.le * s.m_dot_le = stability i.exp * s.dP_dt
      + i.exp.vol * i.exp.dens * i.exp.du_dT_P * i.exp.dens * i.exp.dV_dt
      - i.exp.vol * i.exp.dd_dT_P * (i.pres * i.exp.dV_dt + i.exp.Q_dot) := by
  have h1 := hb.exp_mass
  have h2 := hb.exp_energy
  simp only [expMass, expEnergy, massRate, energyRate, tempCoef, stability] at h1 h2 ⊢
  linear_combination -(i.exp.vol * (i.exp.dd_dT_P * i.exp.inte + i.exp.dens * i.exp.du_dT_P)) * h1
    + i.exp.vol * i.exp.dd_dT_P * h2

theorem exchangers_store {i : Inputs ℝ} {h : Faces} {s : Solution ℝ} (hb : Balances i h s) :
    s.m_dot_ck - s.m_dot_le = exchangerCompliance i * s.dP_dt := by
  have h1 := hb.chx_mass
  have h2 := hb.regen_mass
  have h3 := hb.hhx_mass
  simp only [chxMass, regenMass, hhxMass, massRate, exchangerCompliance] at *
  linear_combination -h1 - h2 - h3

/-- A flow with different positive coefficients on its two sides is a monotone function of its drive. -/
theorem flow_mono {a b m m' : ℝ} {c c' : ℝ} (ha : 0 < a) (hb : 0 < b)
    (hc : c = if 0 ≤ m then a else b) (hc' : c' = if 0 ≤ m' then a else b)
    (h : c * m < c' * m') : m < m' := by
  by_contra hle
  push Not at hle
  split at hc <;> split at hc' <;> subst hc hc' <;> nlinarith

theorem flow_eq {a b m m' : ℝ} {c c' : ℝ} (ha : 0 < a) (hb : 0 < b)
    (hc : c = if 0 ≤ m then a else b) (hc' : c' = if 0 ≤ m' then a else b)
    (h : c * m = c' * m') : m = m' := by
  split at hc <;> split at hc' <;> subst hc hc' <;> nlinarith

section

variable {i : Inputs ℝ}

theorem upwind_ck (s : Solution ℝ) : tempCoef i.comp (upwind i s).ck
    = if 0 ≤ s.m_dot_ck then tempCoef i.comp i.comp.enth else tempCoef i.comp i.chx.enth := by
  by_cases h : 0 ≤ s.m_dot_ck <;> simp [upwind, h]

theorem upwind_le (s : Solution ℝ) : tempCoef i.exp (upwind i s).le
    = if 0 ≤ s.m_dot_le then tempCoef i.exp i.hhx.enth else tempCoef i.exp i.exp.enth := by
  by_cases h : 0 ≤ s.m_dot_le <;> simp [upwind, h]

/-- The pressure rate of a consistent solution cannot be smaller than that of another. -/
theorem dP_le (hi : Stable i) {s s' : Solution ℝ} (hs : Balances i (upwind i s) s)
    (hs' : Balances i (upwind i s') s') : s'.dP_dt ≤ s.dP_dt := by
  by_contra hlt
  push Not at hlt
  have h1 : s'.m_dot_ck < s.m_dot_ck :=
    flow_mono hi.comp_out hi.comp_in (upwind_ck s') (upwind_ck s) (by
      rw [comp_eliminated hs, comp_eliminated hs']
      nlinarith [hi.comp_stable])
  have h2 : s.m_dot_le < s'.m_dot_le :=
    flow_mono hi.exp_in hi.exp_out (upwind_le s) (upwind_le s') (by
      rw [exp_eliminated hs, exp_eliminated hs']
      nlinarith [hi.exp_stable])
  have h3 := exchangers_store hs
  have h4 := exchangers_store hs'
  nlinarith [hi.exchangers]

/-- Two consistent solutions are equal. -/
theorem consistent_unique (hi : Stable i) {s s' : Solution ℝ} (hs : Balances i (upwind i s) s)
    (hs' : Balances i (upwind i s') s') : s = s' := by
  have hP : s.dP_dt = s'.dP_dt := le_antisymm (dP_le hi hs' hs) (dP_le hi hs hs')
  have hck : s.m_dot_ck = s'.m_dot_ck :=
    flow_eq hi.comp_out hi.comp_in (upwind_ck s) (upwind_ck s') (by
      rw [comp_eliminated hs, comp_eliminated hs', hP])
  have hle : s.m_dot_le = s'.m_dot_le :=
    flow_eq hi.exp_in hi.exp_out (upwind_le s) (upwind_le s') (by
      rw [exp_eliminated hs, exp_eliminated hs', hP])
  have e1 := hs.chx_mass
  have e1' := hs'.chx_mass
  have e2 := hs.hhx_mass
  have e2' := hs'.hhx_mass
  have e3 := hs.comp_mass
  have e3' := hs'.comp_mass
  have e4 := hs.exp_mass
  have e4' := hs'.exp_mass
  simp only [chxMass, hhxMass, compMass, expMass, massRate, hP, hck, hle] at e1 e1' e2 e2' e3 e3' e4 e4'
  have hkr : s.m_dot_kr = s'.m_dot_kr := by linarith
  have hrl : s.m_dot_rl = s'.m_dot_rl := by linarith
  have hTc : s.dTc_dt = s'.dTc_dt := by
    refine mul_left_cancel₀ hi.comp_expands ?_
    linarith
  have hTe : s.dTe_dt = s'.dTe_dt := by
    refine mul_left_cancel₀ hi.exp_expands ?_
    linarith
  have hup : upwind i s = upwind i s' := by simp only [upwind, hck, hkr, hrl, hle]
  have q1 := hs.chx_energy
  have q1' := hs'.chx_energy
  have q2 := hs.regen_energy
  have q2' := hs'.regen_energy
  have q3 := hs.hhx_energy
  have q3' := hs'.hhx_energy
  rw [hup] at q1 q2 q3
  simp only [chxEnergy, regenEnergy, hhxEnergy, energyRate, hP, hck, hkr, hrl, hle] at q1 q1' q2 q2' q3 q3'
  have hk : s.Q_dot_k = s'.Q_dot_k := by linarith
  have hr : s.Q_dot_r = s'.Q_dot_r := by linarith
  have hl : s.Q_dot_l = s'.Q_dot_l := by linarith
  cases s; cases s'
  simp_all

/-- Flow as a function of its drive. -/
noncomputable def flowOf (a b R : ℝ) : ℝ := if 0 ≤ R then R / a else R / b

theorem flowOf_continuous (a b : ℝ) : Continuous (flowOf a b) := by
  unfold flowOf
  refine Continuous.if_le (by fun_prop) (by fun_prop) continuous_const continuous_id ?_
  intro x hx
  simp [← hx]

theorem flowOf_nonneg {a b R : ℝ} (ha : 0 < a) (hR : 0 ≤ R) : 0 ≤ flowOf a b R := by
  unfold flowOf; rw [if_pos hR]; positivity

theorem flowOf_nonpos {a b R : ℝ} (ha : 0 < a) (hb : 0 < b) (hR : R ≤ 0) : flowOf a b R ≤ 0 := by
  unfold flowOf
  split
  · exact div_nonpos_of_nonpos_of_nonneg hR ha.le
  · exact div_nonpos_of_nonpos_of_nonneg hR hb.le

theorem flowOf_mul {a b R : ℝ} (ha : 0 < a) (hb : 0 < b) :
    (if 0 ≤ flowOf a b R then a else b) * flowOf a b R = R := by
  unfold flowOf
  by_cases h : 0 ≤ R
  · have : 0 ≤ R / a := by positivity
    simp only [h, if_true, this]; field_simp
  · have : ¬ 0 ≤ R / b := not_le.2 (div_neg_of_neg_of_pos (not_le.1 h) hb)
    simp only [h, if_false, this]; field_simp

/-- There is a consistent solution. -/
theorem consistent_exists (hi : Stable i) : ∃ s, Balances i (upwind i s) s := by
  have hδc := hi.comp_stable
  have hδe := hi.exp_stable
  set δc := stability i.comp with hδc'
  set δe := stability i.exp with hδe'
  set rc := -(i.comp.vol * i.comp.dens * i.comp.du_dT_P * i.comp.dens * i.comp.dV_dt)
      + i.comp.vol * i.comp.dd_dT_P * (i.pres * i.comp.dV_dt + i.comp.Q_dot) with hrc
  set re := i.exp.vol * i.exp.dens * i.exp.du_dT_P * i.exp.dens * i.exp.dV_dt
      - i.exp.vol * i.exp.dd_dT_P * (i.pres * i.exp.dV_dt + i.exp.Q_dot) with hre
  set fc := flowOf (tempCoef i.comp i.comp.enth) (tempCoef i.comp i.chx.enth) with hfc
  set fe := flowOf (tempCoef i.exp i.hhx.enth) (tempCoef i.exp i.exp.enth) with hfe
  have hK := hi.exchangers
  set K := exchangerCompliance i with hK'
  have hcont : Continuous fun p : ℝ => fc (rc - δc * p) - fe (re + δe * p) - K * p :=
    (((flowOf_continuous _ _).comp (by fun_prop)).sub
      ((flowOf_continuous _ _).comp (by fun_prop))).sub (by fun_prop)
  set B := max 0 (max (|rc| / δc) (|re| / δe)) with hB
  have hB0 : 0 ≤ B := le_max_left _ _
  have hBc : |rc| ≤ δc * B := by
    have : |rc| / δc ≤ B := (le_max_left _ _).trans (le_max_right _ _)
    rw [div_le_iff₀ hδc] at this; linarith
  have hBe : |re| ≤ δe * B := by
    have : |re| / δe ≤ B := (le_max_right _ _).trans (le_max_right _ _)
    rw [div_le_iff₀ hδe] at this; linarith
  obtain ⟨p, -, hp⟩ : (0 : ℝ) ∈ (fun p : ℝ => fc (rc - δc * p) - fe (re + δe * p) - K * p) ''
      Set.Icc (-B) B := by
    refine intermediate_value_Icc' (by linarith) hcont.continuousOn ⟨?_, ?_⟩
    · have h1 : fc (rc - δc * B) ≤ 0 :=
        flowOf_nonpos hi.comp_out hi.comp_in (by linarith [le_abs_self rc])
      have h2 : 0 ≤ fe (re + δe * B) := flowOf_nonneg hi.exp_in (by linarith [neg_abs_le re])
      have h3 : 0 ≤ K * B := mul_nonneg hK hB0
      linarith
    · have h1 : 0 ≤ fc (rc - δc * -B) := flowOf_nonneg hi.comp_out (by linarith [neg_abs_le rc])
      have h2 : fe (re + δe * -B) ≤ 0 :=
        flowOf_nonpos hi.exp_in hi.exp_out (by linarith [le_abs_self re])
      have h3 : 0 ≤ K * B := mul_nonneg hK hB0
      linarith
  simp only at hp
  have hmc : (if 0 ≤ fc (rc - δc * p) then tempCoef i.comp i.comp.enth
      else tempCoef i.comp i.chx.enth) * fc (rc - δc * p) = rc - δc * p :=
    flowOf_mul hi.comp_out hi.comp_in
  have hme : (if 0 ≤ fe (re + δe * p) then tempCoef i.exp i.hhx.enth
      else tempCoef i.exp i.exp.enth) * fe (re + δe * p) = re + δe * p :=
    flowOf_mul hi.exp_in hi.exp_out
  set mc := fc (rc - δc * p)
  set me := fe (re + δe * p)
  set mk := mc - i.chx.vol * i.chx.dd_dP_T * p with hmk
  set ml := me + i.hhx.vol * i.hhx.dd_dP_T * p with hml
  -- the faces depend on the flows only
  let s0 : Solution ℝ := { m_dot_ck := mc, m_dot_kr := mk, m_dot_rl := ml, m_dot_le := me
                           Q_dot_k := 0, Q_dot_r := 0, Q_dot_l := 0, dTc_dt := 0, dTe_dt := 0, dP_dt := p }
  let h := upwind i s0
  let s : Solution ℝ := { s0 with
    dTc_dt := -(mc + i.comp.dens * i.comp.dV_dt + i.comp.vol * i.comp.dd_dP_T * p)
      / (i.comp.vol * i.comp.dd_dT_P)
    dTe_dt := (me - i.exp.dens * i.exp.dV_dt - i.exp.vol * i.exp.dd_dP_T * p)
      / (i.exp.vol * i.exp.dd_dT_P)
    Q_dot_k := h.ck * mc - h.kr * mk - chxEnergy i s0
    Q_dot_r := h.kr * mk - h.rl * ml - regenEnergy i s0
    Q_dot_l := hhxEnergy i s0 - h.rl * ml + h.le * me }
  have hup : upwind i s = h := rfl
  have hTc : i.comp.vol * i.comp.dd_dT_P * s.dTc_dt
      = -(mc + i.comp.dens * i.comp.dV_dt + i.comp.vol * i.comp.dd_dP_T * p) :=
    mul_div_cancel₀ _ hi.comp_expands
  have hTe : i.exp.vol * i.exp.dd_dT_P * s.dTe_dt
      = me - i.exp.dens * i.exp.dV_dt - i.exp.vol * i.exp.dd_dP_T * p :=
    mul_div_cancel₀ _ hi.exp_expands
  have hck := upwind_ck (i := i) s
  have hle := upwind_le (i := i) s
  rw [hup] at hck hle
  change _ = if 0 ≤ mc then _ else _ at hck
  change _ = if 0 ≤ me then _ else _ at hle
  rw [← hck] at hmc
  rw [← hle] at hme
  refine ⟨s, ?_⟩
  rw [hup]
  constructor
  · show compMass i s = -mc
    simp only [compMass, massRate]
    change i.comp.vol * (i.comp.dd_dP_T * p + i.comp.dd_dT_P * s.dTc_dt) + _ = _
    linear_combination hTc
  · show compEnergy i s = -h.ck * mc - i.pres * i.comp.dV_dt - i.comp.Q_dot
    simp only [compEnergy, energyRate]
    change i.comp.vol * (i.comp.dens * (i.comp.du_dP_T * p + i.comp.du_dT_P * s.dTc_dt)
      + i.comp.inte * (i.comp.dd_dP_T * p + i.comp.dd_dT_P * s.dTc_dt)) + _ = _
    refine mul_left_cancel₀ hi.comp_expands ?_
    simp only [tempCoef, hrc, hδc', stability] at hmc
    linear_combination (i.comp.vol * (i.comp.dens * i.comp.du_dT_P + i.comp.inte * i.comp.dd_dT_P)) * hTc
      - hmc
  · show chxMass i s = mc - mk
    simp only [chxMass, massRate, hmk]
    change i.chx.vol * (i.chx.dd_dP_T * p + _) + _ = _
    ring
  · show chxEnergy i s = h.ck * mc - h.kr * mk - (h.ck * mc - h.kr * mk - chxEnergy i s0)
    rw [show chxEnergy i s = chxEnergy i s0 from rfl]; ring
  · show regenMass i s = mk - ml
    simp only [regenMass, massRate, hmk, hml]
    change i.regen.vol * (i.regen.dd_dP_T * p + _) + _ = _
    simp only [hK', exchangerCompliance] at hp
    linear_combination -hp
  · show regenEnergy i s = h.kr * mk - h.rl * ml - (h.kr * mk - h.rl * ml - regenEnergy i s0)
    rw [show regenEnergy i s = regenEnergy i s0 from rfl]; ring
  · show hhxMass i s = ml - me
    simp only [hhxMass, massRate, hml]
    change i.hhx.vol * (i.hhx.dd_dP_T * p + _) + _ = _
    ring
  · show hhxEnergy i s = h.rl * ml - h.le * me + (hhxEnergy i s0 - h.rl * ml + h.le * me)
    rw [show hhxEnergy i s = hhxEnergy i s0 from rfl]; ring
  · show expMass i s = me
    simp only [expMass, massRate]
    change i.exp.vol * (i.exp.dd_dP_T * p + i.exp.dd_dT_P * s.dTe_dt) + _ = _
    linear_combination hTe
  · show expEnergy i s = h.le * me - i.pres * i.exp.dV_dt - i.exp.Q_dot
    simp only [expEnergy, energyRate]
    change i.exp.vol * (i.exp.dens * (i.exp.du_dP_T * p + i.exp.du_dT_P * s.dTe_dt)
      + i.exp.inte * (i.exp.dd_dP_T * p + i.exp.dd_dT_P * s.dTe_dt)) + _ = _
    refine mul_left_cancel₀ hi.exp_expands ?_
    simp only [tempCoef, hre, hδe', stability] at hme
    linear_combination (i.exp.vol * (i.exp.dens * i.exp.du_dT_P + i.exp.inte * i.exp.dd_dT_P)) * hTe
      + hme

end

/-- **C57**, for any fluid: the determinant is positive for every assumption about flow directions when
the gas is stable. -/
theorem C57_stable_det_pos (i : Inputs ℝ) (hi : Stable i) (d : FlowDirection) :
    0 < reducedDet i (facesFor i d) := by
  have hface : ∀ (w : WorkingSpace ℝ) (e : Direction) (l r : ℝ), 0 < tempCoef w l → 0 < tempCoef w r →
      0 < tempCoef w (faceFor e l r) := by
    intro w e l r hl hr
    cases e <;> simp only [faceFor]
    · exact hl
    · exact hr
    · simp only [tempCoef] at *; linarith
  have ha : 0 < tempCoef i.comp (facesFor i d).ck := hface _ _ _ _ hi.comp_out hi.comp_in
  have hb : 0 < tempCoef i.exp (facesFor i d).le := hface _ _ _ _ hi.exp_in hi.exp_out
  have h : reducedDet i (facesFor i d) = tempCoef i.comp (facesFor i d).ck
      * tempCoef i.exp (facesFor i d).le * exchangerCompliance i
      + tempCoef i.comp (facesFor i d).ck * stability i.exp
      + tempCoef i.exp (facesFor i d).le * stability i.comp := by
    simp only [reducedDet, tempCoef, presCoef, compliance, exchangerCompliance, stability]
    ring
  rw [h]
  exact add_pos (add_pos_of_nonneg_of_pos (mul_nonneg (mul_pos ha hb).le hi.exchangers)
    (mul_pos ha hi.exp_stable)) (mul_pos hb hi.comp_stable)

/-- **C58.** For a stable gas there is exactly one solution of the ten balances whose interface enthalpies
are upwind of its own flows. -/
theorem C58_unique_consistent (i : Inputs ℝ) (hi : Stable i) : ∃! s, Balances i (upwind i s) s := by
  obtain ⟨s, hs⟩ := consistent_exists hi
  exact ⟨s, hs, fun s' hs' => consistent_unique hi hs' hs⟩

/-- **C58**, consequence: what `solve` returns does not depend on the direction hint nor on the
decomposition. -/
theorem C58_hint_independent (T T' : MatrixDecomposition ℝ) (hT : Sound T) (hT' : Sound T')
    (i : Inputs ℝ) (hn : i.enth_norm ≠ 0) (hi : Stable i) (hint hint' : FlowDirection)
    (s s' : Solution ℝ) (h : solve T i hint = .ok s) (h' : solve T' i hint' = .ok s') : s = s' :=
  consistent_unique hi (C07_upwind_balances T hT i hn hint s h)
    (C07_upwind_balances T' hT' i hn hint' s' h')

/-- **C58**, consequence: with a complete decomposition there is a hint with
which `solve` returns that solution, after one matrix solve. -/
theorem C58_some_hint_succeeds (T : MatrixDecomposition ℝ) (hT : Sound T) (hc : Complete T)
    (i : Inputs ℝ) (hn : i.enth_norm ≠ 0) (hi : Stable i) (s : Solution ℝ)
    (hs : Balances i (upwind i s) s) :
    solveLogged T i (FlowDirection.from_solution s) = (.ok s, [FlowDirection.from_solution s]) := by
  set d := FlowDirection.from_solution s with hd
  have hu := (C10_unique_iff i hn d).2 (C57_stable_det_pos i hi d).ne'
  obtain ⟨x, hx⟩ := Option.isSome_iff_exists.1 (hc _ _ hu)
  let v : Vec10 ℝ := ![s.m_dot_ck, s.m_dot_kr, s.m_dot_rl, s.m_dot_le, s.Q_dot_k, s.Q_dot_r, s.Q_dot_l,
    s.dTc_dt, s.dTe_dt, s.dP_dt]
  have hv : Solution.ofVec v = s := rfl
  have hvs : Solves ((System.new i).stencil.create_matrix d) (System.new i).b v := by
    rw [C04_system_iff_balances i hn d v, hv, hd, facesFor_from_solution]
    exact hs
  have hxv : x = v := hu.unique (hT _ _ _ hx) hvs
  have h1 : (System.new i).solve T d = some s := by simp [System.solve, hx, hxv, hv]
  exact solveLoop_of_search (.here _) h1 rfl 4 (by simp)

/-- **C58**, the hypotheses hold at every physical state of a run with either ideal gas at 100 K or more. -/
theorem C58_ideal_gas_stable (r : Run ℝ) (n : GasName) (hf : r.fluid = (IdealGas.new n).toFluid) (t : ℝ)
    (y : Conditions ℝ) (hp : Physical r t y 100) : Stable (r.calculate_inputs t y) := by
  have hTc : 0 < y.T_c := by linarith [hp.comp_temp]
  have hTe : 0 < y.T_e := by linarith [hp.exp_temp]
  have hTk : 0 < r.temp.chx := by linarith [hp.chx_temp]
  have hTl : 0 < r.temp.hhx := by linarith [hp.hhx_temp]
  have hR := IdealGas.gas_constant_pos n
  have hP := hp.pres
  have hVc := hp.comp_vol
  have hVe := hp.exp_vol
  have hen : ∀ T, 100 ≤ T → -(250 * ((IdealGas.new n : IdealGas ℝ).cp_coefs.c0
      - (IdealGas.new n : IdealGas ℝ).gas_constant)) < r.fluid.enth T y.P := fun T hT => by
    rw [hf]; exact IdealGas.enth_gt n T hT
  have hdT : ∀ T, 0 < T → r.fluid.dd_dT_P T y.P ≠ 0 := fun T hT => by
    rw [hf]
    show (IdealGas.new n : IdealGas ℝ).dd_dT_P T y.P ≠ 0
    simp only [IdealGas.dd_dT_P]
    scalars
    exact div_ne_zero (neg_ne_zero.2 hP.ne') (by positivity)
  have hst : ∀ (T V : ℝ) (w : WorkingSpace ℝ), 0 < T → 0 < V → w.vol = V ∧ w.dens = r.fluid.dens T y.P
      ∧ w.dd_dP_T = r.fluid.dd_dP_T T y.P ∧ w.du_dP_T = r.fluid.du_dP_T T y.P
      ∧ w.du_dT_P = r.fluid.du_dT_P T y.P → 0 < stability w := by
    rintro T V w hT hV ⟨h1, h2, h3, h4, h5⟩
    have hcv := IdealGas.cv_pos n T hT
    rw [hf] at h2 h3 h4 h5
    have h3' : w.dd_dP_T = 1 / ((IdealGas.new n : IdealGas ℝ).gas_constant * T) := by
      rw [h3]; show (1.0 : ℝ) / _ = _; norm_num
    have h4' : w.du_dP_T = 0 := by rw [h4]; show (0.0 : ℝ) = 0; norm_num
    have h5' : w.du_dT_P = (IdealGas.new n : IdealGas ℝ).cp T 0
      - (IdealGas.new n : IdealGas ℝ).gas_constant := h5
    have h2' : w.dens = y.P / ((IdealGas.new n : IdealGas ℝ).gas_constant * T) := h2
    unfold stability
    rw [h1, h2', h3', h4', h5', zero_mul, sub_zero]
    exact mul_pos (by positivity) (mul_pos hcv (by positivity))
  have hdP : ∀ T, 0 < T → 0 ≤ r.fluid.dd_dP_T T y.P := fun T hT => by
    rw [hf]
    show 0 ≤ (1.0 : ℝ) / ((IdealGas.new n : IdealGas ℝ).gas_constant * T)
    positivity
  have hcw : ∀ h, _ → 0 < tempCoef (r.calculate_inputs t y).comp h := fun h hh =>
    tempCoef_pos (n := n) y.T_c hTc y.P _ h hP hVc _
      (by simp only [Run.calculate_inputs, Run.comp_inputs, hf, IdealGas.toFluid, and_self]) hh
  have hew : ∀ h, _ → 0 < tempCoef (r.calculate_inputs t y).exp h := fun h hh =>
    tempCoef_pos (n := n) y.T_e hTe y.P _ h hP hVe _
      (by simp only [Run.calculate_inputs, Run.exp_inputs, hf, IdealGas.toFluid, and_self]) hh
  exact
    { comp_expands := mul_ne_zero hVc.ne' (hdT _ hTc)
      exp_expands := mul_ne_zero hVe.ne' (hdT _ hTe)
      comp_stable := hst _ _ _ hTc hVc ⟨rfl, rfl, rfl, rfl, rfl⟩
      exp_stable := hst _ _ _ hTe hVe ⟨rfl, rfl, rfl, rfl, rfl⟩
      exchangers := add_nonneg (add_nonneg (mul_nonneg hp.chx_vol (hdP _ hTk))
        (mul_nonneg hp.regen_vol (hdP _ hp.regen_temp))) (mul_nonneg hp.hhx_vol (hdP _ hTl))
      comp_out := hcw _ (hen _ hp.comp_temp)
      comp_in := hcw _ (hen _ hp.chx_temp)
      exp_in := hew _ (hen _ hp.hhx_temp)
      exp_out := hew _ (hen _ hp.exp_temp) }

end Sett
