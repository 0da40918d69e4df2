import Verif.Props.Solver
import Verif.Props.Fluid
import Verif.Spec.SecondLaw
import Mathlib.Analysis.Calculus.MeanValue
import Mathlib.Analysis.SpecialFunctions.Log.Deriv
import Mathlib.MeasureTheory.Integral.IntervalIntegral.FundThmCalculus

/-! # C85: the second law -/

namespace Sett

open Spec state_equations Set

/-- The crate's helium is a perfect gas, whose zeros of enthalpy and internal energy do not agree. -/
theorem helium_perfect : PerfectGas (IdealGas.helium : IdealGas ℝ).toFluid 2077.23 5193.17 (-(5193.17 * 250))
    (-((5193.17 - 2077.23) * 250)) := by
  have hR : (IdealGas.helium : IdealGas ℝ).gas_constant = 2077.23 := by
    simp only [IdealGas.helium, IdealGas.new, IdealGas.parameters]
  have hr : (IdealGas.helium : IdealGas ℝ).ref_temp = 250 := by
    simp only [IdealGas.helium, IdealGas.new, IdealGas.parameters]; norm_num
  constructor
  · norm_num
  · norm_num
  · intro T P; simp only [IdealGas.toFluid, IdealGas.dens, hR]
  · intro T P
    simp only [IdealGas.toFluid]
    rw [IdealGas.helium_enth]; ring
  · intro T P
    simp only [IdealGas.toFluid, IdealGas.inte, hR, hr]
    rw [IdealGas.helium_enth]; ring
  · intro T P; simp only [IdealGas.toFluid, IdealGas.dd_dP_T, hR, lit_1]
  · intro T P; simp only [IdealGas.toFluid, IdealGas.dd_dT_P, hR]; scalars
  · intro T P; simp only [IdealGas.toFluid, IdealGas.du_dP_T, lit_0]
  · intro T P; simp only [IdealGas.toFluid, IdealGas.du_dT_P, hR]; rw [IdealGas.helium_cp]

section cells

variable {r : Run ℝ} {R cp h0 u0 : ℝ} {y : ℝ → Conditions ℝ} {t : ℝ} {s : Solution ℝ}

/-- Energy balance of a working space, as a balance of entropy. -/
theorem space_entropy {V dV P dP T dT m Tf Q : ℝ} (hR : 0 < R) (hP : 0 < P) (hT : 0 < T)
    (hm : massRate V (P / (R * T)) (1 / (R * T)) (-P / (R * T ^ 2)) dV dP dT = -m)
    (he : energyRate V (P / (R * T)) ((cp - R) * T + u0) (1 / (R * T)) (-P / (R * T ^ 2)) 0 (cp - R) dV dP dT
      = -(cp * Tf + h0) * m - P * dV - Q) :
    V * (P / (R * T)) * (cp * (dT / T) - R * (dP / P)) = (cp * (T - Tf) * m + (u0 - h0) * m - Q) / T := by
  unfold massRate at hm
  unfold energyRate at he
  have hm' : P * dV = -(m * (R * T)) - V * dP + V * P * dT / T := by
    field_simp at hm ⊢
    linarith
  have he' : V * (P / (R * T)) * ((cp - R) * dT) + ((cp - R) * T + u0) * (-m) = -(cp * Tf + h0) * m - P * dV - Q := by
    rw [← he, ← hm]; ring
  rw [hm'] at he'
  field_simp at he' ⊢
  linear_combination he'

/-- Energy balance of an exchanger at constant temperature, as a balance of entropy. -/
theorem exchanger_entropy {V P dP T m m' Tf Tg Q : ℝ} (hR : 0 < R) (hP : 0 < P) (hT : 0 < T)
    (hm : massRate V (P / (R * T)) (1 / (R * T)) 0 0 dP 0 = m - m')
    (he : energyRate V (P / (R * T)) ((cp - R) * T + u0) (1 / (R * T)) 0 0 0 0 dP 0
      = (cp * Tf + h0) * m - (cp * Tg + h0) * m' - Q) :
    V * (P / (R * T)) * (-(R * (dP / P)))
      = -(cp * (T - Tf) * m - cp * (T - Tg) * m' + (u0 - h0) * (m - m') + Q) / T := by
  unfold massRate at hm
  unfold energyRate at he
  have hm' : V * dP = (m - m') * (R * T) := by
    field_simp at hm ⊢
    linarith
  have he' : ((cp - R) * T + u0) * (m - m') = (cp * Tf + h0) * m - (cp * Tg + h0) * m' - Q := by
    rw [← he, ← hm]; ring
  have : V * (P / (R * T)) * (-(R * (dP / P))) = -(V * dP / T) := by field_simp
  rw [this, hm']
  field_simp
  linear_combination he'

/-- The gas in the exchangers. -/
noncomputable def chxGas (r : Run ℝ) (y : ℝ → Conditions ℝ) (t : ℝ) : ℝ := r.vol_chx * r.fluid.dens r.temp.chx (y t).P
noncomputable def regenGas (r : Run ℝ) (y : ℝ → Conditions ℝ) (t : ℝ) : ℝ :=
  r.vol_regen * r.fluid.dens r.temp.regen.avg (y t).P
noncomputable def hhxGas (r : Run ℝ) (y : ℝ → Conditions ℝ) (t : ℝ) : ℝ := r.vol_hhx * r.fluid.dens r.temp.hhx (y t).P

/-- Its entropy. -/
noncomputable def gasEntropy (r : Run ℝ) (R cp : ℝ) (y : ℝ → Conditions ℝ) (t : ℝ) : ℝ :=
  compGas r y t * entropyOf R cp (y t).T_c (y t).P + chxGas r y t * entropyOf R cp r.temp.chx (y t).P
    + regenGas r y t * entropyOf R cp r.temp.regen.avg (y t).P + hhxGas r y t * entropyOf R cp r.temp.hhx (y t).P
    + expGas r y t * entropyOf R cp (y t).T_e (y t).P

/-- Temperature of the gas crossing a face. -/
noncomputable def faceTemp (m left right : ℝ) : ℝ := open Classical in if 0 ≤ m then left else right

/-- The masses in the five volumes change by the flows. -/
theorem masses_rate (hg : PerfectGas r.fluid R cp h0 u0) (hU : Sound r.solver) (hn : r.enth_norm ≠ 0)
    (h : Follows r y t s)
    (hV : HasDerivAt (fun t => (r.ws_vol_fn t).1.value) (r.ws_vol_fn t).1.deriv t ∧
      HasDerivAt (fun t => (r.ws_vol_fn t).2.value) (r.ws_vol_fn t).2.deriv t)
    (hc : 0 < (y t).T_c) (he : 0 < (y t).T_e) :
    HasDerivWithinAt (compGas r y) (-s.m_dot_ck) (Ici t) t ∧
    HasDerivWithinAt (chxGas r y) (s.m_dot_ck - s.m_dot_kr) (Ici t) t ∧
    HasDerivWithinAt (regenGas r y) (s.m_dot_kr - s.m_dot_rl) (Ici t) t ∧
    HasDerivWithinAt (hhxGas r y) (s.m_dot_rl - s.m_dot_le) (Ici t) t ∧
    HasDerivWithinAt (expGas r y) s.m_dot_le (Ici t) t := by
  obtain ⟨hint, hs⟩ := h.solved
  have b := C07_upwind_balances r.solver hU _ hn hint s hs
  have hR := hg.R_pos
  have dc : ∀ T : ℝ, HasDerivWithinAt (fun t => r.fluid.dens T (y t).P) (r.fluid.dd_dP_T T (y t).P * s.dP_dt) (Ici t) t := by
    intro T
    simp only [hg.dens, hg.dd_dP_T]
    exact (h.pres.div_const _).congr_deriv (by ring)
  have dv : ∀ (T : ℝ → ℝ) (T' : ℝ), HasDerivWithinAt T T' (Ici t) t → 0 < T t →
      HasDerivWithinAt (fun t => r.fluid.dens (T t) (y t).P)
        (r.fluid.dd_dP_T (T t) (y t).P * s.dP_dt + r.fluid.dd_dT_P (T t) (y t).P * T') (Ici t) t := by
    intro T T' hT h0
    simp only [hg.dens, hg.dd_dP_T, hg.dd_dT_P]
    refine (h.pres.div (hT.const_mul R) (mul_pos hR h0).ne').congr_deriv ?_
    field_simp
    ring
  refine ⟨?_, ?_, ?_, ?_, ?_⟩
  · refine (hV.1.hasDerivWithinAt.mul (dv _ _ h.comp hc)).congr_deriv ?_
    rw [← b.comp_mass]
    simp only [compMass, massRate, Run.calculate_inputs, Run.comp_inputs]
    ring
  · refine ((dc r.temp.chx).const_mul r.vol_chx).congr_deriv ?_
    rw [← b.chx_mass]
    simp only [chxMass, massRate, Run.calculate_inputs, Run.chx_inputs]
    ring
  · refine ((dc r.temp.regen.avg).const_mul r.vol_regen).congr_deriv ?_
    rw [← b.regen_mass]
    simp only [regenMass, massRate, Run.calculate_inputs, Run.regen_inputs]
    ring
  · refine ((dc r.temp.hhx).const_mul r.vol_hhx).congr_deriv ?_
    rw [← b.hhx_mass]
    simp only [hhxMass, massRate, Run.calculate_inputs, Run.hhx_inputs]
    ring
  · refine (hV.2.hasDerivWithinAt.mul (dv _ _ h.exp he)).congr_deriv ?_
    rw [← b.exp_mass]
    simp only [expMass, massRate, Run.calculate_inputs, Run.exp_inputs]
    ring

theorem entropy_curve {T P : ℝ → ℝ} {T' P' : ℝ} (hT : HasDerivWithinAt T T' (Ici t) t)
    (hP : HasDerivWithinAt P P' (Ici t) t) (h1 : 0 < T t) (h2 : 0 < P t) :
    HasDerivWithinAt (fun t => entropyOf R cp (T t) (P t)) (cp * (T' / T t) - R * (P' / P t)) (Ici t) t :=
  ((hT.log h1.ne').const_mul cp).sub ((hP.log h2.ne').const_mul R)

/-- Entropy is made where gas enters a volume of another temperature: `g(x, y) = x / y - 1 - log (x / y)`, which is not
negative. -/
noncomputable def mixing (x y : ℝ) : ℝ := x / y - 1 - Real.log (x / y)

theorem mixing_nonneg {x y : ℝ} (hx : 0 < x) (hy : 0 < y) : 0 ≤ mixing x y := by
  unfold mixing
  linarith [Real.log_le_sub_one_of_pos (div_pos hx hy)]

theorem face_flow (m a b : ℝ) : faceTemp m a b * m = a * max m 0 - b * max (-m) 0 := by
  unfold faceTemp
  split
  · rename_i h
    rw [max_eq_left h, max_eq_right (by linarith)]; ring
  · rename_i h
    rw [max_eq_right (by linarith), max_eq_left (by linarith)]; ring

theorem split_flow (m : ℝ) : m = max m 0 - max (-m) 0 := by
  have := face_flow m 1 1
  simp only [faceTemp, ite_self] at this
  linarith

/-- What heat and the disagreement `w` of the zeros of enthalpy and internal energy bring to the entropy of the gas. -/
noncomputable def supplied (r : Run ℝ) (w cp : ℝ) (y : Conditions ℝ) (s : Solution ℝ) : ℝ :=
  s.Q_dot_l / r.temp.hhx - s.Q_dot_k / r.temp.chx - r.ws_parasitics.comp.thermal / y.T_c
    - r.ws_parasitics.exp.thermal / y.T_e
    + cp * max (-s.m_dot_kr) 0 * (r.temp.regen.cold / r.temp.chx - 1)
    - cp * max s.m_dot_rl 0 * (1 - r.temp.regen.hot / r.temp.hhx)
    + w * (s.m_dot_ck / y.T_c - s.m_dot_le / y.T_e)

/-- What is made where gas enters the exchangers and spaces. -/
noncomputable def made (r : Run ℝ) (cp : ℝ) (y : Conditions ℝ) (s : Solution ℝ) : ℝ :=
  cp * (max s.m_dot_ck 0 * mixing y.T_c r.temp.chx + max (-s.m_dot_ck) 0 * mixing r.temp.chx y.T_c)
    + cp * (max s.m_dot_le 0 * mixing r.temp.hhx y.T_e + max (-s.m_dot_le) 0 * mixing y.T_e r.temp.hhx)

/-- What is moved between volumes of constant temperature, nothing over a cycle. -/
noncomputable def moved (r : Run ℝ) (R w cp : ℝ) (s : Solution ℝ) : ℝ :=
  s.m_dot_ck * (-(w / r.temp.chx))
    + s.m_dot_kr * (w / r.temp.chx - cp * Real.log r.temp.chx + cp * Real.log r.temp.regen.avg - R)
    + s.m_dot_rl * (-(w / r.temp.hhx) + cp * Real.log r.temp.hhx - cp * Real.log r.temp.regen.avg + R)
    + s.m_dot_le * (w / r.temp.hhx)

theorem entropy_rate (hg : PerfectGas r.fluid R cp h0 u0) (hU : Sound r.solver) (hn : r.enth_norm ≠ 0)
    (h : Follows r y t s)
    (hV : HasDerivAt (fun t => (r.ws_vol_fn t).1.value) (r.ws_vol_fn t).1.deriv t ∧
      HasDerivAt (fun t => (r.ws_vol_fn t).2.value) (r.ws_vol_fn t).2.deriv t)
    (hP : 0 < (y t).P) (hc : 0 < (y t).T_c) (he : 0 < (y t).T_e) (hk : 0 < r.temp.chx) (hl : 0 < r.temp.hhx) :
    HasDerivWithinAt (gasEntropy r R cp y)
      (supplied r (u0 - h0) cp (y t) s + made r cp (y t) s + moved r R (u0 - h0) cp s) (Ici t) t := by
  obtain ⟨m1, m2, m3, m4, m5⟩ := masses_rate hg hU hn h hV hc he
  have hR := hg.R_pos
  have const : ∀ T : ℝ, HasDerivWithinAt (fun t => entropyOf R cp T (y t).P) (-(R * (s.dP_dt / (y t).P))) (Ici t) t := by
    intro T
    exact ((hasDerivWithinAt_const t (Ici t) (cp * Real.log T)).sub ((h.pres.log hP.ne').const_mul R)).congr_deriv (by ring)
  have e1 := m1.mul (entropy_curve (R := R) (cp := cp) h.comp h.pres hc hP)
  have e2 := m2.mul (const r.temp.chx)
  have e3 := m3.mul (const r.temp.regen.avg)
  have e4 := m4.mul (const r.temp.hhx)
  have e5 := m5.mul (entropy_curve (R := R) (cp := cp) h.exp h.pres he hP)
  obtain ⟨hint, hs⟩ := h.solved
  have b := C07_upwind_balances r.solver hU _ hn hint s hs
  have fck : (upwind (r.calculate_inputs t (y t)) s).ck = cp * faceTemp s.m_dot_ck (y t).T_c r.temp.chx + h0 := by
    simp only [upwind, faceTemp, Run.calculate_inputs, Run.comp_inputs, Run.chx_inputs, hg.enth]; split <;> rfl
  have fkr : (upwind (r.calculate_inputs t (y t)) s).kr = cp * faceTemp s.m_dot_kr r.temp.chx r.temp.regen.cold + h0 := by
    simp only [upwind, faceTemp, Run.calculate_inputs, Run.regen_inputs, Run.chx_inputs, hg.enth]; split <;> rfl
  have frl : (upwind (r.calculate_inputs t (y t)) s).rl = cp * faceTemp s.m_dot_rl r.temp.regen.hot r.temp.hhx + h0 := by
    simp only [upwind, faceTemp, Run.calculate_inputs, Run.regen_inputs, Run.hhx_inputs, hg.enth]; split <;> rfl
  have fle : (upwind (r.calculate_inputs t (y t)) s).le = cp * faceTemp s.m_dot_le r.temp.hhx (y t).T_e + h0 := by
    simp only [upwind, faceTemp, Run.calculate_inputs, Run.exp_inputs, Run.hhx_inputs, hg.enth]; split <;> rfl
  have c1 := b.comp_mass
  have c2 := b.comp_energy
  have k1 := b.chx_mass
  have k2 := b.chx_energy
  have r1 := b.regen_mass
  have l1 := b.hhx_mass
  have l2 := b.hhx_energy
  have x1 := b.exp_mass
  have x2 := b.exp_energy
  rw [fck] at c2
  rw [fck, fkr] at k2
  rw [frl, fle] at l2
  rw [fle] at x2
  simp only [compMass, compEnergy, chxMass, chxEnergy, regenMass, hhxMass, hhxEnergy, expMass, expEnergy,
    Run.calculate_inputs, Run.comp_inputs, Run.chx_inputs, Run.regen_inputs, Run.hhx_inputs, Run.exp_inputs,
    hg.dens, hg.inte, hg.dd_dP_T, hg.dd_dT_P, hg.du_dP_T, hg.du_dT_P] at c1 c2 k1 k2 r1 l1 l2 x1 x2
  have q1 := space_entropy (R := R) (cp := cp) (h0 := h0) (u0 := u0) hR hP hc c1 c2
  have q2 := exchanger_entropy (R := R) (cp := cp) (h0 := h0) (u0 := u0) hR hP hk k1 k2
  have q4 := exchanger_entropy (R := R) (cp := cp) (h0 := h0) (u0 := u0) (Q := -s.Q_dot_l)
    (Tf := faceTemp s.m_dot_rl r.temp.regen.hot r.temp.hhx) (Tg := faceTemp s.m_dot_le r.temp.hhx (y t).T_e) hR hP hl l1
    (by rw [l2]; ring)
  have q5 := space_entropy (R := R) (cp := cp) (h0 := h0) (u0 := u0) (m := -s.m_dot_le)
    (Tf := faceTemp s.m_dot_le r.temp.hhx (y t).T_e) (Q := r.ws_parasitics.exp.thermal) hR hP he (by rw [x1]; ring)
    (by rw [x2]; ring)
  have q3 : regenGas r y t * (-(R * (s.dP_dt / (y t).P))) = -(R * (s.m_dot_kr - s.m_dot_rl)) := by
    rw [← r1, regenGas, hg.dens, massRate]
    field_simp
    ring
  have d1 : compGas r y t = (r.ws_vol_fn t).1.value * ((y t).P / (R * (y t).T_c)) := by rw [compGas, hg.dens]
  have d2 : chxGas r y t = r.vol_chx * ((y t).P / (R * r.temp.chx)) := by rw [chxGas, hg.dens]
  have d4 : hhxGas r y t = r.vol_hhx * ((y t).P / (R * r.temp.hhx)) := by rw [hhxGas, hg.dens]
  have d5 : expGas r y t = (r.ws_vol_fn t).2.value * ((y t).P / (R * (y t).T_e)) := by rw [expGas, hg.dens]
  refine ((((e1.add e2).add e3).add e4).add e5).congr_deriv ?_
  rw [d1, q1, d2, q2, q3, d4, q4, d5, q5]
  have key : ∀ T m a b : ℝ, cp * (T - faceTemp m a b) * m = cp * (T * m - (a * max m 0 - b * max (-m) 0)) := by
    intro T m a b
    rw [← face_flow]; ring
  have key' : cp * ((y t).T_e - faceTemp s.m_dot_le r.temp.hhx (y t).T_e) * -s.m_dot_le
      = -(cp * ((y t).T_e * s.m_dot_le - (r.temp.hhx * max s.m_dot_le 0 - (y t).T_e * max (-s.m_dot_le) 0))) := by
    rw [← face_flow]; ring
  rw [key', key, key, key, key, key]
  have n1 := split_flow s.m_dot_ck
  have n2 := split_flow s.m_dot_kr
  have n3 := split_flow s.m_dot_rl
  have n4 := split_flow s.m_dot_le
  simp only [supplied, made, moved, mixing, entropyOf, Real.log_div hc.ne' hk.ne', Real.log_div hk.ne' hc.ne',
    Real.log_div he.ne' hl.ne', Real.log_div hl.ne' he.ne']
  generalize max s.m_dot_ck 0 = p1 at *
  generalize max (-s.m_dot_ck) 0 = p1' at *
  generalize max s.m_dot_kr 0 = p2 at *
  generalize max (-s.m_dot_kr) 0 = p2' at *
  generalize max s.m_dot_rl 0 = p3 at *
  generalize max (-s.m_dot_rl) 0 = p3' at *
  generalize max s.m_dot_le 0 = p4 at *
  generalize max (-s.m_dot_le) 0 = p4' at *
  rw [n1, n2, n3, n4]
  clear * - hc he hk hl
  field_simp
  ring

/-- What the regenerator takes up, in terms of the flows through its two faces. -/
theorem regen_heat (hg : PerfectGas r.fluid R cp h0 u0) (hU : Sound r.solver) (hn : r.enth_norm ≠ 0)
    (h : Follows r y t s) :
    s.Q_dot_r = cp * ((r.temp.hhx - r.temp.regen.hot) * max s.m_dot_rl 0
        - (r.temp.regen.cold - r.temp.chx) * max (-s.m_dot_kr) 0)
      + (cp * r.temp.chx + h0 - ((cp - R) * r.temp.regen.avg + u0)) * s.m_dot_kr
      - (cp * r.temp.hhx + h0 - ((cp - R) * r.temp.regen.avg + u0)) * s.m_dot_rl := by
  obtain ⟨hint, hs⟩ := h.solved
  have b := C07_upwind_balances r.solver hU _ hn hint s hs
  have fkr : (upwind (r.calculate_inputs t (y t)) s).kr = cp * faceTemp s.m_dot_kr r.temp.chx r.temp.regen.cold + h0 := by
    simp only [upwind, faceTemp, Run.calculate_inputs, Run.regen_inputs, Run.chx_inputs, hg.enth]; split <;> rfl
  have frl : (upwind (r.calculate_inputs t (y t)) s).rl = cp * faceTemp s.m_dot_rl r.temp.regen.hot r.temp.hhx + h0 := by
    simp only [upwind, faceTemp, Run.calculate_inputs, Run.regen_inputs, Run.hhx_inputs, hg.enth]; split <;> rfl
  have r1 := b.regen_mass
  have r2 := b.regen_energy
  rw [fkr, frl] at r2
  simp only [regenMass, regenEnergy, massRate, energyRate, Run.calculate_inputs, Run.regen_inputs, hg.inte, hg.du_dP_T] at r1 r2
  have g2 := face_flow s.m_dot_kr r.temp.chx r.temp.regen.cold
  have g3 := face_flow s.m_dot_rl r.temp.regen.hot r.temp.hhx
  have n2 := split_flow s.m_dot_kr
  have n3 := split_flow s.m_dot_rl
  linear_combination r2 - ((cp - R) * r.temp.regen.avg + u0) * r1 + cp * g2 - cp * g3 - cp * r.temp.chx * n2
    + cp * r.temp.hhx * n3

/-- The energy of the gas changes by heat and work. -/
theorem energy_rate (hg : PerfectGas r.fluid R cp h0 u0) (hU : Sound r.solver) (hn : r.enth_norm ≠ 0)
    (h : Follows r y t s)
    (hV : HasDerivAt (fun t => (r.ws_vol_fn t).1.value) (r.ws_vol_fn t).1.deriv t ∧
      HasDerivAt (fun t => (r.ws_vol_fn t).2.value) (r.ws_vol_fn t).2.deriv t)
    (hc : 0 < (y t).T_c) (he : 0 < (y t).T_e) :
    HasDerivWithinAt (fun t => compGas r y t * ((cp - R) * (y t).T_c + u0) + chxGas r y t * ((cp - R) * r.temp.chx + u0)
        + regenGas r y t * ((cp - R) * r.temp.regen.avg + u0) + hhxGas r y t * ((cp - R) * r.temp.hhx + u0)
        + expGas r y t * ((cp - R) * (y t).T_e + u0))
      (s.Q_dot_l - s.Q_dot_k - s.Q_dot_r - (r.ws_parasitics.comp.thermal + r.ws_parasitics.exp.thermal)
        - (y t).P * ((r.ws_vol_fn t).1.deriv + (r.ws_vol_fn t).2.deriv)) (Ici t) t := by
  obtain ⟨m1, m2, m3, m4, m5⟩ := masses_rate hg hU hn h hV hc he
  obtain ⟨hint, hs⟩ := h.solved
  have b := C07_upwind_balances r.solver hU _ hn hint s hs
  have e1 := m1.mul ((h.comp.const_mul (cp - R)).add_const u0)
  have e5 := m5.mul ((h.exp.const_mul (cp - R)).add_const u0)
  refine ((((e1.add (m2.mul_const _)).add (m3.mul_const _)).add (m4.mul_const _)).add e5).congr_deriv ?_
  have a1 := b.comp_mass
  have a2 := b.comp_energy
  have a3 := b.chx_mass
  have a4 := b.chx_energy
  have a5 := b.regen_mass
  have a6 := b.regen_energy
  have a7 := b.hhx_mass
  have a8 := b.hhx_energy
  have a9 := b.exp_mass
  have a10 := b.exp_energy
  generalize upwind (r.calculate_inputs t (y t)) s = f at *
  simp only [compMass, compEnergy, chxMass, chxEnergy, regenMass, regenEnergy, hhxMass, hhxEnergy, expMass, expEnergy,
    massRate, energyRate, Run.calculate_inputs, Run.comp_inputs, Run.chx_inputs, Run.regen_inputs, Run.hhx_inputs,
    Run.exp_inputs, hg.inte, hg.du_dP_T, hg.du_dT_P] at a1 a2 a3 a4 a5 a6 a7 a8 a9 a10
  simp only [compGas, expGas]
  linear_combination a2 + a4 + a6 + a8 + a10 - ((cp - R) * (y t).T_c + u0) * a1 - ((cp - R) * r.temp.chx + u0) * a3
    - ((cp - R) * r.temp.regen.avg + u0) * a5 - ((cp - R) * r.temp.hhx + u0) * a7 - ((cp - R) * (y t).T_e + u0) * a9

/-- **C85**, where the disagreement shows: gas pushed out at constant pressure heats what stays behind, unless the zeros
of enthalpy and internal energy agree. -/
theorem C85_expelled (hg : PerfectGas r.fluid R cp h0 u0) (hU : Sound r.solver) (hn : r.enth_norm ≠ 0)
    (h : Follows r y t s) (hc : 0 < (y t).T_c) (hm : compGas r y t ≠ 0)
    (hP : s.dP_dt = 0) (hq : r.ws_parasitics.comp.thermal = 0) (hout : 0 ≤ s.m_dot_ck) :
    s.dTc_dt = (u0 - h0) / cp * (s.m_dot_ck / compGas r y t) := by
  obtain ⟨hint, hs⟩ := h.solved
  have b := C07_upwind_balances r.solver hU _ hn hint s hs
  have a1 := b.comp_mass
  have a2 := b.comp_energy
  have fck : (upwind (r.calculate_inputs t (y t)) s).ck = cp * (y t).T_c + h0 := by
    simp only [upwind, Run.calculate_inputs, Run.comp_inputs, hg.enth, if_pos hout]
  rw [fck] at a2
  have hR := hg.R_pos.ne'
  have hcp := hg.cp_pos.ne'
  have hT := hc.ne'
  simp only [compMass, compEnergy, massRate, energyRate, Run.calculate_inputs, Run.comp_inputs, hg.dens, hg.inte,
    hg.dd_dP_T, hg.dd_dT_P, hg.du_dP_T, hg.du_dT_P, hP, hq] at a1 a2
  simp only [compGas, hg.dens] at hm ⊢
  have hne : (r.ws_vol_fn t).1.value * ((y t).P / (R * (y t).T_c)) * cp ≠ 0 := mul_ne_zero hm hcp
  have key : (r.ws_vol_fn t).1.value * ((y t).P / (R * (y t).T_c)) * cp * s.dTc_dt = (u0 - h0) * s.m_dot_ck := by
    have e1 : (r.ws_vol_fn t).1.value * (-(y t).P / (R * (y t).T_c ^ 2))
        = -((r.ws_vol_fn t).1.value * ((y t).P / (R * (y t).T_c))) / (y t).T_c := by field_simp
    have e2 : (y t).P = (y t).P / (R * (y t).T_c) * (R * (y t).T_c) := by field_simp
    have e3 : (r.ws_vol_fn t).1.value * (-(y t).P / (R * (y t).T_c ^ 2)) * (y t).T_c
        = -((r.ws_vol_fn t).1.value * ((y t).P / (R * (y t).T_c))) := by rw [e1]; field_simp
    linear_combination a2 - ((cp - R) * (y t).T_c + u0) * a1 - (y t).T_c * R * a1 + e3 * R * s.dTc_dt
      - (r.ws_vol_fn t).1.deriv * e2
  have : s.dTc_dt = (u0 - h0) * s.m_dot_ck / ((r.ws_vol_fn t).1.value * ((y t).P / (R * (y t).T_c)) * cp) := by
    rw [eq_div_iff hne, ← key]; ring
  rw [this]
  field_simp

end cells

/-- **C85**, for the crate's helium: gas pushed out of the compression space at constant pressure and without losses
heats what stays behind, at 100 K times the rate at which the space empties. -/
theorem C85_expelled_helium {r : Run ℝ} {y : ℝ → Conditions ℝ} {t : ℝ} {s : Solution ℝ}
    (hf : r.fluid = (IdealGas.helium : IdealGas ℝ).toFluid) (hU : Sound r.solver) (hn : r.enth_norm ≠ 0)
    (h : Follows r y t s) (hc : 0 < (y t).T_c) (hm : 0 < compGas r y t) (hP : s.dP_dt = 0)
    (hq : r.ws_parasitics.comp.thermal = 0) (hout : 0 < s.m_dot_ck) :
    99 * (s.m_dot_ck / compGas r y t) < s.dTc_dt := by
  have hg := helium_perfect
  rw [← hf] at hg
  rw [C85_expelled hg hU hn h hc hm.ne' hP hq hout.le]
  exact mul_lt_mul_of_pos_right (by norm_num) (div_pos hout hm)

section cycle

variable {r : Run ℝ} {R cp h0 u0 : ℝ} {y : ℝ → Conditions ℝ} {s : ℝ → Solution ℝ} {a b : ℝ}

theorem zero_mean (h : ClosedCycle r y s a b) {f f' : ℝ → ℝ} (hf : ContinuousOn f (Icc a b))
    (hd : ∀ t ∈ Ico a b, HasDerivWithinAt f (f' t) (Ici t) t) (hi : ContinuousOn f' (Icc a b)) (he : f b = f a) :
    ∫ t in a..b, f' t = 0 := by
  have := intervalIntegral.integral_eq_sub_of_hasDeriv_right (f := f) (f' := f') (a := a) (b := b)
    (by rwa [uIcc_of_le h.le])
    (fun t ht => by
      rw [min_eq_left h.le, max_eq_right h.le] at ht
      exact (hd t (Ioo_subset_Ico_self ht)).mono Ioi_subset_Ici_self)
    (hi.intervalIntegrable_of_Icc h.le)
  rw [this, he, sub_self]

theorem gas_continuous (hg : PerfectGas r.fluid R cp h0 u0) (h : ClosedCycle r y s a b) :
    ContinuousOn (compGas r y) (Icc a b) ∧ ContinuousOn (chxGas r y) (Icc a b) ∧ ContinuousOn (regenGas r y) (Icc a b) ∧
    ContinuousOn (hhxGas r y) (Icc a b) ∧ ContinuousOn (expGas r y) (Icc a b) := by
  have hR := hg.R_pos
  have v1 : Continuous fun t => (r.ws_vol_fn t).1.value := continuous_iff_continuousAt.2 fun t => (h.drive t).1.continuousAt
  have v2 : Continuous fun t => (r.ws_vol_fn t).2.value := continuous_iff_continuousAt.2 fun t => (h.drive t).2.continuousAt
  unfold compGas chxGas regenGas hhxGas expGas
  simp only [hg.dens]
  exact ⟨v1.continuousOn.fun_mul (h.regular.pres.div (continuousOn_const.fun_mul h.regular.comp)
      fun t ht => (mul_pos hR (h.regular.comp_pos t ht)).ne'),
    continuousOn_const.fun_mul (h.regular.pres.div_const _), continuousOn_const.fun_mul (h.regular.pres.div_const _),
    continuousOn_const.fun_mul (h.regular.pres.div_const _),
    v2.continuousOn.fun_mul (h.regular.pres.div (continuousOn_const.fun_mul h.regular.exp)
      fun t ht => (mul_pos hR (h.regular.exp_pos t ht)).ne')⟩

/-- Over a closed cycle as much gas crosses each face one way as the other. -/
theorem flows_zero (hg : PerfectGas r.fluid R cp h0 u0) (hU : Sound r.solver) (hn : r.enth_norm ≠ 0)
    (h : ClosedCycle r y s a b) :
    (∫ t in a..b, (s t).m_dot_ck = 0) ∧ (∫ t in a..b, (s t).m_dot_kr = 0) ∧ (∫ t in a..b, (s t).m_dot_rl = 0) ∧
      ∫ t in a..b, (s t).m_dot_le = 0 := by
  obtain ⟨g1, g2, g3, g4, g5⟩ := gas_continuous hg h
  have rate := fun t (ht : t ∈ Ico a b) => masses_rate hg hU hn (h.follows t ht) (h.drive t)
    (h.regular.comp_pos t (Ico_subset_Icc_self ht)) (h.regular.exp_pos t (Ico_subset_Icc_self ht))
  have z1 := zero_mean h g1 (fun t ht => (rate t ht).1) h.ck.neg (by simp only [compGas, h.closed, h.volumes.1])
  have z2 := zero_mean h g2 (fun t ht => (rate t ht).2.1) (h.ck.fun_sub h.kr) (by simp only [chxGas, h.closed])
  have z5 := zero_mean h g5 (fun t ht => (rate t ht).2.2.2.2) h.le' (by simp only [expGas, h.closed, h.volumes.2])
  have z4 := zero_mean h g4 (fun t ht => (rate t ht).2.2.2.1) (h.rl.fun_sub h.le') (by simp only [hhxGas, h.closed])
  have i1 := h.ck.intervalIntegrable_of_Icc h.le (μ := MeasureTheory.volume)
  have i2 := h.kr.intervalIntegrable_of_Icc h.le (μ := MeasureTheory.volume)
  have i3 := h.rl.intervalIntegrable_of_Icc h.le (μ := MeasureTheory.volume)
  have i4 := h.le'.intervalIntegrable_of_Icc h.le (μ := MeasureTheory.volume)
  rw [intervalIntegral.integral_neg] at z1
  rw [intervalIntegral.integral_sub i1 i2] at z2
  rw [intervalIntegral.integral_sub i3 i4] at z4
  exact ⟨by linarith, by linarith, by linarith, z5⟩

/-- **C85**, Clausius' inequality.  In an engine filled with a perfect gas, over a closed cycle: the heat received over
the temperature at which it is received, plus what the approaches of the regenerator account for, sums to at most nothing
- up to a term proportional to the disagreement `u0 - h0` between the zeros of enthalpy and internal energy. -/
theorem C85_clausius (hg : PerfectGas r.fluid R cp h0 u0) (hU : Sound r.solver) (hn : r.enth_norm ≠ 0)
    (h : ClosedCycle r y s a b) (hk : 0 < r.temp.chx) (hl : 0 < r.temp.hhx) :
    (∫ t in a..b, heatOverTemp r (y t) (s t))
      + cp * ((r.temp.regen.cold - r.temp.chx) / r.temp.chx * (∫ t in a..b, max (-(s t).m_dot_kr) 0)
        - (r.temp.hhx - r.temp.regen.hot) / r.temp.hhx * ∫ t in a..b, max (s t).m_dot_rl 0)
      ≤ -((u0 - h0) * ∫ t in a..b, ((s t).m_dot_ck / (y t).T_c - (s t).m_dot_le / (y t).T_e)) := by
  obtain ⟨g1, g2, g3, g4, g5⟩ := gas_continuous hg h
  obtain ⟨f1, f2, f3, f4⟩ := flows_zero hg hU hn h
  have cpos := fun t ht => (h.regular.comp_pos t ht).ne'
  have epos := fun t ht => (h.regular.exp_pos t ht).ne'
  have ppos := fun t ht => (h.pres_pos t ht).ne'
  have cl : ∀ T : ℝ → ℝ, ContinuousOn T (Icc a b) → (∀ t ∈ Icc a b, T t ≠ 0) →
      ContinuousOn (fun t => entropyOf R cp (T t) (y t).P) (Icc a b) := fun T hT h0 =>
    (continuousOn_const.fun_mul (hT.log h0)).fun_sub (continuousOn_const.fun_mul (h.regular.pres.log ppos))
  have ck : ∀ T : ℝ, ContinuousOn (fun t => entropyOf R cp T (y t).P) (Icc a b) := fun T =>
    continuousOn_const.fun_sub (continuousOn_const.fun_mul (h.regular.pres.log ppos))
  have hS : ContinuousOn (gasEntropy r R cp y) (Icc a b) :=
    ((((g1.fun_mul (cl _ h.regular.comp cpos)).fun_add (g2.fun_mul (ck _))).fun_add (g3.fun_mul (ck _))).fun_add (g4.fun_mul (ck _))).fun_add
      (g5.fun_mul (cl _ h.regular.exp epos))
  have pos : ∀ m : ℝ → ℝ, ContinuousOn m (Icc a b) → ContinuousOn (fun t => max (m t) 0) (Icc a b) := fun m hm =>
    hm.sup continuousOn_const
  have hH : ContinuousOn (fun t => heatOverTemp r (y t) (s t)) (Icc a b) :=
    (((h.Ql.div_const _).fun_sub (h.Qk.div_const _)).fun_sub (continuousOn_const.div h.regular.comp cpos)).sub
      (continuousOn_const.div h.regular.exp epos)
  have hw : ContinuousOn (fun t => (s t).m_dot_ck / (y t).T_c - (s t).m_dot_le / (y t).T_e) (Icc a b) :=
    (h.ck.div h.regular.comp cpos).fun_sub (h.le'.div h.regular.exp epos)
  have mixc : ∀ T T' : ℝ → ℝ, ContinuousOn T (Icc a b) → ContinuousOn T' (Icc a b) → (∀ t ∈ Icc a b, T t ≠ 0) →
      (∀ t ∈ Icc a b, T' t ≠ 0) → ContinuousOn (fun t => mixing (T t) (T' t)) (Icc a b) := fun T T' h1 h2 h3 h4 =>
    ((h1.div h2 h4).fun_sub continuousOn_const).fun_sub ((h1.div h2 h4).log fun t ht => div_ne_zero (h3 t ht) (h4 t ht))
  have hM : ContinuousOn (fun t => made r cp (y t) (s t)) (Icc a b) :=
    (continuousOn_const.fun_mul (((pos _ h.ck).fun_mul (mixc _ _ h.regular.comp continuousOn_const cpos fun _ _ => hk.ne')).fun_add
      ((pos _ h.ck.fun_neg).fun_mul (mixc _ _ continuousOn_const h.regular.comp (fun _ _ => hk.ne') cpos)))).fun_add
    (continuousOn_const.fun_mul (((pos _ h.le').fun_mul (mixc _ _ continuousOn_const h.regular.exp (fun _ _ => hl.ne') epos)).fun_add
      ((pos _ h.le'.fun_neg).fun_mul (mixc _ _ h.regular.exp continuousOn_const epos fun _ _ => hl.ne'))))
  have ii : ∀ {f : ℝ → ℝ}, ContinuousOn f (Icc a b) → IntervalIntegrable f MeasureTheory.volume a b := fun hf =>
    hf.intervalIntegrable_of_Icc h.le
  have hmv : ContinuousOn (fun t => moved r R (u0 - h0) cp (s t)) (Icc a b) :=
    (((h.ck.fun_mul continuousOn_const).fun_add (h.kr.fun_mul continuousOn_const)).fun_add (h.rl.fun_mul continuousOn_const)).fun_add
      (h.le'.fun_mul continuousOn_const)
  have zmv : ∫ t in a..b, moved r R (u0 - h0) cp (s t) = 0 := by
    unfold moved
    rw [intervalIntegral.integral_add (ii (((h.ck.fun_mul continuousOn_const).fun_add (h.kr.fun_mul continuousOn_const)).fun_add
        (h.rl.fun_mul continuousOn_const))) (ii (h.le'.fun_mul continuousOn_const)),
      intervalIntegral.integral_add (ii ((h.ck.fun_mul continuousOn_const).fun_add (h.kr.fun_mul continuousOn_const)))
        (ii (h.rl.fun_mul continuousOn_const)),
      intervalIntegral.integral_add (ii (h.ck.fun_mul continuousOn_const)) (ii (h.kr.fun_mul continuousOn_const)),
      intervalIntegral.integral_mul_const, intervalIntegral.integral_mul_const, intervalIntegral.integral_mul_const,
      intervalIntegral.integral_mul_const, f1, f2, f3, f4]
    ring
  have b1 := continuousOn_const (c := cp * (r.temp.regen.cold / r.temp.chx - 1)) (s := Icc a b) |>.fun_mul (pos _ h.kr.fun_neg)
  have b2 := continuousOn_const (c := cp * (1 - r.temp.regen.hot / r.temp.hhx)) (s := Icc a b) |>.fun_mul (pos _ h.rl)
  have b3 := continuousOn_const (c := u0 - h0) (s := Icc a b) |>.fun_mul hw
  have zero := zero_mean h (f := gasEntropy r R cp y) (f' := fun t => (((heatOverTemp r (y t) (s t)
      + cp * (r.temp.regen.cold / r.temp.chx - 1) * max (-(s t).m_dot_kr) 0)
      - cp * (1 - r.temp.regen.hot / r.temp.hhx) * max (s t).m_dot_rl 0)
      + (u0 - h0) * ((s t).m_dot_ck / (y t).T_c - (s t).m_dot_le / (y t).T_e))
      + made r cp (y t) (s t) + moved r R (u0 - h0) cp (s t)) hS
    (fun t ht => by
      have ht' := Ico_subset_Icc_self ht
      refine (entropy_rate hg hU hn (h.follows t ht) (h.drive t) (h.pres_pos t ht') (h.regular.comp_pos t ht')
        (h.regular.exp_pos t ht') hk hl).congr_deriv ?_
      simp only [supplied, heatOverTemp]
      ring)
    (((((hH.fun_add b1).fun_sub b2).fun_add b3).fun_add hM).fun_add hmv)
    (by simp only [gasEntropy, compGas, chxGas, regenGas, hhxGas, expGas, h.closed, h.volumes.1, h.volumes.2])
  rw [intervalIntegral.integral_add (ii ((((hH.fun_add b1).fun_sub b2).fun_add b3).fun_add hM)) (ii hmv),
    intervalIntegral.integral_add (ii (((hH.fun_add b1).fun_sub b2).fun_add b3)) (ii hM),
    intervalIntegral.integral_add (ii ((hH.fun_add b1).fun_sub b2)) (ii b3),
    intervalIntegral.integral_sub (ii (hH.fun_add b1)) (ii b2), intervalIntegral.integral_add (ii hH) (ii b1),
    intervalIntegral.integral_const_mul, intervalIntegral.integral_const_mul, intervalIntegral.integral_const_mul,
    zmv] at zero
  have hmade : 0 ≤ ∫ t in a..b, made r cp (y t) (s t) := by
    refine intervalIntegral.integral_nonneg h.le fun t ht => ?_
    have c := h.regular.comp_pos t ht
    have e := h.regular.exp_pos t ht
    have := hg.cp_pos
    unfold made
    have := mixing_nonneg c hk
    have := mixing_nonneg hk c
    have := mixing_nonneg hl e
    have := mixing_nonneg e hl
    have := le_max_right (s t).m_dot_ck 0
    have := le_max_right (-(s t).m_dot_ck) 0
    have := le_max_right (s t).m_dot_le 0
    have := le_max_right (-(s t).m_dot_le) 0
    positivity
  have e1 : (r.temp.regen.cold - r.temp.chx) / r.temp.chx = r.temp.regen.cold / r.temp.chx - 1 := by field_simp
  have e2 : (r.temp.hhx - r.temp.regen.hot) / r.temp.hhx = 1 - r.temp.regen.hot / r.temp.hhx := by field_simp
  rw [e1, e2]
  linarith

/-- The heat the regenerator takes up over a closed cycle. -/
theorem regen_heat_cycle (hg : PerfectGas r.fluid R cp h0 u0) (hU : Sound r.solver) (hn : r.enth_norm ≠ 0)
    (h : ClosedCycle r y s a b) :
    ∫ t in a..b, (s t).Q_dot_r = cp * ((r.temp.hhx - r.temp.regen.hot) * (∫ t in a..b, max (s t).m_dot_rl 0)
      - (r.temp.regen.cold - r.temp.chx) * ∫ t in a..b, max (-(s t).m_dot_kr) 0) := by
  obtain ⟨-, f2, f3, -⟩ := flows_zero hg hU hn h
  have ii : ∀ {f : ℝ → ℝ}, ContinuousOn f (Icc a b) → IntervalIntegrable f MeasureTheory.volume a b := fun hf =>
    hf.intervalIntegrable_of_Icc h.le
  have pos : ∀ m : ℝ → ℝ, ContinuousOn m (Icc a b) → ContinuousOn (fun t => max (m t) 0) (Icc a b) := fun m hm =>
    hm.sup continuousOn_const
  have c1 := (continuousOn_const (c := r.temp.hhx - r.temp.regen.hot) (s := Icc a b)).fun_mul (pos _ h.rl)
  have c2 := (continuousOn_const (c := r.temp.regen.cold - r.temp.chx) (s := Icc a b)).fun_mul (pos _ h.kr.fun_neg)
  have c3 := (continuousOn_const (c := cp) (s := Icc a b)).fun_mul (c1.fun_sub c2)
  have c4 := (continuousOn_const (c := cp * r.temp.chx + h0 - ((cp - R) * r.temp.regen.avg + u0)) (s := Icc a b)).fun_mul
    h.kr
  have c5 := (continuousOn_const (c := cp * r.temp.hhx + h0 - ((cp - R) * r.temp.regen.avg + u0)) (s := Icc a b)).fun_mul
    h.rl
  have e : ∫ t in a..b, (s t).Q_dot_r = ∫ t in a..b, (cp * ((r.temp.hhx - r.temp.regen.hot) * max (s t).m_dot_rl 0
        - (r.temp.regen.cold - r.temp.chx) * max (-(s t).m_dot_kr) 0)
      + (cp * r.temp.chx + h0 - ((cp - R) * r.temp.regen.avg + u0)) * (s t).m_dot_kr
      - (cp * r.temp.hhx + h0 - ((cp - R) * r.temp.regen.avg + u0)) * (s t).m_dot_rl) := by
    rw [intervalIntegral.integral_of_le h.le, intervalIntegral.integral_of_le h.le, MeasureTheory.integral_Ioc_eq_integral_Ioo,
      MeasureTheory.integral_Ioc_eq_integral_Ioo]
    exact MeasureTheory.setIntegral_congr_fun measurableSet_Ioo fun t ht =>
      regen_heat hg hU hn (h.follows t (Ioo_subset_Ico_self ht))
  rw [e, intervalIntegral.integral_sub (ii (c3.fun_add c4)) (ii c5), intervalIntegral.integral_add (ii c3) (ii c4),
    intervalIntegral.integral_const_mul, intervalIntegral.integral_sub (ii c1) (ii c2),
    intervalIntegral.integral_const_mul, intervalIntegral.integral_const_mul, intervalIntegral.integral_const_mul,
    intervalIntegral.integral_const_mul, f2, f3]
  ring

/-- **C85**, first law: over a closed cycle the work is the heat. -/
theorem C85_first_law (hg : PerfectGas r.fluid R cp h0 u0) (hU : Sound r.solver) (hn : r.enth_norm ≠ 0)
    (h : ClosedCycle r y s a b) :
    workOf r y a b = (∫ t in a..b, (s t).Q_dot_l) - (∫ t in a..b, (s t).Q_dot_k) - (∫ t in a..b, (s t).Q_dot_r)
      - (b - a) * (r.ws_parasitics.comp.thermal + r.ws_parasitics.exp.thermal) := by
  obtain ⟨g1, g2, g3, g4, g5⟩ := gas_continuous hg h
  have ii : ∀ {f : ℝ → ℝ}, ContinuousOn f (Icc a b) → IntervalIntegrable f MeasureTheory.volume a b := fun hf =>
    hf.intervalIntegrable_of_Icc h.le
  have hW : ContinuousOn (fun t => (y t).P * ((r.ws_vol_fn t).1.deriv + (r.ws_vol_fn t).2.deriv)) (Icc a b) :=
    h.regular.pres.fun_mul (h.rates.1.continuousOn.fun_add h.rates.2.continuousOn)
  have c0 := continuousOn_const (c := r.ws_parasitics.comp.thermal + r.ws_parasitics.exp.thermal) (s := Icc a b)
  have hf : ContinuousOn (fun t => compGas r y t * ((cp - R) * (y t).T_c + u0)
      + chxGas r y t * ((cp - R) * r.temp.chx + u0)
      + regenGas r y t * ((cp - R) * r.temp.regen.avg + u0) + hhxGas r y t * ((cp - R) * r.temp.hhx + u0)
      + expGas r y t * ((cp - R) * (y t).T_e + u0)) (Icc a b) :=
    ((((g1.fun_mul ((continuousOn_const.fun_mul h.regular.comp).fun_add continuousOn_const)).fun_add
      (g2.fun_mul continuousOn_const)).fun_add (g3.fun_mul continuousOn_const)).fun_add
      (g4.fun_mul continuousOn_const)).fun_add
      (g5.fun_mul ((continuousOn_const.fun_mul h.regular.exp).fun_add continuousOn_const))
  have zero := zero_mean h hf
    (fun t ht => energy_rate hg hU hn (h.follows t ht) (h.drive t) (h.regular.comp_pos t (Ico_subset_Icc_self ht))
      (h.regular.exp_pos t (Ico_subset_Icc_self ht)))
    ((((h.Ql.fun_sub h.Qk).fun_sub h.Qr).fun_sub c0).fun_sub hW)
    (by simp only [compGas, chxGas, regenGas, hhxGas, expGas, h.closed, h.volumes.1, h.volumes.2])
  rw [intervalIntegral.integral_sub (ii (((h.Ql.fun_sub h.Qk).fun_sub h.Qr).fun_sub c0)) (ii hW),
    intervalIntegral.integral_sub (ii ((h.Ql.fun_sub h.Qk).fun_sub h.Qr)) (ii c0),
    intervalIntegral.integral_sub (ii (h.Ql.fun_sub h.Qk)) (ii h.Qr),
    intervalIntegral.integral_sub (ii h.Ql) (ii h.Qk), intervalIntegral.integral_const, smul_eq_mul] at zero
  unfold workOf
  linarith

/-- **C85**, work.  With the regenerator balanced over the cycle and no losses of heat, the work is at most Carnot's part
of the heat received, up to a term proportional to the disagreement of the zeros of enthalpy and internal energy. -/
theorem C85_work_bound (hg : PerfectGas r.fluid R cp h0 u0) (hU : Sound r.solver) (hn : r.enth_norm ≠ 0)
    (h : ClosedCycle r y s a b) (hk : 0 < r.temp.chx) (hkl : r.temp.chx ≤ r.temp.hhx)
    (hcold : r.temp.chx ≤ r.temp.regen.cold) (hr : ∫ t in a..b, (s t).Q_dot_r = 0)
    (hq : r.ws_parasitics.comp.thermal = 0 ∧ r.ws_parasitics.exp.thermal = 0) :
    workOf r y a b ≤ (1 - r.temp.chx / r.temp.hhx) * (∫ t in a..b, (s t).Q_dot_l)
      - r.temp.chx * ((u0 - h0) * ∫ t in a..b, ((s t).m_dot_ck / (y t).T_c - (s t).m_dot_le / (y t).T_e)) := by
  have hl : 0 < r.temp.hhx := hk.trans_le hkl
  have c := C85_clausius hg hU hn h hk hl
  have w := C85_first_law hg hU hn h
  have q := regen_heat_cycle hg hU hn h
  rw [hr] at q w
  rw [hq.1, hq.2] at w
  have hb : 0 ≤ ∫ t in a..b, max (-(s t).m_dot_kr) 0 :=
    intervalIntegral.integral_nonneg h.le fun t _ => le_max_right _ _
  have ii : ∀ {f : ℝ → ℝ}, ContinuousOn f (Icc a b) → IntervalIntegrable f MeasureTheory.volume a b := fun hf =>
    hf.intervalIntegrable_of_Icc h.le
  have e : ∫ t in a..b, heatOverTemp r (y t) (s t)
      = (∫ t in a..b, (s t).Q_dot_l) / r.temp.hhx - (∫ t in a..b, (s t).Q_dot_k) / r.temp.chx := by
    simp only [heatOverTemp, hq.1, hq.2, zero_div, sub_zero]
    rw [intervalIntegral.integral_sub (ii (h.Ql.div_const _)) (ii (h.Qk.div_const _)),
      intervalIntegral.integral_div, intervalIntegral.integral_div]
  rw [e] at c
  generalize (∫ t in a..b, max (-(s t).m_dot_kr) 0) = B at *
  generalize (∫ t in a..b, max (s t).m_dot_rl 0) = A at *
  generalize (∫ t in a..b, (s t).Q_dot_l) = Ql at *
  generalize (∫ t in a..b, (s t).Q_dot_k) = Qk at *
  generalize (∫ t in a..b, ((s t).m_dot_ck / (y t).T_c - (s t).m_dot_le / (y t).T_e)) = D at *
  have q' : (r.temp.hhx - r.temp.regen.hot) * A = (r.temp.regen.cold - r.temp.chx) * B := by
    have := (mul_eq_zero.1 q.symm).resolve_left hg.cp_pos.ne'
    linarith
  have leak : 0 ≤ (r.temp.regen.cold - r.temp.chx) * B := mul_nonneg (by linarith) hb
  have hx : (r.temp.regen.cold - r.temp.chx) / r.temp.chx * B - (r.temp.hhx - r.temp.regen.hot) / r.temp.hhx * A
      = (r.temp.regen.cold - r.temp.chx) * B * (1 / r.temp.chx - 1 / r.temp.hhx) := by
    rw [div_mul_eq_mul_div, div_mul_eq_mul_div, q']; ring
  have hx' : 0 ≤ (r.temp.regen.cold - r.temp.chx) * B * (1 / r.temp.chx - 1 / r.temp.hhx) :=
    mul_nonneg leak (sub_nonneg.2 (one_div_le_one_div_of_le hk hkl))
  rw [hx] at c
  have c' : Ql / r.temp.hhx - Qk / r.temp.chx ≤ -((u0 - h0) * D) := by
    have := mul_nonneg hg.cp_pos.le hx'
    linarith
  have c'' := mul_le_mul_of_nonneg_left c' hk.le
  have : r.temp.chx * (Ql / r.temp.hhx - Qk / r.temp.chx) = r.temp.chx / r.temp.hhx * Ql - Qk := by
    field_simp
  rw [this] at c''
  rw [w]
  linarith

/-- **C85**, Carnot.  Filled with a perfect gas whose internal energy and enthalpy differ by `P / ρ`, no closed cycle
with a balanced regenerator and no losses of heat does more work than Carnot's part of the heat received. -/
theorem C85_carnot (hg : PerfectGas r.fluid R cp h0 h0) (hU : Sound r.solver) (hn : r.enth_norm ≠ 0)
    (h : ClosedCycle r y s a b) (hk : 0 < r.temp.chx) (hkl : r.temp.chx ≤ r.temp.hhx)
    (hcold : r.temp.chx ≤ r.temp.regen.cold) (hr : ∫ t in a..b, (s t).Q_dot_r = 0)
    (hq : r.ws_parasitics.comp.thermal = 0 ∧ r.ws_parasitics.exp.thermal = 0) :
    workOf r y a b ≤ (1 - r.temp.chx / r.temp.hhx) * ∫ t in a..b, (s t).Q_dot_l := by
  have := C85_work_bound hg hU hn h hk hkl hcold hr hq
  rwa [sub_self, zero_mul, mul_zero, sub_zero] at this

/-- **C85**, what holds of the crate's helium: Carnot's bound up to a term that need not vanish. -/
theorem C85_helium_partial (hf : r.fluid = (IdealGas.helium : IdealGas ℝ).toFluid) (hU : Sound r.solver)
    (hn : r.enth_norm ≠ 0) (h : ClosedCycle r y s a b) (hk : 0 < r.temp.chx) (hkl : r.temp.chx ≤ r.temp.hhx)
    (hcold : r.temp.chx ≤ r.temp.regen.cold) (hr : ∫ t in a..b, (s t).Q_dot_r = 0)
    (hq : r.ws_parasitics.comp.thermal = 0 ∧ r.ws_parasitics.exp.thermal = 0) :
    workOf r y a b ≤ (1 - r.temp.chx / r.temp.hhx) * (∫ t in a..b, (s t).Q_dot_l)
      - r.temp.chx * (2077.23 * 250 * ∫ t in a..b, ((s t).m_dot_ck / (y t).T_c - (s t).m_dot_le / (y t).T_e)) := by
  have hg := helium_perfect
  rw [← hf] at hg
  have := C85_work_bound hg hU hn h hk hkl hcold hr hq
  rwa [show (-((5193.17 - 2077.23) * 250) - -(5193.17 * 250) : ℝ) = 2077.23 * 250 by norm_num] at this

end cycle

end Sett
