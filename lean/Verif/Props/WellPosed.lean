import Verif.Props.Solver
import Verif.Props.Fluid
import Verif.Spec.Physical

/-! # C57: the state equations of a run are uniquely solvable at every physical state -/

namespace Sett

open Spec state_equations

namespace IdealGas

/-- `T cp(T) - h(T) - R Tref`: what the temperature coefficient of a working space is made of, apart from
the enthalpy at its face. -/
noncomputable def margin (g : IdealGas ℝ) (T : ℝ) : ℝ :=
  T * g.cp T 0 - g.enth T 0 - g.gas_constant * g.ref_temp

theorem hydrogen_cp (T P : ℝ) : (IdealGas.new .Hydrogen : IdealGas ℝ).cp T P = 12471.4839
    + 13.3194432 * T - 3.47782806e-2 * T ^ 2 + 4.31784838e-5 * T ^ 3 - 2.42883335e-8 * T ^ 4
    + 5.14289838e-12 * T ^ 5 := by
  simp only [IdealGas.new, IdealGas.parameters, cp, poly]
  ring

theorem hydrogen_enth (T P : ℝ) : (IdealGas.new .Hydrogen : IdealGas ℝ).enth T P = (T - 250)
    * (12471.4839 + 13.3194432 / 2 * T - 3.47782806e-2 / 3 * T ^ 2 + 4.31784838e-5 / 4 * T ^ 3
    - 2.42883335e-8 / 5 * T ^ 4 + 5.14289838e-12 / 6 * T ^ 5) := by
  have h := enth_eq .Hydrogen T P
  simp only at h
  rw [h, ref_temp_eq]
  simp only [IdealGas.new, IdealGas.parameters]
  ring

/-- Both gases: the isochoric heat capacity is positive at every temperature. -/
theorem cv_pos (n : GasName) (T : ℝ) (hT : 0 < T) :
    0 < (IdealGas.new n : IdealGas ℝ).cp T 0 - (IdealGas.new n : IdealGas ℝ).gas_constant := by
  cases n
  · rw [show (IdealGas.new .Helium : IdealGas ℝ).cp T 0 = 5193.17 from helium_cp T 0]
    simp only [IdealGas.new, IdealGas.parameters]; norm_num
  · rw [hydrogen_cp]
    simp only [IdealGas.new, IdealGas.parameters]
    obtain ⟨x, rfl⟩ : ∃ x, T = 1000 * x := ⟨T / 1000, by ring⟩
    have hx : 0 < x := by linarith
    have hq : 0 < 13.3194432 - 34.7782806 * x + 43.1784838 * x ^ 2 - 24.2883335 * x ^ 3
        + 5.14289838 * x ^ 4 := by
      nlinarith [sq_nonneg (x ^ 2 - 2.3613 * x + 1.2), sq_nonneg (x - 1.3)]
    have := mul_pos hx hq
    norm_num
    nlinarith

/-- Both gases: the margin at any temperature is at least its value at absolute zero. -/
theorem margin_ge (n : GasName) (T : ℝ) (hT : 0 < T) :
    250 * ((IdealGas.new n : IdealGas ℝ).cp_coefs.c0 - (IdealGas.new n : IdealGas ℝ).gas_constant)
      ≤ (IdealGas.new n : IdealGas ℝ).margin T := by
  unfold margin
  rw [ref_temp_eq]
  cases n
  · rw [show (IdealGas.new .Helium : IdealGas ℝ).cp T 0 = 5193.17 from helium_cp T 0,
      show (IdealGas.new .Helium : IdealGas ℝ).enth T 0 = _ from helium_enth T 0]
    simp only [IdealGas.new, IdealGas.parameters]; norm_num; linarith
  · rw [hydrogen_cp, hydrogen_enth]
    simp only [IdealGas.new, IdealGas.parameters]
    obtain ⟨x, rfl⟩ : ∃ x, T = 1000 * x := ⟨T / 1000, by ring⟩
    have hx : 0 < x := by linarith
    have h1 : 0 < 13.3194432 / 2 - 2 * 34.7782806 / 3 * x + 3 * 43.1784838 / 4 * x ^ 2
        - 4 * 24.2883335 / 5 * x ^ 3 + 5 * 5.14289838 / 6 * x ^ 4 := by
      nlinarith [sq_nonneg (x ^ 2 - 2.2669 * x + 1.15), sq_nonneg (x - 0.84)]
    have h2 : 0 < 13.3194432 / 2 - 34.7782806 / 3 * x + 43.1784838 / 4 * x ^ 2
        - 24.2883335 / 5 * x ^ 3 + 5.14289838 / 6 * x ^ 4 := by
      nlinarith [sq_nonneg (x ^ 2 - 2.8336 * x + 2), sq_nonneg (x - 1.95)]
    have h3 := mul_pos (mul_pos hx hx) h1
    have h4 := mul_pos hx h2
    norm_num
    nlinarith

/-- Both gases: above 100 K the enthalpy is larger than minus that value. -/
theorem enth_gt (n : GasName) (T : ℝ) (hT : 100 ≤ T) :
    -(250 * ((IdealGas.new n : IdealGas ℝ).cp_coefs.c0
      - (IdealGas.new n : IdealGas ℝ).gas_constant)) < (IdealGas.new n : IdealGas ℝ).enth T 0 := by
  cases n
  · rw [show (IdealGas.new .Helium : IdealGas ℝ).enth T 0 = _ from helium_enth T 0]
    simp only [IdealGas.new, IdealGas.parameters]; norm_num; linarith
  · rw [hydrogen_enth]
    simp only [IdealGas.new, IdealGas.parameters]
    rcases le_total 250 T with h | h
    · obtain ⟨x, rfl⟩ : ∃ x, T = 1000 * x := ⟨T / 1000, by ring⟩
      have hx : 0 < x := by linarith
      have h2 : 0 < 13.3194432 / 2 - 34.7782806 / 3 * x + 43.1784838 / 4 * x ^ 2
          - 24.2883335 / 5 * x ^ 3 + 5.14289838 / 6 * x ^ 4 := by
        nlinarith [sq_nonneg (x ^ 2 - 2.8336 * x + 2), sq_nonneg (x - 1.95)]
      have h4 := mul_pos hx h2
      refine lt_of_lt_of_le (b := 0) (by norm_num) (mul_nonneg (by linarith) ?_)
      nlinarith
    · have hH : 12471.4839 + 13.3194432 / 2 * T - 3.47782806e-2 / 3 * T ^ 2
          + 4.31784838e-5 / 4 * T ^ 3 - 2.42883335e-8 / 5 * T ^ 4 + 5.14289838e-12 / 6 * T ^ 5
          ≤ 12471.4839 + 13.3194432 / 2 * T := by
        have h2 : 0 ≤ T ^ 2 * (250 - T) := mul_nonneg (by positivity) (by linarith)
        have h3 : 0 ≤ T ^ 4 * (250 - T) := mul_nonneg (by positivity) (by linarith)
        have h4 : 0 ≤ T ^ 2 := by positivity
        have h5 : 0 ≤ T ^ 4 := by positivity
        norm_num
        nlinarith
      have := mul_le_mul_of_nonneg_left hH (show 0 ≤ 250 - T by linarith)
      norm_num at this ⊢
      nlinarith

end IdealGas

section coefficients

variable {r : Run ℝ} {n : GasName} {t : ℝ} {y : Conditions ℝ}

/-- The determinant of the reduced system for an ideal gas, as a sum of products. -/
theorem reducedDet_ideal (hf : r.fluid = (IdealGas.new n).toFluid) (hc : y.T_c ≠ 0)
    (he : y.T_e ≠ 0) (h : Faces) :
    let i := r.calculate_inputs t y
    let g : IdealGas ℝ := IdealGas.new n
    reducedDet i h = tempCoef i.comp h.ck * tempCoef i.exp h.le
        * (i.chx.vol * i.chx.dd_dP_T + i.regen.vol * i.regen.dd_dP_T + i.hhx.vol * i.hhx.dd_dP_T)
      + tempCoef i.comp h.ck
        * (i.exp.vol ^ 2 * y.P * (g.cp y.T_e 0 - g.gas_constant) / (g.gas_constant * y.T_e) ^ 2)
      + tempCoef i.exp h.le
        * (i.comp.vol ^ 2 * y.P * (g.cp y.T_c 0 - g.gas_constant) / (g.gas_constant * y.T_c) ^ 2) := by
  intro i g
  have hR : g.gas_constant ≠ 0 := (IdealGas.gas_constant_pos n).ne'
  have hcp : ∀ T P, (IdealGas.new n : IdealGas ℝ).cp T P = g.cp T 0 := fun _ _ => rfl
  simp only [reducedDet, tempCoef, presCoef, compliance, i, Run.calculate_inputs, Run.comp_inputs,
    Run.chx_inputs, Run.regen_inputs, Run.hhx_inputs, Run.exp_inputs, hf, IdealGas.toFluid,
    IdealGas.dens, IdealGas.dd_dP_T, IdealGas.dd_dT_P, IdealGas.du_dP_T, IdealGas.du_dT_P, hcp]
  rw [show (IdealGas.new n : IdealGas ℝ) = g from rfl]
  generalize r.vol_chx * _ = k1
  generalize r.vol_regen * _ = k2
  generalize r.vol_hhx * _ = k3
  scalars
  field_simp
  ring

theorem tempCoef_ideal (T : ℝ) (hT : T ≠ 0) (P V h : ℝ) (w : WorkingSpace ℝ)
    (hw : w.vol = V ∧ w.dens = (IdealGas.new n : IdealGas ℝ).dens T P
      ∧ w.inte = (IdealGas.new n : IdealGas ℝ).inte T P
      ∧ w.dd_dT_P = (IdealGas.new n : IdealGas ℝ).dd_dT_P T P
      ∧ w.du_dT_P = (IdealGas.new n : IdealGas ℝ).du_dT_P T P) :
    tempCoef w h = V * P / ((IdealGas.new n : IdealGas ℝ).gas_constant * T ^ 2)
      * ((IdealGas.new n : IdealGas ℝ).margin T + h) := by
  obtain ⟨h1, h2, h3, h4, h5⟩ := hw
  have hR : (IdealGas.new n : IdealGas ℝ).gas_constant ≠ 0 := (IdealGas.gas_constant_pos n).ne'
  have hcp : ∀ T P, (IdealGas.new n : IdealGas ℝ).cp T P = (IdealGas.new n : IdealGas ℝ).cp T 0 :=
    fun _ _ => rfl
  have he : ∀ T P, (IdealGas.new n : IdealGas ℝ).enth T P
    = (IdealGas.new n : IdealGas ℝ).enth T 0 := fun _ _ => rfl
  simp only [tempCoef, h1, h2, h3, h4, h5, IdealGas.dens, IdealGas.inte, IdealGas.dd_dT_P,
    IdealGas.du_dT_P, IdealGas.margin, hcp T P, he T P]
  scalars
  field_simp
  ring

theorem tempCoef_pos (T : ℝ) (hT : 0 < T) (P V h : ℝ) (hP : 0 < P) (hV : 0 < V) (w : WorkingSpace ℝ)
    (hw : w.vol = V ∧ w.dens = (IdealGas.new n : IdealGas ℝ).dens T P
      ∧ w.inte = (IdealGas.new n : IdealGas ℝ).inte T P
      ∧ w.dd_dT_P = (IdealGas.new n : IdealGas ℝ).dd_dT_P T P
      ∧ w.du_dT_P = (IdealGas.new n : IdealGas ℝ).du_dT_P T P)
    (hh : -(250 * ((IdealGas.new n : IdealGas ℝ).cp_coefs.c0
      - (IdealGas.new n : IdealGas ℝ).gas_constant)) < h) : 0 < tempCoef w h := by
  rw [tempCoef_ideal T hT.ne' P V h w hw]
  have := IdealGas.margin_ge n T hT
  have hR := IdealGas.gas_constant_pos n
  exact mul_pos (by positivity) (by linarith)

end coefficients

theorem faceFor_gt {b l r : ℝ} (d : Direction) (hl : b < l) (hr : b < r) : b < faceFor d l r := by
  cases d <;> simp only [faceFor] <;> linarith

/-- **C57.** With either ideal gas and all gas at 100 K or more, the determinant of the state equations is
positive at every physical state and for every assumption about flow directions. -/
theorem C57_det_pos (r : Run ℝ) (n : GasName) (hf : r.fluid = (IdealGas.new n).toFluid) (t : ℝ)
    (y : Conditions ℝ) (hp : Physical r t y 100) (d : FlowDirection) :
    0 < reducedDet (r.calculate_inputs t y) (facesFor (r.calculate_inputs t y) d) := by
  have hTc : 0 < y.T_c := by linarith [hp.comp_temp]
  have hTe : 0 < y.T_e := by linarith [hp.exp_temp]
  have hTk : 0 < r.temp.chx := by linarith [hp.chx_temp]
  have hTl : 0 < r.temp.hhx := by linarith [hp.hhx_temp]
  have hR := IdealGas.gas_constant_pos n
  have hw : ∀ w : WorkingSpace ℝ, w = r.comp_inputs (r.ws_vol_fn t).1 y.T_c y.P → _ := fun w hw =>
    tempCoef_pos (n := n) y.T_c hTc y.P _ (faceFor d.ck (r.calculate_inputs t y).comp.enth
      (r.calculate_inputs t y).chx.enth) hp.pres hp.comp_vol w
      (by subst hw; simp only [Run.comp_inputs, hf, IdealGas.toFluid, and_self])
      (by
        apply faceFor_gt
        · show _ < r.fluid.enth y.T_c y.P
          rw [hf]; exact IdealGas.enth_gt n _ hp.comp_temp
        · show _ < r.fluid.enth r.temp.chx y.P
          rw [hf]; exact IdealGas.enth_gt n _ hp.chx_temp)
  have hx : ∀ w : WorkingSpace ℝ, w = r.exp_inputs (r.ws_vol_fn t).2 y.T_e y.P → _ := fun w hw =>
    tempCoef_pos (n := n) y.T_e hTe y.P _ (faceFor d.le (r.calculate_inputs t y).hhx.enth
      (r.calculate_inputs t y).exp.enth) hp.pres hp.exp_vol w
      (by subst hw; simp only [Run.exp_inputs, hf, IdealGas.toFluid, and_self])
      (by
        apply faceFor_gt
        · show _ < r.fluid.enth r.temp.hhx y.P
          rw [hf]; exact IdealGas.enth_gt n _ hp.hhx_temp
        · show _ < r.fluid.enth y.T_e y.P
          rw [hf]; exact IdealGas.enth_gt n _ hp.exp_temp)
  have ha : 0 < tempCoef (r.calculate_inputs t y).comp (facesFor (r.calculate_inputs t y) d).ck :=
    hw _ rfl
  have hb : 0 < tempCoef (r.calculate_inputs t y).exp (facesFor (r.calculate_inputs t y) d).le :=
    hx _ rfl
  have hdP : ∀ T, 0 < T → 0 ≤ r.fluid.dd_dP_T T y.P := fun T hT => by
    rw [hf]
    show 0 ≤ (1.0 : ℝ) / ((IdealGas.new n : IdealGas ℝ).gas_constant * T)
    positivity
  have hk := mul_nonneg hp.chx_vol (hdP _ hTk)
  have hr := mul_nonneg hp.regen_vol (hdP _ hp.regen_temp)
  have hl := mul_nonneg hp.hhx_vol (hdP _ hTl)
  have hcc := IdealGas.cv_pos n _ hTc
  have hce := IdealGas.cv_pos n _ hTe
  have hVc := hp.comp_vol
  have hVe := hp.exp_vol
  have hP := hp.pres
  rw [reducedDet_ideal hf hTc.ne' hTe.ne']
  have h1 : 0 ≤ (r.calculate_inputs t y).chx.vol * (r.calculate_inputs t y).chx.dd_dP_T
      + (r.calculate_inputs t y).regen.vol * (r.calculate_inputs t y).regen.dd_dP_T
      + (r.calculate_inputs t y).hhx.vol * (r.calculate_inputs t y).hhx.dd_dP_T :=
    add_nonneg (add_nonneg hk hr) hl
  have h2 : 0 < (r.calculate_inputs t y).exp.vol ^ 2 * y.P
      * ((IdealGas.new n : IdealGas ℝ).cp y.T_e 0 - (IdealGas.new n : IdealGas ℝ).gas_constant)
      / ((IdealGas.new n : IdealGas ℝ).gas_constant * y.T_e) ^ 2 :=
    div_pos (mul_pos (mul_pos (pow_pos hVe 2) hP) hce) (by positivity)
  have h3 : 0 < (r.calculate_inputs t y).comp.vol ^ 2 * y.P
      * ((IdealGas.new n : IdealGas ℝ).cp y.T_c 0 - (IdealGas.new n : IdealGas ℝ).gas_constant)
      / ((IdealGas.new n : IdealGas ℝ).gas_constant * y.T_c) ^ 2 :=
    div_pos (mul_pos (mul_pos (pow_pos hVc 2) hP) hcc) (by positivity)
  exact add_pos (add_pos_of_nonneg_of_pos (mul_nonneg (mul_pos ha hb).le h1) (mul_pos ha h2))
    (mul_pos hb h3)

/-- **C57**, consequence: exactly one solution for every assumption about flow directions. -/
theorem C57_unique (r : Run ℝ) (n : GasName) (hf : r.fluid = (IdealGas.new n).toFluid) (t : ℝ)
    (y : Conditions ℝ) (hp : Physical r t y 100) (d : FlowDirection) :
    ∃! x, Solves ((System.new (r.calculate_inputs t y)).stencil.create_matrix d)
      (System.new (r.calculate_inputs t y)).b x :=
  (C10_unique_iff _ hp.norm d).2 (C57_det_pos r n hf t y hp d).ne'

/-- **C57**, consequence: with a decomposition that solves uniquely solvable systems, the only way the
solver can fail at a physical state is by not settling the flow directions. -/
theorem C57_no_decomposition_error (r : Run ℝ) (n : GasName)
    (hf : r.fluid = (IdealGas.new n).toFluid) (hT : Complete r.solver) (t : ℝ) (y : Conditions ℝ)
    (hp : Physical r t y 100) (hint : FlowDirection) :
    solve r.solver (r.calculate_inputs t y) hint ≠ .error .decomposition := by
  intro h
  obtain ⟨last, -, hlast⟩ := (C08_errors_classified _ _ hint).1 h
  have := hT _ _ (C57_unique r n hf t y hp last)
  rw [System.solve, Option.map_eq_none_iff] at hlast
  rw [hlast] at this
  cases this

/-- **C57**, the limit is real: with helium, if all gas entering the working spaces is at the temperature
`R Tref / cp` (just under 100 K), the equations never have exactly one solution, at any pressure and with
any volumes. -/
theorem C57_helium_singular (r : Run ℝ) (hf : r.fluid = (IdealGas.helium : IdealGas ℝ).toFluid) (t : ℝ)
    (y : Conditions ℝ) (hn : r.enth_norm ≠ 0) (hc : 5193.17 * y.T_c = 2077.23 * 250)
    (hk : r.temp.chx = y.T_c) (hl : r.temp.hhx = y.T_c) (he : y.T_e = y.T_c) (d : FlowDirection) :
    ¬ ∃! x, Solves ((System.new (r.calculate_inputs t y)).stencil.create_matrix d)
      (System.new (r.calculate_inputs t y)).b x := by
  rw [C10_unique_iff _ hn d, not_not]
  have hT : y.T_c ≠ 0 := by intro h; rw [h] at hc; norm_num at hc
  have hf' : r.fluid = (IdealGas.new .Helium : IdealGas ℝ).toFluid := hf
  have hface : ∀ e : Direction, (IdealGas.new .Helium : IdealGas ℝ).margin y.T_c
      + faceFor e (r.fluid.enth y.T_c y.P) (r.fluid.enth y.T_c y.P) = 0 := by
    intro e
    have h1 : r.fluid.enth y.T_c y.P = 5193.17 * (y.T_c - 250) := by
      rw [hf]; exact IdealGas.helium_enth _ y.P
    have h2 : faceFor e (r.fluid.enth y.T_c y.P) (r.fluid.enth y.T_c y.P) = r.fluid.enth y.T_c y.P := by
      cases e <;> simp only [faceFor]; ring
    rw [h2, h1, IdealGas.margin, IdealGas.ref_temp_eq,
      show (IdealGas.new .Helium : IdealGas ℝ).cp y.T_c 0 = 5193.17 from IdealGas.helium_cp _ 0,
      show (IdealGas.new .Helium : IdealGas ℝ).enth y.T_c 0 = _ from IdealGas.helium_enth _ 0]
    simp only [IdealGas.new, IdealGas.parameters]
    norm_num at hc ⊢
    linarith
  have ha : tempCoef (r.calculate_inputs t y).comp (facesFor (r.calculate_inputs t y) d).ck = 0 := by
    rw [tempCoef_ideal (n := .Helium) y.T_c hT y.P (r.ws_vol_fn t).1.value _ _
      (by simp only [Run.calculate_inputs, Run.comp_inputs, hf', IdealGas.toFluid, and_self])]
    have := hface d.ck
    simp only [facesFor, Run.calculate_inputs, Run.comp_inputs, Run.chx_inputs, hk]
    rw [this, mul_zero]
  have hb : tempCoef (r.calculate_inputs t y).exp (facesFor (r.calculate_inputs t y) d).le = 0 := by
    rw [tempCoef_ideal (n := .Helium) y.T_e (he ▸ hT) y.P (r.ws_vol_fn t).2.value _ _
      (by simp only [Run.calculate_inputs, Run.exp_inputs, hf', IdealGas.toFluid, and_self])]
    have := hface d.le
    simp only [facesFor, Run.calculate_inputs, Run.exp_inputs, Run.hhx_inputs, hl, he]
    rw [this, mul_zero]
  rw [reducedDet_ideal hf' hT (he ▸ hT), ha, hb]
  ring

end Sett
