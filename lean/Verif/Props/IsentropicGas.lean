import Verif.Props.Isentropic
import Verif.Props.SecondLawGas

/-! # C108 for gases whose heat capacity depends on the temperature -/

namespace Sett

open Spec state_equations Set

section caloric

variable {r : Run ℝ} {R w : ℝ} {cp H σ E : ℝ → ℝ} {y : ℝ → Conditions ℝ} {a b Vmax : ℝ}

theorem caloric_entropy_mono (hg : CaloricGas r.fluid R w cp H σ E) : StrictMonoOn σ (Ioi 0) := by
  refine strictMonoOn_of_deriv_pos (convex_Ioi 0) (fun T hT => (hg.entropy T hT).continuousAt.continuousWithinAt) fun T hT => ?_
  rw [interior_Ioi] at hT
  rw [(hg.entropy T hT).deriv]
  exact div_pos (hg.cp_pos T hT) hT

/-- The entropy grows at least as fast as that of a gas of the least heat capacity. -/
theorem caloric_entropy_ge (hg : CaloricGas r.fluid R w cp H σ E) {c : ℝ} (hc : ∀ T, 0 < T → c ≤ cp T) {T T' : ℝ} (hT : 0 < T)
    (h : T ≤ T') : c * (Real.log T' - Real.log T) ≤ σ T' - σ T := by
  have d : ∀ T, 0 < T → HasDerivAt (fun T => σ T - c * Real.log T) (cp T / T - c * T⁻¹) T := fun T hT =>
    (hg.entropy T hT).sub ((Real.hasDerivAt_log hT.ne').const_mul c)
  have mono : MonotoneOn (fun T => σ T - c * Real.log T) (Ioi 0) := by
    refine monotoneOn_of_deriv_nonneg (convex_Ioi 0) (fun T hT => (d T hT).continuousAt.continuousWithinAt)
      (fun T hT => ?_) fun T hT => ?_
    all_goals rw [interior_Ioi] at hT
    · exact (d T hT).differentiableAt.differentiableWithinAt
    · rw [(d T hT).deriv, div_eq_mul_inv, ← sub_mul]
      exact mul_nonneg (sub_nonneg.2 (hc T hT)) (inv_pos.2 hT).le
  have := mono hT (hT.trans_le h : (0 : ℝ) < T') h
  simp only at this
  linarith

theorem caloric_comp_rate (hg : CaloricGas r.fluid R w cp H σ E) (hU : Sound r.solver) (hn : r.enth_norm ≠ 0)
    (hq : NoParasiticHeat r) {t : ℝ} {s : Solution ℝ} (h : Follows r y t s) (hP : 0 < (y t).P) (hc : 0 < (y t).T_c) :
    compGas r y t * (cp (y t).T_c * (s.dTc_dt / (y t).T_c) - R * (s.dP_dt / (y t).P)) = (max s.m_dot_ck 0 * w
      + max (-s.m_dot_ck) 0 * (H r.temp.chx + E r.temp.chx - (H (y t).T_c + E (y t).T_c) - w)) / (y t).T_c := by
  obtain ⟨hint, hs⟩ := h.solved
  have b := C07_upwind_balances r.solver hU _ hn hint s hs
  have c1 := b.comp_mass
  have c2 := b.comp_energy
  rw [(caloric_faces hg t (y t) s).1] at c2
  simp only [compMass, compEnergy, Run.calculate_inputs, Run.comp_inputs, hg.dens, hg.inte, hg.dd_dP_T, hg.dd_dT_P,
    hg.du_dP_T, hg.du_dT_P] at c1 c2
  have q := caloric_space (R := R) (w := w) hg.R_pos hP hc c1 c2
  rw [compGas, hg.dens, q, hq.comp]
  congr 1
  have e := face_flow s.m_dot_ck (H (y t).T_c + E (y t).T_c) (H r.temp.chx + E r.temp.chx)
  have n := split_flow s.m_dot_ck
  linear_combination (H (y t).T_c + E (y t).T_c + w) * n - e

theorem caloric_exp_rate (hg : CaloricGas r.fluid R w cp H σ E) (hU : Sound r.solver) (hn : r.enth_norm ≠ 0)
    (hq : NoParasiticHeat r) {t : ℝ} {s : Solution ℝ} (h : Follows r y t s) (hP : 0 < (y t).P) (he : 0 < (y t).T_e) :
    expGas r y t * (cp (y t).T_e * (s.dTe_dt / (y t).T_e) - R * (s.dP_dt / (y t).P)) = (max (-s.m_dot_le) 0 * w
      + max s.m_dot_le 0 * (H r.temp.hhx + E r.temp.hhx - (H (y t).T_e + E (y t).T_e) - w)) / (y t).T_e := by
  obtain ⟨hint, hs⟩ := h.solved
  have b := C07_upwind_balances r.solver hU _ hn hint s hs
  have x1 := b.exp_mass
  have x2 := b.exp_energy
  rw [(caloric_faces hg t (y t) s).2.2.2] at x2
  simp only [expMass, expEnergy, Run.calculate_inputs, Run.exp_inputs, hg.dens, hg.inte, hg.dd_dP_T, hg.dd_dT_P,
    hg.du_dP_T, hg.du_dT_P] at x1 x2
  have q := caloric_space (R := R) (w := w) (m := -s.m_dot_le) (f := faceTemp s.m_dot_le (H r.temp.hhx + E r.temp.hhx)
    (H (y t).T_e + E (y t).T_e)) (Q := r.ws_parasitics.exp.thermal) hg.R_pos hP he (by rw [x1]; ring) (by rw [x2]; ring)
  rw [expGas, hg.dens, q, hq.exp]
  congr 1
  have e := face_flow s.m_dot_le (H r.temp.hhx + E r.temp.hhx) (H (y t).T_e + E (y t).T_e)
  have n := split_flow s.m_dot_le
  linear_combination -(H (y t).T_e + E (y t).T_e + w) * n + e

/-- What is common to both spaces. -/
theorem caloric_colder (hg : CaloricGas r.fluid R w cp H σ E) {T P m T' P' up down : ℝ → ℝ} {c Tk hx Pmax : ℝ} (hc0 : 0 < c)
    (hc : ∀ T, 0 < T → c ≤ cp T) (hT : ContinuousOn T (Icc a b)) (hP : ContinuousOn P (Icc a b))
    (h1 : ∀ t ∈ Icc a b, 0 < T t) (h2 : ∀ t ∈ Icc a b, 0 < P t)
    (dT : ∀ t ∈ Ico a b, HasDerivWithinAt T (T' t) (Ici t) t) (dP : ∀ t ∈ Ico a b, HasDerivWithinAt P (P' t) (Ici t) t)
    (hm : ∀ t ∈ Ico a b, 0 < m t)
    (e : ∀ t ∈ Ico a b, m t * (cp (T t) * (T' t / T t) - R * (P' t / P t))
      = (up t * w + down t * (hx - (H (T t) + E (T t)) - w)) / T t)
    (hup : ∀ t, 0 ≤ up t) (hdown : ∀ t, 0 ≤ down t) (hw : 0 ≤ w) (hTk : 0 < Tk)
    (hk : ∀ T, 0 < T → T < Tk → H T + E T + w ≤ hx) (hmax : ∀ t ∈ Icc a b, P t ≤ Pmax) :
    ∀ t ∈ Icc a b, isentropic (R / c) (min (T a) Tk) Pmax (P t) ≤ T t := by
  intro t ht
  have hR := hg.R_pos
  have ha : a ∈ Icc a b := ⟨le_rfl, ht.1.trans ht.2⟩
  have hPm : 0 < Pmax := (h2 t ht).trans_le (hmax t ht)
  have mono := caloric_entropy_mono hg
  have cσ : ContinuousOn (fun t => σ (T t)) (Icc a b) := fun t ht =>
    (hg.entropy (T t) (h1 t ht)).continuousAt.comp_continuousWithinAt (hT t ht)
  have cont : ContinuousOn (fun t => σ (T t) - R * Real.log (P t)) (Icc a b) :=
    cσ.fun_sub (continuousOn_const.fun_mul (hP.log fun t ht => (h2 t ht).ne'))
  have key := stays_above (c := σ Tk - R * Real.log Pmax) (f' := fun t => cp (T t) * (T' t / T t) - R * (P' t / P t)) cont
    (fun t ht => by
      have ht' := Ico_subset_Icc_self ht
      refine (((hg.entropy (T t) (h1 t ht')).comp_hasDerivWithinAt t (dT t ht)).sub
        (((dP t ht).log (h2 t ht').ne').const_mul R)).congr_deriv ?_
      ring)
    (fun t ht hlt => by
      have ht' := Ico_subset_Icc_self ht
      have hl := mul_le_mul_of_nonneg_left (Real.log_le_log (h2 t ht') (hmax t ht')) hR.le
      have hlt' : T t < Tk := (mono.lt_iff_lt (h1 t ht') hTk).1 (by linarith)
      have h0 := hk _ (h1 t ht') hlt'
      have : 0 ≤ m t * (cp (T t) * (T' t / T t) - R * (P' t / P t)) := by
        rw [e t ht]
        exact div_nonneg (add_nonneg (mul_nonneg (hup t) hw) (mul_nonneg (hdown t) (by linarith))) (h1 t ht').le
      exact nonneg_of_mul_nonneg_right this (hm t ht)) t ht
  set T0 := min (T a) Tk with hT0
  have hT0p : 0 < T0 := lt_min (h1 a ha) hTk
  have lP := Real.log_le_log (h2 t ht) (hmax t ht)
  have key' : σ T0 - R * (Real.log Pmax - Real.log (P t)) ≤ σ (T t) := by
    have s1 : σ T0 ≤ σ (T a) := mono.monotoneOn hT0p (h1 a ha) (min_le_left _ _)
    have s2 : σ T0 ≤ σ Tk := mono.monotoneOn hT0p hTk (min_le_right _ _)
    have hl := mul_le_mul_of_nonneg_left (Real.log_le_log (h2 a ha) (hmax a ha)) hR.le
    rcases min_le_iff.1 key with k | k <;> linarith
  rw [← Real.log_le_log_iff (isentropic_pos hT0p hPm (h2 t ht)) (h1 t ht), log_isentropic hT0p hPm (h2 t ht)]
  have hκ : 0 < R / c := div_pos hR hc0
  rcases le_total T0 (T t) with h | h
  · have := Real.log_le_log hT0p h
    nlinarith
  · have := caloric_entropy_ge hg hc (h1 t ht) h
    have h3 : Real.log T0 - Real.log (T t) ≤ R / c * (Real.log Pmax - Real.log (P t)) := by
      rw [div_mul_eq_mul_div, le_div_iff₀ hc0]
      linarith
    linarith

theorem caloric_comp_pos (hg : CaloricGas r.fluid R w cp H σ E) (hv : Vessel r Vmax) (h : GasMotion r y a b) {t : ℝ}
    (ht : t ∈ Icc a b) : 0 < compGas r y t ∧ 0 < expGas r y t := by
  rw [compGas, expGas, hg.dens, hg.dens]
  exact ⟨mul_pos (hv.comp t).1 (div_pos (h.pres_pos t ht) (mul_pos hg.R_pos (h.regular.comp_pos t ht))),
    mul_pos (hv.exp t).1 (div_pos (h.pres_pos t ht) (mul_pos hg.R_pos (h.regular.exp_pos t ht)))⟩

/-- **C108**, any ideal gas: no space gets colder than its first gas, or gas so cold that the exchanger's gas is sure to warm it,
would by expanding from the highest pressure as a gas of the least heat capacity. -/
theorem C108_gas_not_colder (hg : CaloricGas r.fluid R w cp H σ E) (hU : Sound r.solver) (hn : r.enth_norm ≠ 0)
    (hq : NoParasiticHeat r) (hv : Vessel r Vmax) (h : GasMotion r y a b) (hw : 0 ≤ w) {c Tk Tl Pmax : ℝ} (hc0 : 0 < c)
    (hc : ∀ T, 0 < T → c ≤ cp T) (hTk : 0 < Tk) (hTl : 0 < Tl)
    (hk : ∀ T P, 0 < T → T < Tk → r.fluid.enth T P + w ≤ r.fluid.enth r.temp.chx P)
    (hl : ∀ T P, 0 < T → T < Tl → r.fluid.enth T P + w ≤ r.fluid.enth r.temp.hhx P)
    (hmax : ∀ t ∈ Icc a b, (y t).P ≤ Pmax) {t : ℝ} (ht : t ∈ Icc a b) :
    isentropic (R / c) (min (y a).T_c Tk) Pmax (y t).P ≤ (y t).T_c ∧
    isentropic (R / c) (min (y a).T_e Tl) Pmax (y t).P ≤ (y t).T_e := by
  obtain ⟨s, hs⟩ := motion_solutions h
  have pos := fun t (ht : t ∈ Ico a b) => h.pres_pos t (Ico_subset_Icc_self ht)
  have pc := fun t (ht : t ∈ Ico a b) => h.regular.comp_pos t (Ico_subset_Icc_self ht)
  have pe := fun t (ht : t ∈ Ico a b) => h.regular.exp_pos t (Ico_subset_Icc_self ht)
  constructor
  · exact caloric_colder hg hc0 hc h.regular.comp h.regular.pres h.regular.comp_pos h.pres_pos (fun t ht => (hs t ht).comp)
      (fun t ht => (hs t ht).pres) (fun t ht => (caloric_comp_pos hg hv h (Ico_subset_Icc_self ht)).1)
      (fun t ht => caloric_comp_rate hg hU hn hq (hs t ht) (pos t ht) (pc t ht)) (fun t => le_max_right _ _)
      (fun t => le_max_right _ _) hw hTk (fun T hT hTT => by simpa only [hg.enth] using hk T 1 hT hTT) hmax t ht
  · exact caloric_colder hg hc0 hc h.regular.exp h.regular.pres h.regular.exp_pos h.pres_pos (fun t ht => (hs t ht).exp)
      (fun t ht => (hs t ht).pres) (fun t ht => (caloric_comp_pos hg hv h (Ico_subset_Icc_self ht)).2)
      (fun t ht => caloric_exp_rate hg hU hn hq (hs t ht) (pos t ht) (pe t ht)) (fun t => le_max_right _ _)
      (fun t => le_max_right _ _) hw hTl (fun T hT hTT => by simpa only [hg.enth] using hl T 1 hT hTT) hmax t ht

/-- The pressure goes with `Σ V / T`. -/
theorem caloric_pressure_law (hg : CaloricGas r.fluid R w cp H σ E) (hU : Sound r.solver) (hn : r.enth_norm ≠ 0)
    (hv : Vessel r Vmax) (h : GasMotion r y a b) {t : ℝ} (ht : t ∈ Icc a b) :
    (y t).P * volumePerTemp r y t = (y a).P * volumePerTemp r y a := by
  obtain ⟨s, hs⟩ := motion_solutions h
  have hR := hg.R_pos
  have e : ∀ t, (y t).P * volumePerTemp r y t
      = R * (compGas r y t + chxGas r y t + regenGas r y t + hhxGas r y t + expGas r y t) := by
    intro t
    simp only [volumePerTemp, compGas, chxGas, regenGas, hhxGas, expGas, hg.dens, div_eq_mul_inv, mul_inv]
    linear_combination (-(y t).P * ((r.ws_vol_fn t).1.value * ((y t).T_c)⁻¹ + r.vol_chx * r.temp.chx⁻¹
      + r.vol_regen * r.temp.regen.avg⁻¹ + r.vol_hhx * r.temp.hhx⁻¹ + (r.ws_vol_fn t).2.value * ((y t).T_e)⁻¹))
      * mul_inv_cancel₀ hR.ne'
  have dv1 : Continuous fun t => (r.ws_vol_fn t).1.value := continuous_iff_continuousAt.2 fun t => (hv.drive t).1.continuousAt
  have dv2 : Continuous fun t => (r.ws_vol_fn t).2.value := continuous_iff_continuousAt.2 fun t => (hv.drive t).2.continuousAt
  have cont : ContinuousOn (fun t => (y t).P * volumePerTemp r y t) (Icc a b) := by
    refine h.regular.pres.fun_mul ?_
    have k1 : ContinuousOn (fun t => (r.ws_vol_fn t).1.value / (y t).T_c) (Icc a b) :=
      ContinuousOn.div dv1.continuousOn h.regular.comp fun t ht => (h.regular.comp_pos t ht).ne'
    have k2 : ContinuousOn (fun t => (r.ws_vol_fn t).2.value / (y t).T_e) (Icc a b) :=
      ContinuousOn.div dv2.continuousOn h.regular.exp fun t ht => (h.regular.exp_pos t ht).ne'
    exact (((k1.fun_add continuousOn_const).fun_add continuousOn_const).fun_add continuousOn_const).fun_add k2
  refine constant_of_has_deriv_right_zero cont (fun t ht => ?_) t ht
  have ht' := Ico_subset_Icc_self ht
  obtain ⟨m1, m2, m3, m4, m5⟩ := caloric_masses hg hU hn (hs t ht) (hv.drive t) (h.regular.comp_pos t ht') (h.regular.exp_pos t ht')
  refine (((((m1.add m2).add m3).add m4).add m5).const_mul R).congr_deriv (by ring) |>.congr_of_eventuallyEq ?_ ?_
  · exact Filter.Eventually.of_forall e
  · exact e t

/-- **C108**, any ideal gas: neither the pressure nor the cold can run away. -/
theorem C108_gas_bounded (hg : CaloricGas r.fluid R w cp H σ E) (hU : Sound r.solver) (hn : r.enth_norm ≠ 0)
    (hq : NoParasiticHeat r) (hv : Vessel r Vmax) (hk0 : 0 < r.vol_chx) (hw : 0 ≤ w) {c Tk Tl : ℝ} (hcR : R < c)
    (hc : ∀ T, 0 < T → c ≤ cp T) (hTk : 0 < Tk) (hTl : 0 < Tl)
    (hk : ∀ T P, 0 < T → T < Tk → r.fluid.enth T P + w ≤ r.fluid.enth r.temp.chx P)
    (hl : ∀ T P, 0 < T → T < Tl → r.fluid.enth T P + w ≤ r.fluid.enth r.temp.hhx P)
    (y₀ : Conditions ℝ) (hP : 0 < y₀.P) (hTc : 0 < y₀.T_c) (hTe : 0 < y₀.T_e) :
    ∃ Pmin Pmax Tmin, 0 < Pmin ∧ 0 < Tmin ∧ ∀ a b y, y a = y₀ → GasMotion r y a b → ∀ t ∈ Icc a b,
      Pmin ≤ (y t).P ∧ (y t).P ≤ Pmax ∧ Tmin ≤ (y t).T_c ∧ Tmin ≤ (y t).T_e := by
  have hc0 : 0 < c := hg.R_pos.trans hcR
  refine bounded_of_cold (κ := R / c) (div_pos hg.R_pos hc0).le ((div_lt_one hc0).2 hcR) hv hk0 y₀ hP hTc hTe
    (fun a b y h t ht => caloric_pressure_law hg hU hn hv h ht) fun Pmax hPmax => ?_
  have qm := Real.rpow_pos_of_pos hPmax (R / c)
  refine ⟨min (min y₀.T_c Tk / Pmax ^ (R / c)) (min y₀.T_e Tl / Pmax ^ (R / c)),
    lt_min (div_pos (lt_min hTc hTk) qm) (div_pos (lt_min hTe hTl) qm), ?_⟩
  intro a b y hy h upper t ht
  have p := h.pres_pos t ht
  have pk := Real.rpow_pos_of_pos p (R / c)
  obtain ⟨k1, k2⟩ := C108_gas_not_colder hg hU hn hq hv h hw hc0 hc hTk hTl hk hl upper ht
  rw [isentropic_eq hPmax p, hy] at k1 k2
  exact ⟨(mul_le_mul_of_nonneg_right (min_le_left _ _) pk.le).trans k1,
    (mul_le_mul_of_nonneg_right (min_le_right _ _) pk.le).trans k2⟩

end caloric

/-! ## Hydrogen -/

theorem hydrogen_cp_ge {T : ℝ} (hT : 0 < T) : 12471.4839 ≤ (IdealGas.new .Hydrogen : IdealGas ℝ).cp T 0 := by
  rw [IdealGas.hydrogen_cp]
  obtain ⟨x, rfl⟩ : ∃ x, T = 1000 * x := ⟨T / 1000, by ring⟩
  have hx : 0 < x := by linarith
  have hq : 0 < 13.3194432 - 34.7782806 * x + 43.1784838 * x ^ 2 - 24.2883335 * x ^ 3 + 5.14289838 * x ^ 4 := by
    nlinarith [sq_nonneg (x ^ 2 - 2.3613 * x + 1.2), sq_nonneg (x - 1.3)]
  have := mul_pos hx hq
  norm_num
  nlinarith

/-- The enthalpy of the crate's hydrogen rises by at least 10800 J/(kg K). -/
theorem hydrogen_slope {T T' P : ℝ} (hT : 0 < T) (h : T ≤ T') :
    (IdealGas.new .Hydrogen : IdealGas ℝ).enth T P + 10800 * (T' - T) ≤ (IdealGas.new .Hydrogen : IdealGas ℝ).enth T' P := by
  let f : ℝ → ℝ := fun T => (IdealGas.new .Hydrogen : IdealGas ℝ).enth T P - 10800 * T
  have hf : ∀ T, HasDerivAt f (6.5535 + 19.1158233 * T - 0.0428742463125 * T ^ 2 + 4.80361505e-5 * T ^ 3 - 2.53597706625e-8 * T ^ 4
      + 5.14289838e-12 * T ^ 5) T := by
    intro T
    have hp : ∀ k : ℕ, HasDerivAt (fun T : ℝ => T ^ k) (k * T ^ (k - 1)) T := fun k => hasDerivAt_pow k T
    have hid := hasDerivAt_id' T
    have h2 := ((((((hid.const_mul (13.3194432 / 2)).const_add 12471.4839).fun_add
      ((hp 2).const_mul (-3.47782806e-2 / 3))).fun_add ((hp 3).const_mul (4.31784838e-5 / 4))).fun_add
      ((hp 4).const_mul (-2.42883335e-8 / 5))).fun_add ((hp 5).const_mul (5.14289838e-12 / 6)))
    have h3 := ((hid.sub_const 250).fun_mul h2).fun_sub (hid.const_mul 10800)
    have e : f = fun T => (T - 250) * (12471.4839 + 13.3194432 / 2 * T + -3.47782806e-2 / 3 * T ^ 2 + 4.31784838e-5 / 4 * T ^ 3
        + -2.42883335e-8 / 5 * T ^ 4 + 5.14289838e-12 / 6 * T ^ 5) - 10800 * T := by
      funext T
      simp only [f, IdealGas.hydrogen_enth]
      ring
    rw [e]
    refine h3.congr_deriv ?_
    push_cast
    norm_num
    ring
  have mono : MonotoneOn f (Ioi 0) := by
    refine monotoneOn_of_deriv_nonneg (convex_Ioi 0) (fun T _ => (hf T).continuousAt.continuousWithinAt)
      (fun T _ => (hf T).differentiableAt.differentiableWithinAt) fun T hT => ?_
    rw [interior_Ioi] at hT
    rw [(hf T).deriv]
    obtain ⟨x, rfl⟩ : ∃ x, T = 1000 * x := ⟨T / 1000, by ring⟩
    have hx : 0 < x := by have : (0 : ℝ) < 1000 * x := hT; linarith
    have hq : 0 < 19.1158233 - 42.8742463125 * x + 48.0361505 * x ^ 2 - 25.3597706625 * x ^ 3 + 5.14289838 * x ^ 4 := by
      nlinarith [sq_nonneg (x ^ 2 - 2.4655 * x + 1.3), sq_nonneg (x - 1.1)]
    have := mul_pos hx hq
    norm_num
    nlinarith
  have := mono hT (show (0 : ℝ) < T' by linarith) h
  simp only [f] at this
  linarith

/-- Gas 96 K colder than the exchanger, or more, has so much less enthalpy that the mismatch of the zeros does not count. -/
theorem hydrogen_colder {T T' P : ℝ} (hT : 0 < T) (h : T + 96 ≤ T') :
    (IdealGas.new .Hydrogen : IdealGas ℝ).enth T P + 4124.2 * 250 ≤ (IdealGas.new .Hydrogen : IdealGas ℝ).enth T' P := by
  have := hydrogen_slope (P := P) hT (by linarith : T ≤ T')
  norm_num
  linarith

/-- **C108**, the crate's hydrogen: neither the pressure nor the cold can run away. -/
theorem C108_hydrogen {r : Run ℝ} (hf : r.fluid = (IdealGas.hydrogen : IdealGas ℝ).toFluid) (hs : SaneRun r) (hU : Sound r.solver)
    (hq : NoParasiticHeat r) {Vmax : ℝ} (hv : Vessel r Vmax) (hk0 : 0 < r.vol_chx) (y₀ : Conditions ℝ) (hP : 0 < y₀.P)
    (hTc : 0 < y₀.T_c) (hTe : 0 < y₀.T_e) :
    ∃ Pmin Pmax Tmin, 0 < Pmin ∧ 0 < Tmin ∧ ∀ a b y, y a = y₀ → GasMotion r y a b → ∀ t ∈ Icc a b,
      Pmin ≤ (y t).P ∧ (y t).P ≤ Pmax ∧ Tmin ≤ (y t).T_c ∧ Tmin ≤ (y t).T_e := by
  have hg := crate_caloric .Hydrogen
  have eR : (IdealGas.new .Hydrogen : IdealGas ℝ).gas_constant = 4124.2 := by
    simp only [IdealGas.new, IdealGas.parameters]
  have hf' : r.fluid = (IdealGas.new .Hydrogen : IdealGas ℝ).toFluid := hf
  rw [← hf', eR] at hg
  have hk := hs.chx_temp
  have hl := hs.hhx_temp
  refine C108_gas_bounded hg hU hs.norm hq hv hk0 (by norm_num) (c := 12471.4839) (by norm_num) (fun T hT => hydrogen_cp_ge hT)
    (Tk := r.temp.chx - 96) (Tl := r.temp.hhx - 96) (by linarith) (by linarith) ?_ ?_ y₀ hP hTc hTe
  · intro T P hT h
    rw [hf']
    exact hydrogen_colder (P := P) hT (by linarith)
  · intro T P hT h
    rw [hf']
    exact hydrogen_colder (P := P) hT (by linarith)

end Sett
