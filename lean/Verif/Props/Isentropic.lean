import Verif.Spec.Isentropic
import Verif.Props.SecondLaw

/-! # C108: how hot and cold the gas gets, and between which pressures it stays -/

namespace Sett

open Spec state_equations Set

/-- A function that does not fall while below `c` stays above the least of `c` and its first value. -/
theorem stays_above {f f' : ℝ → ℝ} {a b c : ℝ} (hf : ContinuousOn f (Icc a b))
    (hd : ∀ t ∈ Ico a b, HasDerivWithinAt f (f' t) (Ici t) t) (h : ∀ t ∈ Ico a b, f t < c → 0 ≤ f' t) :
    ∀ t ∈ Icc a b, min (f a) c ≤ f t := by
  intro t ht
  refine le_of_forall_pos_lt_add fun ε hε => ?_
  have hta : 0 ≤ t - a := sub_nonneg.2 ht.1
  set η := ε / (2 * (1 + (t - a))) with hη
  have hη0 : 0 < η := by positivity
  have key := image_le_of_deriv_right_lt_deriv_boundary (f := fun t => -f t) (f' := fun t => -f' t) (a := a) (b := b)
    hf.neg (fun t ht => (hd t ht).neg) (B := fun t => -min (f a) c + η * (1 + (t - a))) (B' := fun _ => η)
    (by have := min_le_left (f a) c; simp only [sub_self]; linarith)
    (fun x => by
      have := ((((hasDerivAt_id x).sub_const a).const_add 1).const_mul η).const_add (-min (f a) c)
      simpa using this)
    (fun x hx e => by
      have hxa : 0 ≤ x - a := sub_nonneg.2 hx.1
      have : f x < c := by
        have h1 : 0 < η * (1 + (x - a)) := by positivity
        have := min_le_right (f a) c
        linarith
      have := h x hx this
      linarith)
  have := key ht
  have e : η * (1 + (t - a)) = ε / 2 := by rw [hη]; field_simp
  rw [e] at this
  linarith

/-- A function that does not rise while above `c` stays below the greatest of `c` and its first value. -/
theorem stays_below {f f' : ℝ → ℝ} {a b c : ℝ} (hf : ContinuousOn f (Icc a b))
    (hd : ∀ t ∈ Ico a b, HasDerivWithinAt f (f' t) (Ici t) t) (h : ∀ t ∈ Ico a b, c < f t → f' t ≤ 0) :
    ∀ t ∈ Icc a b, f t ≤ max (f a) c := by
  intro t ht
  have := stays_above (f := fun t => -f t) (f' := fun t => -f' t) (c := -c) hf.neg (fun t ht => (hd t ht).neg)
    (fun t ht hc => by have := h t ht (by simpa using hc); linarith) t ht
  simp only [min_neg_neg] at this
  linarith

theorem log_isentropic {κ T P P' : ℝ} (hT : 0 < T) (hP : 0 < P) (hP' : 0 < P') :
    Real.log (isentropic κ T P P') = Real.log T + κ * (Real.log P' - Real.log P) := by
  unfold isentropic
  rw [Real.log_mul hT.ne' (Real.rpow_pos_of_pos (div_pos hP' hP) _).ne', Real.log_rpow (div_pos hP' hP),
    Real.log_div hP'.ne' hP.ne']

theorem isentropic_pos {κ T P P' : ℝ} (hT : 0 < T) (hP : 0 < P) (hP' : 0 < P') : 0 < isentropic κ T P P' :=
  mul_pos hT (Real.rpow_pos_of_pos (div_pos hP' hP) _)

theorem isentropic_le_iff {R cp T P T' P' : ℝ} (hc : 0 < cp) (hT : 0 < T) (hP : 0 < P) (hT' : 0 < T') (hP' : 0 < P') :
    isentropic (R / cp) T P P' ≤ T' ↔ entropyOf R cp T P ≤ entropyOf R cp T' P' := by
  rw [← Real.log_le_log_iff (isentropic_pos hT hP hP') hT', log_isentropic hT hP hP', entropyOf, entropyOf,
    ← mul_le_mul_iff_right₀ hc]
  have : cp * (Real.log T + R / cp * (Real.log P' - Real.log P)) = cp * Real.log T + R * (Real.log P' - Real.log P) := by
    field_simp
  rw [this]
  constructor <;> intro h <;> linarith

theorem le_isentropic_iff {R cp T P T' P' : ℝ} (hc : 0 < cp) (hT : 0 < T) (hP : 0 < P) (hT' : 0 < T') (hP' : 0 < P') :
    T' ≤ isentropic (R / cp) T P P' ↔ entropyOf R cp T' P' ≤ entropyOf R cp T P := by
  rw [← Real.log_le_log_iff hT' (isentropic_pos hT hP hP'), log_isentropic hT hP hP', entropyOf, entropyOf,
    ← mul_le_mul_iff_right₀ hc]
  have : cp * (Real.log T + R / cp * (Real.log P' - Real.log P)) = cp * Real.log T + R * (Real.log P' - Real.log P) := by
    field_simp
  rw [this]
  constructor <;> intro h <;> linarith

section motion

variable {r : Run ℝ} {R cp h0 u0 : ℝ} {y : ℝ → Conditions ℝ} {a b : ℝ}

/-- The entropy of the gas in the compression space rises with the disagreement of the zeros while gas leaves, and goes to that
of the cooler while gas enters. -/
theorem comp_entropy_rate (hg : PerfectGas r.fluid R cp h0 u0) (hU : Sound r.solver) (hn : r.enth_norm ≠ 0)
    (hq : NoParasiticHeat r) {t : ℝ} {s : Solution ℝ} (h : Follows r y t s) (hP : 0 < (y t).P) (hc : 0 < (y t).T_c) :
    compGas r y t * (cp * (s.dTc_dt / (y t).T_c) - R * (s.dP_dt / (y t).P)) = (max s.m_dot_ck 0 * (u0 - h0)
      + max (-s.m_dot_ck) 0 * (cp * (r.temp.chx - (y t).T_c) - (u0 - h0))) / (y t).T_c := by
  obtain ⟨hint, hs⟩ := h.solved
  have b := C07_upwind_balances r.solver hU _ hn hint s hs
  have fck : (upwind (r.calculate_inputs t (y t)) s).ck = cp * faceTemp s.m_dot_ck (y t).T_c r.temp.chx + h0 := by
    simp only [upwind, faceTemp, Run.calculate_inputs, Run.comp_inputs, Run.chx_inputs, hg.enth]; split <;> rfl
  have c1 := b.comp_mass
  have c2 := b.comp_energy
  rw [fck] at c2
  simp only [compMass, compEnergy, Run.calculate_inputs, Run.comp_inputs, hg.dens, hg.inte, hg.dd_dP_T, hg.dd_dT_P,
    hg.du_dP_T, hg.du_dT_P] at c1 c2
  have q := space_entropy (R := R) (cp := cp) (h0 := h0) (u0 := u0) hg.R_pos hP hc c1 c2
  rw [compGas, hg.dens, q, hq.comp]
  congr 1
  have e := face_flow s.m_dot_ck (y t).T_c r.temp.chx
  have n := split_flow s.m_dot_ck
  linear_combination (cp * (y t).T_c + (u0 - h0)) * n - cp * e

/-- Likewise the expansion space and the heater. -/
theorem exp_entropy_rate (hg : PerfectGas r.fluid R cp h0 u0) (hU : Sound r.solver) (hn : r.enth_norm ≠ 0)
    (hq : NoParasiticHeat r) {t : ℝ} {s : Solution ℝ} (h : Follows r y t s) (hP : 0 < (y t).P) (he : 0 < (y t).T_e) :
    expGas r y t * (cp * (s.dTe_dt / (y t).T_e) - R * (s.dP_dt / (y t).P)) = (max (-s.m_dot_le) 0 * (u0 - h0)
      + max s.m_dot_le 0 * (cp * (r.temp.hhx - (y t).T_e) - (u0 - h0))) / (y t).T_e := by
  obtain ⟨hint, hs⟩ := h.solved
  have b := C07_upwind_balances r.solver hU _ hn hint s hs
  have fle : (upwind (r.calculate_inputs t (y t)) s).le = cp * faceTemp s.m_dot_le r.temp.hhx (y t).T_e + h0 := by
    simp only [upwind, faceTemp, Run.calculate_inputs, Run.exp_inputs, Run.hhx_inputs, hg.enth]; split <;> rfl
  have x1 := b.exp_mass
  have x2 := b.exp_energy
  rw [fle] at x2
  simp only [expMass, expEnergy, Run.calculate_inputs, Run.exp_inputs, hg.dens, hg.inte, hg.dd_dP_T, hg.dd_dT_P,
    hg.du_dP_T, hg.du_dT_P] at x1 x2
  have q := space_entropy (R := R) (cp := cp) (h0 := h0) (u0 := u0) (m := -s.m_dot_le)
    (Tf := faceTemp s.m_dot_le r.temp.hhx (y t).T_e) (Q := r.ws_parasitics.exp.thermal) hg.R_pos hP he (by rw [x1]; ring)
    (by rw [x2]; ring)
  rw [expGas, hg.dens, q, hq.exp]
  congr 1
  have e := face_flow s.m_dot_le r.temp.hhx (y t).T_e
  have n := split_flow s.m_dot_le
  linear_combination -(cp * (y t).T_e + (u0 - h0)) * n + cp * e

/-- What is common to both spaces. -/
theorem colder {T P m D up down : ℝ → ℝ} {Tx Pmax w : ℝ} (hc : 0 < cp) (hR : 0 < R)
    (hT : ContinuousOn T (Icc a b)) (hP : ContinuousOn P (Icc a b))
    (h1 : ∀ t ∈ Icc a b, 0 < T t) (h2 : ∀ t ∈ Icc a b, 0 < P t)
    (hD : ∀ t ∈ Ico a b, HasDerivWithinAt (fun t => entropyOf R cp (T t) (P t)) (D t) (Ici t) t)
    (hm : ∀ t ∈ Ico a b, 0 < m t) (e : ∀ t ∈ Ico a b, m t * D t = (up t * w + down t * (cp * (Tx - T t) - w)) / T t)
    (hup : ∀ t, 0 ≤ up t) (hdown : ∀ t, 0 ≤ down t) (hw : 0 ≤ w) (hx : w / cp < Tx) (hmax : ∀ t ∈ Icc a b, P t ≤ Pmax) :
    ∀ t ∈ Icc a b, min (isentropic (R / cp) (T a) (P a) (P t)) (isentropic (R / cp) (Tx - w / cp) Pmax (P t)) ≤ T t := by
  intro t ht
  have ha : a ∈ Icc a b := ⟨le_rfl, ht.1.trans ht.2⟩
  have hx' : 0 < Tx - w / cp := sub_pos.2 hx
  have hPm : 0 < Pmax := (h2 t ht).trans_le (hmax t ht)
  have cont : ContinuousOn (fun t => entropyOf R cp (T t) (P t)) (Icc a b) :=
    (continuousOn_const.fun_mul (hT.log fun t ht => (h1 t ht).ne')).fun_sub
      (continuousOn_const.fun_mul (hP.log fun t ht => (h2 t ht).ne'))
  have key := stays_above (c := entropyOf R cp (Tx - w / cp) Pmax) cont hD (fun t ht hlt => by
    have ht' := Ico_subset_Icc_self ht
    have hlog : cp * Real.log (T t) < cp * Real.log (Tx - w / cp) := by
      have := mul_le_mul_of_nonneg_left (Real.log_le_log (h2 t ht') (hmax t ht')) hR.le
      unfold entropyOf at hlt
      linarith
    have hlt' : T t < Tx - w / cp := (Real.log_lt_log_iff (h1 t ht') hx').1 (lt_of_mul_lt_mul_left hlog hc.le)
    have h0 : 0 ≤ cp * (Tx - T t) - w := by
      have := mul_le_mul_of_nonneg_left hlt'.le hc.le
      have e : cp * (w / cp) = w := by field_simp
      rw [mul_sub, e] at this
      linarith
    have : 0 ≤ m t * D t := by
      rw [e t ht]
      exact div_nonneg (add_nonneg (mul_nonneg (hup t) hw) (mul_nonneg (hdown t) h0)) (h1 t ht').le
    exact nonneg_of_mul_nonneg_right this (hm t ht)) t ht
  rcases min_le_iff.1 key with k | k
  · exact (min_le_left _ _).trans ((isentropic_le_iff hc (h1 a ha) (h2 a ha) (h1 t ht) (h2 t ht)).2 k)
  · exact (min_le_right _ _).trans ((isentropic_le_iff hc hx' hPm (h1 t ht) (h2 t ht)).2 k)

theorem hotter {T P m D up down : ℝ → ℝ} {Tx Pmin : ℝ} (hc : 0 < cp) (hR : 0 < R)
    (hT : ContinuousOn T (Icc a b)) (hP : ContinuousOn P (Icc a b))
    (h1 : ∀ t ∈ Icc a b, 0 < T t) (h2 : ∀ t ∈ Icc a b, 0 < P t)
    (hD : ∀ t ∈ Ico a b, HasDerivWithinAt (fun t => entropyOf R cp (T t) (P t)) (D t) (Ici t) t)
    (hm : ∀ t ∈ Ico a b, 0 < m t) (e : ∀ t ∈ Ico a b, m t * D t = (up t * 0 + down t * (cp * (Tx - T t) - 0)) / T t)
    (hdown : ∀ t, 0 ≤ down t) (hx : 0 < Tx) (hp : 0 < Pmin) (hmin : ∀ t ∈ Icc a b, Pmin ≤ P t) :
    ∀ t ∈ Icc a b, T t ≤ max (isentropic (R / cp) (T a) (P a) (P t)) (isentropic (R / cp) Tx Pmin (P t)) := by
  intro t ht
  have ha : a ∈ Icc a b := ⟨le_rfl, ht.1.trans ht.2⟩
  have cont : ContinuousOn (fun t => entropyOf R cp (T t) (P t)) (Icc a b) :=
    (continuousOn_const.fun_mul (hT.log fun t ht => (h1 t ht).ne')).fun_sub
      (continuousOn_const.fun_mul (hP.log fun t ht => (h2 t ht).ne'))
  have key := stays_below (c := entropyOf R cp Tx Pmin) cont hD (fun t ht hlt => by
    have ht' := Ico_subset_Icc_self ht
    have hlog : cp * Real.log Tx < cp * Real.log (T t) := by
      have := mul_le_mul_of_nonneg_left (Real.log_le_log hp (hmin t ht')) hR.le
      unfold entropyOf at hlt
      linarith
    have hlt' : Tx < T t := (Real.log_lt_log_iff hx (h1 t ht')).1 (lt_of_mul_lt_mul_left hlog hc.le)
    have : m t * D t ≤ 0 := by
      rw [e t ht, mul_zero, zero_add, sub_zero]
      exact div_nonpos_of_nonpos_of_nonneg (mul_nonpos_of_nonneg_of_nonpos (hdown t)
        (mul_nonpos_of_nonneg_of_nonpos hc.le (by linarith))) (h1 t ht').le
    exact nonpos_of_mul_nonpos_right this (hm t ht)) t ht
  rcases le_max_iff.1 key with k | k
  · exact ((le_isentropic_iff hc (h1 a ha) (h2 a ha) (h1 t ht) (h2 t ht)).2 k).trans (le_max_left _ _)
  · exact ((le_isentropic_iff hc hx hp (h1 t ht) (h2 t ht)).2 k).trans (le_max_right _ _)

theorem motion_solutions (h : GasMotion r y a b) : ∃ s : ℝ → Solution ℝ, ∀ t ∈ Ico a b, Follows r y t (s t) := by
  classical
  refine ⟨fun t => if ht : t ∈ Ico a b then (h.follows t ht).choose else Solution.ofVec 0, fun t ht => ?_⟩
  simp only [dif_pos ht]
  exact (h.follows t ht).choose_spec

variable {Vmax : ℝ}

theorem compGas_pos (hg : PerfectGas r.fluid R cp h0 u0) (hv : Vessel r Vmax) (h : GasMotion r y a b) {t : ℝ} (ht : t ∈ Icc a b) :
    0 < compGas r y t := by
  rw [compGas, hg.dens]
  exact mul_pos (hv.comp t).1 (div_pos (h.pres_pos t ht) (mul_pos hg.R_pos (h.regular.comp_pos t ht)))

theorem expGas_pos (hg : PerfectGas r.fluid R cp h0 u0) (hv : Vessel r Vmax) (h : GasMotion r y a b) {t : ℝ} (ht : t ∈ Icc a b) :
    0 < expGas r y t := by
  rw [expGas, hg.dens]
  exact mul_pos (hv.exp t).1 (div_pos (h.pres_pos t ht) (mul_pos hg.R_pos (h.regular.exp_pos t ht)))

/-- **C108.** No space gets colder than gas of its exchanger (less `(u0 - h0) / cp`, which is nothing if the zeros of enthalpy and
internal energy agree) or the gas that was there at first would get by expanding from the highest pressure. -/
theorem C108_not_colder (hg : PerfectGas r.fluid R cp h0 u0) (hU : Sound r.solver) (hn : r.enth_norm ≠ 0) (hq : NoParasiticHeat r)
    (hv : Vessel r Vmax) (h : GasMotion r y a b) (hw : h0 ≤ u0) (hk : (u0 - h0) / cp < r.temp.chx)
    (hl : (u0 - h0) / cp < r.temp.hhx) {Pmax : ℝ} (hmax : ∀ t ∈ Icc a b, (y t).P ≤ Pmax) {t : ℝ} (ht : t ∈ Icc a b) :
    min (isentropic (R / cp) (y a).T_c (y a).P (y t).P)
      (isentropic (R / cp) (r.temp.chx - (u0 - h0) / cp) Pmax (y t).P) ≤ (y t).T_c ∧
    min (isentropic (R / cp) (y a).T_e (y a).P (y t).P)
      (isentropic (R / cp) (r.temp.hhx - (u0 - h0) / cp) Pmax (y t).P) ≤ (y t).T_e := by
  obtain ⟨s, hs⟩ := motion_solutions h
  have pos := fun t (ht : t ∈ Ico a b) => h.pres_pos t (Ico_subset_Icc_self ht)
  have pc := fun t (ht : t ∈ Ico a b) => h.regular.comp_pos t (Ico_subset_Icc_self ht)
  have pe := fun t (ht : t ∈ Ico a b) => h.regular.exp_pos t (Ico_subset_Icc_self ht)
  constructor
  · exact colder hg.cp_pos hg.R_pos h.regular.comp h.regular.pres h.regular.comp_pos h.pres_pos
      (fun t ht => entropy_curve (hs t ht).comp (hs t ht).pres (pc t ht) (pos t ht))
      (fun t ht => compGas_pos hg hv h (Ico_subset_Icc_self ht))
      (fun t ht => comp_entropy_rate hg hU hn hq (hs t ht) (pos t ht) (pc t ht)) (fun t => le_max_right _ _)
      (fun t => le_max_right _ _) (sub_nonneg.2 hw) hk hmax t ht
  · exact colder hg.cp_pos hg.R_pos h.regular.exp h.regular.pres h.regular.exp_pos h.pres_pos
      (fun t ht => entropy_curve (hs t ht).exp (hs t ht).pres (pe t ht) (pos t ht))
      (fun t ht => expGas_pos hg hv h (Ico_subset_Icc_self ht))
      (fun t ht => exp_entropy_rate hg hU hn hq (hs t ht) (pos t ht) (pe t ht)) (fun t => le_max_right _ _)
      (fun t => le_max_right _ _) (sub_nonneg.2 hw) hl hmax t ht

/-- **C108.** If the zeros of enthalpy and internal energy agree, no space gets hotter than gas of its exchanger or the gas that was
there at first would get by being compressed from the lowest pressure. -/
theorem C108_not_hotter (hg : PerfectGas r.fluid R cp h0 h0) (hU : Sound r.solver) (hn : r.enth_norm ≠ 0) (hq : NoParasiticHeat r)
    (hv : Vessel r Vmax) (h : GasMotion r y a b) {Pmin : ℝ} (hp : 0 < Pmin) (hmin : ∀ t ∈ Icc a b, Pmin ≤ (y t).P)
    {t : ℝ} (ht : t ∈ Icc a b) :
    (y t).T_c ≤ max (isentropic (R / cp) (y a).T_c (y a).P (y t).P) (isentropic (R / cp) r.temp.chx Pmin (y t).P) ∧
    (y t).T_e ≤ max (isentropic (R / cp) (y a).T_e (y a).P (y t).P) (isentropic (R / cp) r.temp.hhx Pmin (y t).P) := by
  obtain ⟨s, hs⟩ := motion_solutions h
  have pos := fun t (ht : t ∈ Ico a b) => h.pres_pos t (Ico_subset_Icc_self ht)
  have pc := fun t (ht : t ∈ Ico a b) => h.regular.comp_pos t (Ico_subset_Icc_self ht)
  have pe := fun t (ht : t ∈ Ico a b) => h.regular.exp_pos t (Ico_subset_Icc_self ht)
  constructor
  · exact hotter hg.cp_pos hg.R_pos h.regular.comp h.regular.pres h.regular.comp_pos h.pres_pos
      (fun t ht => entropy_curve (hs t ht).comp (hs t ht).pres (pc t ht) (pos t ht))
      (fun t ht => compGas_pos hg hv h (Ico_subset_Icc_self ht))
      (fun t ht => by
        have := comp_entropy_rate hg hU hn hq (hs t ht) (pos t ht) (pc t ht)
        rwa [sub_self] at this) (fun t => le_max_right _ _) hv.chx_temp hp hmin t ht
  · exact hotter hg.cp_pos hg.R_pos h.regular.exp h.regular.pres h.regular.exp_pos h.pres_pos
      (fun t ht => entropy_curve (hs t ht).exp (hs t ht).pres (pe t ht) (pos t ht))
      (fun t ht => expGas_pos hg hv h (Ico_subset_Icc_self ht))
      (fun t ht => by
        have := exp_entropy_rate hg hU hn hq (hs t ht) (pos t ht) (pe t ht)
        rwa [sub_self] at this) (fun t => le_max_right _ _) hv.hhx_temp hp hmin t ht

/-- The pressure goes with `Σ V / T`. -/
theorem pressure_law (hg : PerfectGas r.fluid R cp h0 u0) (hU : Sound r.solver) (hn : r.enth_norm ≠ 0)
    (hv : Vessel r Vmax) (h : GasMotion r y a b) {t : ℝ} (ht : t ∈ Icc a b) :
    (y t).P * volumePerTemp r y t = (y a).P * volumePerTemp r y a := by
  obtain ⟨s, hs⟩ := motion_solutions h
  have hR := hg.R_pos
  have e : ∀ t, (y t).P * volumePerTemp r y t
      = R * (compGas r y t + chxGas r y t + regenGas r y t + hhxGas r y t + expGas r y t) := by
    intro t
    simp only [volumePerTemp, compGas, chxGas, regenGas, hhxGas, expGas, hg.dens, div_eq_mul_inv, mul_inv]
    linear_combination (-(y t).P * ((r.ws_vol_fn t).1.value * ((y t).T_c)⁻¹ + r.vol_chx * r.temp.chx⁻¹
      + r.vol_regen * r.temp.regen.avg⁻¹ + r.vol_hhx * r.temp.hhx⁻¹ + (r.ws_vol_fn t).2.value * ((y t).T_e)⁻¹))
      * mul_inv_cancel₀ hR.ne'
  have dv1 : Continuous fun t => (r.ws_vol_fn t).1.value := continuous_iff_continuousAt.2 fun t => (hv.drive t).1.continuousAt
  have dv2 : Continuous fun t => (r.ws_vol_fn t).2.value := continuous_iff_continuousAt.2 fun t => (hv.drive t).2.continuousAt
  have cont : ContinuousOn (fun t => (y t).P * volumePerTemp r y t) (Icc a b) := by
    refine h.regular.pres.fun_mul ?_
    have k1 : ContinuousOn (fun t => (r.ws_vol_fn t).1.value / (y t).T_c) (Icc a b) :=
      ContinuousOn.div dv1.continuousOn h.regular.comp fun t ht => (h.regular.comp_pos t ht).ne'
    have k2 : ContinuousOn (fun t => (r.ws_vol_fn t).2.value / (y t).T_e) (Icc a b) :=
      ContinuousOn.div dv2.continuousOn h.regular.exp fun t ht => (h.regular.exp_pos t ht).ne'
    exact (((k1.fun_add continuousOn_const).fun_add continuousOn_const).fun_add continuousOn_const).fun_add k2
  refine constant_of_has_deriv_right_zero cont (fun t ht => ?_) t ht
  have ht' := Ico_subset_Icc_self ht
  obtain ⟨m1, m2, m3, m4, m5⟩ := masses_rate hg hU hn (hs t ht) (hv.drive t) (h.regular.comp_pos t ht') (h.regular.exp_pos t ht')
  refine (((((m1.add m2).add m3).add m4).add m5).const_mul R).congr_deriv (by ring) |>.congr_of_eventuallyEq ?_ ?_
  · exact Filter.Eventually.of_forall e
  · exact e t

/-- Two upper bounds on an amount of gas give a lower bound on the pressure. -/
theorem pressure_floor {κ A D V G P : ℝ} (hκ : κ < 1) (hA : 0 < A) (hD : 0 < D) (hV : 0 < V) (hG : 0 < G) (hP : 0 < P)
    (h : G ≤ P * (D + 2 * (V / (A * P ^ κ)))) : min (G / (2 * D)) ((G * A / (4 * V)) ^ (1 / (1 - κ))) ≤ P := by
  by_cases h1 : G / (2 * D) ≤ P
  · exact (min_le_left _ _).trans h1
  · refine (min_le_right _ _).trans ?_
    push Not at h1
    rw [lt_div_iff₀ (by positivity)] at h1
    have hPk : P * (V / (A * P ^ κ)) = V / A * P ^ (1 - κ) := by
      rw [Real.rpow_sub hP, Real.rpow_one]
      field_simp
    have h2 : G * A / (4 * V) ≤ P ^ (1 - κ) := by
      have : G / 2 ≤ 2 * (V / A * P ^ (1 - κ)) := by rw [← hPk]; linarith
      rw [div_le_iff₀ (by positivity)]
      have h3 := mul_le_mul_of_nonneg_right this (by positivity : 0 ≤ 2 * A)
      have e : 2 * (V / A * P ^ (1 - κ)) * (2 * A) = P ^ (1 - κ) * (4 * V) := by field_simp; ring
      rw [e] at h3
      linarith
    have h4 := Real.rpow_le_rpow (by positivity) h2 (by have : 0 < 1 - κ := by linarith
                                                        positivity : (0 : ℝ) ≤ 1 / (1 - κ))
    rwa [← Real.rpow_mul hP.le, mul_one_div_cancel (by linarith : (1 : ℝ) - κ ≠ 0), Real.rpow_one] at h4

theorem isentropic_eq {κ T P P' : ℝ} (hP : 0 < P) (hP' : 0 < P') : isentropic κ T P P' = T / P ^ κ * P' ^ κ := by
  rw [isentropic, Real.div_rpow hP'.le hP.le]; ring

/-- If the mass is conserved and the spaces do not get colder than by expansion, the pressure cannot run away. -/
theorem bounded_of_cold {κ : ℝ} (hκ0 : 0 ≤ κ) (hκ1 : κ < 1) (hv : Vessel r Vmax) (hk0 : 0 < r.vol_chx)
    (y₀ : Conditions ℝ) (hP : 0 < y₀.P) (hTc : 0 < y₀.T_c) (hTe : 0 < y₀.T_e)
    (law : ∀ a b y, GasMotion r y a b → ∀ t ∈ Icc a b, (y t).P * volumePerTemp r y t = (y a).P * volumePerTemp r y a)
    (cold : ∀ Pmax, 0 < Pmax → ∃ A, 0 < A ∧ ∀ a b y, y a = y₀ → GasMotion r y a b → (∀ t ∈ Icc a b, (y t).P ≤ Pmax) →
      ∀ t ∈ Icc a b, A * (y t).P ^ κ ≤ (y t).T_c ∧ A * (y t).P ^ κ ≤ (y t).T_e) :
    ∃ Pmin Pmax Tmin, 0 < Pmin ∧ 0 < Tmin ∧ ∀ a b y, y a = y₀ → GasMotion r y a b → ∀ t ∈ Icc a b,
      Pmin ≤ (y t).P ∧ (y t).P ≤ Pmax ∧ Tmin ≤ (y t).T_c ∧ Tmin ≤ (y t).T_e := by
  set D := r.vol_chx / r.temp.chx + r.vol_regen / r.temp.regen.avg + r.vol_hhx / r.temp.hhx with hD
  have hV : 0 < Vmax := (hv.comp 0).1.trans_le (hv.comp 0).2
  have hD0 : 0 < D := add_pos_of_pos_of_nonneg (add_pos_of_pos_of_nonneg (div_pos hk0 hv.chx_temp)
    (div_nonneg hv.regen hv.regen_temp.le)) (div_nonneg hv.hhx hv.hhx_temp.le)
  set Pmax := y₀.P * (D + Vmax / y₀.T_c + Vmax / y₀.T_e) / D with hPm
  have hPmax : 0 < Pmax := by positivity
  obtain ⟨A, hA0, hcold⟩ := cold Pmax hPmax
  set Pmin := min (y₀.P * D / (2 * D)) ((y₀.P * D * A / (4 * Vmax)) ^ (1 / (1 - κ))) with hPn
  have hPmin : 0 < Pmin := lt_min (by positivity) (Real.rpow_pos_of_pos (by positivity) _)
  refine ⟨Pmin, Pmax, A * Pmin ^ κ, hPmin, mul_pos hA0 (Real.rpow_pos_of_pos hPmin _), ?_⟩
  intro a b y hy h
  have law := law a b y h
  have split : ∀ t, volumePerTemp r y t = D + (r.ws_vol_fn t).1.value / (y t).T_c + (r.ws_vol_fn t).2.value / (y t).T_e := by
    intro t; rw [volumePerTemp, hD]; ring
  have upper : ∀ t ∈ Icc a b, (y t).P ≤ Pmax := by
    intro t ht
    rw [hPm, le_div_iff₀ hD0]
    have e := law t ht
    rw [split, split, hy] at e
    have c1 : 0 ≤ (r.ws_vol_fn t).1.value / (y t).T_c := div_nonneg (hv.comp t).1.le (h.regular.comp_pos t ht).le
    have c2 : 0 ≤ (r.ws_vol_fn t).2.value / (y t).T_e := div_nonneg (hv.exp t).1.le (h.regular.exp_pos t ht).le
    have c3 : (r.ws_vol_fn a).1.value / y₀.T_c ≤ Vmax / y₀.T_c := by gcongr; exact (hv.comp a).2
    have c4 : (r.ws_vol_fn a).2.value / y₀.T_e ≤ Vmax / y₀.T_e := by gcongr; exact (hv.exp a).2
    have p := h.pres_pos t ht
    calc (y t).P * D ≤ (y t).P * (D + (r.ws_vol_fn t).1.value / (y t).T_c + (r.ws_vol_fn t).2.value / (y t).T_e) :=
          mul_le_mul_of_nonneg_left (by linarith) p.le
      _ = _ := e
      _ ≤ _ := mul_le_mul_of_nonneg_left (by linarith) hP.le
  have cold := hcold a b y hy h upper
  have lower : ∀ t ∈ Icc a b, Pmin ≤ (y t).P := by
    intro t ht
    have p := h.pres_pos t ht
    have pk := Real.rpow_pos_of_pos p κ
    refine pressure_floor hκ1 hA0 hD0 hV (mul_pos hP hD0) p ?_
    have e := law t ht
    rw [split, split, hy] at e
    have c1 : (r.ws_vol_fn t).1.value / (y t).T_c ≤ Vmax / (A * (y t).P ^ κ) := by
      gcongr
      · exact (hv.comp t).2
      · exact (cold t ht).1
    have c2 : (r.ws_vol_fn t).2.value / (y t).T_e ≤ Vmax / (A * (y t).P ^ κ) := by
      gcongr
      · exact (hv.exp t).2
      · exact (cold t ht).2
    have c3 : 0 ≤ (r.ws_vol_fn a).1.value / y₀.T_c := div_nonneg (hv.comp a).1.le hTc.le
    have c4 : 0 ≤ (r.ws_vol_fn a).2.value / y₀.T_e := div_nonneg (hv.exp a).1.le hTe.le
    calc y₀.P * D ≤ y₀.P * (D + (r.ws_vol_fn a).1.value / y₀.T_c + (r.ws_vol_fn a).2.value / y₀.T_e) :=
          mul_le_mul_of_nonneg_left (by linarith) hP.le
      _ = _ := e.symm
      _ ≤ _ := mul_le_mul_of_nonneg_left (by linarith) p.le
  intro t ht
  have mono : A * Pmin ^ κ ≤ A * (y t).P ^ κ := by gcongr; exact lower t ht
  exact ⟨lower t ht, upper t ht, mono.trans (cold t ht).1, mono.trans (cold t ht).2⟩

/-- **C108.** Neither the pressure nor the cold can run away: from a given state, at whatever time and for however long, the pressure
stays between two positive bounds and the temperatures of the spaces above a positive one. -/
theorem C108_bounded (hg : PerfectGas r.fluid R cp h0 u0) (hU : Sound r.solver) (hn : r.enth_norm ≠ 0) (hq : NoParasiticHeat r)
    (hv : Vessel r Vmax) (hk0 : 0 < r.vol_chx) (hw : h0 ≤ u0) (hk : (u0 - h0) / cp < r.temp.chx) (hl : (u0 - h0) / cp < r.temp.hhx) (hR : R < cp)
    (y₀ : Conditions ℝ) (hP : 0 < y₀.P) (hTc : 0 < y₀.T_c) (hTe : 0 < y₀.T_e) :
    ∃ Pmin Pmax Tmin, 0 < Pmin ∧ 0 < Tmin ∧ ∀ a b y, y a = y₀ → GasMotion r y a b → ∀ t ∈ Icc a b,
      Pmin ≤ (y t).P ∧ (y t).P ≤ Pmax ∧ Tmin ≤ (y t).T_c ∧ Tmin ≤ (y t).T_e := by
  have hcp := hg.cp_pos
  refine bounded_of_cold (κ := R / cp) (div_pos hg.R_pos hcp).le ((div_lt_one hcp).2 hR) hv hk0 y₀ hP hTc hTe
    (fun a b y h t ht => pressure_law hg hU hn hv h ht) fun Pmax hPmax => ?_
  set κ := R / cp with hκ
  have q0 := Real.rpow_pos_of_pos hP κ
  have qm := Real.rpow_pos_of_pos hPmax κ
  refine ⟨min (min (y₀.T_c / y₀.P ^ κ) ((r.temp.chx - (u0 - h0) / cp) / Pmax ^ κ))
    (min (y₀.T_e / y₀.P ^ κ) ((r.temp.hhx - (u0 - h0) / cp) / Pmax ^ κ)), lt_min (lt_min (div_pos hTc q0) (div_pos (sub_pos.2 hk) qm))
    (lt_min (div_pos hTe q0) (div_pos (sub_pos.2 hl) qm)), ?_⟩
  intro a b y hy h upper t ht
  have p := h.pres_pos t ht
  have pk := Real.rpow_pos_of_pos p κ
  obtain ⟨k1, k2⟩ := C108_not_colder hg hU hn hq hv h hw hk hl upper ht
  rw [isentropic_eq (by rw [hy]; exact hP) p, isentropic_eq hPmax p, hy, ← min_mul_of_nonneg _ _ pk.le] at k1 k2
  exact ⟨(mul_le_mul_of_nonneg_right (min_le_left _ _) pk.le).trans k1,
    (mul_le_mul_of_nonneg_right (min_le_right _ _) pk.le).trans k2⟩

/-- **C108.** If the zeros agree, neither can the heat. -/
theorem C108_bounded_above (hg : PerfectGas r.fluid R cp h0 h0) (hU : Sound r.solver) (hn : r.enth_norm ≠ 0)
    (hq : NoParasiticHeat r) (hv : Vessel r Vmax) (hk0 : 0 < r.vol_chx) (hR : R < cp)
    (y₀ : Conditions ℝ) (hP : 0 < y₀.P) (hTc : 0 < y₀.T_c) (hTe : 0 < y₀.T_e) :
    ∃ Tmax, ∀ a b y, y a = y₀ → GasMotion r y a b → ∀ t ∈ Icc a b, (y t).T_c ≤ Tmax ∧ (y t).T_e ≤ Tmax := by
  obtain ⟨Pmin, Pmax, Tmin, hPmin, -, hb⟩ := C108_bounded hg hU hn hq hv hk0 le_rfl (by simpa using hv.chx_temp)
    (by simpa using hv.hhx_temp) hR y₀ hP hTc hTe
  have hκ0 : 0 ≤ R / cp := (div_pos hg.R_pos hg.cp_pos).le
  refine ⟨max (max (isentropic (R / cp) y₀.T_c y₀.P Pmax) (isentropic (R / cp) r.temp.chx Pmin Pmax))
    (max (isentropic (R / cp) y₀.T_e y₀.P Pmax) (isentropic (R / cp) r.temp.hhx Pmin Pmax)), ?_⟩
  intro a b y hy h t ht
  have p := h.pres_pos t ht
  have le : ∀ {T P : ℝ}, 0 ≤ T → 0 < P → isentropic (R / cp) T P (y t).P ≤ isentropic (R / cp) T P Pmax := by
    intro T P hT hP
    unfold isentropic
    gcongr
    exact (hb a b y hy h t ht).2.1
  obtain ⟨k1, k2⟩ := C108_not_hotter hg hU hn hq hv h hPmin (fun t ht => (hb a b y hy h t ht).1) ht
  rw [hy] at k1 k2
  exact ⟨k1.trans ((max_le_max (le hTc.le hP) (le hv.chx_temp.le hPmin)).trans (le_max_left _ _)),
    k2.trans ((max_le_max (le hTe.le hP) (le hv.hhx_temp.le hPmin)).trans (le_max_right _ _))⟩

end motion

end Sett
