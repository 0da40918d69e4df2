import Verif.Props.SecondLaw
import Verif.Props.WellPosed

/-! # C85 for gases whose heat capacity depends on the temperature -/

namespace Sett

open Spec state_equations Set

section cells

variable {r : Run ℝ} {R w : ℝ} {cp H σ E : ℝ → ℝ} {y : ℝ → Conditions ℝ} {t : ℝ} {s : Solution ℝ}

/-- Energy balance of a working space, as a balance of entropy. -/
theorem caloric_space {V dV P dP T dT m h f c Q : ℝ} (hR : 0 < R) (hP : 0 < P) (hT : 0 < T)
    (hm : massRate V (P / (R * T)) (1 / (R * T)) (-P / (R * T ^ 2)) dV dP dT = -m)
    (he : energyRate V (P / (R * T)) (h - R * T + w) (1 / (R * T)) (-P / (R * T ^ 2)) 0 (c - R) dV dP dT
      = -f * m - P * dV - Q) :
    V * (P / (R * T)) * (c * (dT / T) - R * (dP / P)) = ((h - f) * m + w * m - Q) / T := by
  unfold massRate at hm
  unfold energyRate at he
  have hm' : P * dV = -(m * (R * T)) - V * dP + V * P * dT / T := by
    field_simp at hm ⊢
    linarith
  have he' : V * (P / (R * T)) * ((c - R) * dT) + (h - R * T + w) * (-m) = -f * m - P * dV - Q := by
    rw [← he, ← hm]; ring
  rw [hm'] at he'
  field_simp at he' ⊢
  linear_combination he'

/-- Energy balance of an exchanger at constant temperature, as a balance of entropy. -/
theorem caloric_exchanger {V P dP T m m' h f g Q : ℝ} (hR : 0 < R) (hP : 0 < P) (hT : 0 < T)
    (hm : massRate V (P / (R * T)) (1 / (R * T)) 0 0 dP 0 = m - m')
    (he : energyRate V (P / (R * T)) (h - R * T + w) (1 / (R * T)) 0 0 0 0 dP 0 = f * m - g * m' - Q) :
    V * (P / (R * T)) * (-(R * (dP / P))) = -((h - f) * m - (h - g) * m' + w * (m - m') + Q) / T := by
  unfold massRate at hm
  unfold energyRate at he
  have hm' : V * dP = (m - m') * (R * T) := by
    field_simp at hm ⊢
    linarith
  have he' : (h - R * T + w) * (m - m') = f * m - g * m' - Q := by
    rw [← he, ← hm]; ring
  have : V * (P / (R * T)) * (-(R * (dP / P))) = -(V * dP / T) := by field_simp
  rw [this, hm']
  field_simp
  linear_combination he'

/-- Entropy of the gas in the engine. -/
noncomputable def caloricEntropy (r : Run ℝ) (R : ℝ) (σ : ℝ → ℝ) (y : ℝ → Conditions ℝ) (t : ℝ) : ℝ :=
  compGas r y t * (σ (y t).T_c - R * Real.log (y t).P) + chxGas r y t * (σ r.temp.chx - R * Real.log (y t).P)
    + regenGas r y t * (σ r.temp.regen.avg - R * Real.log (y t).P) + hhxGas r y t * (σ r.temp.hhx - R * Real.log (y t).P)
    + expGas r y t * (σ (y t).T_e - R * Real.log (y t).P)

theorem caloric_masses (hg : CaloricGas r.fluid R w cp H σ E) (hU : Sound r.solver) (hn : r.enth_norm ≠ 0)
    (h : Follows r y t s)
    (hV : HasDerivAt (fun t => (r.ws_vol_fn t).1.value) (r.ws_vol_fn t).1.deriv t ∧
      HasDerivAt (fun t => (r.ws_vol_fn t).2.value) (r.ws_vol_fn t).2.deriv t)
    (hc : 0 < (y t).T_c) (he : 0 < (y t).T_e) :
    HasDerivWithinAt (compGas r y) (-s.m_dot_ck) (Ici t) t ∧
    HasDerivWithinAt (chxGas r y) (s.m_dot_ck - s.m_dot_kr) (Ici t) t ∧
    HasDerivWithinAt (regenGas r y) (s.m_dot_kr - s.m_dot_rl) (Ici t) t ∧
    HasDerivWithinAt (hhxGas r y) (s.m_dot_rl - s.m_dot_le) (Ici t) t ∧
    HasDerivWithinAt (expGas r y) s.m_dot_le (Ici t) t := by
  obtain ⟨hint, hs⟩ := h.solved
  have b := C07_upwind_balances r.solver hU _ hn hint s hs
  have hR := hg.R_pos
  have dc : ∀ T : ℝ, HasDerivWithinAt (fun t => r.fluid.dens T (y t).P) (r.fluid.dd_dP_T T (y t).P * s.dP_dt) (Ici t) t := by
    intro T
    simp only [hg.dens, hg.dd_dP_T]
    exact (h.pres.div_const _).congr_deriv (by ring)
  have dv : ∀ (T : ℝ → ℝ) (T' : ℝ), HasDerivWithinAt T T' (Ici t) t → 0 < T t →
      HasDerivWithinAt (fun t => r.fluid.dens (T t) (y t).P)
        (r.fluid.dd_dP_T (T t) (y t).P * s.dP_dt + r.fluid.dd_dT_P (T t) (y t).P * T') (Ici t) t := by
    intro T T' hT h0
    simp only [hg.dens, hg.dd_dP_T, hg.dd_dT_P]
    refine (h.pres.div (hT.const_mul R) (mul_pos hR h0).ne').congr_deriv ?_
    field_simp
    ring
  refine ⟨?_, ?_, ?_, ?_, ?_⟩
  · refine (hV.1.hasDerivWithinAt.mul (dv _ _ h.comp hc)).congr_deriv ?_
    rw [← b.comp_mass]
    simp only [compMass, massRate, Run.calculate_inputs, Run.comp_inputs]
    ring
  · refine ((dc r.temp.chx).const_mul r.vol_chx).congr_deriv ?_
    rw [← b.chx_mass]
    simp only [chxMass, massRate, Run.calculate_inputs, Run.chx_inputs]
    ring
  · refine ((dc r.temp.regen.avg).const_mul r.vol_regen).congr_deriv ?_
    rw [← b.regen_mass]
    simp only [regenMass, massRate, Run.calculate_inputs, Run.regen_inputs]
    ring
  · refine ((dc r.temp.hhx).const_mul r.vol_hhx).congr_deriv ?_
    rw [← b.hhx_mass]
    simp only [hhxMass, massRate, Run.calculate_inputs, Run.hhx_inputs]
    ring
  · refine (hV.2.hasDerivWithinAt.mul (dv _ _ h.exp he)).congr_deriv ?_
    rw [← b.exp_mass]
    simp only [expMass, massRate, Run.calculate_inputs, Run.exp_inputs]
    ring

/-- Entropy made by a unit of gas of temperature `x` that enters a volume of temperature `z`. -/
noncomputable def caloricMixing (h σ : ℝ → ℝ) (x z : ℝ) : ℝ := (h x - h z) / z - (σ x - σ z)

theorem caloricMixing_nonneg (hcp : ∀ T, 0 < T → 0 < cp T) (hH : ∀ T, 0 < T → HasDerivAt H (cp T) T)
    (hσ : ∀ T, 0 < T → HasDerivAt σ (cp T / T) T) {x z : ℝ} (hx : 0 < x) (hz : 0 < z) : 0 ≤ caloricMixing H σ x z := by
  have d : ∀ T, 0 < T → HasDerivAt (fun T => caloricMixing H σ T z) (cp T / z - cp T / T) T := fun T hT =>
    (((hH T hT).sub_const _).div_const z).sub ((hσ T hT).sub_const _)
  have z0 : caloricMixing H σ z z = 0 := by simp [caloricMixing]
  rcases le_total z x with hzx | hxz
  · have mono : MonotoneOn (fun T => caloricMixing H σ T z) (Icc z x) := by
      refine monotoneOn_of_deriv_nonneg (convex_Icc z x) (fun T hT => (d T (hz.trans_le hT.1)).continuousAt.continuousWithinAt)
        (fun T hT => ?_) fun T hT => ?_
      all_goals rw [interior_Icc] at hT
      · exact (d T (hz.trans hT.1)).differentiableAt.differentiableWithinAt
      · rw [(d T (hz.trans hT.1)).deriv]
        have := div_le_div_of_nonneg_left (hcp T (hz.trans hT.1)).le hz hT.1.le
        linarith
    have := mono (left_mem_Icc.2 hzx) (right_mem_Icc.2 hzx) hzx
    simp only [z0] at this
    exact this
  · have anti : AntitoneOn (fun T => caloricMixing H σ T z) (Icc x z) := by
      refine antitoneOn_of_deriv_nonpos (convex_Icc x z) (fun T hT => (d T (hx.trans_le hT.1)).continuousAt.continuousWithinAt)
        (fun T hT => ?_) fun T hT => ?_
      all_goals rw [interior_Icc] at hT
      · exact (d T (hx.trans hT.1)).differentiableAt.differentiableWithinAt
      · rw [(d T (hx.trans hT.1)).deriv]
        have := div_le_div_of_nonneg_left (hcp T (hx.trans hT.1)).le (hx.trans hT.1) hT.2.le
        linarith
    have := anti (left_mem_Icc.2 hxz) (right_mem_Icc.2 hxz) hxz
    simp only [z0] at this
    exact this

/-- What heat, the regenerator's approaches and the disagreement `w` bring to the entropy of the gas. -/
noncomputable def caloricSupplied (r : Run ℝ) (w : ℝ) (h : ℝ → ℝ) (y : Conditions ℝ) (s : Solution ℝ) : ℝ :=
  heatOverTemp r y s + (h r.temp.regen.cold - h r.temp.chx) / r.temp.chx * max (-s.m_dot_kr) 0
    - (h r.temp.hhx - h r.temp.regen.hot) / r.temp.hhx * max s.m_dot_rl 0 + w * (s.m_dot_ck / y.T_c - s.m_dot_le / y.T_e)

/-- What is made where gas enters the exchangers and spaces. -/
noncomputable def caloricMade (r : Run ℝ) (h σ : ℝ → ℝ) (y : Conditions ℝ) (s : Solution ℝ) : ℝ :=
  (max s.m_dot_ck 0 * caloricMixing h σ y.T_c r.temp.chx + max (-s.m_dot_ck) 0 * caloricMixing h σ r.temp.chx y.T_c)
    + (max s.m_dot_le 0 * caloricMixing h σ r.temp.hhx y.T_e + max (-s.m_dot_le) 0 * caloricMixing h σ y.T_e r.temp.hhx)

/-- What is moved between volumes of constant temperature, nothing over a cycle. -/
noncomputable def caloricMoved (r : Run ℝ) (R w : ℝ) (σ : ℝ → ℝ) (s : Solution ℝ) : ℝ :=
  s.m_dot_ck * (-(w / r.temp.chx)) + s.m_dot_kr * (w / r.temp.chx - σ r.temp.chx + σ r.temp.regen.avg - R)
    + s.m_dot_rl * (-(w / r.temp.hhx) + σ r.temp.hhx - σ r.temp.regen.avg + R) + s.m_dot_le * (w / r.temp.hhx)

theorem caloric_faces (hg : CaloricGas r.fluid R w cp H σ E) (t : ℝ) (y : Conditions ℝ) (s : Solution ℝ) :
    (upwind (r.calculate_inputs t y) s).ck = faceTemp s.m_dot_ck (H y.T_c + E y.T_c) (H r.temp.chx + E r.temp.chx) ∧
    (upwind (r.calculate_inputs t y) s).kr
      = faceTemp s.m_dot_kr (H r.temp.chx + E r.temp.chx) (H r.temp.regen.cold + E r.temp.regen.cold) ∧
    (upwind (r.calculate_inputs t y) s).rl
      = faceTemp s.m_dot_rl (H r.temp.regen.hot + E r.temp.regen.hot) (H r.temp.hhx + E r.temp.hhx) ∧
    (upwind (r.calculate_inputs t y) s).le = faceTemp s.m_dot_le (H r.temp.hhx + E r.temp.hhx) (H y.T_e + E y.T_e) := by
  simp only [upwind, faceTemp, Run.calculate_inputs, Run.comp_inputs, Run.chx_inputs, Run.regen_inputs, Run.hhx_inputs,
    Run.exp_inputs, hg.enth]
  exact ⟨trivial, trivial, trivial, trivial⟩

theorem caloric_entropy_rate (hg : CaloricGas r.fluid R w cp H σ E) (hU : Sound r.solver) (hn : r.enth_norm ≠ 0)
    (h : Follows r y t s)
    (hV : HasDerivAt (fun t => (r.ws_vol_fn t).1.value) (r.ws_vol_fn t).1.deriv t ∧
      HasDerivAt (fun t => (r.ws_vol_fn t).2.value) (r.ws_vol_fn t).2.deriv t)
    (hP : 0 < (y t).P) (hc : 0 < (y t).T_c) (he : 0 < (y t).T_e) (hk : 0 < r.temp.chx) (hl : 0 < r.temp.hhx) :
    HasDerivWithinAt (caloricEntropy r R σ y)
      (caloricSupplied r w (fun T => H T + E T) (y t) s + caloricMade r (fun T => H T + E T) σ (y t) s + caloricMoved r R w σ s)
      (Ici t) t := by
  obtain ⟨m1, m2, m3, m4, m5⟩ := caloric_masses hg hU hn h hV hc he
  have hR := hg.R_pos
  have const : ∀ T : ℝ, HasDerivWithinAt (fun t => σ T - R * Real.log (y t).P) (-(R * (s.dP_dt / (y t).P))) (Ici t) t := by
    intro T
    exact ((hasDerivWithinAt_const t (Ici t) (σ T)).sub ((h.pres.log hP.ne').const_mul R)).congr_deriv (by ring)
  have curve : ∀ (T : ℝ → ℝ) (T' : ℝ), HasDerivWithinAt T T' (Ici t) t → 0 < T t →
      HasDerivWithinAt (fun t => σ (T t) - R * Real.log (y t).P) (cp (T t) * (T' / T t) - R * (s.dP_dt / (y t).P)) (Ici t) t := by
    intro T T' hT h0
    exact (((hg.entropy _ h0).comp_hasDerivWithinAt t hT).sub ((h.pres.log hP.ne').const_mul R)).congr_deriv (by ring)
  have e1 := m1.mul (curve _ _ h.comp hc)
  have e2 := m2.mul (const r.temp.chx)
  have e3 := m3.mul (const r.temp.regen.avg)
  have e4 := m4.mul (const r.temp.hhx)
  have e5 := m5.mul (curve _ _ h.exp he)
  obtain ⟨hint, hs⟩ := h.solved
  have b := C07_upwind_balances r.solver hU _ hn hint s hs
  obtain ⟨fck, fkr, frl, fle⟩ := caloric_faces hg t (y t) s
  have c1 := b.comp_mass
  have c2 := b.comp_energy
  have k1 := b.chx_mass
  have k2 := b.chx_energy
  have r1 := b.regen_mass
  have l1 := b.hhx_mass
  have l2 := b.hhx_energy
  have x1 := b.exp_mass
  have x2 := b.exp_energy
  rw [fck] at c2
  rw [fck, fkr] at k2
  rw [frl, fle] at l2
  rw [fle] at x2
  simp only [compMass, compEnergy, chxMass, chxEnergy, regenMass, hhxMass, hhxEnergy, expMass, expEnergy,
    Run.calculate_inputs, Run.comp_inputs, Run.chx_inputs, Run.regen_inputs, Run.hhx_inputs, Run.exp_inputs,
    hg.dens, hg.inte, hg.dd_dP_T, hg.dd_dT_P, hg.du_dP_T, hg.du_dT_P] at c1 c2 k1 k2 r1 l1 l2 x1 x2
  have q1 := caloric_space (R := R) (w := w) hR hP hc c1 c2
  have q2 := caloric_exchanger (R := R) (w := w) hR hP hk k1 k2
  have q4 := caloric_exchanger (R := R) (w := w) (Q := -s.Q_dot_l)
    (f := faceTemp s.m_dot_rl (H r.temp.regen.hot + E r.temp.regen.hot) (H r.temp.hhx + E r.temp.hhx))
    (g := faceTemp s.m_dot_le (H r.temp.hhx + E r.temp.hhx) (H (y t).T_e + E (y t).T_e)) hR hP hl l1 (by rw [l2]; ring)
  have q5 := caloric_space (R := R) (w := w) (m := -s.m_dot_le)
    (f := faceTemp s.m_dot_le (H r.temp.hhx + E r.temp.hhx) (H (y t).T_e + E (y t).T_e)) (Q := r.ws_parasitics.exp.thermal)
    hR hP he (by rw [x1]; ring) (by rw [x2]; ring)
  have q3 : regenGas r y t * (-(R * (s.dP_dt / (y t).P))) = -(R * (s.m_dot_kr - s.m_dot_rl)) := by
    rw [← r1, regenGas, hg.dens, massRate]
    field_simp
    ring
  have d1 : compGas r y t = (r.ws_vol_fn t).1.value * ((y t).P / (R * (y t).T_c)) := by rw [compGas, hg.dens]
  have d2 : chxGas r y t = r.vol_chx * ((y t).P / (R * r.temp.chx)) := by rw [chxGas, hg.dens]
  have d4 : hhxGas r y t = r.vol_hhx * ((y t).P / (R * r.temp.hhx)) := by rw [hhxGas, hg.dens]
  have d5 : expGas r y t = (r.ws_vol_fn t).2.value * ((y t).P / (R * (y t).T_e)) := by rw [expGas, hg.dens]
  refine ((((e1.add e2).add e3).add e4).add e5).congr_deriv ?_
  rw [d1, q1, d2, q2, q3, d4, q4, d5, q5]
  have key : ∀ T m a b : ℝ, (T - faceTemp m a b) * m = T * m - (a * max m 0 - b * max (-m) 0) := by
    intro T m a b
    rw [← face_flow]; ring
  have key' : (H (y t).T_e + E (y t).T_e - faceTemp s.m_dot_le (H r.temp.hhx + E r.temp.hhx) (H (y t).T_e + E (y t).T_e)) * -s.m_dot_le
      = -((H (y t).T_e + E (y t).T_e) * s.m_dot_le
        - ((H r.temp.hhx + E r.temp.hhx) * max s.m_dot_le 0 - (H (y t).T_e + E (y t).T_e) * max (-s.m_dot_le) 0)) := by
    rw [← face_flow]; ring
  rw [key', key, key, key, key, key]
  have n1 := split_flow s.m_dot_ck
  have n2 := split_flow s.m_dot_kr
  have n3 := split_flow s.m_dot_rl
  have n4 := split_flow s.m_dot_le
  simp only [caloricSupplied, caloricMade, caloricMoved, caloricMixing, heatOverTemp]
  generalize max s.m_dot_ck 0 = p1 at *
  generalize max (-s.m_dot_ck) 0 = p1' at *
  generalize max s.m_dot_kr 0 = p2 at *
  generalize max (-s.m_dot_kr) 0 = p2' at *
  generalize max s.m_dot_rl 0 = p3 at *
  generalize max (-s.m_dot_rl) 0 = p3' at *
  generalize max s.m_dot_le 0 = p4 at *
  generalize max (-s.m_dot_le) 0 = p4' at *
  rw [n1, n2, n3, n4]
  clear * - hc he hk hl
  field_simp
  ring

/-- What the regenerator takes up, in terms of the flows through its two faces. -/
theorem caloric_regen_heat (hg : CaloricGas r.fluid R w cp H σ E) (hU : Sound r.solver) (hn : r.enth_norm ≠ 0)
    (h : Follows r y t s) :
    s.Q_dot_r = (H r.temp.hhx + E r.temp.hhx - (H r.temp.regen.hot + E r.temp.regen.hot)) * max s.m_dot_rl 0
        - (H r.temp.regen.cold + E r.temp.regen.cold - (H r.temp.chx + E r.temp.chx)) * max (-s.m_dot_kr) 0
      + (H r.temp.chx + E r.temp.chx - (H r.temp.regen.avg + E r.temp.regen.avg - R * r.temp.regen.avg + w)) * s.m_dot_kr
      - (H r.temp.hhx + E r.temp.hhx - (H r.temp.regen.avg + E r.temp.regen.avg - R * r.temp.regen.avg + w)) * s.m_dot_rl := by
  obtain ⟨hint, hs⟩ := h.solved
  have b := C07_upwind_balances r.solver hU _ hn hint s hs
  obtain ⟨-, fkr, frl, -⟩ := caloric_faces hg t (y t) s
  have r1 := b.regen_mass
  have r2 := b.regen_energy
  rw [fkr, frl] at r2
  simp only [regenMass, regenEnergy, massRate, energyRate, Run.calculate_inputs, Run.regen_inputs, hg.inte, hg.du_dP_T] at r1 r2
  have g2 := face_flow s.m_dot_kr (H r.temp.chx + E r.temp.chx) (H r.temp.regen.cold + E r.temp.regen.cold)
  have g3 := face_flow s.m_dot_rl (H r.temp.regen.hot + E r.temp.regen.hot) (H r.temp.hhx + E r.temp.hhx)
  have n2 := split_flow s.m_dot_kr
  have n3 := split_flow s.m_dot_rl
  linear_combination r2 - (H r.temp.regen.avg + E r.temp.regen.avg - R * r.temp.regen.avg + w) * r1 + g2 - g3
    - (H r.temp.chx + E r.temp.chx) * n2 + (H r.temp.hhx + E r.temp.hhx) * n3

/-- The energy of the gas changes by heat and work, and by what the error of the enthalpy moves with the gas. -/
theorem caloric_energy_rate (hg : CaloricGas r.fluid R w cp H σ E) (hU : Sound r.solver) (hn : r.enth_norm ≠ 0)
    (h : Follows r y t s)
    (hV : HasDerivAt (fun t => (r.ws_vol_fn t).1.value) (r.ws_vol_fn t).1.deriv t ∧
      HasDerivAt (fun t => (r.ws_vol_fn t).2.value) (r.ws_vol_fn t).2.deriv t)
    (hc : 0 < (y t).T_c) (he : 0 < (y t).T_e) :
    HasDerivWithinAt (fun t => compGas r y t * (H (y t).T_c - R * (y t).T_c + w) + chxGas r y t * (H r.temp.chx + E r.temp.chx - R * r.temp.chx + w)
        + regenGas r y t * (H r.temp.regen.avg + E r.temp.regen.avg - R * r.temp.regen.avg + w)
        + hhxGas r y t * (H r.temp.hhx + E r.temp.hhx - R * r.temp.hhx + w)
        + expGas r y t * (H (y t).T_e - R * (y t).T_e + w))
      (s.Q_dot_l - s.Q_dot_k - s.Q_dot_r - (r.ws_parasitics.comp.thermal + r.ws_parasitics.exp.thermal)
        - (y t).P * ((r.ws_vol_fn t).1.deriv + (r.ws_vol_fn t).2.deriv) + errorEnergy E (y t) s) (Ici t) t := by
  obtain ⟨m1, m2, m3, m4, m5⟩ := caloric_masses hg hU hn h hV hc he
  obtain ⟨hint, hs⟩ := h.solved
  have b := C07_upwind_balances r.solver hU _ hn hint s hs
  have curve : ∀ (T : ℝ → ℝ) (T' : ℝ), HasDerivWithinAt T T' (Ici t) t → 0 < T t →
      HasDerivWithinAt (fun t => H (T t) - R * T t + w) (cp (T t) * T' - R * T') (Ici t) t := fun T T' hT h0 =>
    (((hg.heat _ h0).comp_hasDerivWithinAt t hT).sub (hT.const_mul R)).add_const w
  have e1 := m1.mul (curve _ _ h.comp hc)
  have e5 := m5.mul (curve _ _ h.exp he)
  refine ((((e1.add (m2.mul_const _)).add (m3.mul_const _)).add (m4.mul_const _)).add e5).congr_deriv ?_
  have a1 := b.comp_mass
  have a2 := b.comp_energy
  have a3 := b.chx_mass
  have a4 := b.chx_energy
  have a5 := b.regen_mass
  have a6 := b.regen_energy
  have a7 := b.hhx_mass
  have a8 := b.hhx_energy
  have a9 := b.exp_mass
  have a10 := b.exp_energy
  generalize upwind (r.calculate_inputs t (y t)) s = f at *
  simp only [compMass, compEnergy, chxMass, chxEnergy, regenMass, regenEnergy, hhxMass, hhxEnergy, expMass, expEnergy,
    massRate, energyRate, Run.calculate_inputs, Run.comp_inputs, Run.chx_inputs, Run.regen_inputs, Run.hhx_inputs,
    Run.exp_inputs, hg.inte, hg.du_dP_T, hg.du_dT_P] at a1 a2 a3 a4 a5 a6 a7 a8 a9 a10
  simp only [compGas, expGas, errorEnergy]
  linear_combination a2 + a4 + a6 + a8 + a10 - (H (y t).T_c + E (y t).T_c - R * (y t).T_c + w) * a1
    - (H r.temp.chx + E r.temp.chx - R * r.temp.chx + w) * a3
    - (H r.temp.regen.avg + E r.temp.regen.avg - R * r.temp.regen.avg + w) * a5
    - (H r.temp.hhx + E r.temp.hhx - R * r.temp.hhx + w) * a7 - (H (y t).T_e + E (y t).T_e - R * (y t).T_e + w) * a9

end cells

section cycle

variable {r : Run ℝ} {R w : ℝ} {cp H σ E : ℝ → ℝ} {y : ℝ → Conditions ℝ} {s : ℝ → Solution ℝ} {a b : ℝ}

theorem caloric_continuous (hg : CaloricGas r.fluid R w cp H σ E) (h : ClosedCycle r y s a b) :
    ContinuousOn (compGas r y) (Icc a b) ∧ ContinuousOn (chxGas r y) (Icc a b) ∧ ContinuousOn (regenGas r y) (Icc a b) ∧
    ContinuousOn (hhxGas r y) (Icc a b) ∧ ContinuousOn (expGas r y) (Icc a b) := by
  have hR := hg.R_pos
  have v1 : Continuous fun t => (r.ws_vol_fn t).1.value := continuous_iff_continuousAt.2 fun t => (h.drive t).1.continuousAt
  have v2 : Continuous fun t => (r.ws_vol_fn t).2.value := continuous_iff_continuousAt.2 fun t => (h.drive t).2.continuousAt
  unfold compGas chxGas regenGas hhxGas expGas
  simp only [hg.dens]
  exact ⟨v1.continuousOn.fun_mul (h.regular.pres.div (continuousOn_const.fun_mul h.regular.comp)
      fun t ht => (mul_pos hR (h.regular.comp_pos t ht)).ne'),
    continuousOn_const.fun_mul (h.regular.pres.div_const _), continuousOn_const.fun_mul (h.regular.pres.div_const _),
    continuousOn_const.fun_mul (h.regular.pres.div_const _),
    v2.continuousOn.fun_mul (h.regular.pres.div (continuousOn_const.fun_mul h.regular.exp)
      fun t ht => (mul_pos hR (h.regular.exp_pos t ht)).ne')⟩

theorem caloric_flows (hg : CaloricGas r.fluid R w cp H σ E) (hU : Sound r.solver) (hn : r.enth_norm ≠ 0)
    (h : ClosedCycle r y s a b) :
    (∫ t in a..b, (s t).m_dot_ck = 0) ∧ (∫ t in a..b, (s t).m_dot_kr = 0) ∧ (∫ t in a..b, (s t).m_dot_rl = 0) ∧
      ∫ t in a..b, (s t).m_dot_le = 0 := by
  obtain ⟨g1, g2, g3, g4, g5⟩ := caloric_continuous hg h
  have rate := fun t (ht : t ∈ Ico a b) => caloric_masses hg hU hn (h.follows t ht) (h.drive t)
    (h.regular.comp_pos t (Ico_subset_Icc_self ht)) (h.regular.exp_pos t (Ico_subset_Icc_self ht))
  have z1 := zero_mean h g1 (fun t ht => (rate t ht).1) h.ck.neg (by simp only [compGas, h.closed, h.volumes.1])
  have z2 := zero_mean h g2 (fun t ht => (rate t ht).2.1) (h.ck.fun_sub h.kr) (by simp only [chxGas, h.closed])
  have z5 := zero_mean h g5 (fun t ht => (rate t ht).2.2.2.2) h.le' (by simp only [expGas, h.closed, h.volumes.2])
  have z4 := zero_mean h g4 (fun t ht => (rate t ht).2.2.2.1) (h.rl.fun_sub h.le') (by simp only [hhxGas, h.closed])
  have i1 := h.ck.intervalIntegrable_of_Icc h.le (μ := MeasureTheory.volume)
  have i2 := h.kr.intervalIntegrable_of_Icc h.le (μ := MeasureTheory.volume)
  have i3 := h.rl.intervalIntegrable_of_Icc h.le (μ := MeasureTheory.volume)
  have i4 := h.le'.intervalIntegrable_of_Icc h.le (μ := MeasureTheory.volume)
  rw [intervalIntegral.integral_neg] at z1
  rw [intervalIntegral.integral_sub i1 i2] at z2
  rw [intervalIntegral.integral_sub i3 i4] at z4
  exact ⟨by linarith, by linarith, by linarith, z5⟩


/-- **C85**, Clausius' inequality for an ideal gas whose heat capacity depends on the temperature, with an enthalpy `H + E` that may
differ from the integral `H` of the heat capacity: over a closed cycle the heat received over the temperature at which it is received,
plus what the approaches of the regenerator account for, sums to at most nothing - up to a term proportional to the disagreement `w`
of the internal energy with the enthalpy, and one for the error of the enthalpy. -/
theorem C85_gas_clausius (hg : CaloricGas r.fluid R w cp H σ E) (hU : Sound r.solver) (hn : r.enth_norm ≠ 0)
    (h : ClosedCycle r y s a b) (hk : 0 < r.temp.chx) (hl : 0 < r.temp.hhx) :
    (∫ t in a..b, heatOverTemp r (y t) (s t))
      + (H r.temp.regen.cold + E r.temp.regen.cold - (H r.temp.chx + E r.temp.chx)) / r.temp.chx
        * (∫ t in a..b, max (-(s t).m_dot_kr) 0)
      - (H r.temp.hhx + E r.temp.hhx - (H r.temp.regen.hot + E r.temp.regen.hot)) / r.temp.hhx
        * (∫ t in a..b, max (s t).m_dot_rl 0)
      ≤ -(w * ∫ t in a..b, ((s t).m_dot_ck / (y t).T_c - (s t).m_dot_le / (y t).T_e))
        - ∫ t in a..b, errorMade r E (y t) (s t) := by
  obtain ⟨g1, g2, g3, g4, g5⟩ := caloric_continuous hg h
  obtain ⟨f1, f2, f3, f4⟩ := caloric_flows hg hU hn h
  have cpos := fun t ht => (h.regular.comp_pos t ht).ne'
  have epos := fun t ht => (h.regular.exp_pos t ht).ne'
  have ppos := fun t ht => (h.pres_pos t ht).ne'
  have sub : ∀ F : ℝ → ℝ, ContinuousOn F (Ioi 0) → ∀ T : ℝ → ℝ, ContinuousOn T (Icc a b) → (∀ t ∈ Icc a b, 0 < T t) →
      ContinuousOn (fun t => F (T t)) (Icc a b) := fun F hF T hT h0 => hF.comp hT h0
  have σc : ContinuousOn σ (Ioi 0) := fun T hT => (hg.entropy T hT).continuousAt.continuousWithinAt
  have Hc : ContinuousOn H (Ioi 0) := fun T hT => (hg.heat T hT).continuousAt.continuousWithinAt
  have cl : ∀ T : ℝ → ℝ, ContinuousOn T (Icc a b) → (∀ t ∈ Icc a b, 0 < T t) →
      ContinuousOn (fun t => σ (T t) - R * Real.log (y t).P) (Icc a b) := fun T hT h0 =>
    (sub σ σc T hT h0).fun_sub (continuousOn_const.fun_mul (h.regular.pres.log ppos))
  have ck : ∀ T : ℝ, ContinuousOn (fun t => σ T - R * Real.log (y t).P) (Icc a b) := fun T =>
    continuousOn_const.fun_sub (continuousOn_const.fun_mul (h.regular.pres.log ppos))
  have hS : ContinuousOn (caloricEntropy r R σ y) (Icc a b) :=
    ((((g1.fun_mul (cl _ h.regular.comp h.regular.comp_pos)).fun_add (g2.fun_mul (ck _))).fun_add (g3.fun_mul (ck _))).fun_add
      (g4.fun_mul (ck _))).fun_add (g5.fun_mul (cl _ h.regular.exp h.regular.exp_pos))
  have pos : ∀ m : ℝ → ℝ, ContinuousOn m (Icc a b) → ContinuousOn (fun t => max (m t) 0) (Icc a b) := fun m hm =>
    hm.sup continuousOn_const
  have hH : ContinuousOn (fun t => heatOverTemp r (y t) (s t)) (Icc a b) :=
    (((h.Ql.div_const _).fun_sub (h.Qk.div_const _)).fun_sub (continuousOn_const.div h.regular.comp cpos)).sub
      (continuousOn_const.div h.regular.exp epos)
  have hw : ContinuousOn (fun t => (s t).m_dot_ck / (y t).T_c - (s t).m_dot_le / (y t).T_e) (Icc a b) :=
    (h.ck.div h.regular.comp cpos).fun_sub (h.le'.div h.regular.exp epos)
  have mixc : ∀ T T' : ℝ → ℝ, ContinuousOn T (Icc a b) → ContinuousOn T' (Icc a b) → (∀ t ∈ Icc a b, 0 < T t) →
      (∀ t ∈ Icc a b, 0 < T' t) → ContinuousOn (fun t => caloricMixing H σ (T t) (T' t)) (Icc a b) := fun T T' h1 h2 h3 h4 =>
    (((sub H Hc T h1 h3).fun_sub (sub H Hc T' h2 h4)).div h2 fun t ht => (h4 t ht).ne').fun_sub
      ((sub σ σc T h1 h3).fun_sub (sub σ σc T' h2 h4))
  have errc : ∀ T T' : ℝ → ℝ, ContinuousOn T (Icc a b) → ContinuousOn T' (Icc a b) → (∀ t ∈ Icc a b, 0 < T t) →
      (∀ t ∈ Icc a b, 0 < T' t) → ContinuousOn (fun t => (E (T t) - E (T' t)) / T' t) (Icc a b) := fun T T' h1 h2 h3 h4 =>
    ((sub E hg.error T h1 h3).fun_sub (sub E hg.error T' h2 h4)).div h2 fun t ht => (h4 t ht).ne'
  have hM : ContinuousOn (fun t => caloricMade r H σ (y t) (s t)) (Icc a b) :=
    (((pos _ h.ck).fun_mul (mixc _ _ h.regular.comp continuousOn_const h.regular.comp_pos fun _ _ => hk)).fun_add
      ((pos _ h.ck.fun_neg).fun_mul (mixc _ _ continuousOn_const h.regular.comp (fun _ _ => hk) h.regular.comp_pos))).fun_add
    (((pos _ h.le').fun_mul (mixc _ _ continuousOn_const h.regular.exp (fun _ _ => hl) h.regular.exp_pos)).fun_add
      ((pos _ h.le'.fun_neg).fun_mul (mixc _ _ h.regular.exp continuousOn_const h.regular.exp_pos fun _ _ => hl)))
  have hE : ContinuousOn (fun t => errorMade r E (y t) (s t)) (Icc a b) :=
    ((((pos _ h.ck).fun_mul (errc _ _ h.regular.comp continuousOn_const h.regular.comp_pos fun _ _ => hk)).fun_add
      ((pos _ h.ck.fun_neg).fun_mul (errc _ _ continuousOn_const h.regular.comp (fun _ _ => hk) h.regular.comp_pos))).fun_add
    ((pos _ h.le').fun_mul (errc _ _ continuousOn_const h.regular.exp (fun _ _ => hl) h.regular.exp_pos))).fun_add
      ((pos _ h.le'.fun_neg).fun_mul (errc _ _ h.regular.exp continuousOn_const h.regular.exp_pos fun _ _ => hl))
  have ii : ∀ {f : ℝ → ℝ}, ContinuousOn f (Icc a b) → IntervalIntegrable f MeasureTheory.volume a b := fun hf =>
    hf.intervalIntegrable_of_Icc h.le
  have hmv : ContinuousOn (fun t => caloricMoved r R w σ (s t)) (Icc a b) :=
    (((h.ck.fun_mul continuousOn_const).fun_add (h.kr.fun_mul continuousOn_const)).fun_add (h.rl.fun_mul continuousOn_const)).fun_add
      (h.le'.fun_mul continuousOn_const)
  have zmv : ∫ t in a..b, caloricMoved r R w σ (s t) = 0 := by
    unfold caloricMoved
    rw [intervalIntegral.integral_add (ii (((h.ck.fun_mul continuousOn_const).fun_add (h.kr.fun_mul continuousOn_const)).fun_add
        (h.rl.fun_mul continuousOn_const))) (ii (h.le'.fun_mul continuousOn_const)),
      intervalIntegral.integral_add (ii ((h.ck.fun_mul continuousOn_const).fun_add (h.kr.fun_mul continuousOn_const)))
        (ii (h.rl.fun_mul continuousOn_const)),
      intervalIntegral.integral_add (ii (h.ck.fun_mul continuousOn_const)) (ii (h.kr.fun_mul continuousOn_const)),
      intervalIntegral.integral_mul_const, intervalIntegral.integral_mul_const, intervalIntegral.integral_mul_const,
      intervalIntegral.integral_mul_const, f1, f2, f3, f4]
    ring
  have b1 := continuousOn_const (c := (H r.temp.regen.cold + E r.temp.regen.cold - (H r.temp.chx + E r.temp.chx)) / r.temp.chx)
    (s := Icc a b) |>.fun_mul (pos _ h.kr.fun_neg)
  have b2 := continuousOn_const (c := (H r.temp.hhx + E r.temp.hhx - (H r.temp.regen.hot + E r.temp.regen.hot)) / r.temp.hhx)
    (s := Icc a b) |>.fun_mul (pos _ h.rl)
  have b3 := continuousOn_const (c := w) (s := Icc a b) |>.fun_mul hw
  have zero := zero_mean h (f := caloricEntropy r R σ y) (f' := fun t => (((((heatOverTemp r (y t) (s t)
      + (H r.temp.regen.cold + E r.temp.regen.cold - (H r.temp.chx + E r.temp.chx)) / r.temp.chx * max (-(s t).m_dot_kr) 0)
      - (H r.temp.hhx + E r.temp.hhx - (H r.temp.regen.hot + E r.temp.regen.hot)) / r.temp.hhx * max (s t).m_dot_rl 0)
      + w * ((s t).m_dot_ck / (y t).T_c - (s t).m_dot_le / (y t).T_e))
      + caloricMade r H σ (y t) (s t)) + errorMade r E (y t) (s t)) + caloricMoved r R w σ (s t)) hS
    (fun t ht => by
      have ht' := Ico_subset_Icc_self ht
      refine (caloric_entropy_rate hg hU hn (h.follows t ht) (h.drive t) (h.pres_pos t ht') (h.regular.comp_pos t ht')
        (h.regular.exp_pos t ht') hk hl).congr_deriv ?_
      simp only [caloricSupplied, caloricMade, caloricMixing, errorMade]
      ring)
    ((((((hH.fun_add b1).fun_sub b2).fun_add b3).fun_add hM).fun_add hE).fun_add hmv)
    (by simp only [caloricEntropy, compGas, chxGas, regenGas, hhxGas, expGas, h.closed, h.volumes.1, h.volumes.2])
  rw [intervalIntegral.integral_add (ii (((((hH.fun_add b1).fun_sub b2).fun_add b3).fun_add hM).fun_add hE)) (ii hmv),
    intervalIntegral.integral_add (ii ((((hH.fun_add b1).fun_sub b2).fun_add b3).fun_add hM)) (ii hE),
    intervalIntegral.integral_add (ii (((hH.fun_add b1).fun_sub b2).fun_add b3)) (ii hM),
    intervalIntegral.integral_add (ii ((hH.fun_add b1).fun_sub b2)) (ii b3),
    intervalIntegral.integral_sub (ii (hH.fun_add b1)) (ii b2), intervalIntegral.integral_add (ii hH) (ii b1),
    intervalIntegral.integral_const_mul, intervalIntegral.integral_const_mul, intervalIntegral.integral_const_mul,
    zmv] at zero
  have hmade : 0 ≤ ∫ t in a..b, caloricMade r H σ (y t) (s t) := by
    refine intervalIntegral.integral_nonneg h.le fun t ht => ?_
    have c := h.regular.comp_pos t ht
    have e := h.regular.exp_pos t ht
    have mix := fun {x z : ℝ} (hx : 0 < x) (hz : 0 < z) => caloricMixing_nonneg hg.cp_pos hg.heat hg.entropy hx hz
    unfold caloricMade
    have := mix c hk
    have := mix hk c
    have := mix hl e
    have := mix e hl
    have := le_max_right (s t).m_dot_ck 0
    have := le_max_right (-(s t).m_dot_ck) 0
    have := le_max_right (s t).m_dot_le 0
    have := le_max_right (-(s t).m_dot_le) 0
    positivity
  linarith

/-- The heat the regenerator takes up over a closed cycle. -/
theorem caloric_regen_cycle (hg : CaloricGas r.fluid R w cp H σ E) (hU : Sound r.solver) (hn : r.enth_norm ≠ 0)
    (h : ClosedCycle r y s a b) :
    ∫ t in a..b, (s t).Q_dot_r
      = (H r.temp.hhx + E r.temp.hhx - (H r.temp.regen.hot + E r.temp.regen.hot)) * (∫ t in a..b, max (s t).m_dot_rl 0)
      - (H r.temp.regen.cold + E r.temp.regen.cold - (H r.temp.chx + E r.temp.chx)) * ∫ t in a..b, max (-(s t).m_dot_kr) 0 := by
  obtain ⟨-, f2, f3, -⟩ := caloric_flows hg hU hn h
  have ii : ∀ {f : ℝ → ℝ}, ContinuousOn f (Icc a b) → IntervalIntegrable f MeasureTheory.volume a b := fun hf =>
    hf.intervalIntegrable_of_Icc h.le
  have pos : ∀ m : ℝ → ℝ, ContinuousOn m (Icc a b) → ContinuousOn (fun t => max (m t) 0) (Icc a b) := fun m hm =>
    hm.sup continuousOn_const
  have c1 := (continuousOn_const (c := H r.temp.hhx + E r.temp.hhx - (H r.temp.regen.hot + E r.temp.regen.hot))
    (s := Icc a b)).fun_mul (pos _ h.rl)
  have c2 := (continuousOn_const (c := H r.temp.regen.cold + E r.temp.regen.cold - (H r.temp.chx + E r.temp.chx))
    (s := Icc a b)).fun_mul (pos _ h.kr.fun_neg)
  have c4 := (continuousOn_const (c := H r.temp.chx + E r.temp.chx
    - (H r.temp.regen.avg + E r.temp.regen.avg - R * r.temp.regen.avg + w)) (s := Icc a b)).fun_mul h.kr
  have c5 := (continuousOn_const (c := H r.temp.hhx + E r.temp.hhx
    - (H r.temp.regen.avg + E r.temp.regen.avg - R * r.temp.regen.avg + w)) (s := Icc a b)).fun_mul h.rl
  have e := MeasureTheory.setIntegral_congr_fun (μ := MeasureTheory.volume) (measurableSet_Ioo (a := a) (b := b))
    fun t ht => caloric_regen_heat hg hU hn (h.follows t (Ioo_subset_Ico_self ht))
  rw [← MeasureTheory.integral_Ioc_eq_integral_Ioo, ← MeasureTheory.integral_Ioc_eq_integral_Ioo,
    ← intervalIntegral.integral_of_le h.le, ← intervalIntegral.integral_of_le h.le] at e
  rw [e, intervalIntegral.integral_sub (ii ((c1.fun_sub c2).fun_add c4)) (ii c5),
    intervalIntegral.integral_add (ii (c1.fun_sub c2)) (ii c4), intervalIntegral.integral_sub (ii c1) (ii c2),
    intervalIntegral.integral_const_mul, intervalIntegral.integral_const_mul, intervalIntegral.integral_const_mul,
    intervalIntegral.integral_const_mul, f2, f3]
  ring

/-- **C85**, first law for such a gas: over a closed cycle the work is the heat, and what the error of the enthalpy brings. -/
theorem C85_gas_first_law (hg : CaloricGas r.fluid R w cp H σ E) (hU : Sound r.solver) (hn : r.enth_norm ≠ 0)
    (h : ClosedCycle r y s a b) :
    workOf r y a b = (∫ t in a..b, (s t).Q_dot_l) - (∫ t in a..b, (s t).Q_dot_k) - (∫ t in a..b, (s t).Q_dot_r)
      - (b - a) * (r.ws_parasitics.comp.thermal + r.ws_parasitics.exp.thermal) + ∫ t in a..b, errorEnergy E (y t) (s t) := by
  obtain ⟨g1, g2, g3, g4, g5⟩ := caloric_continuous hg h
  have ii : ∀ {f : ℝ → ℝ}, ContinuousOn f (Icc a b) → IntervalIntegrable f MeasureTheory.volume a b := fun hf =>
    hf.intervalIntegrable_of_Icc h.le
  have sub : ∀ F : ℝ → ℝ, ContinuousOn F (Ioi 0) → ∀ T : ℝ → ℝ, ContinuousOn T (Icc a b) → (∀ t ∈ Icc a b, 0 < T t) →
      ContinuousOn (fun t => F (T t)) (Icc a b) := fun F hF T hT h0 => hF.comp hT h0
  have Hc : ContinuousOn H (Ioi 0) := fun T hT => (hg.heat T hT).continuousAt.continuousWithinAt
  have hE : ContinuousOn (fun t => errorEnergy E (y t) (s t)) (Icc a b) :=
    (h.ck.fun_mul (sub E hg.error _ h.regular.comp h.regular.comp_pos)).fun_sub
      (h.le'.fun_mul (sub E hg.error _ h.regular.exp h.regular.exp_pos))
  have hW : ContinuousOn (fun t => (y t).P * ((r.ws_vol_fn t).1.deriv + (r.ws_vol_fn t).2.deriv)) (Icc a b) :=
    h.regular.pres.fun_mul (h.rates.1.continuousOn.fun_add h.rates.2.continuousOn)
  have c0 := continuousOn_const (c := r.ws_parasitics.comp.thermal + r.ws_parasitics.exp.thermal) (s := Icc a b)
  have uc : ∀ T : ℝ → ℝ, ContinuousOn T (Icc a b) → (∀ t ∈ Icc a b, 0 < T t) →
      ContinuousOn (fun t => H (T t) - R * T t + w) (Icc a b) := fun T hT h0 =>
    ((sub H Hc T hT h0).fun_sub (continuousOn_const.fun_mul hT)).fun_add continuousOn_const
  have zero := zero_mean h
    (((((g1.fun_mul (uc _ h.regular.comp h.regular.comp_pos)).fun_add
      (g2.fun_mul continuousOn_const)).fun_add (g3.fun_mul continuousOn_const)).fun_add
      (g4.fun_mul continuousOn_const)).fun_add (g5.fun_mul (uc _ h.regular.exp h.regular.exp_pos)))
    (fun t ht => caloric_energy_rate hg hU hn (h.follows t ht) (h.drive t) (h.regular.comp_pos t (Ico_subset_Icc_self ht))
      (h.regular.exp_pos t (Ico_subset_Icc_self ht)))
    (((((h.Ql.fun_sub h.Qk).fun_sub h.Qr).fun_sub c0).fun_sub hW).fun_add hE)
    (by simp only [compGas, chxGas, regenGas, hhxGas, expGas, h.closed, h.volumes.1, h.volumes.2])
  rw [intervalIntegral.integral_add (ii ((((h.Ql.fun_sub h.Qk).fun_sub h.Qr).fun_sub c0).fun_sub hW)) (ii hE),
    intervalIntegral.integral_sub (ii (((h.Ql.fun_sub h.Qk).fun_sub h.Qr).fun_sub c0)) (ii hW),
    intervalIntegral.integral_sub (ii ((h.Ql.fun_sub h.Qk).fun_sub h.Qr)) (ii c0),
    intervalIntegral.integral_sub (ii (h.Ql.fun_sub h.Qk)) (ii h.Qr),
    intervalIntegral.integral_sub (ii h.Ql) (ii h.Qk), intervalIntegral.integral_const, smul_eq_mul] at zero
  unfold workOf
  linarith

/-- **C85**, work, for such a gas: Carnot's part of the heat received, up to the disagreement `w` and the error of the enthalpy. -/
theorem C85_gas_work_bound (hg : CaloricGas r.fluid R w cp H σ E) (hU : Sound r.solver) (hn : r.enth_norm ≠ 0)
    (h : ClosedCycle r y s a b) (hk : 0 < r.temp.chx) (hkl : r.temp.chx ≤ r.temp.hhx)
    (hcold : H r.temp.chx + E r.temp.chx ≤ H r.temp.regen.cold + E r.temp.regen.cold) (hr : ∫ t in a..b, (s t).Q_dot_r = 0)
    (hq : r.ws_parasitics.comp.thermal = 0 ∧ r.ws_parasitics.exp.thermal = 0) :
    workOf r y a b ≤ (1 - r.temp.chx / r.temp.hhx) * (∫ t in a..b, (s t).Q_dot_l)
      - r.temp.chx * (w * (∫ t in a..b, ((s t).m_dot_ck / (y t).T_c - (s t).m_dot_le / (y t).T_e))
        + ∫ t in a..b, errorMade r E (y t) (s t)) + ∫ t in a..b, errorEnergy E (y t) (s t) := by
  have hl : 0 < r.temp.hhx := hk.trans_le hkl
  have c := C85_gas_clausius hg hU hn h hk hl
  have f := C85_gas_first_law hg hU hn h
  have q := caloric_regen_cycle hg hU hn h
  rw [hr] at q f
  rw [hq.1, hq.2] at f
  have hb : 0 ≤ ∫ t in a..b, max (-(s t).m_dot_kr) 0 :=
    intervalIntegral.integral_nonneg h.le fun t _ => le_max_right _ _
  have ii : ∀ {f : ℝ → ℝ}, ContinuousOn f (Icc a b) → IntervalIntegrable f MeasureTheory.volume a b := fun hf =>
    hf.intervalIntegrable_of_Icc h.le
  have e : ∫ t in a..b, heatOverTemp r (y t) (s t)
      = (∫ t in a..b, (s t).Q_dot_l) / r.temp.hhx - (∫ t in a..b, (s t).Q_dot_k) / r.temp.chx := by
    simp only [heatOverTemp, hq.1, hq.2, zero_div, sub_zero]
    rw [intervalIntegral.integral_sub (ii (h.Ql.div_const _)) (ii (h.Qk.div_const _)),
      intervalIntegral.integral_div, intervalIntegral.integral_div]
  rw [e] at c
  generalize (∫ t in a..b, max (-(s t).m_dot_kr) 0) = B at *
  generalize (∫ t in a..b, max (s t).m_dot_rl 0) = A at *
  generalize (∫ t in a..b, (s t).Q_dot_l) = Ql at *
  generalize (∫ t in a..b, (s t).Q_dot_k) = Qk at *
  generalize (∫ t in a..b, errorMade r E (y t) (s t)) = X at *
  generalize (∫ t in a..b, errorEnergy E (y t) (s t)) = Y at *
  generalize (∫ t in a..b, ((s t).m_dot_ck / (y t).T_c - (s t).m_dot_le / (y t).T_e)) = D at *
  have hG := sub_nonneg.2 hcold
  generalize H r.temp.regen.cold + E r.temp.regen.cold - (H r.temp.chx + E r.temp.chx) = G at *
  generalize H r.temp.hhx + E r.temp.hhx - (H r.temp.regen.hot + E r.temp.regen.hot) = F at *
  have hx : G / r.temp.chx * B - F / r.temp.hhx * A = G * B * (1 / r.temp.chx - 1 / r.temp.hhx) := by
    rw [div_mul_eq_mul_div, div_mul_eq_mul_div, show F * A = G * B by linarith]; ring
  have hx' : 0 ≤ G * B * (1 / r.temp.chx - 1 / r.temp.hhx) :=
    mul_nonneg (mul_nonneg hG hb) (sub_nonneg.2 (one_div_le_one_div_of_le hk hkl))
  have c' : Ql / r.temp.hhx - Qk / r.temp.chx ≤ -(w * D) - X := by linarith
  have c'' := mul_le_mul_of_nonneg_left c' hk.le
  have : r.temp.chx * (Ql / r.temp.hhx - Qk / r.temp.chx) = r.temp.chx / r.temp.hhx * Ql - Qk := by
    field_simp
  rw [this] at c''
  rw [f]
  linarith

/-- **C85**, Carnot, for any ideal gas - its heat capacity may depend on the temperature - whose enthalpy is the integral of its heat
capacity, up to a constant, and exceeds its internal energy by `P / ρ`. -/
theorem C85_gas_carnot {h0 : ℝ} (hg : CaloricGas r.fluid R 0 cp H σ fun _ => h0) (hU : Sound r.solver) (hn : r.enth_norm ≠ 0)
    (h : ClosedCycle r y s a b) (hk : 0 < r.temp.chx) (hkl : r.temp.chx ≤ r.temp.hhx)
    (hcold : r.temp.chx ≤ r.temp.regen.cold) (hr : ∫ t in a..b, (s t).Q_dot_r = 0)
    (hq : r.ws_parasitics.comp.thermal = 0 ∧ r.ws_parasitics.exp.thermal = 0) :
    workOf r y a b ≤ (1 - r.temp.chx / r.temp.hhx) * ∫ t in a..b, (s t).Q_dot_l := by
  have mono : MonotoneOn H (Icc r.temp.chx r.temp.regen.cold) := by
    refine monotoneOn_of_deriv_nonneg (convex_Icc _ _) (fun T hT => (hg.heat T (hk.trans_le hT.1)).continuousAt.continuousWithinAt)
      (fun T hT => ?_) fun T hT => ?_
    all_goals rw [interior_Icc] at hT
    · exact (hg.heat T (hk.trans hT.1)).differentiableAt.differentiableWithinAt
    · rw [(hg.heat T (hk.trans hT.1)).deriv]
      exact (hg.cp_pos T (hk.trans hT.1)).le
  have cold := mono (left_mem_Icc.2 hcold) (right_mem_Icc.2 hcold) hcold
  have key := C85_gas_work_bound hg hU hn h hk hkl (by simpa using cold) hr hq
  obtain ⟨f1, -, -, f4⟩ := caloric_flows hg hU hn h
  have z1 : ∀ t, errorMade r (fun _ => h0) (y t) (s t) = 0 := fun t => by simp [errorMade]
  have z2 : ∫ t in a..b, errorEnergy (fun _ => h0) (y t) (s t) = 0 := by
    simp only [errorEnergy]
    rw [intervalIntegral.integral_sub ((h.ck.fun_mul continuousOn_const).intervalIntegrable_of_Icc h.le)
      ((h.le'.fun_mul continuousOn_const).intervalIntegrable_of_Icc h.le), intervalIntegral.integral_mul_const,
      intervalIntegral.integral_mul_const, f1, f4]
    ring
  rw [z2] at key
  simp only [z1, intervalIntegral.integral_zero] at key
  linarith

end cycle

/-! ## The gases of the crate -/

/-- Average of the heat capacity up to `T`: the polynomial the code multiplies by `T - Tref` (`enth_coefs`). -/
noncomputable def heatAverage (n : GasName) (T : ℝ) : ℝ :=
  let c := (IdealGas.new n : IdealGas ℝ).cp_coefs
  c.c0 + c.c1 / 2 * T + c.c2 / 3 * T ^ 2 + c.c3 / 4 * T ^ 3 + c.c4 / 5 * T ^ 4 + c.c5 / 6 * T ^ 5

/-- Temperature part of the specific entropy: an integral of `cp / T`. -/
noncomputable def heatEntropy (n : GasName) (T : ℝ) : ℝ :=
  let c := (IdealGas.new n : IdealGas ℝ).cp_coefs
  c.c0 * Real.log T + c.c1 * T + c.c2 / 2 * T ^ 2 + c.c3 / 3 * T ^ 3 + c.c4 / 4 * T ^ 4 + c.c5 / 5 * T ^ 5

/-- Both gases of the crate are ideal gases whose enthalpy is off by `-250` times the average heat capacity, constant for helium only. -/
theorem crate_caloric (n : GasName) : CaloricGas (IdealGas.new n : IdealGas ℝ).toFluid (IdealGas.new n : IdealGas ℝ).gas_constant
    ((IdealGas.new n : IdealGas ℝ).gas_constant * 250) (fun T => (IdealGas.new n : IdealGas ℝ).cp T 0)
    (fun T => T * heatAverage n T) (heatEntropy n) fun T => -(250 * heatAverage n T) where
  R_pos := IdealGas.gas_constant_pos n
  cp_pos := fun T hT => by
    have := IdealGas.cv_pos n T hT
    have := IdealGas.gas_constant_pos n
    linarith
  heat := fun T _ => by
    have hp : ∀ k : ℕ, HasDerivAt (fun T : ℝ => T ^ k) (k * T ^ (k - 1)) T := fun k => hasDerivAt_pow k T
    have hid := hasDerivAt_id' T
    generalize hg : (IdealGas.new n : IdealGas ℝ) = g
    have h2 := ((((((hid.const_mul (g.cp_coefs.c1 / 2)).const_add g.cp_coefs.c0).fun_add
      ((hp 2).const_mul (g.cp_coefs.c2 / 3))).fun_add ((hp 3).const_mul (g.cp_coefs.c3 / 4))).fun_add
      ((hp 4).const_mul (g.cp_coefs.c4 / 5))).fun_add ((hp 5).const_mul (g.cp_coefs.c5 / 6)))
    simp only [heatAverage, hg]
    refine (hid.fun_mul h2).congr_deriv ?_
    simp only [IdealGas.cp, poly]
    push_cast
    ring
  entropy := fun T hT => by
    have hp : ∀ k : ℕ, HasDerivAt (fun T : ℝ => T ^ k) (k * T ^ (k - 1)) T := fun k => hasDerivAt_pow k T
    have hid := hasDerivAt_id' T
    generalize hg : (IdealGas.new n : IdealGas ℝ) = g
    have h2 := (((((((Real.hasDerivAt_log hT.ne').const_mul g.cp_coefs.c0).fun_add (hid.const_mul g.cp_coefs.c1)).fun_add
      ((hp 2).const_mul (g.cp_coefs.c2 / 2))).fun_add ((hp 3).const_mul (g.cp_coefs.c3 / 3))).fun_add
      ((hp 4).const_mul (g.cp_coefs.c4 / 4))).fun_add ((hp 5).const_mul (g.cp_coefs.c5 / 5)))
    unfold heatEntropy
    simp only [hg]
    refine h2.congr_deriv ?_
    simp only [IdealGas.cp, poly]
    push_cast
    field_simp
    ring
  error := by unfold heatAverage; fun_prop
  dens := fun T P => rfl
  enth := fun T P => by
    show (IdealGas.new n : IdealGas ℝ).enth T P = _
    rw [IdealGas.enth_eq, IdealGas.ref_temp_eq]
    simp only [heatAverage]
    ring
  inte := fun T P => by
    show (IdealGas.new n : IdealGas ℝ).inte T P = _
    rw [IdealGas.inte, IdealGas.enth_eq, IdealGas.ref_temp_eq]
    simp only [heatAverage]
    ring
  dd_dP_T := fun T P => by
    simp only [IdealGas.toFluid, IdealGas.dd_dP_T]
    scalars
  dd_dT_P := fun T P => by
    simp only [IdealGas.toFluid, IdealGas.dd_dT_P]
    scalars
  du_dP_T := fun T P => by
    simp only [IdealGas.toFluid, IdealGas.du_dP_T]
    scalars
  du_dT_P := fun T P => rfl

/-- **C85**, what holds of both gases of the crate: Carnot's bound up to the terms of findings 1 and 2 - the reference temperature
of the internal energy, and the error of the enthalpy - none of which need vanish. -/
theorem C85_crate_partial {r : Run ℝ} {y : ℝ → Conditions ℝ} {s : ℝ → Solution ℝ} {a b : ℝ} (n : GasName)
    (hf : r.fluid = (IdealGas.new n : IdealGas ℝ).toFluid) (hU : Sound r.solver)
    (hn : r.enth_norm ≠ 0) (h : ClosedCycle r y s a b) (hk : 0 < r.temp.chx) (hkl : r.temp.chx ≤ r.temp.hhx)
    (hcold : ∀ P, r.fluid.enth r.temp.chx P ≤ r.fluid.enth r.temp.regen.cold P) (hr : ∫ t in a..b, (s t).Q_dot_r = 0)
    (hq : r.ws_parasitics.comp.thermal = 0 ∧ r.ws_parasitics.exp.thermal = 0) :
    workOf r y a b ≤ (1 - r.temp.chx / r.temp.hhx) * (∫ t in a..b, (s t).Q_dot_l)
      - r.temp.chx * ((IdealGas.new n : IdealGas ℝ).gas_constant * 250
          * (∫ t in a..b, ((s t).m_dot_ck / (y t).T_c - (s t).m_dot_le / (y t).T_e))
        + ∫ t in a..b, errorMade r (fun T => -(250 * heatAverage n T)) (y t) (s t))
      + ∫ t in a..b, errorEnergy (fun T => -(250 * heatAverage n T)) (y t) (s t) := by
  have hg := crate_caloric n
  rw [← hf] at hg
  refine C85_gas_work_bound hg hU hn h hk hkl ?_ hr hq
  have := hcold 0
  rwa [hg.enth, hg.enth] at this

end Sett
