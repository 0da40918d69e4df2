import Verif.Props.Forever
import Verif.Props.IsentropicGasExample

/-! # C108: how long the gas moves if its heat capacity depends on the temperature -/

namespace Sett

open Spec state_equations Set

section caloric

variable {r : Run ℝ} {R w : ℝ} {cp H σ E : ℝ → ℝ}

/-- The flow out of a space in terms of the rates of volume and pressure. -/
theorem caloric_flow {V dV P dP T dT m h f c Q : ℝ} (hR : 0 < R) (hT : 0 < T)
    (hm : massRate V (P / (R * T)) (1 / (R * T)) (-P / (R * T ^ 2)) dV dP dT = -m)
    (he : energyRate V (P / (R * T)) (h - R * T + w) (1 / (R * T)) (-P / (R * T ^ 2)) 0 (c - R) dV dP dT
      = -f * m - P * dV - Q) :
    m * (f - h + T * c - w) = -(c / R * (P * dV)) - (c / R - 1) * (V * dP) - Q := by
  unfold massRate at hm
  unfold energyRate at he
  have hm' : V * P * dT / T = P * dV + m * (R * T) + V * dP := by
    field_simp at hm ⊢
    linarith
  have he' : (c - R) / R * (V * P * dT / T) + (h - R * T + w) * (-m) = -f * m - P * dV - Q := by
    rw [← he, ← hm]
    field_simp
    ring
  rw [hm'] at he'
  field_simp at he' ⊢
  linear_combination he'

/-- How the energy of gas at a temperature compares to what gas of a face brings. -/
structure Margin (R w β θ : ℝ) (cp h : ℝ → ℝ) (x : ℝ) : Prop where
  out : ∀ T, θ ≤ T → β * cp T ≤ T * cp T - w
  into : ∀ T, θ ≤ T → β * cp T ≤ h x - h T + T * cp T - w
  hotter : ∀ T, x ≤ T → h x ≤ h T + w

/-- How fast the entropies can grow where the gas is warmer than `θ`. -/
theorem caloric_rates (hg : CaloricGas r.fluid R w cp H σ E) (hU : Sound r.solver) (hn : r.enth_norm ≠ 0) (hq : NoParasiticHeat r)
    {y : ℝ → Conditions ℝ} {t : ℝ} {s : Solution ℝ}
    {Vmin Vmax W θ β Pmin Pmax : ℝ} (hv : Vessel r Vmax) (hk0 : 0 < r.vol_chx) (hRc : ∀ T, 0 < T → R < cp T) (hw : 0 ≤ w) (hβ : 0 < β)
    (hk : Margin R w β θ cp (fun T => H T + E T) r.temp.chx) (hl : Margin R w β θ cp (fun T => H T + E T) r.temp.hhx) (hV : 0 < Vmin)
    (hV1 : Vmin ≤ (r.ws_vol_fn t).1.value) (hV2 : Vmin ≤ (r.ws_vol_fn t).2.value)
    (hW1 : |(r.ws_vol_fn t).1.deriv| ≤ W) (hW2 : |(r.ws_vol_fn t).2.deriv| ≤ W)
    (h : Follows r y t s) (hPm : 0 < Pmin) (hP1 : Pmin ≤ (y t).P) (hP2 : (y t).P ≤ Pmax) (hc0 : 0 < (y t).T_c) (he0 : 0 < (y t).T_e)
    (hc : θ ≤ (y t).T_c) (he : θ ≤ (y t).T_e) :
    (r.temp.chx ≤ (y t).T_c → cp (y t).T_c * (s.dTc_dt / (y t).T_c) - R * (s.dP_dt / (y t).P)
      ≤ (Pmax * W + Vmax * (2 * Pmax * W / (β * (r.vol_chx / r.temp.chx)))) / (R * β) * w * R / (Pmin * Vmin)) ∧
    (r.temp.hhx ≤ (y t).T_e → cp (y t).T_e * (s.dTe_dt / (y t).T_e) - R * (s.dP_dt / (y t).P)
      ≤ (Pmax * W + Vmax * (2 * Pmax * W / (β * (r.vol_chx / r.temp.chx)))) / (R * β) * w * R / (Pmin * Vmin)) := by
  have hR := hg.R_pos
  have hP : 0 < (y t).P := hPm.trans_le hP1
  have hPx : 0 < Pmax := hP.trans_le hP2
  have hW0 : 0 ≤ W := (abs_nonneg _).trans hW1
  have hVx : 0 < Vmax := hV.trans_le (hV1.trans (hv.comp t).2)
  obtain ⟨hint, hs⟩ := h.solved
  have b := C07_upwind_balances r.solver hU _ hn hint s hs
  obtain ⟨fck, -, -, fle⟩ := caloric_faces hg t (y t) s
  have c1 := b.comp_mass
  have c2 := b.comp_energy
  have x1 := b.exp_mass
  have x2 := b.exp_energy
  have k1 := b.chx_mass
  have r1 := b.regen_mass
  have l1 := b.hhx_mass
  rw [fck] at c2
  rw [fle] at x2
  simp only [compMass, compEnergy, expMass, expEnergy, chxMass, regenMass, hhxMass, Run.calculate_inputs, Run.comp_inputs,
    Run.chx_inputs, Run.regen_inputs, Run.hhx_inputs, Run.exp_inputs, hg.dens, hg.inte, hg.dd_dP_T, hg.dd_dT_P,
    hg.du_dP_T, hg.du_dT_P] at c1 c2 x1 x2 k1 r1 l1
  have q1 := caloric_flow (R := R) (w := w) hR hc0 c1 c2
  have q2 := caloric_flow (R := R) (w := w) (m := -s.m_dot_le) (f := faceTemp s.m_dot_le (H r.temp.hhx + E r.temp.hhx)
    (H (y t).T_e + E (y t).T_e)) (Q := r.ws_parasitics.exp.thermal) hR he0 (by rw [x1]; ring) (by rw [x2]; ring)
  rw [hq.comp, sub_zero] at q1
  rw [hq.exp, sub_zero] at q2
  set Xc := faceTemp s.m_dot_ck (H (y t).T_c + E (y t).T_c) (H r.temp.chx + E r.temp.chx) - (H (y t).T_c + E (y t).T_c)
    + (y t).T_c * cp (y t).T_c - w with hXc
  set Xe := faceTemp s.m_dot_le (H r.temp.hhx + E r.temp.hhx) (H (y t).T_e + E (y t).T_e) - (H (y t).T_e + E (y t).T_e)
    + (y t).T_e * cp (y t).T_e - w with hXe
  have bXc : β * cp (y t).T_c ≤ Xc := by
    have o := hk.out _ hc
    have i := hk.into _ hc
    rw [hXc, faceTemp]
    split <;> linarith
  have bXe : β * cp (y t).T_e ≤ Xe := by
    have o := hl.out _ he
    have i := hl.into _ he
    rw [hXe, faceTemp]
    split <;> linarith
  -- flows per rate of volume and of pressure
  have coef : ∀ {T X : ℝ}, 0 < T → β * cp T ≤ X → 0 < X ∧ (0 ≤ cp T / R / X ∧ cp T / R / X ≤ 1 / (R * β)) ∧
      (0 ≤ (cp T / R - 1) / X ∧ (cp T / R - 1) / X ≤ 1 / (R * β)) := by
    intro T X hT hX
    have hcT := hRc T hT
    have hcp : 0 < cp T := hR.trans hcT
    have hX0 : 0 < X := (mul_pos hβ hcp).trans_le hX
    have hα : 0 ≤ cp T / R - 1 := by rw [sub_nonneg, one_le_div hR]; exact hcT.le
    have up : cp T / R / X ≤ 1 / (R * β) := by
      rw [div_div, div_le_div_iff₀ (mul_pos hR hX0) (mul_pos hR hβ)]
      have := mul_le_mul_of_nonneg_left hX hR.le
      linarith
    refine ⟨hX0, ⟨by positivity, up⟩, div_nonneg hα hX0.le, le_trans ?_ up⟩
    gcongr
    linarith
  obtain ⟨pXc, ⟨uc0, uc1⟩, gc0, gc1⟩ := coef hc0 bXc
  obtain ⟨pXe, ⟨ue0, ue1⟩, ge0, ge1⟩ := coef he0 bXe
  have e1 : s.m_dot_ck = -(cp (y t).T_c / R / Xc * ((y t).P * (r.ws_vol_fn t).1.deriv))
      - (cp (y t).T_c / R - 1) / Xc * ((r.ws_vol_fn t).1.value * s.dP_dt) := by
    rw [eq_div_of_mul_eq pXc.ne' q1]; ring
  have e2 : -s.m_dot_le = -(cp (y t).T_e / R / Xe * ((y t).P * (r.ws_vol_fn t).2.deriv))
      - (cp (y t).T_e / R - 1) / Xe * ((r.ws_vol_fn t).2.value * s.dP_dt) := by
    rw [eq_div_of_mul_eq pXe.ne' q2]; ring
  set uc := cp (y t).T_c / R / Xc
  set gc := (cp (y t).T_c / R - 1) / Xc
  set ue := cp (y t).T_e / R / Xe
  set ge := (cp (y t).T_e / R - 1) / Xe
  -- the rate of the pressure
  set D := r.vol_chx / r.temp.chx with hD
  have hD0 : 0 < D := div_pos hk0 hv.chx_temp
  set D' := D + r.vol_regen / r.temp.regen.avg + r.vol_hhx / r.temp.hhx with hD'
  have hDD : D ≤ D' := by
    have := div_nonneg hv.regen hv.regen_temp.le
    have := div_nonneg hv.hhx hv.hhx_temp.le
    rw [hD']; linarith
  have sum : s.m_dot_ck - s.m_dot_le = D' * s.dP_dt / R := by
    have e : s.m_dot_ck - s.m_dot_le = (s.m_dot_ck - s.m_dot_kr) + (s.m_dot_kr - s.m_dot_rl) + (s.m_dot_rl - s.m_dot_le) := by ring
    rw [e, ← k1, ← r1, ← l1, hD', hD]
    simp only [massRate]
    have := hv.chx_temp.ne'; have := hv.regen_temp.ne'; have := hv.hhx_temp.ne'
    field_simp
    ring
  have vc := (hv.comp t).1
  have ve := (hv.exp t).1
  have total : s.dP_dt * (D' / R + (gc * (r.ws_vol_fn t).1.value + ge * (r.ws_vol_fn t).2.value))
      = -((y t).P * (uc * (r.ws_vol_fn t).1.deriv + ue * (r.ws_vol_fn t).2.deriv)) := by
    have h1 : s.m_dot_ck + -s.m_dot_le = D' * s.dP_dt / R := by rw [← sum]; ring
    rw [e1, e2] at h1
    have e3 : D' * s.dP_dt / R = s.dP_dt * (D' / R) := by ring
    rw [e3] at h1
    rw [mul_add, ← h1]
    ring
  have bP : |s.dP_dt| ≤ 2 * Pmax * W / (β * D) := by
    rw [le_div_iff₀ (mul_pos hβ hD0)]
    have g0 : D / R ≤ D' / R + (gc * (r.ws_vol_fn t).1.value + ge * (r.ws_vol_fn t).2.value) := by
      have : 0 ≤ gc * (r.ws_vol_fn t).1.value + ge * (r.ws_vol_fn t).2.value := by positivity
      have : D / R ≤ D' / R := by gcongr
      linarith
    have part : ∀ {u d : ℝ}, 0 ≤ u → u ≤ 1 / (R * β) → |d| ≤ W → |u * d| ≤ 1 / (R * β) * W := by
      intro u d h0 h1 h2
      rw [abs_mul, abs_of_nonneg h0]
      exact mul_le_mul h1 h2 (abs_nonneg _) (by positivity)
    have g1 : |s.dP_dt| * (D / R) ≤ Pmax * (1 / (R * β) * W + 1 / (R * β) * W) := by
      calc |s.dP_dt| * (D / R) ≤ |s.dP_dt| * (D' / R + (gc * (r.ws_vol_fn t).1.value + ge * (r.ws_vol_fn t).2.value)) :=
            mul_le_mul_of_nonneg_left g0 (abs_nonneg _)
        _ = |s.dP_dt * (D' / R + (gc * (r.ws_vol_fn t).1.value + ge * (r.ws_vol_fn t).2.value))| := by
            rw [abs_mul, abs_of_nonneg (a := D' / R + _) (le_trans (by positivity) g0)]
        _ = (y t).P * |uc * (r.ws_vol_fn t).1.deriv + ue * (r.ws_vol_fn t).2.deriv| := by
            rw [total, abs_neg, abs_mul, abs_of_pos hP]
        _ ≤ Pmax * (1 / (R * β) * W + 1 / (R * β) * W) := by
            gcongr
            exact (abs_add_le _ _).trans (add_le_add (part uc0 uc1 hW1) (part ue0 ue1 hW2))
    have g2 := mul_le_mul_of_nonneg_right g1 (mul_pos hR hβ).le
    have e3 : |s.dP_dt| * (D / R) * (R * β) = |s.dP_dt| * (β * D) := by field_simp
    have e4 : Pmax * (1 / (R * β) * W + 1 / (R * β) * W) * (R * β) = 2 * Pmax * W := by field_simp; ring
    rwa [e3, e4] at g2
  set B := 2 * Pmax * W / (β * D) with hB
  have hB0 : 0 ≤ B := by positivity
  have flow : ∀ {V dV u g : ℝ}, 0 < V → V ≤ Vmax → |dV| ≤ W → 0 ≤ u → u ≤ 1 / (R * β) → 0 ≤ g → g ≤ 1 / (R * β) →
      -(u * ((y t).P * dV)) - g * (V * s.dP_dt) ≤ (Pmax * W + Vmax * B) / (R * β) := by
    intro V dV u g hV hV' hdV u0 u1 g0 g1
    have i1 : |-(u * ((y t).P * dV)) - g * (V * s.dP_dt)| ≤ 1 / (R * β) * (Pmax * W) + 1 / (R * β) * (Vmax * B) := by
      refine (abs_sub _ _).trans (add_le_add ?_ ?_)
      · rw [abs_neg, abs_mul, abs_mul, abs_of_nonneg u0, abs_of_pos hP]
        gcongr
      · rw [abs_mul, abs_mul, abs_of_nonneg g0, abs_of_pos hV]
        gcongr
    have e : (Pmax * W + Vmax * B) / (R * β) = 1 / (R * β) * (Pmax * W) + 1 / (R * β) * (Vmax * B) := by ring
    rw [e]
    exact (le_abs_self _).trans i1
  set M := (Pmax * W + Vmax * B) / (R * β)
  have hM : 0 ≤ M := by positivity
  have finish : ∀ {V T S up down d : ℝ}, Vmin ≤ V → 0 < T → up ≤ M → 0 ≤ up → 0 ≤ down → d ≤ 0 →
      V * ((y t).P / (R * T)) * S = (up * w + down * d) / T → S ≤ M * w * R / (Pmin * Vmin) := by
    intro V T S up down d hV' hT hup hup0 hdown hd e
    have hV0 : 0 < V := hV.trans_le hV'
    have e' : S = (up * w + down * d) * R / ((y t).P * V) := by
      field_simp at e ⊢
      linarith
    have : down * d ≤ 0 := mul_nonpos_of_nonneg_of_nonpos hdown hd
    calc S ≤ up * w * R / ((y t).P * V) := by rw [e']; gcongr; linarith
      _ ≤ M * w * R / (Pmin * Vmin) := by gcongr
  constructor
  · intro hT
    have q := caloric_comp_rate hg hU hn hq h hP hc0
    rw [compGas, hg.dens] at q
    have d := hk.hotter _ hT
    refine finish hV1 hc0 (max_le ?_ hM) (le_max_right _ _) (le_max_right _ _) (by linarith) q
    rw [e1]
    exact flow vc (hv.comp t).2 hW1 uc0 uc1 gc0 gc1
  · intro hT
    have q := caloric_exp_rate hg hU hn hq h hP he0
    rw [expGas, hg.dens] at q
    have d := hl.hotter _ hT
    refine finish hV2 he0 (max_le ?_ hM) (le_max_right _ _) (le_max_right _ _) (by linarith) q
    rw [e2]
    exact flow ve (hv.exp t).2 hW2 ue0 ue1 ge0 ge1

/-- Within a given time the spaces do not get hotter than a bound that depends on the time. -/
theorem caloric_ceiling (hg : CaloricGas r.fluid R w cp H σ E) (hU : Sound r.solver) (hn : r.enth_norm ≠ 0)
    (hq : NoParasiticHeat r) {L : Limits} {θ β c Pmin Pmax : ℝ} (hv : Vessel r L.Vmax) (hk0 : 0 < r.vol_chx) (hw : DriveWithin r L)
    (hRc : R < c) (hc : ∀ T, 0 < T → c ≤ cp T) (hw0 : 0 ≤ w) (hβ : 0 < β) (hk : Margin R w β θ cp (fun T => H T + E T) r.temp.chx)
    (hl : Margin R w β θ cp (fun T => H T + E T) r.temp.hhx) (hPm : 0 < Pmin) (y₀ : Conditions ℝ) (b : ℝ) :
    ∃ Tmax, ∀ b' ≤ b, ∀ y, y 0 = y₀ → GasMotion r y 0 b' →
      (∀ t ∈ Icc 0 b', (Pmin ≤ (y t).P ∧ (y t).P ≤ Pmax) ∧ θ ≤ (y t).T_c ∧ θ ≤ (y t).T_e) →
      ∀ t ∈ Icc 0 b', (y t).T_c ≤ Tmax ∧ (y t).T_e ≤ Tmax := by
  set C := (Pmax * L.Wmax + L.Vmax * (2 * Pmax * L.Wmax / (β * (r.vol_chx / r.temp.chx)))) / (R * β) * w * R / (Pmin * L.Vmin) with hC
  set S := max (max (σ y₀.T_c - R * Real.log y₀.P) (σ r.temp.chx - R * Real.log Pmin))
    (max (σ y₀.T_e - R * Real.log y₀.P) (σ r.temp.hhx - R * Real.log Pmin)) with hS
  refine ⟨max 1 (Real.exp ((S + |C| * |b| + R * Real.log Pmax - σ 1) / c)), ?_⟩
  intro b' hb' y hy h hin t ht
  have hR := hg.R_pos
  have hc0 : 0 < c := hR.trans hRc
  have mono := caloric_entropy_mono hg
  obtain ⟨s, hs⟩ := motion_solutions h
  have p1 := fun t (ht : t ∈ Ico 0 b') => h.pres_pos t (Ico_subset_Icc_self ht)
  have pc := fun t (ht : t ∈ Ico 0 b') => h.regular.comp_pos t (Ico_subset_Icc_self ht)
  have pe := fun t (ht : t ∈ Ico 0 b') => h.regular.exp_pos t (Ico_subset_Icc_self ht)
  have rates := fun t (ht : t ∈ Ico 0 b') =>
    have i := hin t (Ico_subset_Icc_self ht)
    caloric_rates hg hU hn hq hv hk0 (fun T hT => hRc.trans_le (hc T hT)) hw0 hβ hk hl L.Vmin_pos (hw.comp_vol t).1 (hw.exp_vol t).1
      (hw.comp_rate t) (hw.exp_rate t) (hs t ht) hPm i.1.1 i.1.2 (pc t ht) (pe t ht) i.2.1 i.2.2
  have one : ∀ (T T' : ℝ → ℝ) (Tx T0 : ℝ), ContinuousOn T (Icc 0 b') → (∀ t ∈ Icc 0 b', 0 < T t) → T 0 = T0 → 0 < Tx →
      (∀ t ∈ Ico 0 b', HasDerivWithinAt T (T' t) (Ici t) t) →
      (∀ t ∈ Ico 0 b', Tx ≤ T t → cp (T t) * (T' t / T t) - R * ((s t).dP_dt / (y t).P) ≤ C) →
      max (σ T0 - R * Real.log y₀.P) (σ Tx - R * Real.log Pmin) ≤ S →
      T t ≤ max 1 (Real.exp ((S + |C| * |b| + R * Real.log Pmax - σ 1) / c)) := by
    intro T T' Tx T0 cT posT hT0 hTx dT hDC hmax
    have cσ : ContinuousOn (fun t => σ (T t)) (Icc 0 b') := fun t ht =>
      (hg.entropy (T t) (posT t ht)).continuousAt.comp_continuousWithinAt (cT t ht)
    have cont : ContinuousOn (fun t => σ (T t) - R * Real.log (y t).P) (Icc 0 b') :=
      cσ.fun_sub (continuousOn_const.fun_mul (h.regular.pres.log fun t ht => (h.pres_pos t ht).ne'))
    have key := stays_below (f := fun t => σ (T t) - R * Real.log (y t).P - |C| * t)
      (f' := fun t => cp (T t) * (T' t / T t) - R * ((s t).dP_dt / (y t).P) - |C|)
      (c := σ Tx - R * Real.log Pmin) (cont.fun_sub (continuousOn_const.fun_mul continuousOn_id))
      (fun t ht => by
        have ht' := Ico_subset_Icc_self ht
        have d1 : HasDerivWithinAt (fun t => σ (T t) - R * Real.log (y t).P)
            (cp (T t) * (T' t / T t) - R * ((s t).dP_dt / (y t).P)) (Ici t) t := by
          refine (((hg.entropy (T t) (posT t ht')).comp_hasDerivWithinAt t (dT t ht)).sub
            (((hs t ht).pres.log (h.pres_pos t ht').ne').const_mul R)).congr_deriv ?_
          ring
        exact d1.sub ((((hasDerivAt_id t).const_mul |C|).hasDerivWithinAt).congr_deriv (by simp)))
      (fun t ht hlt => by
        have ht' := Ico_subset_Icc_self ht
        have hσ : σ Tx < σ (T t) := by
          have h1 := mul_le_mul_of_nonneg_left (Real.log_le_log hPm (hin t ht').1.1) hR.le
          have h2 : 0 ≤ |C| * t := mul_nonneg (abs_nonneg _) ht.1
          linarith
        have := hDC t ht ((mono.lt_iff_lt hTx (posT t ht')).1 hσ).le
        have := le_abs_self C
        linarith) t ht
    rw [mul_zero, sub_zero, hT0, hy] at key
    have k2 : |C| * t ≤ |C| * |b| := mul_le_mul_of_nonneg_left ((ht.2.trans hb').trans (le_abs_self b)) (abs_nonneg _)
    have k3 := mul_le_mul_of_nonneg_left (Real.log_le_log (h.pres_pos t ht) (hin t ht).1.2) hR.le
    have k4 := key.trans hmax
    rcases le_total (T t) 1 with h1 | h1
    · exact h1.trans (le_max_left _ _)
    · refine le_trans ?_ (le_max_right _ _)
      rw [← Real.log_le_iff_le_exp (posT t ht), le_div_iff₀ hc0]
      have := caloric_entropy_ge hg hc one_pos h1
      rw [Real.log_one, sub_zero] at this
      linarith
  constructor
  · exact one (fun t => (y t).T_c) (fun t => (s t).dTc_dt) r.temp.chx y₀.T_c h.regular.comp h.regular.comp_pos (by simp only [hy])
      hv.chx_temp (fun t ht => (hs t ht).comp) (fun t ht => (rates t ht).1) (le_max_left _ _)
  · exact one (fun t => (y t).T_e) (fun t => (s t).dTe_dt) r.temp.hhx y₀.T_e h.regular.exp h.regular.exp_pos (by simp only [hy])
      hv.hhx_temp (fun t ht => (hs t ht).exp) (fun t ht => (rates t ht).2) (le_max_right _ _)

end caloric

/-! ## Hydrogen -/

theorem hydrogen_mono {T T' P : ℝ} (hT : 0 < T) (h : T ≤ T') :
    (IdealGas.new .Hydrogen : IdealGas ℝ).enth T P ≤ (IdealGas.new .Hydrogen : IdealGas ℝ).enth T' P := by
  have := hydrogen_slope (P := P) hT h
  linarith

theorem hydrogen_margin {x : ℝ} (hx : 100 ≤ x) : Margin 4124.2 (4124.2 * 250) 10 100 (fun T => (IdealGas.new .Hydrogen : IdealGas ℝ).cp T 0)
    (fun T => (IdealGas.new .Hydrogen : IdealGas ℝ).enth T 1) x := by
  refine ⟨fun T hT => ?_, fun T hT => ?_, fun T hT => ?_⟩
  · have := hydrogen_cp_ge (T := T) (by linarith)
    norm_num at this ⊢
    nlinarith
  · have h1 := hydrogen_mono (P := 1) (by norm_num : (0 : ℝ) < 100) hx
    have h2 : (IdealGas.new .Hydrogen : IdealGas ℝ).enth 100 1 + T * (IdealGas.new .Hydrogen : IdealGas ℝ).cp T 0
        - (IdealGas.new .Hydrogen : IdealGas ℝ).enth T 1 - 4124.2 * 250 - 10 * (IdealGas.new .Hydrogen : IdealGas ℝ).cp T 0 ≥ 0 := by
      rw [IdealGas.hydrogen_enth, IdealGas.hydrogen_enth, IdealGas.hydrogen_cp]
      obtain ⟨z, rfl⟩ : ∃ z, T = 1000 * z := ⟨T / 1000, by ring⟩
      have hz : 0 < z := by linarith
      have hq : 0 < 1.5317 + 4.1093 * z - 20.9187 * z ^ 2 + 31.4123 * z ^ 3 - 19.2679 * z ^ 4 + 4.2857 * z ^ 5 := by
        nlinarith [sq_nonneg (z ^ 2 - 2.3 * z + 1.2), mul_nonneg hz.le (sq_nonneg (z ^ 2 - 2.25 * z + 1.1)),
          mul_nonneg hz.le (sq_nonneg (z - 1.1)), sq_nonneg (z - 0.7), mul_nonneg hz.le (sq_nonneg (z - 0.6))]
      have := mul_pos hz hq
      have z1 := pow_pos hz 1
      have z2 := pow_pos hz 2
      have z3 := pow_pos hz 3
      have z4 := pow_pos hz 4
      have z5 := pow_pos hz 5
      have z6 := pow_pos hz 6
      norm_num
      ring_nf at this ⊢
      linarith
    linarith
  · have := hydrogen_mono (P := 1) (by linarith : (0 : ℝ) < x) hT
    norm_num at this ⊢
    linarith

/-- **C108**, the crate's hydrogen: the gas moves until one of the spaces gets as cold as 100 K.  Nothing else can stop it. -/
theorem C108_hydrogen_until_cold {r : Run ℝ} (hf : r.fluid = (IdealGas.hydrogen : IdealGas ℝ).toFluid) (hs : SaneRun r)
    (hU : Sound r.solver) (hc : Complete r.solver) (hq : NoParasiticHeat r) {L : Limits} (hv : Vessel r L.Vmax) (hk0 : 0 < r.vol_chx)
    (hw : DriveWithin r L) {K : ℝ} (hK : 0 ≤ K) (hd : SteadyDrive r K) (y₀ : Conditions ℝ) (hP : 0 < y₀.P) {η b : ℝ} (hη : 0 < η)
    (hTc : 100 + η < y₀.T_c) (hTe : 100 + η < y₀.T_e) (hb : 0 ≤ b) :
    (∃ y, y 0 = y₀ ∧ Trajectory r y 0 b) ∨
    ∃ b' y, b' ∈ Icc 0 b ∧ y 0 = y₀ ∧ Trajectory r y 0 b' ∧ ((y b').T_c ≤ 100 + η ∨ (y b').T_e ≤ 100 + η) := by
  refine or_iff_not_imp_right.2 fun hcold => ?_
  push Not at hcold
  have hg := crate_caloric .Hydrogen
  have eR : (IdealGas.new .Hydrogen : IdealGas ℝ).gas_constant = 4124.2 := by
    simp only [IdealGas.new, IdealGas.parameters]
  have hf' : r.fluid = (IdealGas.new .Hydrogen : IdealGas ℝ).toFluid := hf
  have eh : (fun T => T * heatAverage .Hydrogen T + -(250 * heatAverage .Hydrogen T))
      = fun T => (IdealGas.new .Hydrogen : IdealGas ℝ).enth T 1 := by
    funext T
    exact (hg.enth T 1).symm
  rw [← hf', eR] at hg
  obtain ⟨Pmin, Pmax, Tmin, hPmin, -, hbound⟩ := C108_hydrogen hf hs hU hq hv hk0 y₀ hP (by linarith) (by linarith)
  obtain ⟨Tmax, hceil⟩ := caloric_ceiling (Pmin := Pmin) (Pmax := Pmax) hg hU hs.norm hq hv hk0 hw (θ := 100) (β := 10)
    (c := 12471.4839) (by norm_num) (fun T hT => hydrogen_cp_ge hT) (by norm_num) (by norm_num)
    (by rw [eh]; exact hydrogen_margin hs.chx_temp) (by rw [eh]; exact hydrogen_margin hs.hhx_temp) hPmin y₀ b
  -- every motion keeps clear of these limits
  let L' : Limits := { L with Pmin := Pmin / 2, Pmax := Pmax + 1, Tmax := Tmax + 1, Pmin_pos := by positivity }
  have clear : ∀ b' ∈ Icc 0 b, ∀ y, y 0 = y₀ → Trajectory r y 0 b' → Inside L' (min (Pmin / 2) (min 1 η)) (y b') := by
    intro b' hb' y hy ty
    have hm : b' ∈ Icc 0 b' := ⟨hb'.1, le_rfl⟩
    obtain ⟨c1, c2⟩ := hcold b' y hb' hy ty
    have g := trajectory_motion ty
    have i := hbound 0 b' y hy g
    obtain ⟨t1, t2⟩ := hceil b' hb'.2 y hy g (fun t ht => ⟨⟨(i t ht).1, (i t ht).2.1⟩, (ty.warm t ht).comp, (ty.warm t ht).exp⟩) b' hm
    obtain ⟨p1, p2, -, -⟩ := i b' hm
    have m1 := min_le_left (Pmin / 2) (min 1 η)
    have m2 := (min_le_right (Pmin / 2) (min 1 η)).trans (min_le_left _ _)
    have m3 := (min_le_right (Pmin / 2) (min 1 η)).trans (min_le_right _ _)
    refine ⟨⟨?_, ?_⟩, ⟨?_, ?_⟩, ?_, ?_⟩ <;> (try simp only [L']) <;> linarith
  have still : Trajectory r (fun _ => y₀) 0 0 :=
    ⟨⟨continuousOn_const, continuousOn_const, continuousOn_const⟩,
      fun t _ => ⟨hP, by linarith, by linarith⟩, fun t ht => absurd ht.2 (not_lt.2 ht.1)⟩
  exact moves_on (n := .Hydrogen) (L := L') hf' hs hU hc hK hd
    ⟨hw.comp_vol, hw.exp_vol, hw.comp_rate, hw.exp_rate⟩ hb (lt_min (by positivity) (lt_min one_pos hη)) y₀
    (clear 0 ⟨le_rfl, hb⟩ (fun _ => y₀) rfl still) fun b' hb' y hy ty _ => clear b' hb' y hy ty

namespace TrajectoryExample

open BalanceExample

/-- It applies to the engine filled with hydrogen. -/
example {b : ℝ} (hb : 0 ≤ b) : (∃ y, y 0 = ⟨500, 340, 860⟩ ∧ Trajectory (hydrogenRun 1) y 0 b) ∨
    ∃ b' y, b' ∈ Icc 0 b ∧ y 0 = ⟨500, 340, 860⟩ ∧ Trajectory (hydrogenRun 1) y 0 b' ∧ ((y b').T_c ≤ 101 ∨ (y b').T_e ≤ 101) := by
  obtain ⟨K, hK, hd⟩ := C82_sinusoidal_steady exact (otherParts 1 0 0)
    { state with fluid := (IdealGas.hydrogen : IdealGas ℝ).toFluid } (turned 0 0) rfl (by norm_num [turned, drive])
  have v := vessel (x := 1) (f := 0) 0 one_pos (by norm_num)
  have d := driveWithin_other 1 0 (f := 0) (by norm_num)
  have := C108_hydrogen_until_cold (r := hydrogenRun 1) rfl (saneRun_hydrogen zero_le_one) exact_sound exact_complete ⟨rfl, rfl⟩
    (L := limits) ⟨v.drive, v.comp, v.exp, v.chx, v.regen, v.hhx, v.chx_temp, v.regen_temp, v.hhx_temp⟩ one_pos
    ⟨d.comp_vol, d.exp_vol, d.comp_rate, d.exp_rate⟩ hK hd ⟨500, 340, 860⟩ (by norm_num) (η := 1) one_pos (by norm_num)
    (by norm_num) hb
  rwa [show (100 : ℝ) + 1 = 101 by norm_num] at this

end TrajectoryExample

end Sett
