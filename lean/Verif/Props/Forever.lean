import Verif.Props.Isentropic
import Verif.Proofs.Shadow
import Verif.Props.Exists

/-! # C108: how long the gas moves -/

namespace Sett

open Spec state_equations Set

section rates

variable {r : Run ℝ} {R cp h0 u0 : ℝ} {y : ℝ → Conditions ℝ} {t : ℝ} {s : Solution ℝ}

/-- The flow out of a space in terms of the rates of volume and pressure. -/
theorem space_flow {V dV P dP T dT m Tf Q : ℝ} (hR : 0 < R) (hT : 0 < T)
    (hm : massRate V (P / (R * T)) (1 / (R * T)) (-P / (R * T ^ 2)) dV dP dT = -m)
    (he : energyRate V (P / (R * T)) ((cp - R) * T + u0) (1 / (R * T)) (-P / (R * T ^ 2)) 0 (cp - R) dV dP dT
      = -(cp * Tf + h0) * m - P * dV - Q) :
    m * (cp * Tf - (u0 - h0)) = -(cp / R * (P * dV)) - (cp / R - 1) * (V * dP) - Q := by
  unfold massRate at hm
  unfold energyRate at he
  have hm' : V * P * dT / T = P * dV + m * (R * T) + V * dP := by
    field_simp at hm ⊢
    linarith
  have he' : (cp - R) / R * (V * P * dT / T) + ((cp - R) * T + u0) * (-m) = -(cp * Tf + h0) * m - P * dV - Q := by
    rw [← he, ← hm]
    field_simp
    ring
  rw [hm'] at he'
  field_simp at he' ⊢
  linear_combination he'

/-- How fast pressure and entropies can change where the gas is warmer than `θ`. -/
theorem rates_bounded (hg : PerfectGas r.fluid R cp h0 u0) (hU : Sound r.solver) (hn : r.enth_norm ≠ 0) (hq : NoParasiticHeat r)
    {Vmin Vmax W θ Pmin Pmax : ℝ} (hv : Vessel r Vmax) (hk0 : 0 < r.vol_chx) (hRc : R < cp) (hw : h0 ≤ u0)
    (hx : 0 < cp * θ - (u0 - h0)) (hk : θ ≤ r.temp.chx) (hl : θ ≤ r.temp.hhx) (hV : 0 < Vmin)
    (hV1 : Vmin ≤ (r.ws_vol_fn t).1.value) (hV2 : Vmin ≤ (r.ws_vol_fn t).2.value)
    (hW1 : |(r.ws_vol_fn t).1.deriv| ≤ W) (hW2 : |(r.ws_vol_fn t).2.deriv| ≤ W)
    (h : Follows r y t s) (hPm : 0 < Pmin) (hP1 : Pmin ≤ (y t).P) (hP2 : (y t).P ≤ Pmax) (hc0 : 0 < (y t).T_c) (he0 : 0 < (y t).T_e)
    (hc : θ ≤ (y t).T_c) (he : θ ≤ (y t).T_e) :
    (r.temp.chx ≤ (y t).T_c → cp * (s.dTc_dt / (y t).T_c) - R * (s.dP_dt / (y t).P)
      ≤ (cp / R * (Pmax * W) + (cp / R - 1) * (Vmax * (2 * cp * Pmax * W / ((cp * θ - (u0 - h0))
        * (r.vol_chx / r.temp.chx))))) / (cp * θ - (u0 - h0)) * (u0 - h0) * R / (Pmin * Vmin)) ∧
    (r.temp.hhx ≤ (y t).T_e → cp * (s.dTe_dt / (y t).T_e) - R * (s.dP_dt / (y t).P)
      ≤ (cp / R * (Pmax * W) + (cp / R - 1) * (Vmax * (2 * cp * Pmax * W / ((cp * θ - (u0 - h0))
        * (r.vol_chx / r.temp.chx))))) / (cp * θ - (u0 - h0)) * (u0 - h0) * R / (Pmin * Vmin)) := by
  have hR := hg.R_pos
  have hcp := hg.cp_pos
  have hP : 0 < (y t).P := hPm.trans_le hP1
  have hPx : 0 < Pmax := hP.trans_le hP2
  have hW0 : 0 ≤ W := (abs_nonneg _).trans hW1
  have hVx : 0 < Vmax := hV.trans_le (hV1.trans (hv.comp t).2)
  set x := cp * θ - (u0 - h0) with hxd
  set w := u0 - h0 with hwd
  have hw0 : 0 ≤ w := sub_nonneg.2 hw
  set α := cp / R with hα
  have hα1 : 1 < α := (one_lt_div hR).2 hRc
  obtain ⟨hint, hs⟩ := h.solved
  have b := C07_upwind_balances r.solver hU _ hn hint s hs
  have fck : (upwind (r.calculate_inputs t (y t)) s).ck = cp * faceTemp s.m_dot_ck (y t).T_c r.temp.chx + h0 := by
    simp only [upwind, faceTemp, Run.calculate_inputs, Run.comp_inputs, Run.chx_inputs, hg.enth]; split <;> rfl
  have fle : (upwind (r.calculate_inputs t (y t)) s).le = cp * faceTemp s.m_dot_le r.temp.hhx (y t).T_e + h0 := by
    simp only [upwind, faceTemp, Run.calculate_inputs, Run.exp_inputs, Run.hhx_inputs, hg.enth]; split <;> rfl
  have c1 := b.comp_mass
  have c2 := b.comp_energy
  have x1 := b.exp_mass
  have x2 := b.exp_energy
  have k1 := b.chx_mass
  have r1 := b.regen_mass
  have l1 := b.hhx_mass
  rw [fck] at c2
  rw [fle] at x2
  simp only [compMass, compEnergy, expMass, expEnergy, chxMass, regenMass, hhxMass, Run.calculate_inputs, Run.comp_inputs,
    Run.chx_inputs, Run.regen_inputs, Run.hhx_inputs, Run.exp_inputs, hg.dens, hg.inte, hg.dd_dP_T, hg.dd_dT_P,
    hg.du_dP_T, hg.du_dT_P] at c1 c2 x1 x2 k1 r1 l1
  have q1 := space_flow (R := R) (cp := cp) (h0 := h0) (u0 := u0) hR hc0 c1 c2
  have q2 := space_flow (R := R) (cp := cp) (h0 := h0) (u0 := u0) (m := -s.m_dot_le)
    (Tf := faceTemp s.m_dot_le r.temp.hhx (y t).T_e) (Q := r.ws_parasitics.exp.thermal) hR he0 (by rw [x1]; ring)
    (by rw [x2]; ring)
  rw [hq.comp, sub_zero] at q1
  rw [hq.exp, sub_zero] at q2
  set Fc := faceTemp s.m_dot_ck (y t).T_c r.temp.chx with hFc
  set Fe := faceTemp s.m_dot_le r.temp.hhx (y t).T_e with hFe
  have bFc : θ ≤ Fc := by rw [hFc, faceTemp]; split <;> assumption
  have bFe : θ ≤ Fe := by rw [hFe, faceTemp]; split <;> assumption
  have xc : x ≤ cp * Fc - w := by rw [hxd]; have := mul_le_mul_of_nonneg_left bFc hcp.le; linarith
  have xe : x ≤ cp * Fe - w := by rw [hxd]; have := mul_le_mul_of_nonneg_left bFe hcp.le; linarith
  set Xc := cp * Fc - w
  set Xe := cp * Fe - w
  have pXc : 0 < Xc := hx.trans_le xc
  have pXe : 0 < Xe := hx.trans_le xe
  -- the rate of the pressure
  set D := r.vol_chx / r.temp.chx with hD
  have hD0 : 0 < D := div_pos hk0 hv.chx_temp
  set D' := D + r.vol_regen / r.temp.regen.avg + r.vol_hhx / r.temp.hhx with hD'
  have hDD : D ≤ D' := by
    have := div_nonneg hv.regen hv.regen_temp.le
    have := div_nonneg hv.hhx hv.hhx_temp.le
    rw [hD']; linarith
  have sum : s.m_dot_ck - s.m_dot_le = D' * s.dP_dt / R := by
    have e : s.m_dot_ck - s.m_dot_le = (s.m_dot_ck - s.m_dot_kr) + (s.m_dot_kr - s.m_dot_rl) + (s.m_dot_rl - s.m_dot_le) := by ring
    rw [e, ← k1, ← r1, ← l1, hD', hD]
    simp only [massRate]
    have := hv.chx_temp.ne'; have := hv.regen_temp.ne'; have := hv.hhx_temp.ne'
    field_simp
    ring
  have vc := (hv.comp t).1
  have ve := (hv.exp t).1
  have e1 : s.m_dot_ck = (-(α * ((y t).P * (r.ws_vol_fn t).1.deriv)) - (α - 1) * ((r.ws_vol_fn t).1.value * s.dP_dt)) / Xc := by
    rw [eq_div_iff pXc.ne', q1]
  have e2 : -s.m_dot_le = (-(α * ((y t).P * (r.ws_vol_fn t).2.deriv)) - (α - 1) * ((r.ws_vol_fn t).2.value * s.dP_dt)) / Xe := by
    rw [eq_div_iff pXe.ne', q2]
  have total : s.dP_dt * (D' / R + (α - 1) * ((r.ws_vol_fn t).1.value / Xc + (r.ws_vol_fn t).2.value / Xe))
      = -(α * (y t).P * ((r.ws_vol_fn t).1.deriv / Xc + (r.ws_vol_fn t).2.deriv / Xe)) := by
    have : s.m_dot_ck + -s.m_dot_le = D' * s.dP_dt / R := by rw [← sum]; ring
    rw [e1, e2] at this
    have e3 : D' * s.dP_dt / R = s.dP_dt * (D' / R) := by ring
    rw [e3] at this
    rw [mul_add, ← this]
    field_simp
    ring
  have bP : |s.dP_dt| ≤ 2 * cp * Pmax * W / (x * D) := by
    rw [le_div_iff₀ (mul_pos hx hD0)]
    have g0 : D / R ≤ D' / R + (α - 1) * ((r.ws_vol_fn t).1.value / Xc + (r.ws_vol_fn t).2.value / Xe) := by
      have : 0 ≤ (α - 1) * ((r.ws_vol_fn t).1.value / Xc + (r.ws_vol_fn t).2.value / Xe) :=
        mul_nonneg (by linarith) (by positivity)
      have : D / R ≤ D' / R := by gcongr
      linarith
    have g1 : |s.dP_dt| * (D / R) ≤ α * Pmax * (W / x + W / x) := by
      have a1 : |(r.ws_vol_fn t).1.deriv / Xc| ≤ W / x := by
        rw [abs_div, abs_of_pos pXc]; gcongr
      have a2 : |(r.ws_vol_fn t).2.deriv / Xe| ≤ W / x := by
        rw [abs_div, abs_of_pos pXe]; gcongr
      calc |s.dP_dt| * (D / R) ≤ |s.dP_dt| * (D' / R + (α - 1) * ((r.ws_vol_fn t).1.value / Xc + (r.ws_vol_fn t).2.value / Xe)) :=
            mul_le_mul_of_nonneg_left g0 (abs_nonneg _)
        _ = |s.dP_dt * (D' / R + (α - 1) * ((r.ws_vol_fn t).1.value / Xc + (r.ws_vol_fn t).2.value / Xe))| := by
            rw [abs_mul, abs_of_nonneg (a := D' / R + _) (le_trans (by positivity) g0)]
        _ = α * (y t).P * |(r.ws_vol_fn t).1.deriv / Xc + (r.ws_vol_fn t).2.deriv / Xe| := by
            rw [total, abs_neg, abs_mul, abs_of_pos (by positivity)]
        _ ≤ α * Pmax * (W / x + W / x) := by
            gcongr
            exact (abs_add_le _ _).trans (add_le_add a1 a2)
    have g2 := mul_le_mul_of_nonneg_right g1 (mul_pos hR hx).le
    have e3 : |s.dP_dt| * (D / R) * (R * x) = |s.dP_dt| * (x * D) := by field_simp
    have e4 : α * Pmax * (W / x + W / x) * (R * x) = 2 * cp * Pmax * W := by rw [hα]; field_simp; ring
    rwa [e3, e4] at g2
  set B := 2 * cp * Pmax * W / (x * D) with hB
  have hB0 : 0 ≤ B := by positivity
  have flow : ∀ {V dV X : ℝ}, 0 < V → V ≤ Vmax → |dV| ≤ W → x ≤ X →
      (-(α * ((y t).P * dV)) - (α - 1) * (V * s.dP_dt)) / X ≤ (α * (Pmax * W) + (α - 1) * (Vmax * B)) / x := by
    intro V dV X hV hV' hdV hX
    have i1 : |-(α * ((y t).P * dV)) - (α - 1) * (V * s.dP_dt)| ≤ α * (Pmax * W) + (α - 1) * (Vmax * B) := by
      refine (abs_sub _ _).trans (add_le_add ?_ ?_)
      · rw [abs_neg, abs_mul, abs_mul, abs_of_pos (by linarith : 0 < α), abs_of_pos hP]
        gcongr
      · rw [abs_mul, abs_mul, abs_of_pos (by linarith : 0 < α - 1), abs_of_pos hV]
        have := hα1
        gcongr
    exact (div_le_div_of_nonneg_right (le_abs_self _) (hx.trans_le hX).le).trans
      (div_le_div₀ (le_trans (abs_nonneg _) i1) i1 hx hX)
  set E := α * (Pmax * W) + (α - 1) * (Vmax * B)
  have hE : 0 ≤ E := add_nonneg (by positivity) (mul_nonneg (by linarith) (by positivity))
  have finish : ∀ {V T S up down Tx : ℝ}, Vmin ≤ V → 0 < T → up ≤ E / x → 0 ≤ up → 0 ≤ down → Tx ≤ T →
      V * ((y t).P / (R * T)) * S = (up * w + down * (cp * (Tx - T) - w)) / T → S ≤ E / x * w * R / (Pmin * Vmin) := by
    intro V T S up down Tx hV' hT hup hup0 hdown hTx e
    have hV0 : 0 < V := hV.trans_le hV'
    have e' : S = (up * w + down * (cp * (Tx - T) - w)) * R / ((y t).P * V) := by
      field_simp at e ⊢
      linarith
    have : down * (cp * (Tx - T) - w) ≤ 0 := by
      have : cp * (Tx - T) ≤ 0 := mul_nonpos_of_nonneg_of_nonpos hcp.le (by linarith)
      exact mul_nonpos_of_nonneg_of_nonpos hdown (by linarith)
    calc S ≤ up * w * R / ((y t).P * V) := by rw [e']; gcongr; linarith
      _ ≤ E / x * w * R / (Pmin * Vmin) := by gcongr
  have hEx : 0 ≤ E / x := div_nonneg hE hx.le
  constructor
  · intro hT
    have q := comp_entropy_rate hg hU hn hq h hP hc0
    rw [compGas, hg.dens] at q
    refine finish hV1 hc0 (max_le ?_ hEx) (le_max_right _ _) (le_max_right _ _) hT q
    rw [e1]
    exact flow vc (hv.comp t).2 hW1 xc
  · intro hT
    have q := exp_entropy_rate hg hU hn hq h hP he0
    rw [expGas, hg.dens] at q
    refine finish hV2 he0 (max_le ?_ hEx) (le_max_right _ _) (le_max_right _ _) hT q
    rw [e2]
    exact flow ve (hv.exp t).2 hW2 xe

end rates

section motions

variable {r : Run ℝ}

theorem trajectory_motion {y : ℝ → Conditions ℝ} {a b : ℝ} (h : Trajectory r y a b) : GasMotion r y a b :=
  ⟨⟨h.cont.pres, h.cont.comp, h.cont.exp, fun t ht => by linarith [(h.warm t ht).comp],
    fun t ht => by linarith [(h.warm t ht).exp]⟩, fun t ht => (h.warm t ht).pres, h.follows⟩

theorem trajectory_restrict {y : ℝ → Conditions ℝ} {a b b' : ℝ} (h : Trajectory r y a b) (hb : b' ≤ b) : Trajectory r y a b' :=
  ⟨⟨h.cont.pres.mono (Icc_subset_Icc le_rfl hb), h.cont.comp.mono (Icc_subset_Icc le_rfl hb),
    h.cont.exp.mono (Icc_subset_Icc le_rfl hb)⟩, fun t ht => h.warm t ⟨ht.1, ht.2.trans hb⟩,
    fun t ht => h.follows t ⟨ht.1, ht.2.trans_le hb⟩⟩

/-- A motion goes on as long as it keeps clear of the limits. -/
theorem moves_on {n : GasName} {L : Limits} (hf : r.fluid = (IdealGas.new n).toFluid) (hs : SaneRun r) (hT : Sound r.solver)
    (hc : Complete r.solver) {K : ℝ} (hK : 0 ≤ K) (hd : SteadyDrive r K) (hw : DriveWithin r L) {b ρ : ℝ} (hb : 0 ≤ b)
    (hρ : 0 < ρ) (y₀ : Conditions ℝ) (h0 : Inside L ρ y₀)
    (hin : ∀ b' ∈ Icc 0 b, ∀ y, y 0 = y₀ → Trajectory r y 0 b' → (∀ t ∈ Icc 0 b', Inside L 0 (y t)) → Inside L ρ (y b')) :
    ∃ y, y 0 = y₀ ∧ Trajectory r y 0 b := by
  have hPP : L.Pmin ≤ L.Pmax := by have := h0.pres; linarith
  have hTT : 100 ≤ L.Tmax := by have := h0.comp_temp; linarith
  obtain ⟨M, C', hM, hC', hA⟩ := runRates_tame hf hs hT L hK hd
  let A : ℝ → V3 ℝ → V3 ℝ → Prop := fun t y k => runRates r L t (clamp L y) k
  have tame : Tame A M C' := by
    refine ⟨fun t y k h => hA.bound _ _ _ h, fun t y k t' y' k' h h' => (hA.lip _ _ _ _ _ _ h h').trans ?_⟩
    exact mul_le_mul_of_nonneg_left (add_le_add (clamp_lip L y y') le_rfl) hC'.le
  have all : ∀ t y, ∃ k, A t y k := by
    intro t y
    have w := clamp_within hw hPP hTT t y
    obtain ⟨s, h⟩ := C59_run_solve r n hf hT hc t _ (physical_of_within hs w)
    exact ⟨_, w, .default, s, h _, rfl⟩
  obtain ⟨Z, hZ0, hZ⟩ := exists_exact hM hC' tame all (stateVector y₀) hb
  have start : conditionsOf (Z 0) = y₀ := by rw [hZ0]; rfl
  -- within the limits the solution is a motion
  have moving : ∀ b' ∈ Icc 0 b, (∀ t ∈ Icc 0 b', Inside L 0 (conditionsOf (Z t))) →
      Trajectory r (fun t => conditionsOf (Z t)) 0 b' := by
    intro b' hb' inside
    have cont := hZ.cont.mono (Icc_subset_Icc le_rfl hb'.2)
    refine ⟨⟨continuous_fst.comp_continuousOn cont,
      continuous_fst.comp_continuousOn (continuous_snd.comp_continuousOn cont),
      continuous_snd.comp_continuousOn (continuous_snd.comp_continuousOn cont)⟩, ?_, ?_⟩
    · intro t ht
      have w := within_of_inside hw (inside t ht) t
      exact ⟨L.Pmin_pos.trans_le w.pres.1, w.comp_temp.1, w.exp_temp.1⟩
    · intro t ht
      obtain ⟨k, hk, hk'⟩ := hZ.moves t ⟨ht.1, ht.2.trans_le hb'.2⟩
      obtain ⟨-, hint, s, e, rfl⟩ := hk
      rw [clamp_of_inside (inside t ⟨ht.1, ht.2.le⟩)] at e
      exact ⟨s, ⟨hint, e⟩, hk'.fst, hk'.snd.fst, hk'.snd.snd⟩
  -- distance from the limits
  let f : ℝ → ℝ := fun t => min (min (min ((Z t).y0 - L.Pmin) (L.Pmax - (Z t).y0)) (min ((Z t).y1 - 100) (L.Tmax - (Z t).y1)))
    (min ((Z t).y2 - 100) (L.Tmax - (Z t).y2))
  have hfd : ∀ d t, d ≤ f t ↔ Inside L d (conditionsOf (Z t)) := by
    intro d t
    simp only [f, le_min_iff]
    constructor
    · rintro ⟨⟨⟨h1, h2⟩, h3, h4⟩, h5, h6⟩
      exact ⟨⟨by simp only [conditionsOf]; linarith, by simp only [conditionsOf]; linarith⟩,
        ⟨by simp only [conditionsOf]; linarith, by simp only [conditionsOf]; linarith⟩,
        by simp only [conditionsOf]; linarith, by simp only [conditionsOf]; linarith⟩
    · rintro ⟨⟨h1, h2⟩, ⟨h3, h4⟩, h5, h6⟩
      simp only [conditionsOf] at h1 h2 h3 h4 h5 h6
      exact ⟨⟨⟨by linarith, by linarith⟩, by linarith, by linarith⟩, by linarith, by linarith⟩
  have cf : ContinuousOn f (Icc 0 b) := by
    have z0 : ContinuousOn (fun t => (Z t).y0) (Icc 0 b) := continuous_fst.comp_continuousOn hZ.cont
    have z1 : ContinuousOn (fun t => (Z t).y1) (Icc 0 b) := continuous_fst.comp_continuousOn (continuous_snd.comp_continuousOn hZ.cont)
    have z2 : ContinuousOn (fun t => (Z t).y2) (Icc 0 b) := continuous_snd.comp_continuousOn (continuous_snd.comp_continuousOn hZ.cont)
    simp only [f]
    fun_prop
  have f0 : ρ ≤ f 0 := (hfd _ _).2 (by rw [start]; exact h0)
  have pos : ∀ t ∈ Icc 0 b, 0 ≤ f t := by
    by_contra hcon
    push Not at hcon
    obtain ⟨t₂, ht₂, hneg⟩ := hcon
    have cf₂ : ContinuousOn f (Icc 0 t₂) := cf.mono (Icc_subset_Icc le_rfl ht₂.2)
    have hne : (Icc 0 t₂ ∩ f ⁻¹' {ρ / 2}).Nonempty := by
      obtain ⟨t, ht, e⟩ := intermediate_value_Icc' ht₂.1 cf₂ (show ρ / 2 ∈ Icc (f t₂) (f 0) from ⟨by linarith, by linarith⟩)
      exact ⟨t, ht, e⟩
    have hcl : IsCompact (Icc 0 t₂ ∩ f ⁻¹' {ρ / 2}) :=
      isCompact_Icc.of_isClosed_subset (cf₂.preimage_isClosed_of_isClosed isClosed_Icc isClosed_singleton) inter_subset_left
    obtain ⟨t₃, ⟨ht₃, e₃⟩, least⟩ := hcl.exists_isLeast hne
    have e₃' : f t₃ = ρ / 2 := e₃
    have ht₃b : t₃ ∈ Icc 0 b := ⟨ht₃.1, ht₃.2.trans ht₂.2⟩
    have before : ∀ u ∈ Icc 0 t₃, 0 ≤ f u := by
      intro u hu
      by_contra hlt
      push Not at hlt
      have cu : ContinuousOn f (Icc 0 u) := cf.mono (Icc_subset_Icc le_rfl (hu.2.trans ht₃b.2))
      obtain ⟨v, hv, e⟩ := intermediate_value_Icc' hu.1 cu (show ρ / 2 ∈ Icc (f u) (f 0) from ⟨by linarith, by linarith⟩)
      have := least ⟨⟨hv.1, hv.2.trans (hu.2.trans ht₃.2)⟩, e⟩
      have : u = t₃ := le_antisymm hu.2 (this.trans hv.2)
      rw [this, e₃'] at hlt
      linarith
    have ins : ∀ u ∈ Icc 0 t₃, Inside L 0 (conditionsOf (Z u)) := fun u hu => (hfd 0 u).1 (before u hu)
    have := hin t₃ ht₃b (fun t => conditionsOf (Z t)) start (moving t₃ ht₃b ins) ins
    have := (hfd ρ t₃).2 this
    linarith
  exact ⟨_, start, moving b ⟨hb, le_rfl⟩ fun t ht => (hfd 0 t).1 (pos t ht)⟩

/-- Within a given time the spaces do not get hotter than a bound that depends on the time. -/
theorem heat_ceiling {R cp h0 u0 : ℝ} (hg : PerfectGas r.fluid R cp h0 u0) (hU : Sound r.solver) (hn : r.enth_norm ≠ 0)
    (hq : NoParasiticHeat r) {L : Limits} {θ Pmin Pmax : ℝ} (hv : Vessel r L.Vmax) (hk0 : 0 < r.vol_chx) (hw : DriveWithin r L) (hRc : R < cp)
    (hw0 : h0 ≤ u0) (hx : 0 < cp * θ - (u0 - h0)) (hk : θ ≤ r.temp.chx) (hl : θ ≤ r.temp.hhx) (hPm : 0 < Pmin)
    (y₀ : Conditions ℝ) (b : ℝ) :
    ∃ Tmax, ∀ b' ≤ b, ∀ y, y 0 = y₀ → GasMotion r y 0 b' →
      (∀ t ∈ Icc 0 b', (Pmin ≤ (y t).P ∧ (y t).P ≤ Pmax) ∧ θ ≤ (y t).T_c ∧ θ ≤ (y t).T_e) →
      ∀ t ∈ Icc 0 b', (y t).T_c ≤ Tmax ∧ (y t).T_e ≤ Tmax := by
  set C := (cp / R * (Pmax * L.Wmax) + (cp / R - 1) * (L.Vmax * (2 * cp * Pmax * L.Wmax / ((cp * θ - (u0 - h0))
        * (r.vol_chx / r.temp.chx))))) / (cp * θ - (u0 - h0)) * (u0 - h0) * R / (Pmin * L.Vmin) with hC
  set S := max (max (entropyOf R cp y₀.T_c y₀.P) (entropyOf R cp r.temp.chx Pmin))
    (max (entropyOf R cp y₀.T_e y₀.P) (entropyOf R cp r.temp.hhx Pmin)) with hS
  refine ⟨Real.exp ((S + |C| * |b| + R * Real.log Pmax) / cp), ?_⟩
  intro b' hb' y hy h hin t ht
  have hcp := hg.cp_pos
  have hR := hg.R_pos
  obtain ⟨s, hs⟩ := motion_solutions h
  have p1 := fun t (ht : t ∈ Ico 0 b') => h.pres_pos t (Ico_subset_Icc_self ht)
  have pc := fun t (ht : t ∈ Ico 0 b') => h.regular.comp_pos t (Ico_subset_Icc_self ht)
  have pe := fun t (ht : t ∈ Ico 0 b') => h.regular.exp_pos t (Ico_subset_Icc_self ht)
  have rates := fun t (ht : t ∈ Ico 0 b') =>
    have i := hin t (Ico_subset_Icc_self ht)
    rates_bounded hg hU hn hq hv hk0 hRc hw0 hx hk hl L.Vmin_pos (hw.comp_vol t).1 (hw.exp_vol t).1 (hw.comp_rate t) (hw.exp_rate t)
      (hs t ht) hPm i.1.1 i.1.2 (pc t ht) (pe t ht) i.2.1 i.2.2
  have one : ∀ (T : ℝ → ℝ) (Tx T0 : ℝ) (D : ℝ → ℝ), ContinuousOn T (Icc 0 b') → (∀ t ∈ Icc 0 b', 0 < T t) → T 0 = T0 → 0 < Tx →
      (∀ t ∈ Ico 0 b', HasDerivWithinAt (fun t => entropyOf R cp (T t) (y t).P) (D t) (Ici t) t) →
      (∀ t ∈ Ico 0 b', Tx ≤ T t → D t ≤ C) → max (entropyOf R cp T0 y₀.P) (entropyOf R cp Tx Pmin) ≤ S →
      T t ≤ Real.exp ((S + |C| * |b| + R * Real.log Pmax) / cp) := by
    intro T Tx T0 D cT posT hT0 hTx hD hDC hmax
    have cont : ContinuousOn (fun t => entropyOf R cp (T t) (y t).P) (Icc 0 b') :=
      (continuousOn_const.fun_mul (cT.log fun t ht => (posT t ht).ne')).fun_sub
        (continuousOn_const.fun_mul (h.regular.pres.log fun t ht => (h.pres_pos t ht).ne'))
    have key := stays_below (f := fun t => entropyOf R cp (T t) (y t).P - |C| * t) (f' := fun t => D t - |C|)
      (c := entropyOf R cp Tx Pmin) (cont.fun_sub (continuousOn_const.fun_mul continuousOn_id))
      (fun t ht => (hD t ht).sub ((((hasDerivAt_id t).const_mul |C|).hasDerivWithinAt).congr_deriv (by simp)))
      (fun t ht hlt => by
        have ht' := Ico_subset_Icc_self ht
        have hlog : cp * Real.log Tx < cp * Real.log (T t) := by
          have h1 := mul_le_mul_of_nonneg_left (Real.log_le_log hPm (hin t ht').1.1) hR.le
          have h2 : 0 ≤ |C| * t := mul_nonneg (abs_nonneg _) ht.1
          simp only [entropyOf] at hlt
          linarith
        have := hDC t ht (Real.log_lt_log_iff hTx (posT t ht') |>.1 (lt_of_mul_lt_mul_left hlog hcp.le)).le
        have := le_abs_self C
        linarith) t ht
    rw [mul_zero, sub_zero, hT0, hy] at key
    have k2 : |C| * t ≤ |C| * |b| := mul_le_mul_of_nonneg_left ((ht.2.trans hb').trans (le_abs_self b)) (abs_nonneg _)
    have k3 := mul_le_mul_of_nonneg_left (Real.log_le_log (h.pres_pos t ht) (hin t ht).1.2) hR.le
    rw [← Real.log_le_iff_le_exp (posT t ht), le_div_iff₀ hcp]
    have k4 := key.trans hmax
    simp only [entropyOf] at k4
    linarith
  constructor
  · exact one (fun t => (y t).T_c) r.temp.chx y₀.T_c (fun t => cp * ((s t).dTc_dt / (y t).T_c) - R * ((s t).dP_dt / (y t).P))
      h.regular.comp h.regular.comp_pos (by simp only [hy]) hv.chx_temp
      (fun t ht => entropy_curve (hs t ht).comp (hs t ht).pres (pc t ht) (p1 t ht)) (fun t ht => (rates t ht).1) (le_max_left _ _)
  · exact one (fun t => (y t).T_e) r.temp.hhx y₀.T_e (fun t => cp * ((s t).dTe_dt / (y t).T_e) - R * ((s t).dP_dt / (y t).P))
      h.regular.exp h.regular.exp_pos (by simp only [hy]) hv.hhx_temp
      (fun t ht => entropy_curve (hs t ht).exp (hs t ht).pres (pe t ht) (p1 t ht)) (fun t ht => (rates t ht).2) (le_max_right _ _)

/-- The crate's helium: gas that comes and goes counts 100 K colder than it is (99.998 K). -/
theorem helium_shift : ((-((5193.17 - 2077.23) * 250) - -(5193.17 * 250) : ℝ)) / 5193.17 < 100 := by norm_num

/-- **C108**, the crate's helium: from a given state, at whatever time and for however long, the pressure stays between two positive
bounds and both spaces above a temperature; the bounds depend on the engine and the state only. -/
theorem C108_helium (hf : r.fluid = (IdealGas.helium : IdealGas ℝ).toFluid) (hs : SaneRun r) (hU : Sound r.solver)
    (hq : NoParasiticHeat r) {Vmax : ℝ} (hv : Vessel r Vmax) (hk0 : 0 < r.vol_chx) (y₀ : Conditions ℝ) (hP : 0 < y₀.P) (hTc : 0 < y₀.T_c)
    (hTe : 0 < y₀.T_e) :
    ∃ Pmin Pmax Tmin, 0 < Pmin ∧ 0 < Tmin ∧ ∀ a b y, y a = y₀ → GasMotion r y a b → ∀ t ∈ Icc a b,
      Pmin ≤ (y t).P ∧ (y t).P ≤ Pmax ∧ Tmin ≤ (y t).T_c ∧ Tmin ≤ (y t).T_e := by
  have hg := helium_perfect
  rw [← hf] at hg
  exact C108_bounded hg hU hs.norm hq hv hk0 (by norm_num) (helium_shift.trans_le hs.chx_temp) (helium_shift.trans_le hs.hhx_temp)
    (by norm_num) y₀ hP hTc hTe

/-- **C108**, the crate's helium: the gas moves until one of the spaces gets as cold as 100 K (where the state equations become
singular).  Nothing else can stop it. -/
theorem C108_until_cold (hf : r.fluid = (IdealGas.helium : IdealGas ℝ).toFluid) (hs : SaneRun r) (hU : Sound r.solver)
    (hc : Complete r.solver) (hq : NoParasiticHeat r) {L : Limits} (hv : Vessel r L.Vmax) (hk0 : 0 < r.vol_chx) (hw : DriveWithin r L) {K : ℝ}
    (hK : 0 ≤ K) (hd : SteadyDrive r K) (y₀ : Conditions ℝ) (hP : 0 < y₀.P) {η b : ℝ} (hη : 0 < η) (hTc : 100 + η < y₀.T_c)
    (hTe : 100 + η < y₀.T_e) (hb : 0 ≤ b) :
    (∃ y, y 0 = y₀ ∧ Trajectory r y 0 b) ∨
    ∃ b' y, b' ∈ Icc 0 b ∧ y 0 = y₀ ∧ Trajectory r y 0 b' ∧ ((y b').T_c ≤ 100 + η ∨ (y b').T_e ≤ 100 + η) := by
  refine or_iff_not_imp_right.2 fun hcold => ?_
  push Not at hcold
  have hg := helium_perfect
  rw [← hf] at hg
  obtain ⟨Pmin, Pmax, Tmin, hPmin, -, hbound⟩ := C108_helium hf hs hU hq hv hk0 y₀ hP (by linarith) (by linarith)
  obtain ⟨Tmax, hceil⟩ := heat_ceiling (Pmin := Pmin) (Pmax := Pmax) hg hU hs.norm hq hv hk0 hw (θ := 100) (by norm_num) (by norm_num)
    (by norm_num) hs.chx_temp hs.hhx_temp hPmin y₀ b
  -- every motion keeps clear of these limits
  let L' : Limits := { L with Pmin := Pmin / 2, Pmax := Pmax + 1, Tmax := Tmax + 1, Pmin_pos := by positivity }
  have clear : ∀ b' ∈ Icc 0 b, ∀ y, y 0 = y₀ → Trajectory r y 0 b' → Inside L' (min (Pmin / 2) (min 1 η)) (y b') := by
    intro b' hb' y hy ty
    have hm : b' ∈ Icc 0 b' := ⟨hb'.1, le_rfl⟩
    obtain ⟨c1, c2⟩ := hcold b' y hb' hy ty
    have g := trajectory_motion ty
    have i := hbound 0 b' y hy g
    obtain ⟨t1, t2⟩ := hceil b' hb'.2 y hy g (fun t ht => ⟨⟨(i t ht).1, (i t ht).2.1⟩, (ty.warm t ht).comp, (ty.warm t ht).exp⟩) b' hm
    obtain ⟨p1, p2, -, -⟩ := i b' hm
    have m1 := min_le_left (Pmin / 2) (min 1 η)
    have m2 := (min_le_right (Pmin / 2) (min 1 η)).trans (min_le_left _ _)
    have m3 := (min_le_right (Pmin / 2) (min 1 η)).trans (min_le_right _ _)
    refine ⟨⟨?_, ?_⟩, ⟨?_, ?_⟩, ?_, ?_⟩ <;> (try simp only [L']) <;> linarith
  have still : Trajectory r (fun _ => y₀) 0 0 :=
    ⟨⟨continuousOn_const, continuousOn_const, continuousOn_const⟩,
      fun t _ => ⟨hP, by linarith, by linarith⟩, fun t ht => absurd ht.2 (not_lt.2 ht.1)⟩
  exact moves_on (n := .Helium) (L := L') hf hs hU hc hK hd
    ⟨hw.comp_vol, hw.exp_vol, hw.comp_rate, hw.exp_rate⟩ hb (lt_min (by positivity) (lt_min one_pos hη)) y₀
    (clear 0 ⟨le_rfl, hb⟩ (fun _ => y₀) rfl still) fun b' hb' y hy ty _ => clear b' hb' y hy ty

/-- **C108**, the crate's helium: if expanding from the highest pressure to the lowest would not make the gas of the start, nor gas
100 K colder than the exchangers, as cold as 100 K, then the gas moves for ever. -/
theorem C108_forever (hf : r.fluid = (IdealGas.helium : IdealGas ℝ).toFluid) (hs : SaneRun r) (hU : Sound r.solver)
    (hc : Complete r.solver) (hq : NoParasiticHeat r) {L : Limits} (hv : Vessel r L.Vmax) (hk0 : 0 < r.vol_chx) (hw : DriveWithin r L) {K : ℝ}
    (hK : 0 ≤ K) (hd : SteadyDrive r K) (y₀ : Conditions ℝ) (hP : 0 < y₀.P) (hTc : 100 < y₀.T_c) (hTe : 100 < y₀.T_e) {D lo hi : ℝ}
    (hD : D = r.vol_chx / r.temp.chx + r.vol_regen / r.temp.regen.avg + r.vol_hhx / r.temp.hhx)
    (hlo : lo = y₀.P * D / (D + L.Vmax / 50)) (hhi : hi = y₀.P * (D + L.Vmax / y₀.T_c + L.Vmax / y₀.T_e) / D)
    (h1 : 100 < isentropic (2077.23 / 5193.17) y₀.T_c y₀.P lo) (h2 : 100 < isentropic (2077.23 / 5193.17) y₀.T_e y₀.P lo)
    (h3 : 100 < isentropic (2077.23 / 5193.17) (r.temp.chx - 100) hi lo)
    (h4 : 100 < isentropic (2077.23 / 5193.17) (r.temp.hhx - 100) hi lo) {b : ℝ} (hb : 0 ≤ b) :
    ∃ y, y 0 = y₀ ∧ Trajectory r y 0 b ∧ ∀ t ∈ Icc 0 b, lo ≤ (y t).P ∧ (y t).P ≤ hi := by
  have hg := helium_perfect
  rw [← hf] at hg
  have hV : 0 < L.Vmax := (hv.comp 0).1.trans_le (hv.comp 0).2
  have hD0 : 0 < D := by
    rw [hD]
    exact add_pos_of_pos_of_nonneg (add_pos_of_pos_of_nonneg (div_pos hk0 hv.chx_temp)
      (div_nonneg hv.regen hv.regen_temp.le)) (div_nonneg hv.hhx hv.hhx_temp.le)
  have hTc0 : 0 < y₀.T_c := by linarith
  have hTe0 : 0 < y₀.T_e := by linarith
  have hlo0 : 0 < lo := by rw [hlo]; positivity
  have hhi0 : 0 < hi := by rw [hhi]; positivity
  have range : ∀ b' y, y 0 = y₀ → Trajectory r y 0 b' → ∀ t ∈ Icc 0 b', lo ≤ (y t).P ∧ (y t).P ≤ hi := by
    intro b' y hy ty t ht
    have g := trajectory_motion ty
    have e := pressure_law hg hU hs.norm hv g ht
    have split : ∀ t, volumePerTemp r y t = D + (r.ws_vol_fn t).1.value / (y t).T_c + (r.ws_vol_fn t).2.value / (y t).T_e := by
      intro t; rw [volumePerTemp, hD]; ring
    rw [split, split, hy] at e
    have p := (ty.warm t ht).pres
    have c1 : 0 ≤ (r.ws_vol_fn t).1.value / (y t).T_c := div_nonneg (hv.comp t).1.le (g.regular.comp_pos t ht).le
    have c2 : 0 ≤ (r.ws_vol_fn t).2.value / (y t).T_e := div_nonneg (hv.exp t).1.le (g.regular.exp_pos t ht).le
    have c3 : (r.ws_vol_fn 0).1.value / y₀.T_c ≤ L.Vmax / y₀.T_c := by gcongr; exact (hv.comp 0).2
    have c4 : (r.ws_vol_fn 0).2.value / y₀.T_e ≤ L.Vmax / y₀.T_e := by gcongr; exact (hv.exp 0).2
    have c5 : 0 ≤ (r.ws_vol_fn 0).1.value / y₀.T_c := div_nonneg (hv.comp 0).1.le hTc0.le
    have c6 : 0 ≤ (r.ws_vol_fn 0).2.value / y₀.T_e := div_nonneg (hv.exp 0).1.le hTe0.le
    have c7 : (r.ws_vol_fn t).1.value / (y t).T_c ≤ L.Vmax / 100 := div_le_div₀ hV.le (hv.comp t).2 (by norm_num) (ty.warm t ht).comp
    have c8 : (r.ws_vol_fn t).2.value / (y t).T_e ≤ L.Vmax / 100 := div_le_div₀ hV.le (hv.exp t).2 (by norm_num) (ty.warm t ht).exp
    constructor
    · rw [hlo, div_le_iff₀ (by positivity)]
      calc y₀.P * D ≤ y₀.P * (D + (r.ws_vol_fn 0).1.value / y₀.T_c + (r.ws_vol_fn 0).2.value / y₀.T_e) :=
            mul_le_mul_of_nonneg_left (by linarith) hP.le
        _ = _ := e.symm
        _ ≤ _ := mul_le_mul_of_nonneg_left (by linarith) p.le
    · rw [hhi, le_div_iff₀ hD0]
      calc (y t).P * D ≤ (y t).P * (D + (r.ws_vol_fn t).1.value / (y t).T_c + (r.ws_vol_fn t).2.value / (y t).T_e) :=
            mul_le_mul_of_nonneg_left (by linarith) p.le
        _ = _ := e
        _ ≤ _ := mul_le_mul_of_nonneg_left (by linarith) hP.le
  obtain ⟨μ, hμ, hμ'⟩ := exists_between (show (100 : ℝ) < min (min y₀.T_c y₀.T_e)
    (min (min (isentropic (2077.23 / 5193.17) y₀.T_c y₀.P lo) (isentropic (2077.23 / 5193.17) y₀.T_e y₀.P lo))
      (min (isentropic (2077.23 / 5193.17) (r.temp.chx - 100) hi lo) (isentropic (2077.23 / 5193.17) (r.temp.hhx - 100) hi lo)))
    from lt_min (lt_min hTc hTe) (lt_min (lt_min h1 h2) (lt_min h3 h4)))
  simp only [lt_min_iff] at hμ'
  obtain ⟨⟨m1, m2⟩, ⟨m3, m4⟩, m5, m6⟩ := hμ'
  have eμ : 100 + (μ - 100) = μ := by ring
  rcases C108_until_cold hf hs hU hc hq hv hk0 hw hK hd y₀ hP (η := μ - 100) (by linarith) (by linarith) (by linarith) hb with
    ⟨y, hy, ty⟩ | ⟨b', y, hb', hy, ty, hcold⟩
  · exact ⟨y, hy, ty, range b y hy ty⟩
  · exfalso
    have ht : b' ∈ Icc 0 b' := ⟨hb'.1, le_rfl⟩
    obtain ⟨k1, k2⟩ := C108_not_colder hg hU hs.norm hq hv (trajectory_motion ty) (by norm_num)
      (helium_shift.trans_le hs.chx_temp) (helium_shift.trans_le hs.hhx_temp) (fun t ht => (range b' y hy ty t ht).2) ht
    have pr := (range b' y hy ty b' ht).1
    rw [hy] at k1 k2
    have up : ∀ {T T' P : ℝ}, 0 ≤ T → T ≤ T' → 0 < P →
        isentropic (2077.23 / 5193.17) T P lo ≤ isentropic (2077.23 / 5193.17) T' P (y b').P := by
      intro T T' P hT hTT hP
      have := hT.trans hTT
      unfold isentropic
      gcongr
    have pos : ∀ {T P : ℝ}, 0 < P → 100 < isentropic (2077.23 / 5193.17) T P lo → 0 ≤ T := by
      intro T P hP h
      by_contra hT
      push Not at hT
      have := mul_nonpos_of_nonpos_of_nonneg hT.le (Real.rpow_nonneg (div_pos hlo0 hP).le (2077.23 / 5193.17))
      unfold isentropic at h
      linarith
    have u1 := up hTc0.le le_rfl hP
    have u2 := up hTe0.le le_rfl hP
    have u3 := up (pos hhi0 h3) (T' := r.temp.chx - (-((5193.17 - 2077.23) * 250) - -(5193.17 * 250)) / 5193.17)
      (by linarith [helium_shift]) hhi0
    have u4 := up (pos hhi0 h4) (T' := r.temp.hhx - (-((5193.17 - 2077.23) * 250) - -(5193.17 * 250)) / 5193.17)
      (by linarith [helium_shift]) hhi0
    rw [eμ] at hcold
    rcases hcold with hcold | hcold
    · rcases min_le_iff.1 k1 with k | k <;> linarith
    · rcases min_le_iff.1 k2 with k | k <;> linarith

end motions

end Sett
