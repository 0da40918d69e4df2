import Verif.Props.ForeverGas
import Verif.Props.Eternal

/-! # C108: hydrogen that moves for ever -/

namespace Sett

open Spec state_equations Set

/-- **C108**, the crate's hydrogen for all time: if neither the first gas nor gas 96 K colder than the exchangers gets as cold
as 100 K by expanding from the highest to the lowest pressure, there is exactly one motion from the start that never ends,
and its pressure stays within the bounds. -/
theorem C108_hydrogen_eternal {r : Run ℝ} (hf : r.fluid = (IdealGas.hydrogen : IdealGas ℝ).toFluid) (hs : SaneRun r)
    (hU : Sound r.solver) (hc : Complete r.solver) (hq : NoParasiticHeat r) {L : Limits} (hv : Vessel r L.Vmax) (hk0 : 0 < r.vol_chx)
    (hw : DriveWithin r L) {K : ℝ} (hK : 0 ≤ K) (hd : SteadyDrive r K) (y₀ : Conditions ℝ) (hP : 0 < y₀.P) (hTc : 100 < y₀.T_c)
    (hTe : 100 < y₀.T_e) {D lo hi : ℝ} (hD : D = r.vol_chx / r.temp.chx + r.vol_regen / r.temp.regen.avg + r.vol_hhx / r.temp.hhx)
    (hlo : lo = y₀.P * D / (D + L.Vmax / 50)) (hhi : hi = y₀.P * (D + L.Vmax / y₀.T_c + L.Vmax / y₀.T_e) / D)
    (h1 : 100 < isentropic (4124.2 / 12471.4839) (min y₀.T_c (r.temp.chx - 96)) hi lo)
    (h2 : 100 < isentropic (4124.2 / 12471.4839) (min y₀.T_e (r.temp.hhx - 96)) hi lo) :
    ∃ y, y 0 = y₀ ∧ (∀ b, Trajectory r y 0 b) ∧ (∀ t, 0 ≤ t → lo ≤ (y t).P ∧ (y t).P ≤ hi) ∧
      ∀ z b, z 0 = y₀ → Trajectory r z 0 b → ∀ t ∈ Icc 0 b, z t = y t := by
  have hg := crate_caloric .Hydrogen
  have eR : (IdealGas.new .Hydrogen : IdealGas ℝ).gas_constant = 4124.2 := by
    simp only [IdealGas.new, IdealGas.parameters]
  have hf' : r.fluid = (IdealGas.new .Hydrogen : IdealGas ℝ).toFluid := hf
  rw [← hf', eR] at hg
  have cd := continuousDrive_of_steady hv hd
  have hV : 0 < L.Vmax := (hv.comp 0).1.trans_le (hv.comp 0).2
  have hD0 : 0 < D := by
    rw [hD]
    exact add_pos_of_pos_of_nonneg (add_pos_of_pos_of_nonneg (div_pos hk0 hv.chx_temp)
      (div_nonneg hv.regen hv.regen_temp.le)) (div_nonneg hv.hhx hv.hhx_temp.le)
  have hTc0 : 0 < y₀.T_c := by linarith
  have hTe0 : 0 < y₀.T_e := by linarith
  have hlo0 : 0 < lo := by rw [hlo]; positivity
  have hhi0 : 0 < hi := by rw [hhi]; positivity
  have range : ∀ b' y, y 0 = y₀ → Trajectory r y 0 b' → ∀ t ∈ Icc 0 b', lo ≤ (y t).P ∧ (y t).P ≤ hi := by
    intro b' y hy ty t ht
    have g := trajectory_motion ty
    have e := caloric_pressure_law hg hU hs.norm hv g ht
    have split : ∀ t, volumePerTemp r y t = D + (r.ws_vol_fn t).1.value / (y t).T_c + (r.ws_vol_fn t).2.value / (y t).T_e := by
      intro t; rw [volumePerTemp, hD]; ring
    rw [split, split, hy] at e
    have p := (ty.warm t ht).pres
    have c1 : 0 ≤ (r.ws_vol_fn t).1.value / (y t).T_c := div_nonneg (hv.comp t).1.le (g.regular.comp_pos t ht).le
    have c2 : 0 ≤ (r.ws_vol_fn t).2.value / (y t).T_e := div_nonneg (hv.exp t).1.le (g.regular.exp_pos t ht).le
    have c3 : (r.ws_vol_fn 0).1.value / y₀.T_c ≤ L.Vmax / y₀.T_c := by gcongr; exact (hv.comp 0).2
    have c4 : (r.ws_vol_fn 0).2.value / y₀.T_e ≤ L.Vmax / y₀.T_e := by gcongr; exact (hv.exp 0).2
    have c5 : 0 ≤ (r.ws_vol_fn 0).1.value / y₀.T_c := div_nonneg (hv.comp 0).1.le hTc0.le
    have c6 : 0 ≤ (r.ws_vol_fn 0).2.value / y₀.T_e := div_nonneg (hv.exp 0).1.le hTe0.le
    have c7 : (r.ws_vol_fn t).1.value / (y t).T_c ≤ L.Vmax / 100 := div_le_div₀ hV.le (hv.comp t).2 (by norm_num) (ty.warm t ht).comp
    have c8 : (r.ws_vol_fn t).2.value / (y t).T_e ≤ L.Vmax / 100 := div_le_div₀ hV.le (hv.exp t).2 (by norm_num) (ty.warm t ht).exp
    constructor
    · rw [hlo, div_le_iff₀ (by positivity)]
      calc y₀.P * D ≤ y₀.P * (D + (r.ws_vol_fn 0).1.value / y₀.T_c + (r.ws_vol_fn 0).2.value / y₀.T_e) :=
            mul_le_mul_of_nonneg_left (by linarith) hP.le
        _ = _ := e.symm
        _ ≤ _ := mul_le_mul_of_nonneg_left (by linarith) p.le
    · rw [hhi, le_div_iff₀ hD0]
      calc (y t).P * D ≤ (y t).P * (D + (r.ws_vol_fn t).1.value / (y t).T_c + (r.ws_vol_fn t).2.value / (y t).T_e) :=
            mul_le_mul_of_nonneg_left (by linarith) p.le
        _ = _ := e
        _ ≤ _ := mul_le_mul_of_nonneg_left (by linarith) hP.le
  have all : ∀ b, 0 ≤ b → ∃ y, y 0 = y₀ ∧ Trajectory r y 0 b := by
    intro b hb
    obtain ⟨μ, hμ, hμ'⟩ := exists_between (show (100 : ℝ) < min (min y₀.T_c y₀.T_e)
      (min (isentropic (4124.2 / 12471.4839) (min y₀.T_c (r.temp.chx - 96)) hi lo)
        (isentropic (4124.2 / 12471.4839) (min y₀.T_e (r.temp.hhx - 96)) hi lo)) from lt_min (lt_min hTc hTe) (lt_min h1 h2))
    rw [lt_min_iff, lt_min_iff, lt_min_iff (a := μ) (c := isentropic _ (min y₀.T_e _) _ _)] at hμ'
    obtain ⟨⟨m1, m2⟩, m3, m4⟩ := hμ'
    have eμ : 100 + (μ - 100) = μ := by ring
    rcases C108_hydrogen_until_cold hf hs hU hc hq hv hk0 hw hK hd y₀ hP (η := μ - 100) (by linarith) (by linarith) (by linarith) hb with
      h | ⟨b', y, hb', hy, ty, hcold⟩
    · exact h
    · exfalso
      have ht : b' ∈ Icc 0 b' := ⟨hb'.1, le_rfl⟩
      have hk := hs.chx_temp
      have hl := hs.hhx_temp
      obtain ⟨k1, k2⟩ := C108_gas_not_colder hg hU hs.norm hq hv (trajectory_motion ty) (by norm_num) (c := 12471.4839) (by norm_num)
        (fun T hT => hydrogen_cp_ge hT) (Tk := r.temp.chx - 96) (Tl := r.temp.hhx - 96) (by linarith) (by linarith)
        (fun T P hT h => by rw [hf']; exact hydrogen_colder (P := P) hT (by linarith))
        (fun T P hT h => by rw [hf']; exact hydrogen_colder (P := P) hT (by linarith))
        (fun t ht => (range b' y hy ty t ht).2) ht
      have pr := (range b' y hy ty b' ht).1
      rw [hy] at k1 k2
      have up : ∀ {T : ℝ}, 0 < T →
          isentropic (4124.2 / 12471.4839) T hi lo ≤ isentropic (4124.2 / 12471.4839) T hi (y b').P := by
        intro T hT
        unfold isentropic
        gcongr
      have u1 := up (lt_min hTc0 (by linarith : 0 < r.temp.chx - 96))
      have u2 := up (lt_min hTe0 (by linarith : 0 < r.temp.hhx - 96))
      rw [eμ] at hcold
      rcases hcold with hcold | hcold <;> linarith
  obtain ⟨y, hy, ty⟩ := one_motion (n := .Hydrogen) hf hs hU cd all
  exact ⟨y, hy, ty, fun t ht => range t y hy (ty t) t ⟨ht, le_rfl⟩,
    fun z b hz tz => C71_unique (n := .Hydrogen) hf hs hU cd tz (ty b) (hz.trans hy.symm)⟩

namespace TrajectoryExample

open BalanceExample

/-- It applies to an engine with a large cooler, filled with hydrogen. -/
example : ∃ y, y 0 = ⟨500, 340, 860⟩ ∧ ∀ b, Trajectory (hydrogenRun 100) y 0 b := by
  obtain ⟨K, hK, hd⟩ := C82_sinusoidal_steady exact (otherParts 100 0 0)
    { state with fluid := (IdealGas.hydrogen : IdealGas ℝ).toFluid } (turned 0 0) rfl (by norm_num [turned, drive])
  have hx : ∀ {T lo hi : ℝ}, 0 < T → 0 < lo → lo ≤ hi → 100 * hi < T * lo → 100 < isentropic (4124.2 / 12471.4839) T hi lo := by
    intro T lo hi hT h0 h1 h2
    have hh := h0.trans_le h1
    have h3 : lo / hi ≤ (lo / hi) ^ (4124.2 / 12471.4839 : ℝ) := by
      have := Real.rpow_le_rpow_of_exponent_ge (div_pos h0 hh) ((div_le_one hh).2 h1) (show (4124.2 / 12471.4839 : ℝ) ≤ 1 by norm_num)
      rwa [Real.rpow_one] at this
    have h4 : 100 < T * (lo / hi) := by rwa [← mul_div_assoc, lt_div_iff₀ hh]
    exact h4.trans_le (mul_le_mul_of_nonneg_left h3 hT.le)
  have v := vessel (x := 100) (f := 0) 0 (by norm_num) (by norm_num)
  have d := driveWithin_other 100 0 (f := 0) (by norm_num)
  have e1 : (hydrogenRun 100).vol_chx = 100 := rfl
  have e2 : (hydrogenRun 100).vol_regen = 0 := rfl
  have e3 : (hydrogenRun 100).vol_hhx = 0 := rfl
  have e4 : (hydrogenRun 100).temp = state.temp := rfl
  obtain ⟨y, hy, ty, -⟩ := C108_hydrogen_eternal (r := hydrogenRun 100) rfl (saneRun_hydrogen (by norm_num)) exact_sound exact_complete
    ⟨rfl, rfl⟩ (L := limits) ⟨v.drive, v.comp, v.exp, v.chx, v.regen, v.hhx, v.chx_temp, v.regen_temp, v.hhx_temp⟩
    (by rw [e1]; norm_num) ⟨d.comp_vol, d.exp_vol, d.comp_rate, d.exp_rate⟩ hK hd ⟨500, 340, 860⟩ (by norm_num) (by norm_num)
    (by norm_num) (D := 100 / 340) (lo := 500 * (100 / 340) / (100 / 340 + 2 / 50))
    (hi := 500 * (100 / 340 + 2 / 340 + 2 / 860) / (100 / 340)) (by rw [e1, e2, e3, e4]; norm_num [state]) rfl rfl
    (by rw [e4]; exact hx (by norm_num [state]) (by norm_num) (by norm_num [state]) (by norm_num [state]))
    (by rw [e4]; exact hx (by norm_num [state]) (by norm_num) (by norm_num [state]) (by norm_num [state]))
  exact ⟨y, hy, ty⟩

end TrajectoryExample

end Sett
