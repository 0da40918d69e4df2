import Verif.Props.Forever
import Verif.Props.NearbyExample
import Verif.Props.SecondLawExample

/-! # Examples for C108 -/

namespace Sett.TrajectoryExample

open Spec state_equations BalanceExample Set

theorem vessel {x f : ℝ} (φ : ℝ) (hx : 0 < x) (hf : |f| ≤ 1 / 10) : Vessel (other x f φ) limits.Vmax := by
  have d := driveWithin_other x φ hf
  have s := saneRun_other φ hx.le hf
  refine ⟨fun t => ws.C11_sinusoidal_deriv (turned f φ) t, fun t => ⟨s.comp_vol t, (d.comp_vol t).2⟩, fun t => ⟨s.exp_vol t, (d.exp_vol t).2⟩, hx.le,
    s.regen_vol, s.hhx_vol, ?_, s.regen_temp, ?_⟩
  · linarith [s.chx_temp]
  · linarith [s.hhx_temp]

theorem quiet (x f φ : ℝ) : NoParasiticHeat (other x f φ) := ⟨rfl, rfl⟩

/-- C108 applies: in the engine with a cooler of whatever volume, the pressure stays between two bounds. -/
example {x : ℝ} (hx : 0 < x) (y₀ : Conditions ℝ) (hP : 0 < y₀.P) (hTc : 0 < y₀.T_c) (hTe : 0 < y₀.T_e) :
    ∃ Pmin Pmax Tmin, 0 < Pmin ∧ 0 < Tmin ∧ ∀ a b y, y a = y₀ → GasMotion (other x 0 0) y a b → ∀ t ∈ Icc a b,
      Pmin ≤ (y t).P ∧ (y t).P ≤ Pmax ∧ Tmin ≤ (y t).T_c ∧ Tmin ≤ (y t).T_e :=
  C108_helium rfl (saneRun_other 0 hx.le (by norm_num)) exact_sound (quiet _ _ _) (vessel 0 hx (by norm_num)) hx y₀ hP hTc hTe

/-- C108 applies: with a large cooler the gas moves for ever. -/
theorem for_ever {b : ℝ} (hb : 0 ≤ b) : ∃ y, y 0 = ⟨500, 340, 860⟩ ∧ Trajectory (other 100 0 0) y 0 b := by
  obtain ⟨K, hK, hd⟩ := C82_sinusoidal_steady exact (otherParts 100 0 0) state (turned 0 0) rfl (by norm_num [turned, drive])
  have hx : ∀ {T q : ℝ}, 0 < T → 0 < q → 200 ≤ T → (3 / 4 : ℝ) ≤ q → 100 < T * q ^ (2077.23 / 5193.17 : ℝ) := by
    intro T q hT hq h1 h2
    have h3 : (3 / 4 : ℝ) ≤ q ^ (2077.23 / 5193.17 : ℝ) := by
      calc (3 / 4 : ℝ) = (3 / 4) ^ (1 : ℝ) := by norm_num
        _ ≤ (3 / 4) ^ (2077.23 / 5193.17 : ℝ) := Real.rpow_le_rpow_of_exponent_ge (by norm_num) (by norm_num) (by norm_num)
        _ ≤ _ := Real.rpow_le_rpow (by norm_num) h2 (by norm_num)
    nlinarith
  have e1 : (other 100 0 0).vol_chx = 100 := rfl
  have e2 : (other 100 0 0).vol_regen = 0 := rfl
  have e3 : (other 100 0 0).vol_hhx = 0 := rfl
  have e4 : (other 100 0 0).temp = state.temp := rfl
  obtain ⟨y, hy, ty, -⟩ := C108_forever (r := other 100 0 0) (L := limits) rfl (saneRun_other 0 (by norm_num) (by norm_num))
    exact_sound exact_complete (quiet _ _ _) (vessel 0 (by norm_num) (by norm_num)) (by rw [e1]; norm_num) (driveWithin_other 100 0 (by norm_num)) hK hd
    ⟨500, 340, 860⟩ (by norm_num) (by norm_num) (by norm_num) (D := 100 / 340) (lo := 500 * (100 / 340) / (100 / 340 + 2 / 50))
    (hi := 500 * (100 / 340 + 2 / 340 + 2 / 860) / (100 / 340)) (by rw [e1, e2, e3, e4]; norm_num [state]) rfl rfl
    (hx (by norm_num) (by norm_num) (by norm_num) (by norm_num)) (hx (by norm_num) (by norm_num) (by norm_num) (by norm_num))
    (by rw [e4]; exact hx (by norm_num [state]) (by norm_num) (by norm_num [state]) (by norm_num))
    (by rw [e4]; exact hx (by norm_num [state]) (by norm_num) (by norm_num [state]) (by norm_num)) hb
  exact ⟨y, hy, ty⟩

end Sett.TrajectoryExample

namespace Sett.SecondLawExample

open Spec state_equations BalanceExample TrajectoryExample Set

theorem grow_le (t : ℝ) : Real.exp (g * x1 t) ≤ 1.1 := by
  rw [← exp_g]
  exact Real.exp_le_exp.2 (mul_le_of_le_one_right g_nonneg (order t).2.2.2.2)

theorem decay_le (t : ℝ) : Real.exp (-(g * x3 t)) ≤ 1 := by
  obtain ⟨h0, h1, h2, h3, h4⟩ := order t
  exact Real.exp_le_one_iff.2 (neg_nonpos.2 (mul_nonneg g_nonneg (h0.trans h1)))

theorem pres_ge (t : ℝ) : 1000000 ≤ pres t := by
  obtain ⟨h0, h1, h2, h3, h4⟩ := order t
  have := Real.one_le_exp (x := g * (5193.17 / 2077.23) * (x1 t - x3 t))
    (mul_nonneg (mul_nonneg g_nonneg (by norm_num)) (by linarith))
  unfold pres
  linarith

theorem Tc_le (t : ℝ) : Tc 0 t ≤ 630 := by
  obtain ⟨h0, h1, h2, h3, h4⟩ := order t
  have e : Tc 0 t = (300 * (Real.exp (g * x1 t) * Real.exp (-(g * x3 t))) + x4 t * 300) / (1 + x4 t) := by
    simp only [Tc, T0, τ]; norm_num; ring
  have hm : Real.exp (g * x1 t) * Real.exp (-(g * x3 t)) ≤ 1.1 * 1 :=
    mul_le_mul (grow_le t) (decay_le t) (Real.exp_pos _).le (by norm_num)
  rw [e, div_le_iff₀ (by linarith)]
  linarith

theorem Te_le (t : ℝ) : Te 0 t ≤ 1200 := by
  obtain ⟨h0, h1, h2, h3, h4⟩ := order t
  have e : Te 0 t = (600 / 1.1 * Real.exp (g * x1 t) + x2 t * 600) / (1 + x2 t) * Real.exp (-(g * x3 t)) := by
    simp only [Te, E0, τ]; norm_num
  have hd := decay_le t
  have hp := Real.exp_pos (-(g * x3 t))
  have hg := grow_le t
  have hq : (600 / 1.1 * Real.exp (g * x1 t) + x2 t * 600) / (1 + x2 t) ≤ 1200 := by
    rw [div_le_iff₀ (by linarith)]
    norm_num at hg ⊢
    linarith
  rw [e]
  nlinarith

theorem vessel : Vessel (run 0 gas) 6 := by
  have key : ∀ {m T P : ℝ}, 0 < m → m ≤ 2 → 0 < T → T ≤ 1200 → 1000000 ≤ P → 0 < 2077.23 * (m * T) / P ∧ 2077.23 * (m * T) / P ≤ 6 := by
    intro m T P h1 h2 h3 h4 h5
    have hP : 0 < P := by linarith
    refine ⟨by positivity, ?_⟩
    rw [div_le_iff₀ hP]
    have : m * T ≤ 2 * 1200 := mul_le_mul h2 h4 h3.le (by norm_num)
    norm_num
    linarith
  have z : (0 : ℝ) ≤ 2077.23 * 250 := by norm_num
  refine ⟨exact_drive 0 ⟨(state gas).pres⟩, fun t => ?_, fun t => ?_, le_rfl, le_rfl, le_rfl, ?_, ?_, ?_⟩
  · obtain ⟨h0, h1, h2, h3, h4⟩ := order (clock t)
    exact key (a_pos _) (by unfold a; linarith) (by linarith [Tc_ge le_rfl z (clock t)]) (by linarith [Tc_le (clock t)]) (pres_ge _)
  · obtain ⟨h0, h1, h2, h3, h4⟩ := order (clock t)
    exact key (b_pos _) (by unfold b; linarith) (by linarith [Te_ge le_rfl z (clock t)]) (Te_le _) (pres_ge _)
  · show (0 : ℝ) < 300; norm_num
  · show (0 : ℝ) < 450; norm_num
  · show (0 : ℝ) < 600; norm_num

theorem motion : GasMotion (run 0 gas) (y 0) 0 4 := by
  have c := closed (w := 0) le_rfl (by norm_num) (f := gas) (by rw [add_zero]; exact gas_perfect)
  exact ⟨c.regular, c.pres_pos, fun t ht => ⟨_, c.follows t ht⟩⟩

/-- C108 applies to the cycle of the gas: nowhere is it hotter than by compression from the lowest pressure. -/
example {t : ℝ} (ht : t ∈ Icc 0 4) :
    (y 0 t).T_c ≤ max (isentropic (2077.23 / 5193.17) (y 0 0).T_c (y 0 0).P (y 0 t).P) (isentropic (2077.23 / 5193.17) 300 1000000 (y 0 t).P) :=
  (C108_not_hotter gas_perfect exact_sound (norm_ne (w := 0) (by rw [add_zero]; exact gas_perfect)) ⟨rfl, rfl⟩ vessel motion (by norm_num)
    (fun t _ => pres_ge t) ht).1

/-- It applies: nowhere is the gas colder than by expansion from the highest pressure. -/
example {Pmax : ℝ} (h : ∀ t ∈ Icc 0 4, (y 0 t).P ≤ Pmax) {t : ℝ} (ht : t ∈ Icc 0 4) :
    min (isentropic (2077.23 / 5193.17) (y 0 0).T_e (y 0 0).P (y 0 t).P)
      (isentropic (2077.23 / 5193.17) (600 - (-(5193.17 * 250) - -(5193.17 * 250)) / 5193.17) Pmax (y 0 t).P) ≤ (y 0 t).T_e :=
  (C108_not_colder gas_perfect exact_sound (norm_ne (w := 0) (by rw [add_zero]; exact gas_perfect)) ⟨rfl, rfl⟩ vessel motion le_rfl
    (by rw [sub_self, zero_div]; exact vessel.chx_temp) (by rw [sub_self, zero_div]; exact vessel.hhx_temp) h ht).2

end Sett.SecondLawExample
