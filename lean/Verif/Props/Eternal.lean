import Verif.Props.ForeverExample

/-! # C108: one motion for all time

The motions of C108 of different lengths are parts of a single one. -/

namespace Sett

open Spec state_equations Set

theorem continuousDrive_of_steady {r : Run ℝ} {K Vmax : ℝ} (hv : Vessel r Vmax) (hd : SteadyDrive r K) : ContinuousDrive r := by
  have hl : ∀ f : ℝ → ℝ, (∀ t t', |f t - f t'| ≤ driveGap r t t') → Continuous f := by
    intro f hf
    have : LipschitzWith (Real.toNNReal K) f := LipschitzWith.of_dist_le_mul fun t t' => by
      rw [Real.dist_eq, Real.dist_eq]
      exact ((hf t t').trans (hd t t')).trans (mul_le_mul_of_nonneg_right (Real.le_coe_toNNReal K) (abs_nonneg _))
    exact this.continuous
  refine ⟨continuous_iff_continuousAt.2 fun t => (hv.drive t).1.continuousAt,
    continuous_iff_continuousAt.2 fun t => (hv.drive t).2.continuousAt, hl _ fun t t' => ?_, hl _ fun t t' => ?_⟩ <;>
  · unfold driveGap
    have a1 := abs_nonneg ((r.ws_vol_fn t).1.value - (r.ws_vol_fn t').1.value)
    have a2 := abs_nonneg ((r.ws_vol_fn t).2.value - (r.ws_vol_fn t').2.value)
    have a3 := abs_nonneg ((r.ws_vol_fn t).1.deriv - (r.ws_vol_fn t').1.deriv)
    have a4 := abs_nonneg ((r.ws_vol_fn t).2.deriv - (r.ws_vol_fn t').2.deriv)
    linarith

/-- Motions of all lengths from the same start are parts of one. -/
theorem one_motion {r : Run ℝ} {n : GasName} (hf : r.fluid = (IdealGas.new n).toFluid) (hs : SaneRun r) (hT : Sound r.solver)
    (hd : ContinuousDrive r) {y₀ : Conditions ℝ} (h : ∀ b, 0 ≤ b → ∃ y, y 0 = y₀ ∧ Trajectory r y 0 b) :
    ∃ y, y 0 = y₀ ∧ ∀ b, Trajectory r y 0 b := by
  haveI : Nonempty (Conditions ℝ) := ⟨y₀⟩
  choose! Y hY0 hY using h
  have agree : ∀ {b b' t : ℝ}, 0 ≤ t → t ≤ b → t ≤ b' → Y b t = Y b' t := by
    intro b b' t h0 h1 h2
    exact C71_unique hf hs hT hd (trajectory_restrict (hY b (h0.trans h1)) h1) (trajectory_restrict (hY b' (h0.trans h2)) h2)
      (by rw [hY0 b (h0.trans h1), hY0 b' (h0.trans h2)]) t ⟨h0, le_rfl⟩
  refine ⟨fun t => Y (t + 1) t, hY0 (0 + 1) (by norm_num), fun b => ?_⟩
  rcases le_or_gt 0 b with hb | hb
  swap
  · refine ⟨⟨?_, ?_, ?_⟩, ?_, ?_⟩ <;> simp [Icc_eq_empty (not_le.2 hb), Ico_eq_empty (not_lt.2 hb.le)]
  have eq : ∀ t ∈ Icc 0 b, Y (t + 1) t = Y b t := fun t ht => agree ht.1 (by linarith) ht.2
  have T := hY b hb
  refine ⟨⟨T.cont.pres.congr fun t ht => congrArg (·.P) (eq t ht), T.cont.comp.congr fun t ht => congrArg (·.T_c) (eq t ht),
    T.cont.exp.congr fun t ht => congrArg (·.T_e) (eq t ht)⟩, fun t ht => by rw [eq t ht]; exact T.warm t ht, fun t ht => ?_⟩
  obtain ⟨s, hs⟩ := T.follows t ht
  have ev : ∀ᶠ u in nhdsWithin t (Ici t), Y (u + 1) u = Y b u := by
    filter_upwards [Ico_mem_nhdsGE ht.2] with u hu
    exact eq u ⟨ht.1.trans hu.1, hu.2.le⟩
  have e := eq t (Ico_subset_Icc_self ht)
  refine ⟨s, ?_, hs.pres.congr_of_eventuallyEq (ev.mono fun u h => congrArg (·.P) h) (congrArg (·.P) e),
    hs.comp.congr_of_eventuallyEq (ev.mono fun u h => congrArg (·.T_c) h) (congrArg (·.T_c) e),
    hs.exp.congr_of_eventuallyEq (ev.mono fun u h => congrArg (·.T_e) h) (congrArg (·.T_e) e)⟩
  simpa only [e] using hs.solved

/-- **C108**, for all time: under the hypotheses of `C108_forever` there is exactly one motion from the start that never
ends, and its pressure stays within the bounds. -/
theorem C108_eternal {r : Run ℝ} (hf : r.fluid = (IdealGas.helium : IdealGas ℝ).toFluid) (hs : SaneRun r) (hU : Sound r.solver)
    (hc : Complete r.solver) (hq : NoParasiticHeat r) {L : Limits} (hv : Vessel r L.Vmax) (hk0 : 0 < r.vol_chx) (hw : DriveWithin r L)
    {K : ℝ} (hK : 0 ≤ K) (hd : SteadyDrive r K) (y₀ : Conditions ℝ) (hP : 0 < y₀.P) (hTc : 100 < y₀.T_c) (hTe : 100 < y₀.T_e)
    {D lo hi : ℝ} (hD : D = r.vol_chx / r.temp.chx + r.vol_regen / r.temp.regen.avg + r.vol_hhx / r.temp.hhx)
    (hlo : lo = y₀.P * D / (D + L.Vmax / 50)) (hhi : hi = y₀.P * (D + L.Vmax / y₀.T_c + L.Vmax / y₀.T_e) / D)
    (h1 : 100 < isentropic (2077.23 / 5193.17) y₀.T_c y₀.P lo) (h2 : 100 < isentropic (2077.23 / 5193.17) y₀.T_e y₀.P lo)
    (h3 : 100 < isentropic (2077.23 / 5193.17) (r.temp.chx - 100) hi lo)
    (h4 : 100 < isentropic (2077.23 / 5193.17) (r.temp.hhx - 100) hi lo) :
    ∃ y, y 0 = y₀ ∧ (∀ b, Trajectory r y 0 b) ∧ (∀ t, 0 ≤ t → lo ≤ (y t).P ∧ (y t).P ≤ hi) ∧
      ∀ z b, z 0 = y₀ → Trajectory r z 0 b → ∀ t ∈ Icc 0 b, z t = y t := by
  have cd := continuousDrive_of_steady hv hd
  have all := fun b (hb : 0 ≤ b) => C108_forever hf hs hU hc hq hv hk0 hw hK hd y₀ hP hTc hTe hD hlo hhi h1 h2 h3 h4 hb
  obtain ⟨y, hy, ty⟩ := one_motion (n := .Helium) hf hs hU cd (y₀ := y₀) fun b hb => (all b hb).imp fun y h => ⟨h.1, h.2.1⟩
  refine ⟨y, hy, ty, fun t ht => ?_, fun z b hz tz => C71_unique (n := .Helium) hf hs hU cd tz (ty b) (hz.trans hy.symm)⟩
  obtain ⟨z, hz, tz, hb⟩ := all t ht
  rw [C71_unique (n := .Helium) hf hs hU cd (ty t) tz (hy.trans hz.symm) t ⟨ht, le_rfl⟩]
  exact hb t ⟨ht, le_rfl⟩

/-- It applies to the engine of `for_ever`. -/
example : ∃ y, y 0 = ⟨500, 340, 860⟩ ∧ ∀ b, Trajectory (TrajectoryExample.other 100 0 0) y 0 b := by
  obtain ⟨K, hK, hd⟩ := C82_sinusoidal_steady BalanceExample.exact (TrajectoryExample.otherParts 100 0 0) TrajectoryExample.state
    (TrajectoryExample.turned 0 0) rfl (by norm_num [TrajectoryExample.turned, TrajectoryExample.drive])
  exact one_motion (n := .Helium) rfl (TrajectoryExample.saneRun_other 0 (by norm_num) (by norm_num)) BalanceExample.exact_sound
    (continuousDrive_of_steady (TrajectoryExample.vessel 0 (by norm_num) (by norm_num)) hd) fun b hb => TrajectoryExample.for_ever hb

end Sett
