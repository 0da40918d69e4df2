import Verif.Props.SettleDrives
import Verif.Props.SettleExample
import Verif.Props.UniqueExample

/-! # Concrete cases for C103 -/

namespace Sett.BreathingExample

open Spec state_equations TrajectoryExample BalanceExample

/-- The engine of the worked trajectory at a moment when its compression piston stands and the expansion space grows. -/
noncomputable def opening : Run ℝ := { run with ws_vol_fn := fun _ => (⟨1, 0⟩, ⟨2, 1⟩) }

/-- C103, pressure and flows: gas goes to the growing space through every exchanger, and the pressure falls. -/
example : ∃ s, (∀ hint, solve opening.solver (opening.calculate_inputs 0 (y 0)) hint = .ok s) ∧ s.dP_dt < 0 ∧
    ∀ m ∈ fourFlows s, 0 < m := by
  have h := saneRun
  have ho : SaneRun opening := ⟨h.norm, fun _ => by norm_num [opening], fun _ => by norm_num [opening], h.chx_vol, h.regen_vol,
    h.hhx_vol, h.regen_temp, h.chx_temp, h.hhx_temp⟩
  have hp := SaneRun.physical ho 0 ((trajectory 0 0).warm 0 ⟨le_rfl, le_rfl⟩)
  obtain ⟨s, hs⟩ := C59_run_solve opening .Helium rfl exact_sound exact_complete 0 _ hp
  have hd : s.dP_dt < 0 := by
    obtain ⟨h1, h2⟩ := (C103_pressure (n := .Helium) rfl exact_sound hp .default (hs _)).1 (by norm_num [opening])
      (by norm_num [opening]) le_rfl le_rfl
    refine lt_of_le_of_ne h1 fun h => ?_
    have := (h2 h).2.1
    norm_num [opening] at this
  exact ⟨s, hs, hd, ((C103_flows (n := .Helium) rfl exact_sound hp .default (hs _)).1 rfl rfl).2 hd⟩

/-- The same engine with its compression piston held and its expansion piston moving a little, a quarter of a turn ahead. -/
noncomputable def flutter (b : ℝ) : Components ℝ :=
  { components with ws := ({ drive with
      phase_angle := 90, comp_geometry := ⟨1, 0⟩, exp_geometry := ⟨1, b⟩ } : ws.SinusoidalDrive ℝ).toWorkingSpaces }

noncomputable def settings : RunSettings ℝ :=
  { resolution := 10, loop_tol := ⟨⟨1, 1⟩, ⟨1, 1⟩⟩, ode_tol := ⟨1, 1⟩, max_iters := ⟨1, 1⟩ }

/-- C103: gas passes all its exchangers. -/
example : ∃ b vs, 0 < b ∧ Engine.inner ⟨dopri5.solve 20, .checked⟩ exact (flutter b) settings state = .ok vs ∧
    ∀ m, MassFlows.from_values (Values.ofStateValues vs) = .ok m → 0 < m.chx ∧ 0 < m.regen ∧ 0 < m.hhx := by
  have h := saneRun
  have h10 : (10 : UInt32).toNat = 10 := by decide
  let L : Limits := ⟨100, 2000, 2000, 1, 2, 4, by norm_num, by norm_num⟩
  obtain ⟨w, hw, hs⟩ := C88_search (n := .Helium) rfl h exact_sound exact_complete ⟨rfl, rfl⟩ L
    (δ := 1) (σ := 1) one_pos one_pos
  set o : ℝ := 2 * Real.pi * 1 with ho
  have ho0 : 0 < o := by have := Real.pi_pos; positivity
  obtain ⟨b, hb, b1, b2⟩ : ∃ b : ℝ, 0 < b ∧ b ≤ 1 ∧ b ≤ 2 * w / (o + o ^ 2) :=
    ⟨min 1 (2 * w / (o + o ^ 2)), by positivity, min_le_left _ _, min_le_right _ _⟩
  have hper : (Run.new exact (flutter b) state).period = 1 := by
    show (1.0 : ℝ) / 1 = 1; norm_num
  have slow : SlowDrive (Run.new exact (flutter b) state) L w := by
    refine sinusoidal_slow { drive with phase_angle := 90, comp_geometry := ⟨1, 0⟩, exp_geometry := ⟨1, b⟩ } rfl (by norm_num [drive]) le_rfl
      hb.le le_rfl ?_ le_rfl ?_ ?_
    · show (1 : ℝ) + 0 ≤ 2; norm_num
    · show (1 : ℝ) + b ≤ 2; linarith
    · show (0 + b) * (o + o ^ 2) ≤ 2 * w
      rw [le_div_iff₀ (by positivity)] at b2
      linarith
  obtain ⟨vs, v1, -, v3⟩ := hs (Run.new exact (flutter b) state) rfl slow (by rw [hper]; norm_num) (by rw [hper]; norm_num) 20
    ⟨dopri5.solve 20, .checked⟩ (innerRequest settings state) rfl (by show 2 ≤ (10 : UInt32).toNat; omega)
    (by rw [hper]; show (((10 : UInt32).toNat : ℝ) - 1) * 1e-14 < 1; rw [h10]; norm_num)
    (by show (10 : UInt32).toNat + 2 ≤ 20; omega) (by norm_num [innerRequest, settings])
    (by
      show (1 : ℝ) ≤ 1 + min 100 100 * 1
      norm_num) le_rfl le_rfl le_rfl (by
      refine ⟨⟨?_, ?_⟩, ⟨?_, ?_⟩, ⟨?_, ?_⟩⟩
      · show (100 : ℝ) + 1 ≤ 500; norm_num
      · show (500 : ℝ) ≤ 2000 - 1; norm_num
      · show (100 : ℝ) + 1 ≤ 340; norm_num
      · show (340 : ℝ) ≤ 2000 - 1; norm_num
      · show (100 : ℝ) + 1 ≤ 860; norm_num
      · show (860 : ℝ) ≤ 2000 - 1; norm_num)
  refine ⟨b, vs, hb, v1, ?_⟩
  have sane : SaneRun (Run.new exact (flutter b) state) := ⟨h.norm, fun t => lt_of_lt_of_le one_pos (slow.comp_vol t).1,
    fun t => lt_of_lt_of_le one_pos (slow.exp_vol t).1, h.chx_vol, h.regen_vol, h.hhx_vol, h.regen_temp, h.chx_temp, h.hhx_temp⟩
  have vol : ((flutter b).ws.volumes state.ws 0).1.deriv = 0 ∧ ((flutter b).ws.volumes state.ws 0).2.deriv
      = -(0.5 * b * o) := by
    have e : (90 : ℝ) * Real.pi / 180 = Real.pi / 2 := by ring
    simp only [flutter, ws.SinusoidalDrive.toWorkingSpaces, ws.SinusoidalDrive.volumes, drive]
    scalars
    simp only [mul_zero, zero_add, Real.sin_zero, e, Real.sin_pi_div_two]
    rw [ho]
    constructor <;> ring
  refine C103_never_still 20 _ rfl exact exact_sound (flutter b) settings ⟨fun _ => ?_, ?_, fun _ => ?_⟩ state .Helium rfl sane
    vol.1 ?_ rfl rfl vs v1 fun v hv => ?_
  · show (0 : ℝ) < 1; norm_num
  · show 2 ≤ (10 : UInt32).toNat; omega
  · show (((10 : UInt32).toNat : ℝ) - 1) * 1e-14 * 1 < 1; rw [h10]; norm_num
  · rw [vol.2, neg_ne_zero]; positivity
  · obtain ⟨n1, n2, n3⟩ := v3 v (List.mem_of_mem_head? hv)
    rw [abs_le] at n1 n2 n3
    obtain ⟨n1, -⟩ := n1; obtain ⟨n2, -⟩ := n2; obtain ⟨n3, -⟩ := n3
    change -1 ≤ v.conditions.P - 500 at n1
    change -1 ≤ v.conditions.T_c - 340 at n2
    change -1 ≤ v.conditions.T_e - 860 at n3
    exact ⟨by linarith, by linarith, by linarith⟩

/-- C103, configurations: the engine with conductances of C101 runs with short enough strokes. -/
example : ∃ v, 0 < v ∧ ∀ a b, 0 ≤ a → a ≤ v → 0 < b → b ≤ v → ∀ build, ∃ res, run_engine ⟨dopri5.solve 40, build⟩ lu.LU
    (withStroke SettleExample.config ⟨70, 90, 5e-4, 2e-5, 1, 0, 5e-4, 2e-5, 1, 0, 0⟩ a b) = .ok res := by
  have h30 : (30 : UInt32).toNat = 30 := by decide
  have h20 : (20 : UInt32).toNat = 20 := by decide
  obtain ⟨v, hv, h⟩ := C103_sinusoidal SettleExample.config _ rfl rfl (.conductance _ (by norm_num) (by norm_num))
    (.conductance _ (by norm_num) (by norm_num)) (.conductance _ (by norm_num) (by norm_num)) SettleExample.first
    SettleExample.rest (by
      show (IdealGas.helium : IdealGas ℝ).enth 300 10e6 + (IdealGas.helium : IdealGas ℝ).enth 500 10e6 ≠ 0
      rw [IdealGas.helium_enth, IdealGas.helium_enth]
      norm_num) (by norm_num) (by norm_num) rfl (by norm_num [SettleExample.config, WholeRunExample.config])
    (by
      show Real.sin (90 * Real.pi / 180) ≠ 0
      rw [show (90 : ℝ) * Real.pi / 180 = Real.pi / 2 by ring, Real.sin_pi_div_two]
      norm_num) (by norm_num) (by norm_num)
    (by simp [SettleExample.config, WholeRunExample.config, h30])
    (by simp [SettleExample.config, WholeRunExample.config, h30]; norm_num)
    (by norm_num [SettleExample.config, WholeRunExample.config]) (by norm_num [SettleExample.config, WholeRunExample.config])
    (by norm_num [SettleExample.config, WholeRunExample.config]) (by norm_num [SettleExample.config, WholeRunExample.config])
    (by simp [SettleExample.config, WholeRunExample.config, h20]) (by norm_num [SettleExample.config, WholeRunExample.config])
    (by norm_num [SettleExample.config, WholeRunExample.config]) (by simp [SettleExample.config, WholeRunExample.config, h20])
  exact ⟨v, hv, fun a b ha ha' hb hb' build =>
    h a b ha ha' hb hb' 40 _ rfl (by simp [SettleExample.config, WholeRunExample.config, h30])⟩

/-- The dimensions of the default rhombic drive. -/
noncomputable def rhombic : ws.RhombicDrive.Config ℝ :=
  ⟨50, 5.785e-6, 1, 0, 4.13e-6, 1, 0, 0, 0.01397, 0.04602, 0.02065, 0.0698, 0.0696⟩

noncomputable def config : Config ℝ :=
  { SettleExample.config with
    engine := { SettleExample.config.engine with
      components := { SettleExample.config.engine.components with ws := .Rhombic rhombic } } }

/-- C103, configurations: so does the engine with the default rhombic drive. -/
example : ∃ v, 0 < v ∧ ∀ r, 0 < r → r ≤ v → ∀ build,
    ∃ res, run_engine ⟨dopri5.solve 40, build⟩ lu.LU (withCrank config rhombic r) = .ok res := by
  have h30 : (30 : UInt32).toNat = 30 := by decide
  have h20 : (20 : UInt32).toNat = 20 := by decide
  obtain ⟨v, hv, h⟩ := C103_rhombic config rhombic rfl rfl (.conductance _ (by norm_num) (by norm_num))
    (.conductance _ (by norm_num) (by norm_num)) (.conductance _ (by norm_num) (by norm_num)) SettleExample.first
    SettleExample.rest (by
      show (IdealGas.helium : IdealGas ℝ).enth 300 10e6 + (IdealGas.helium : IdealGas ℝ).enth 500 10e6 ≠ 0
      rw [IdealGas.helium_enth, IdealGas.helium_enth]
      norm_num) (by norm_num [rhombic]) (by norm_num [rhombic]) rfl
    (by norm_num [config, SettleExample.config, WholeRunExample.config])
    (by norm_num [rhombic]) (by norm_num [rhombic]) (by norm_num [rhombic]) (by norm_num [rhombic])
    (by norm_num [rhombic]) (by norm_num [rhombic])
    (by simp [config, SettleExample.config, WholeRunExample.config, h30])
    (by simp [config, SettleExample.config, WholeRunExample.config, h30, rhombic]; norm_num)
    (by norm_num [config, SettleExample.config, WholeRunExample.config])
    (by norm_num [config, SettleExample.config, WholeRunExample.config])
    (by norm_num [config, SettleExample.config, WholeRunExample.config])
    (by norm_num [config, SettleExample.config, WholeRunExample.config])
    (by simp [config, SettleExample.config, WholeRunExample.config, h20])
    (by norm_num [config, SettleExample.config, WholeRunExample.config])
    (by norm_num [config, SettleExample.config, WholeRunExample.config])
    (by simp [config, SettleExample.config, WholeRunExample.config, h20])
  exact ⟨v, hv, fun r hr hr' build =>
    h r hr hr' 40 _ rfl (by simp [config, SettleExample.config, WholeRunExample.config, h30])⟩

end Sett.BreathingExample
