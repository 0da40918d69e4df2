import Verif.Props.Figures
import Verif.Props.NearExample

/-! # Examples for C84 -/

namespace Sett

open Spec state_equations api Set

namespace TrajectoryExample

open BalanceExample

/-- The adiabatic motion, with its flows and heats. -/
noncomputable def motionAt (t : ℝ) : state_equations.Values ℝ := ⟨t, y t, sol t⟩

theorem period_one : run.period = 1 := by
  simp [run, Run.new, components, drive, ws.SinusoidalDrive.toWorkingSpaces]
  norm_num

theorem motion : Motion run limits motionAt :=
  ⟨fun _ => rfl, trajectory _ _, fun t _ => follows t, fun t _ => within t⟩

/-- `n + 1` evenly spaced samples of it. -/
noncomputable def evenly (n : Nat) : List (state_equations.Values ℝ) :=
  (List.range (n + 1)).map fun k : Nat => motionAt ((k : ℝ) / n)

theorem sampled (n : Nat) (hn : 0 < n) : Sampled run limits motionAt (evenly n) (1 / n) 0 := by
  have hn' : (0 : ℝ) < n := by exact_mod_cast hn
  refine ⟨motion, ?_, ?_, ?_, ?_, ?_, ?_⟩
  · simp [evenly, List.range_succ_eq_map, motionAt]
  · rw [period_one]
    simp [evenly, List.range_succ, motionAt, hn'.ne']
  · simp only [evenly, List.map_map, List.isChain_map]
    refine (List.isChain_range _ _).2 fun k hk => ?_
    simp only [Function.comp, motionAt]
    push_cast
    rw [← sub_div]
    constructor
    · exact div_le_div_of_nonneg_right (by linarith) hn'.le
    · simp
  · intro v hv
    obtain ⟨k, -, rfl⟩ := List.mem_map.1 hv
    exact within _
  · intro v hv
    obtain ⟨k, -, rfl⟩ := List.mem_map.1 hv
    exact (follows _).solved
  · intro v hv
    obtain ⟨k, -, rfl⟩ := List.mem_map.1 hv
    simp [motionAt, stateGap]

/-- C84 applies: the ideal power reported from evenly spaced samples of the adiabatic cycle, which does no work,
goes to zero with the spacing. -/
example : ∃ A, ∀ n : Nat, 0 < n → ∃ res, RunResults.ofEngine ⟨components, state, Values.ofStateValues (evenly n)⟩ = .ok res ∧
    |res.power.ideal_indicated| ≤ A * (1 / n) := by
  obtain ⟨K, hK, hd⟩ := steadyDrive
  obtain ⟨A, -, h⟩ := C84_sampled (L := limits) (c := components) (s := state) (n := .Helium) rfl saneRun exact_sound hK hd
    one_pos
  refine ⟨A, fun n hn => ?_⟩
  obtain ⟨res, hres⟩ := results_ok ⟨components, state, Values.ofStateValues (evenly n)⟩ _ rfl
  have := (h _ _ (1 / n) 0 _ res (by positivity) (sampled n hn) rfl rfl rfl hres).ideal
  have zero : (figuresOf ⟨components, state, Values.ofStateValues (evenly n)⟩ motionAt).ideal = 0 := by
    have hw : ∫ t in (0 : ℝ)..1, (y t).P * ((drive.volumes t).1.deriv + (drive.volumes t).2.deriv) = 0 := work_zero
    show (∫ t in (0 : ℝ)..(1 / 1), (y t).P * ((drive.volumes t).1.deriv + (drive.volumes t).2.deriv)) / (1 / 1) = 0
    rw [div_one, hw, zero_div]
  rw [zero, sub_zero, zero_add] at this
  exact ⟨res, hres, this⟩

end TrajectoryExample

namespace RestExample

open TrajectoryExample BalanceExample

theorem careful_complete : Complete careful := by
  intro a b h
  unfold careful
  split
  · rfl
  · exact exact_complete a b h

noncomputable def inputs : RunInputs ℝ := { pres_zero := 5, temp_sink := 260, temp_source := 640 }

noncomputable def first : State ℝ := State.new_hint components state.fluid inputs

theorem first_sane : SaneRun (runOf first) := by
  have h := TrajectoryExample.saneRun
  refine ⟨?_, fun t => by rw [volumes]; exact one_pos, fun t => by rw [volumes]; exact one_pos, h.chx_vol,
    h.regen_vol, h.hhx_vol, ?_, ?_, ?_⟩
  · show 0.5 * ((IdealGas.helium : IdealGas ℝ).enth 260 5 + (IdealGas.helium : IdealGas ℝ).enth 640 5) ≠ 0
    rw [IdealGas.helium_enth, IdealGas.helium_enth]
    norm_num
  · show (0 : ℝ) < (RegenImbalance.regen_temp ⟨(0.0 : ℝ)⟩ (260 + 40) (640 - 40) 40).avg
    simp only [RegenImbalance.regen_temp]
    scalars
    norm_num
    exact Real.log_pos (by norm_num)
  · show (100 : ℝ) ≤ 260 + 40; norm_num
  · show (100 : ℝ) ≤ 640 - 40; norm_num

/-- The complete run of the engine at rest. -/
theorem completes : Engine.run GridExample.env careful components state.fluid inputs GridExample.settings
    = .ok ⟨components, first, Values.ofStateValues
      [⟨0, ⟨5, 300, 600⟩, Solution.ofVec 0⟩, ⟨1 / 2, ⟨5, 300, 600⟩, Solution.ofVec 0⟩,
       ⟨1, ⟨5, 300, 600⟩, Solution.ofVec 0⟩]⟩ := by
  have hi : Engine.inner GridExample.env careful components GridExample.settings first = .ok
      [⟨0, ⟨5, 300, 600⟩, Solution.ofVec 0⟩, ⟨1 / 2, ⟨5, 300, 600⟩, Solution.ofVec 0⟩,
       ⟨1, ⟨5, 300, 600⟩, Solution.ofVec 0⟩] := by
    rw [← found (st := first)]
    unfold Engine.inner
    have : innerRequest GridExample.settings first = search := by
      have h1 : first.temp.chx = 300 := by show (260 : ℝ) + 40 = 300; norm_num
      have h2 : first.temp.hhx = 600 := by show (640 : ℝ) - 40 = 600; norm_num
      simp only [innerRequest, h1, h2]
      rfl
    rw [← this]
    rfl
  have hs := fun x : ℝ => within_self GridExample.settings.loop_tol.outer one_pos one_pos x
  exact congrArg Prod.fst (C39_one_iteration GridExample.env careful drive.toWorkingSpaces _ _ _ state.fluid inputs
    GridExample.settings _ (by decide) hi (by simp) ⟨hs _, hs _, hs _, hs _, hs _⟩)

/-- C84 applies to a complete run: if the steps `H` it took are short, a motion with the reported figures. -/
example : ∃ e res l C, Engine.run GridExample.env careful components state.fluid inputs GridExample.settings = .ok e ∧
    RunResults.ofEngine e = .ok res ∧ ∀ H, (∀ x ∈ (l : List Step), x.h ≤ H) → C * H ≤ 4 →
      ∃ V, Motion (runOf first) limits V ∧ (V 0).conditions = ⟨5, 300, 600⟩ ∧
        FiguresWithin (C * (H + 1 / 1 / ((3 : ℝ) - 1))) (figuresOf e V) res := by
  have hrun := completes
  obtain ⟨res, hres⟩ := results_ok ⟨components, first, Values.ofStateValues _⟩ _ rfl
  obtain ⟨K, hK, hd⟩ := C82_sinusoidal_steady careful components first drive rfl
    (by norm_num [drive, TrajectoryExample.drive])
  have hw : DriveWithin (runOf first) limits := by
    constructor <;> intro t <;> rw [volumes] <;> norm_num [limits]
  obtain ⟨C, hC, h⟩ := C84_figures (n := .Helium) rfl first_sane careful_sound careful_complete limits hK hd hw
  have hturn : Spec.Turning components GridExample.settings.resolution := by
    refine ⟨fun _ => one_pos, by decide, fun _ => ?_⟩
    show (((3 : UInt32).toNat : ℝ) - 1) * 1e-14 * 1 < 1
    rw [show (3 : UInt32).toNat = 3 from rfl]
    norm_num
  obtain ⟨⟨P, Tc, Te⟩, log, l, e1, e2, e3, h1, h2, h3⟩ := h 10 GridExample.env _ _ _ _ res rfl hturn hrun rfl hres
  cases e1
  cases e2
  cases e3
  refine ⟨_, res, l, C, hrun, hres, fun H hH hCH => ?_⟩
  obtain ⟨V, v1, v2, -, -, v3⟩ := h3 H hH (fun q hq => by
    rw [asked_still h1 q hq]
    constructor <;> simp only [limits] <;> constructor <;> linarith)
  exact ⟨V, v1, v2, v3⟩

/-- C84, efficiency: powers and heats within `1` of `300` and `1000` put the efficiency within `0.0013` of `0.3`. -/
example (e : Engine ℝ) (res : RunResults ℝ) (hres : RunResults.ofEngine e = .ok res) (m : MotionFigures)
    (h : FiguresWithin 1 m res) (h1 : m.net = 300) (h2 : m.input = 1001) :
    |res.efficiency.mechanical - 300 / 1001| ≤ 0.0013 := by
  have hi := abs_le.1 h.input
  have := C84_efficiency (q := 1000) e hres h (by norm_num) (by rw [h2]; norm_num)
    (by rw [h2] at hi; exact le_trans (by linarith) (le_abs_self _))
  rw [h1, h2] at this
  refine this.trans ?_
  norm_num

end RestExample
end Sett
