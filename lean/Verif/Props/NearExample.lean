import Verif.Props.NearDrives
import Verif.Props.GridExample
import Verif.Props.UniqueExample
import Verif.Props.Shadow

/-! # Examples for C82 and C83 -/

namespace Sett

open Spec state_equations Set

/-- The origin. -/
def zero3 : V3 ℝ := ⟨0, 0, 0⟩

theorem norm_zero3 {M : ℝ} (h : 0 ≤ M) : ‖vec zero3‖ ≤ M := norm_vec_le (by simpa [zero3]) (by simpa [zero3]) (by simpa [zero3])

/-- Rates bounded near a state allow a step from it. -/
theorem exists_step (f : ℝ → V3 ℝ → V3 ℝ) (t h M : ℝ) (y : V3 ℝ) (hM : 0 ≤ M) (hh : 0 < h) (near : V3 ℝ → Prop)
    (hn : ∀ v, ‖vec v - vec y‖ ≤ 25 * M * h → near v) (hb : ∀ t v, near v → ‖vec (f t v)‖ ≤ M) :
    ∃ s : Step, s.t = t ∧ s.h = h ∧ s.y = y ∧ s.Slopes fun t v k => near v ∧ k = f t v := by
  have z := norm_zero3 hM
  have n1 : near y := hn y (by simp; positivity)
  have b1 := hb t y n1
  have n2 := hn _ (go_near (s := ⟨t, h, y, f t y, zero3, zero3, zero3, zero3, zero3, zero3⟩)
    ⟨b1, z, z, z, z, z, z⟩ hh (1 / 5) 0 0 0 0 0 0 (by norm_num [abs_of_pos]))
  obtain ⟨k2, e2⟩ : ∃ k, k = f (t + h / 5)
    (Step.go ⟨t, h, y, f t y, zero3, zero3, zero3, zero3, zero3, zero3⟩ (1 / 5) 0 0 0 0 0 0) := ⟨_, rfl⟩
  have b2 := e2 ▸ hb (t + h / 5) _ n2
  have n3 := hn _ (go_near (s := ⟨t, h, y, f t y, k2, zero3, zero3, zero3, zero3, zero3⟩)
    ⟨b1, b2, z, z, z, z, z⟩ hh (3 / 40) (9 / 40) 0 0 0 0 0 (by norm_num [abs_of_pos]))
  obtain ⟨k3, e3⟩ : ∃ k, k = f (t + 3 * h / 10)
    (Step.go ⟨t, h, y, f t y, k2, zero3, zero3, zero3, zero3, zero3⟩ (3 / 40) (9 / 40) 0 0 0 0 0) := ⟨_, rfl⟩
  have b3 := e3 ▸ hb (t + 3 * h / 10) _ n3
  have n4 := hn _ (go_near (s := ⟨t, h, y, f t y, k2, k3, zero3, zero3, zero3, zero3⟩)
    ⟨b1, b2, b3, z, z, z, z⟩ hh (44 / 45) (-56 / 15) (32 / 9) 0 0 0 0 (by norm_num [abs_of_pos, abs_of_neg]))
  obtain ⟨k4, e4⟩ : ∃ k, k = f (t + 4 * h / 5)
    (Step.go ⟨t, h, y, f t y, k2, k3, zero3, zero3, zero3, zero3⟩ (44 / 45) (-56 / 15) (32 / 9) 0 0 0 0) := ⟨_, rfl⟩
  have b4 := e4 ▸ hb (t + 4 * h / 5) _ n4
  have n5 := hn _ (go_near (s := ⟨t, h, y, f t y, k2, k3, k4, zero3, zero3, zero3⟩)
    ⟨b1, b2, b3, b4, z, z, z⟩ hh (19372 / 6561) (-25360 / 2187) (64448 / 6561) (-212 / 729) 0 0 0
    (by norm_num [abs_of_pos, abs_of_neg]))
  obtain ⟨k5, e5⟩ : ∃ k, k = f (t + 8 * h / 9)
    (Step.go ⟨t, h, y, f t y, k2, k3, k4, zero3, zero3, zero3⟩ (19372 / 6561) (-25360 / 2187) (64448 / 6561) (-212 / 729) 0 0 0) := ⟨_, rfl⟩
  have b5 := e5 ▸ hb (t + 8 * h / 9) _ n5
  have n6 := hn _ (go_near (s := ⟨t, h, y, f t y, k2, k3, k4, k5, zero3, zero3⟩)
    ⟨b1, b2, b3, b4, b5, z, z⟩ hh (9017 / 3168) (-355 / 33) (46732 / 5247) (49 / 176) (-5103 / 18656) 0 0
    (by norm_num [abs_of_pos, abs_of_neg]))
  obtain ⟨k6, e6⟩ : ∃ k, k = f (t + h)
    (Step.go ⟨t, h, y, f t y, k2, k3, k4, k5, zero3, zero3⟩ (9017 / 3168) (-355 / 33) (46732 / 5247) (49 / 176) (-5103 / 18656) 0 0) := ⟨_, rfl⟩
  have b6 := e6 ▸ hb (t + h) _ n6
  have n7 := hn _ (go_near (s := ⟨t, h, y, f t y, k2, k3, k4, k5, k6, zero3⟩)
    ⟨b1, b2, b3, b4, b5, b6, z⟩ hh (35 / 384) 0 (500 / 1113) (125 / 192) (-2187 / 6784) (11 / 84) 0
    (by norm_num [abs_of_pos, abs_of_neg]))
  obtain ⟨k7, e7⟩ : ∃ k, k = f (t + h)
    (Step.go ⟨t, h, y, f t y, k2, k3, k4, k5, k6, zero3⟩ (35 / 384) 0 (500 / 1113) (125 / 192) (-2187 / 6784) (11 / 84) 0) := ⟨_, rfl⟩
  refine ⟨⟨t, h, y, f t y, k2, k3, k4, k5, k6, k7⟩, rfl, rfl, rfl, ⟨n1, rfl⟩, ?_, ?_, ?_, ?_, ?_, ?_⟩
  · convert And.intro n2 e2 using 2 <;> simp [Step.go, Step.slope, zero3]
  · convert And.intro n3 e3 using 2 <;> simp [Step.go, Step.slope, zero3]
  · convert And.intro n4 e4 using 2 <;> simp [Step.go, Step.slope, zero3]
  · convert And.intro n5 e5 using 2 <;> simp [Step.go, Step.slope, zero3]
  · convert And.intro n6 e6 using 2 <;> simp [Step.go, Step.slope, zero3]
  · convert And.intro n7 e7 using 2 <;> simp [Step.finish, Step.go, Step.slope, zero3]

namespace TrajectoryExample

open BalanceExample

theorem steadyDrive : ∃ K, 0 ≤ K ∧ SteadyDrive run K :=
  C82_sinusoidal_steady exact components state drive rfl (by norm_num [drive])

/-- Within 200 of the start (Pa or K) the engine stays within its limits. -/
theorem within_near (t : ℝ) (v : V3 ℝ) (h : ‖Sett.vec v - Sett.vec (stateVector (y 0))‖ ≤ 200) :
    WithinLimits run limits t (conditionsOf v) := by
  simp only [Sett.vec, stateVector, Prod.mk_sub_mk, Prod.norm_mk, Real.norm_eq_abs, max_le_iff, abs_le] at h
  obtain ⟨h0, h1, h2⟩ := h
  have hV : V 0 = 2 := by
    simp only [V, drive, ws.SinusoidalDrive.volumes]; scalars; norm_num
  have hP : (y 0).P = T 0 / 2 := by rw [← hV]; rfl
  have hc : (y 0).T_c = T 0 := rfl
  have he : (y 0).T_e = T 0 := rfl
  rw [hP] at h0; rw [hc] at h1; rw [he] at h2
  have hT := T_ge 0; have hT' := T_le 0
  have w := within t
  refine ⟨⟨?_, ?_⟩, ⟨?_, ?_⟩, ⟨?_, ?_⟩, w.comp_vol, w.exp_vol, w.comp_rate, w.exp_rate⟩ <;>
    simp only [conditionsOf, limits] <;> linarith

/-- The rates of the engine at a state, as computed. -/
theorem rates_exist : ∃ f : ℝ → V3 ℝ → V3 ℝ, ∀ t v, WithinLimits run limits t (conditionsOf v) →
    runRates run limits t v (f t v) := by
  have : ∀ t v, ∃ k, WithinLimits run limits t (conditionsOf v) → runRates run limits t v k := by
    intro t v
    by_cases w : WithinLimits run limits t (conditionsOf v)
    · obtain ⟨s, hs⟩ := C59_run_solve run .Helium rfl exact_sound exact_complete t _ (physical_of_within saneRun w)
      exact ⟨_, fun _ => ⟨w, .default, s, hs _, rfl⟩⟩
    · exact ⟨zero3, fun h => absurd h w⟩
  choose f hf using this
  exact ⟨f, hf⟩

/-- For all tolerances there are arbitrarily short steps of the adiabatic engine from its start that pass the error
test. -/
theorem one_step (rtol atol η : ℝ) (hr : 0 ≤ rtol) (ha : 0 < atol) (hη : 0 < η) : ∃ s : Step, 0 < s.h ∧ s.h ≤ η ∧
    Integrates (runRates run limits) rtol atol (stateVector (y 0)) s.h [s] := by
  obtain ⟨K, hK, hd⟩ := steadyDrive
  obtain ⟨M, C, hM, -, hA⟩ := runRates_tame (n := .Helium) rfl saneRun exact_sound limits hK hd
  obtain ⟨f, hf⟩ := rates_exist
  have hδ : 0 < min 200 (atol / 2) := by positivity
  obtain ⟨h, hh, hhη, hle⟩ : ∃ h, 0 < h ∧ h ≤ η ∧ 25 * M * h ≤ min 200 (atol / 2) := by
    refine ⟨min η (min 200 (atol / 2) / (25 * (M + 1))), by positivity, min_le_left _ _, ?_⟩
    refine (mul_le_mul_of_nonneg_left (min_le_right _ _) (by positivity)).trans ?_
    rw [mul_div_assoc', div_le_iff₀ (by positivity)]
    nlinarith
  obtain ⟨s, h1, h2, h3, h4⟩ := exists_step f 0 h M (stateVector (y 0)) hM hh
    (fun v => ∀ t, WithinLimits run limits t (conditionsOf v))
    (fun v hv t => within_near t v (hv.trans (hle.trans (min_le_left _ _))))
    (fun t v w => hA.bound _ _ _ (hf t v (w t)))
  have h4' : s.Slopes (runRates run limits) := by
    obtain ⟨a1, a2, a3, a4, a5, a6, a7⟩ := h4
    exact ⟨a1.2 ▸ hf _ _ (a1.1 _), a2.2 ▸ hf _ _ (a2.1 _), a3.2 ▸ hf _ _ (a3.1 _), a4.2 ▸ hf _ _ (a4.1 _),
      a5.2 ▸ hf _ _ (a5.1 _), a6.2 ▸ hf _ _ (a6.1 _), a7.2 ▸ hf _ _ (a7.1 _)⟩
  have hs0 : 0 < s.h := h2 ▸ hh
  refine ⟨s, hs0, h2.trans_le hhη, ⟨s.finish, h1, h3, by simp, rfl⟩, by simpa, by simpa, ?_⟩
  have sm := small_slopes hA h4'
  have f1 : ‖Sett.vec s.finish - Sett.vec s.y‖ ≤ _ := go_near sm hs0 _ _ _ _ _ _ _ (by norm_num [abs_of_pos, abs_of_neg])
  have f2 : ‖Sett.vec s.embedded - Sett.vec s.y‖ ≤ _ := go_near sm hs0 _ _ _ _ _ _ _ (by norm_num [abs_of_pos, abs_of_neg])
  have hl2 : 25 * M * s.h ≤ atol / 2 := by rw [h2]; exact hle.trans (min_le_right _ _)
  have f3 : ‖Sett.vec s.finish - Sett.vec s.embedded‖ ≤ atol := by
    have := norm_sub_le_norm_sub_add_norm_sub (Sett.vec s.finish) (Sett.vec s.y) (Sett.vec s.embedded)
    rw [norm_sub_rev (Sett.vec s.y)] at this
    linarith
  simp only [Sett.vec, Prod.mk_sub_mk, Prod.norm_mk, Real.norm_eq_abs, max_le_iff] at f3
  obtain ⟨g0, g1, g2⟩ := f3
  have q : ∀ a b c d : ℝ, |a - b| ≤ atol → ((a - b) / (atol + max |c| |d| * rtol)) ^ 2 ≤ 1 := by
    intro a b c d hab
    have hm : 0 ≤ max |c| |d| * rtol := mul_nonneg (le_max_of_le_left (abs_nonneg c)) hr
    rw [sq_le_one_iff_abs_le_one, abs_div, abs_of_pos (by linarith : 0 < atol + max |c| |d| * rtol),
      div_le_one (by linarith)]
    linarith
  intro s' hs'
  rw [List.mem_singleton.1 hs']
  simp only [Step.Passes]
  rw [Real.sqrt_le_one]
  have := q _ _ s.y.y0 s.finish.y0 g0; have := q _ _ s.y.y1 s.finish.y1 g1; have := q _ _ s.y.y2 s.finish.y2 g2
  linarith

/-- C82 applies to that step. -/
example : ∃ C, 0 ≤ C ∧ ∀ rtol atol : ℝ, 0 ≤ rtol → 0 < atol → ∃ s : Step, 0 < s.h ∧
    Integrates (runRates run limits) rtol atol (stateVector (y 0)) s.h [s] ∧
    stateGap (conditionsOf s.finish) (y s.h) ≤ C * (s.h * ((1 + s.h) * Real.exp (C * s.h))) := by
  obtain ⟨K, hK, hd⟩ := steadyDrive
  obtain ⟨C, hC, h⟩ := C82_chain (n := .Helium) rfl saneRun exact_sound limits hK hd
  refine ⟨C, hC, fun rtol atol hr ha => ?_⟩
  obtain ⟨s, hs, -, hi⟩ := one_step rtol atol 1 hr ha one_pos
  have ⟨_, ht, _⟩ := hi.joined
  refine ⟨s, hs, hi, ?_⟩
  have := h rtol atol s.h s.h _ [s] y hi (by simp) hs.le (trajectory 0 _) (fun t _ => within t) s.h s.finish
    ⟨s, by simp, by rw [ht]; exact hs.le, by rw [ht]; simp, by rw [ht, sub_zero, div_self hs.ne', dense_one]⟩
  have z : stateGap (conditionsOf (stateVector (y 0))) (y 0) = 0 := by simp [stateGap, conditionsOf, stateVector]
  rwa [z, zero_add] at this

theorem driveWithin : DriveWithin run limits :=
  ⟨fun t => (within t).comp_vol, fun t => (within t).exp_vol, fun t => (within t).comp_rate, fun t => (within t).exp_rate⟩

/-- C83 applies to a step that is short enough: it shows that the engine moves. -/
example (rtol atol : ℝ) (hr : 0 ≤ rtol) (ha : 0 < atol) : ∃ s : Step, 0 < s.h ∧
    Integrates (runRates run limits) rtol atol (stateVector (y 0)) s.h [s] ∧ ∃ Y, Trajectory run Y 0 s.h ∧ Y 0 = y 0 := by
  obtain ⟨K, hK, hd⟩ := steadyDrive
  obtain ⟨D, hD, h⟩ := C83_chain (n := .Helium) rfl saneRun exact_sound exact_complete limits hK hd driveWithin zero_le_one
  obtain ⟨s, hs, hη, hi⟩ := one_step rtol atol (min 1 (100 / (D + 1))) hr ha (by positivity)
  have hD' : D * s.h ≤ 100 := by
    have := mul_le_mul_of_nonneg_left (hη.trans (min_le_right _ _)) hD
    refine this.trans ?_
    rw [mul_div_assoc', div_le_iff₀ (by positivity)]
    linarith
  obtain ⟨_, -, hy, -⟩ := hi.joined
  obtain ⟨Y, h1, h2, -⟩ := h rtol atol s.h s.h _ [s] hs (hη.trans (min_le_left _ _)) hi (by simp) (by
    simp only [List.mem_singleton, forall_eq]
    rw [hy]
    have hV : V 0 = 2 := by
      simp only [V, TrajectoryExample.drive, ws.SinusoidalDrive.volumes]; scalars; norm_num
    have hP : (y 0).P = T 0 / 2 := by rw [← hV]; rfl
    have hc : (y 0).T_c = T 0 := rfl
    have he : (y 0).T_e = T 0 := rfl
    have hT := T_ge 0; have hT' := T_le 0
    refine ⟨⟨?_, ?_⟩, ⟨?_, ?_⟩, ?_, ?_⟩ <;>
      simp only [conditionsOf, stateVector, limits, hP, hc, he] <;> linarith)
  exact ⟨s, hs, hi, Y, h2, congrArg conditionsOf h1⟩

end TrajectoryExample

/-! An engine at rest, whose integration and search succeed. -/

namespace RestExample

open TrajectoryExample BalanceExample

/-- An exact decomposition which answers zero for a zero right-hand side. -/
noncomputable def careful : MatrixDecomposition ℝ := fun a b =>
  open Classical in if b = 0 then some 0 else exact a b

theorem careful_sound : Sound careful := by
  intro a b x h
  unfold careful at h
  split at h
  · rename_i hb
    cases h
    subst hb
    intro i
    simp
  · exact exact_sound _ _ _ h

/-- The drive of `TrajectoryExample` with nothing swept. -/
noncomputable def drive : ws.SinusoidalDrive ℝ :=
  { TrajectoryExample.drive with
    comp_geometry := { clearance_volume := 1, swept_volume := 0 }
    exp_geometry := { clearance_volume := 1, swept_volume := 0 } }

noncomputable def components : Components ℝ := { TrajectoryExample.components with ws := drive.toWorkingSpaces }

/-- Its run from a state. -/
noncomputable def runOf (st : State ℝ) : Run ℝ := Run.new careful components st

variable {st : State ℝ}

theorem volumes (t : ℝ) : (runOf st).ws_vol_fn t = (⟨1, 0⟩, ⟨1, 0⟩) := by
  show drive.volumes t = _
  simp only [drive, TrajectoryExample.drive, ws.SinusoidalDrive.volumes]
  scalars
  simp

theorem rhs (t : ℝ) (c : Conditions ℝ) : System.rhs ((runOf st).calculate_inputs t c) = 0 := by
  have hq : (runOf st).ws_parasitics.comp.thermal = 0 ∧ (runOf st).ws_parasitics.exp.thermal = 0 := ⟨rfl, rfl⟩
  funext i
  simp only [System.rhs, Run.calculate_inputs, Run.comp_inputs, Run.exp_inputs, volumes, hq.1, hq.2, Vec10.set]
  scalars
  fin_cases i <;> simp

/-- At every state nothing moves. -/
theorem solved (t : ℝ) (c : Conditions ℝ) (hint : FlowDirection) :
    solve careful ((runOf st).calculate_inputs t c) hint = .ok (Solution.ofVec 0) := by
  rw [C08_ok_iff]
  have hs : ∀ d, (System.new ((runOf st).calculate_inputs t c)).solve careful d = some (Solution.ofVec 0) := by
    intro d
    simp [System.solve, System.new, rhs, careful]
  by_cases h : hint = FlowDirection.from_solution (Solution.ofVec (0 : Vec10 ℝ))
  · exact ⟨[hint], hint, by simp, .here _, hs _, h.symm⟩
  · exact ⟨[hint, _], _, by simp, .step ⟨h, _, hs _, rfl⟩ (.here _), hs _, rfl⟩

theorem driven : Spec.Driven (runOf st).toCycle (speed GridExample.still) := fun t c hint =>
  ⟨_, solved t c hint, by simp [speed, Quartic.deriv, GridExample.still, Solution.ofVec]⟩

theorem period : (runOf st).toCycle.period = 1 := by
  show (runOf st).period = 1
  simp [runOf, Run.new, components, drive, TrajectoryExample.drive, ws.SinusoidalDrive.toWorkingSpaces]
  norm_num

theorem integration (n : UInt32) (h1 : 2 ≤ n.toNat) (h2 : n.toNat ≤ 8) :
    integrationTryFrom GridExample.env (runOf st).toCycle ⟨5, 300, 600⟩ n ⟨1, 1⟩ = .ok
      ((List.range n.toNat).map fun k : Nat => ⟨k * (1 / ((n.toNat : ℝ) - 1)), ⟨5, 300, 600⟩⟩) := by
  have hn : (n.toNat : ℝ) ≤ 8 := by exact_mod_cast h2
  have h := C74_integration 10 GridExample.env rfl (runOf st).toCycle GridExample.still driven n ⟨1, 1⟩ h1
    (by rw [period]; norm_num; linarith) (by rw [period]; norm_num) (by omega)
    one_pos zero_le_one (by intro t _ _; simp [speed, Quartic.deriv, GridExample.still]; norm_num)
  have e0 : ∀ t, (⟨(curve GridExample.still t).y0, (curve GridExample.still t).y1,
      (curve GridExample.still t).y2⟩ : Conditions ℝ) = ⟨5, 300, 600⟩ := by
    intro t; simp [curve, Quartic.eval, GridExample.still]
  simp only [e0, period] at h
  exact h

noncomputable def search : SteadyStateInputs ℝ :=
  { pres_zero := 5, temp_comp_hint := 300, temp_exp_hint := 600, num_points := 3
    ode_tol := ⟨1, 1⟩, conv_tol := ⟨1, 1⟩, max_iters := 3 }

theorem found : findSteadyState GridExample.env (runOf st).toCycle search = .ok
    [⟨0, ⟨5, 300, 600⟩, Solution.ofVec 0⟩, ⟨1 / 2, ⟨5, 300, 600⟩, Solution.ofVec 0⟩,
     ⟨1, ⟨5, 300, 600⟩, Solution.ofVec 0⟩] := by
  have i2 := integration (st := st) 2 (by decide) (by decide)
  have i3 := integration (st := st) 3 (by decide) (by decide)
  have hs : ∀ t c hint, solve (runOf st).toCycle.Solver ((runOf st).toCycle.calculate_inputs t c) hint
      = .ok (Solution.ofVec 0) := solved
  rw [C33_ok_iff]
  refine ⟨0, ⟨search.pres_zero, search.temp_comp_hint, search.temp_exp_hint⟩, by simp [search], .hints, ?_, ?_⟩
  · refine ⟨⟨5, 300, 600⟩, ⟨5, 300, 600⟩, ⟨_, i2, rfl, rfl⟩, ?_⟩
    simp [Closed, Within, search]
  · refine ⟨_, i3, ?_⟩
    simp only [show (3 : UInt32).toNat = 3 from rfl, List.range_succ, List.range_zero, List.nil_append,
      List.cons_append, List.map_cons, List.map_nil]
    simp [intoStateValues, stateValuesFrom, hs]
    norm_num

noncomputable abbrev run : Run ℝ := runOf state

theorem saneRun : SaneRun run := by
  have h := TrajectoryExample.saneRun
  exact ⟨h.norm, fun t => by rw [volumes]; exact one_pos, fun t => by rw [volumes]; exact one_pos, h.chx_vol,
    h.regen_vol, h.hhx_vol, h.regen_temp, h.chx_temp, h.hhx_temp⟩

/-- Resting is a motion of the gas. -/
theorem trajectory (b : ℝ) : Trajectory run (fun _ => ⟨5, 300, 600⟩) 0 b :=
  ⟨⟨continuousOn_const, continuousOn_const, continuousOn_const⟩, fun _ _ => ⟨by norm_num, by norm_num, by norm_num⟩,
    fun t _ => ⟨Solution.ofVec 0, ⟨.default, solved _ _ _⟩, hasDerivWithinAt_const _ _ _,
      hasDerivWithinAt_const _ _ _, hasDerivWithinAt_const _ _ _⟩⟩

/-- Every question is about the state `y` as long as nothing moves. -/
def Still (y : V3 ℝ) : Stepper ℝ → Prop
  | .done _ => True
  | .eval _ v k => v = y ∧ Still y (k ⟨0, 0, 0⟩)

open dopri5 in
theorem still_conclude (p : Problem ℝ) (outs : Nat) (y : V3 ℝ) (next : dopri5.State ℝ → V3 ℝ → Stepper ℝ)
    (hn : ∀ s, s.y = y → Still y (next s ⟨0, 0, 0⟩)) (s : dopri5.State ℝ) (hs : s.y = y) (last : Bool) (h : ℝ)
    (k2 k3 k4 k5 yStiff yNext : V3 ℝ) (hy : yNext = y) :
    Still y (conclude p outs next s last h ⟨0, 0, 0⟩ k2 k3 k4 k5 ⟨0, 0, 0⟩ yStiff yNext) := by
  unfold conclude
  dsimp only
  split
  · split
    · exact trivial
    · split
      · exact trivial
      · rename_i s' ho
        split
        · exact trivial
        · exact hn _ (output_invariant p (fun s => s.y = y) (fun s h _ _ => h) outs _ _ hy ho).1
  · exact hn _ hs

open dopri5 in
theorem still_stage (y : V3 ℝ) (h : ℝ) (n : Nat) : ∀ row, stage y h (List.replicate n ⟨0, 0, 0⟩) row = y := by
  unfold stage
  induction n with
  | zero => intro row; rfl
  | succ n ih =>
    intro row
    cases row with
    | nil => rfl
    | cons w ws =>
      rw [List.replicate_succ, List.zip_cons_cons, List.foldl_cons]
      have : add3 y (scale3 (scale3 ⟨0, 0, 0⟩ h) w) = y := by simp [add3, scale3, zip3]
      rw [this]
      exact ih ws

open dopri5 in
theorem still_loop (p : Problem ℝ) (outs : Nat) (y : V3 ℝ) : ∀ (passes : Nat) (s : dopri5.State ℝ), s.y = y →
    Still y (loop p outs passes s ⟨0, 0, 0⟩) := by
  intro passes
  induction passes with
  | zero => intro s _; exact trivial
  | succ passes ih =>
    intro s hs
    have st : ∀ h row n, stage s.y h (List.replicate n ⟨0, 0, 0⟩) row = y := by
      intro h row n
      rw [hs]
      exact still_stage y h n row
    unfold loop
    split
    · exact trivial
    · exact ⟨st _ _ 1, st _ _ 2, st _ _ 3, st _ _ 4, st _ _ 5, st _ _ 6,
        still_conclude p outs y _ ih s hs _ _ _ _ _ _ _ _ (st _ _ 6)⟩

theorem still_reaches {y : V3 ℝ} {st st' : Stepper ℝ} {qs : List (ℝ × V3 ℝ × V3 ℝ)} (h : Reaches st qs st')
    (hst : Still y st) (hq : ∀ q ∈ qs, q.2.2 = ⟨0, 0, 0⟩) : ∀ q ∈ qs, q.2.1 = y := by
  induction h with
  | refl => simp
  | step h ih =>
    have e := hq _ List.mem_cons_self
    simp only at e
    subst e
    intro q hqm
    rcases List.mem_cons.1 hqm with rfl | hqm
    · exact hst.1
    · exact ih hst.2 (fun q hq' => hq q (List.mem_cons_of_mem _ hq')) q hqm

/-- An integration of it asks about no other state. -/
theorem asked_still {n : UInt32} {tol : OdeTolerance ℝ} {log : List (Evaluation ℝ)}
    (h2 : Conversation GridExample.env (runOf st).toCycle ⟨5, 300, 600⟩ n tol log) :
    ∀ e ∈ log, e.conditions = ⟨5, 300, 600⟩ := by
  obtain ⟨dx, out, -, hr⟩ := h2.asked
  have zero : ∀ q ∈ log.map question, q.2.2 = ⟨0, 0, 0⟩ := by
    have := driven_log driven h2.answered
    intro q hq
    rw [this q hq]
    simp [speed, Quartic.deriv, GridExample.still]
  have still := still_reaches hr ⟨rfl, by simp [dopri5.add3, dopri5.scale3, dopri5.zip3], rfl, still_loop _ _ _ _ _ rfl⟩ zero
  intro e he
  have : stateVector e.conditions = stateVector ⟨5, 300, 600⟩ := still _ (List.mem_map.2 ⟨e, he, rfl⟩)
  exact congrArg conditionsOf this

/-- C82 applies to the search for its steady cycle, with nothing left to assume. -/
example : ∃ C, 0 ≤ C ∧ ∃ log l, Conversation GridExample.env run.toCycle ⟨5, 300, 600⟩ 3 ⟨1, 1⟩ log ∧
    Integrates (AnsweredIn log) 1 1 (stateVector ⟨5, 300, 600⟩) (run.period + 1e-14) l ∧
    ∀ H : ℝ, (∀ s ∈ l, s.h ≤ H) →
      ∀ t ∈ [(0 : ℝ), 1 / 2, 1], stateGap ⟨5, 300, 600⟩ ((fun _ => ⟨5, 300, 600⟩ : ℝ → Conditions ℝ) t) ≤ C * H := by
  obtain ⟨K, hK, hd⟩ := C82_sinusoidal_steady careful components state drive rfl
    (by norm_num [drive, TrajectoryExample.drive])
  have hp : run.period = 1 := period
  obtain ⟨C, hC, h⟩ := C82_returns (n := .Helium) rfl saneRun careful_sound TrajectoryExample.limits hK hd
    (by rw [hp]; exact one_pos)
  obtain ⟨ic, log, l, h1, h2, h3, -, h4⟩ := h 10 GridExample.env search _ rfl (by decide)
    (by rw [hp]; simp [search]; norm_num) found
  have e : (⟨5, 300, 600⟩ : Conditions ℝ) = ic := by simpa using h1
  subst e
  refine ⟨C, hC, log, l, h2, h3, fun H hH => ?_⟩
  have lim : ∀ t, WithinLimits run TrajectoryExample.limits t ⟨5, 300, 600⟩ := fun t => by
    constructor <;> simp only [volumes, TrajectoryExample.limits] <;> norm_num
  obtain ⟨g, -, -⟩ := h4 H _ hH (fun e he => by
      rw [asked_still h2 e he]
      exact lim _) rfl (trajectory _) (fun t _ => lim t)
  simpa using g

end RestExample

end Sett
