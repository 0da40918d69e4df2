import Verif.Spec.Sample
import Verif.Props.FixedApproach
import Verif.Props.TrajectoryExample

/-! # The gas balances at every reported sample of a run (C75) -/

namespace Sett

open Spec state_equations

theorem sample_balances (U : MatrixDecomposition ℝ) (hU : Sound U) (c : Components ℝ) (s : State ℝ)
    (hn : s.fluid.enth s.temp.sink s.pres.avg + s.fluid.enth s.temp.source s.pres.avg ≠ 0)
    (v : state_equations.Values ℝ) (hint : FlowDirection)
    (h : solve U ((Run.new U c s).calculate_inputs v.time v.conditions) hint = .ok v.solution) :
    SampleBalances c s v := by
  have hn' : ((Run.new U c s).calculate_inputs v.time v.conditions).enth_norm ≠ 0 := by
    show (0.5 : ℝ) * (_ + _) ≠ 0
    exact mul_ne_zero (by norm_num) hn
  have b := C07_upwind_balances U hU _ hn' hint _ h
  have hc : ∀ (P m a b : ℝ), carried s.fluid P m a b
      = (open Classical in if 0 ≤ m then s.fluid.enth a P else s.fluid.enth b P) * m := by
    intro P m a b
    unfold carried
    rw [mul_comm]
  constructor
  · exact b.comp_mass
  · rw [hc, ← neg_mul]; exact b.comp_energy
  · rw [← b.chx_mass]
    simp only [heldMassRate, chxMass, massRate, mul_zero, add_zero]; rfl
  · rw [hc, hc]
    refine Eq.trans ?_ b.chx_energy
    simp only [heldEnergyRate, chxEnergy, energyRate, mul_zero, add_zero]; rfl
  · rw [← b.regen_mass]
    simp only [heldMassRate, regenMass, massRate, mul_zero, add_zero]; rfl
  · rw [hc, hc]
    refine Eq.trans ?_ b.regen_energy
    simp only [heldEnergyRate, regenEnergy, energyRate, mul_zero, add_zero]; rfl
  · rw [← b.hhx_mass]
    simp only [heldMassRate, hhxMass, massRate, mul_zero, add_zero]; rfl
  · rw [hc, hc]
    refine Eq.trans ?_ b.hhx_energy
    simp only [heldEnergyRate, hhxEnergy, energyRate, mul_zero, add_zero]; rfl
  · exact b.exp_mass
  · rw [hc]; exact b.exp_energy

/-- **C75.** At every sample a successful run reports, the gas in each of the five volumes, at its own
temperature and at the reported pressure, gains the mass and the energy the reported flows, heats and volume
changes bring, the gas crossing an interface carrying the enthalpy of the side it comes from. -/
theorem C75_run_balances (env : Env ℝ) (U : MatrixDecomposition ℝ) (hU : Sound U) (c : Components ℝ)
    (fluid : Fluid ℝ) (inputs : RunInputs ℝ) (settings : RunSettings ℝ) (e : Engine ℝ)
    (h : Engine.run env U c fluid inputs settings = .ok e)
    (hn : fluid.enth inputs.temp_sink e.state.pres.avg
      + fluid.enth inputs.temp_source e.state.pres.avg ≠ 0) :
    e.state.fluid = fluid ∧ ∃ vs : List (state_equations.Values ℝ), e.values = Values.ofStateValues vs ∧
      ∀ v ∈ vs, SampleBalances c e.state v := by
  obtain ⟨n, vs, s', -, h2, h3, h4, -⟩ := (C36_ok_iff env U c fluid inputs settings e).1 h
  obtain ⟨f1, f2, f3, -⟩ := visited_invariant env U c fluid inputs settings h2
  refine ⟨f1, vs, h4, fun v hv => ?_⟩
  obtain ⟨m, ic, -, -, -, pts, -, g4⟩ := (C33_ok_iff _ _ _ _).1 h3
  obtain ⟨-, gs⟩ := C32_values_self_consistent _ _ _ g4
  obtain ⟨k, hk, rfl⟩ := List.mem_iff_getElem.1 hv
  obtain ⟨-, hint, hs, -⟩ := gs k _ (List.getElem?_eq_getElem hk)
  exact sample_balances U hU c e.state (by rw [f1, f2, f3]; exact hn) _ hint hs

/-! ## A run with an exact decomposition -/

namespace SamplesExample

open BalanceExample TrajectoryExample

noncomputable def cold : chx.FixedApproach ℝ := chx.FixedApproach.new 0 0 40 ⟨0, 0, 0⟩
noncomputable def mid : regen.FixedApproach ℝ := regen.FixedApproach.new 0 0 40 ⟨0, 0, 0⟩
noncomputable def hot : hhx.FixedApproach ℝ := hhx.FixedApproach.new 0 0 40 ⟨0, 0, 0⟩

noncomputable def engine : Components ℝ := fixedApproachEngine drive.toWorkingSpaces cold mid hot

/-- An integrator that reports its starting values at two times, the second a quarter of a period later. -/
noncomputable def env : Env ℝ :=
  { ode := fun x _ _ y _ _ => .done (some ([x, 1 / 4], [y, y])), build := .checked }

noncomputable def inputs : RunInputs ℝ := { pres_zero := 500, temp_sink := 300, temp_source := 900 }

noncomputable def settings : RunSettings ℝ :=
  { resolution := 2, loop_tol := ⟨⟨1, 1⟩, ⟨1, 1⟩⟩, ode_tol := ⟨1, 1⟩, max_iters := ⟨3, 2⟩ }

noncomputable def helium : Fluid ℝ := (IdealGas.new .Helium).toFluid

theorem start_chx : (State.new_hint engine helium inputs).temp.chx = 340 := by
  show (300 : ℝ) + 40 = 340; norm_num

theorem start_hhx : (State.new_hint engine helium inputs).temp.hhx = 860 := by
  show (900 : ℝ) - 40 = 860; norm_num

theorem start_regen : 0 < (State.new_hint engine helium inputs).temp.regen.avg := by
  simp only [State.new_hint, Temperatures.from_approach, RegenImbalance.regen_temp, engine, fixedApproachEngine,
    chx.FixedApproach.toColdHeatExchanger, hhx.FixedApproach.toHotHeatExchanger,
    regen.FixedApproach.toRegenerator, cold, mid, hot, inputs, chx.FixedApproach.new,
    regen.FixedApproach.new, hhx.FixedApproach.new, real_le, le_refl, if_true]
  refine div_pos (by norm_num) (Real.log_pos (by norm_num))

theorem start_physical (t : ℝ) : Physical (Run.new exact engine (State.new_hint engine helium inputs)) t
    ⟨500, 340, 860⟩ 100 := by
  have hV : 0 < V t := by linarith [(V_bounds t).1]
  exact
    { norm := by
        show 0.5 * ((IdealGas.helium : IdealGas ℝ).enth 300 500 + (IdealGas.helium : IdealGas ℝ).enth 900 500) ≠ 0
        rw [IdealGas.helium_enth, IdealGas.helium_enth]
        norm_num
      pres := by show (0 : ℝ) < 500; norm_num
      comp_vol := hV
      exp_vol := by
        show 0 < (drive.volumes t).2.value
        rw [(V_exp t).1]; exact hV
      chx_vol := le_refl (0 : ℝ)
      regen_vol := le_refl (0 : ℝ)
      hhx_vol := le_refl (0 : ℝ)
      regen_temp := start_regen
      comp_temp := by show (100 : ℝ) ≤ 340; norm_num
      chx_temp := by show (100 : ℝ) ≤ (State.new_hint engine helium inputs).temp.chx; rw [start_chx]; norm_num
      hhx_temp := by show (100 : ℝ) ≤ (State.new_hint engine helium inputs).temp.hhx; rw [start_hhx]; norm_num
      exp_temp := by show (100 : ℝ) ≤ 860; norm_num }

/-- C75: a successful run, in which the volumes, pressure and temperatures vary. -/
example : ∃ e, Engine.run env exact engine helium inputs settings = .ok e ∧
    ∃ vs : List (state_equations.Values ℝ), e.values = Values.ofStateValues vs ∧ vs.length = 2 ∧
      ∀ v ∈ vs, SampleBalances engine e.state v := by
  set s := State.new_hint engine helium inputs with hs
  obtain ⟨vs, h1, h2⟩ := C60_values (Run.new exact engine s) .Helium rfl exact_sound exact_complete
    [⟨0, ⟨500, 340, 860⟩⟩, ⟨1 / 4, ⟨500, 340, 860⟩⟩] (by
      intro p hp
      simp only [List.mem_cons, List.not_mem_nil, or_false] at hp
      rcases hp with rfl | rfl <;> exact start_physical _)
  have hint : ∀ n : UInt32, n ≠ 0 → integrationTryFrom env (Run.new exact engine s).toCycle ⟨500, 340, 860⟩ n ⟨1, 1⟩
      = .ok [⟨0, ⟨500, 340, 860⟩⟩, ⟨1 / 4, ⟨500, 340, 860⟩⟩] := by
    intro n hn
    have h0 : (0.0 : ℝ) = 0 := by norm_num
    simp [integrationTryFrom, timeStep, pointsMinusOne, env, startStepper, Stepper.run, toPoints, h0, hn]
  have hi : Engine.inner env exact engine settings s = .ok vs := by
    unfold Engine.inner
    rw [C33_ok_iff]
    refine ⟨0, ⟨500, s.temp.chx, s.temp.hhx⟩, by decide, .hints, ?_, ?_⟩
    · rw [start_chx, start_hhx]
      refine ⟨⟨500, 340, 860⟩, ⟨500, 340, 860⟩, ⟨_, hint 2 (by decide), rfl, rfl⟩, ?_⟩
      simp [Closed, Within, Engine.steadyInputs, settings]
    · rw [start_chx, start_hhx]
      exact ⟨_, hint 2 (by decide), h1⟩
  have hlen : vs.length = 2 := h2.length_eq.symm
  have hs := fun x : ℝ => within_self settings.loop_tol.outer one_pos one_pos x
  have hrun := C39_one_iteration env exact drive.toWorkingSpaces cold mid hot helium inputs settings vs
    (by decide) hi (by rintro rfl; simp at hlen) ⟨hs _, hs _, hs _, hs _, hs _⟩
  have hrun' := congrArg Prod.fst hrun
  obtain ⟨-, vs', g1, g2⟩ := C75_run_balances env exact exact_sound engine helium inputs settings _ hrun' (by
    show (IdealGas.helium : IdealGas ℝ).enth 300 500 + (IdealGas.helium : IdealGas ℝ).enth 900 500 ≠ 0
    rw [IdealGas.helium_enth, IdealGas.helium_enth]
    norm_num)
  refine ⟨_, hrun', vs', g1, ?_, g2⟩
  rw [← hlen]
  have := congrArg (fun v => v.time.length) g1
  simpa [ofStateValues_eq] using this.symm

end SamplesExample

end Sett
