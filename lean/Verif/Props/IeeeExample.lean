import Verif.Props.Resolution

/-! # Concrete instances of the theorems on machine numbers -/

namespace Sett
open Float64 Float64.Raw Spec state_equations

namespace IeeeExample

/-- The correctly rounded library. -/
noncomputable abbrev Lib : Libm := exactLibm false

/-- The machine number `n`. -/
noncomputable def num (n : ℕ) : F64 Lib := Scalar.ofNat n

theorem num_real {n : ℕ} (h : n ≤ 2 ^ 53) : (num n).raw.Finite ∧ (num n).raw.real = n := ofNat_raw h

theorem num_positive {n : ℕ} (h : n ≤ 2 ^ 53) (h0 : 0 < n) : Positive (num n) := by
  obtain ⟨h1, h2⟩ := num_real h
  exact ⟨_, Raw.ext_of_finite h1, by rw [h2]; exact_mod_cast h0⟩

theorem num_zero : num 0 = (zero false : Raw) := by
  show pack false ((0 : ℕ) : ℝ) = _
  rw [Nat.cast_zero, pack_zero]

/-- An all-ones answer to every system. -/
noncomputable def ones : MatrixDecomposition (F64 Lib) := fun _ _ => some fun _ => num 1

theorem ones_dir : FlowDirection.from_solution (Solution.ofVec fun _ => num 1)
    = ⟨.Positive, .Positive, .Positive, .Positive⟩ := by
  have h : Direction.from_value (num 1) = .Positive := by
    obtain ⟨x, h1, h2⟩ := num_positive (n := 1) (by norm_num) (by norm_num)
    exact (C54_from_value _).1.2 ⟨x, h1, h2.le⟩
  simp only [FlowDirection.from_solution, Solution.ofVec, h]

theorem ones_solve (i : Inputs (F64 Lib)) (d : FlowDirection) :
    solve ones i d = .ok (Solution.ofVec fun _ => num 1) := by
  rw [C08_ok_iff]
  have hs : ∀ d, (System.new i).solve ones d = some (Solution.ofVec fun _ => num 1) := fun d => rfl
  by_cases h : d = ⟨.Positive, .Positive, .Positive, .Positive⟩
  · subst h
    exact ⟨[_], _, by simp, .here _, hs _, ones_dir⟩
  · exact ⟨[d, _], _, by simp, .step ⟨h, _, hs _, ones_dir⟩ (.here _), hs _, ones_dir⟩

/-- An integrator that asks once and reports the starting state at both ends. -/
noncomputable def ode : Ode (F64 Lib) := fun x xend _ y _ _ =>
  .eval x y fun _ => .done (some ([x, xend], [y, y]))

noncomputable def env : Env (F64 Lib) := { ode, build := .checked }

theorem integration (cy : Cycle (F64 Lib)) (hc : cy.Solver = ones) (ic : Conditions (F64 Lib))
    (tol : OdeTolerance (F64 Lib)) :
    integrationTryFrom env cy ic 2 tol = .ok [⟨0.0, ic⟩, ⟨cy.period + 1e-14, ic⟩] := by
  simp [integrationTryFrom, timeStep, pointsMinusOne, env, startStepper, ode, Stepper.run,
    system, hc, ones_solve, toPoints]

noncomputable def drive : ws.SinusoidalDrive (F64 Lib) :=
  { frequency := num 1, phase_angle := num 90, comp_geometry := ⟨num 1, num 1⟩
    exp_geometry := ⟨num 1, num 1⟩, thermal_resistance := ⟨num 10, num 10⟩
    parasitics := { comp := ⟨num 0, num 0, num 0⟩, exp := ⟨num 0, num 0, num 0⟩ } }
noncomputable def cold : chx.FixedApproach (F64 Lib) :=
  { R_hyd := num 0, volume := num 1, approach := num 40, parasitics := ⟨num 0, num 0, num 0⟩ }
noncomputable def mid : regen.FixedApproach (F64 Lib) :=
  { R_hyd := num 0, volume := num 1, approach := num 0, parasitics := ⟨num 0, num 0, num 0⟩ }
noncomputable def hot : hhx.FixedApproach (F64 Lib) :=
  { R_hyd := num 0, volume := num 1, approach := num 100, parasitics := ⟨num 0, num 0, num 0⟩ }

noncomputable def components : Components (F64 Lib) :=
  fixedApproachEngine drive.toWorkingSpaces cold mid hot

noncomputable def runInputs (source : ℕ) : RunInputs (F64 Lib) :=
  { pres_zero := num 5, temp_sink := num 260, temp_source := num source }
noncomputable def settings : RunSettings (F64 Lib) :=
  { resolution := 2, loop_tol := ⟨⟨num 1, num 1⟩, ⟨num 1, num 1⟩⟩, ode_tol := ⟨num 1, num 1⟩
    max_iters := ⟨3, 2⟩ }
noncomputable def fluid : Fluid (F64 Lib) := IdealGas.helium.toFluid

theorem sub_num {a b : F64 Lib} {m n : ℕ} (ha : a.raw.Finite ∧ a.raw.real = m)
    (hb : b.raw.Finite ∧ b.raw.real = n) (h : n ≤ m) (hm : m ≤ 2 ^ 53) :
    (a - b).raw.Finite ∧ (a - b).raw.real = (m - n : ℕ) := by
  have hr : Rep ((m - n : ℕ) : ℝ) := rep_nat (by omega)
  have e : a.raw.real - b.raw.real = ((m - n : ℕ) : ℝ) := by rw [ha.2, hb.2, Nat.cast_sub h]
  have := Raw.sub_finite ha.1 hb.1 (by rw [e, rne_rep hr]; exact hr.2)
  rw [e, rne_rep hr] at this
  exact this

theorem add_num {a b : F64 Lib} {m n : ℕ} (ha : a.raw.Finite ∧ a.raw.real = m)
    (hb : b.raw.Finite ∧ b.raw.real = n) (hm : m + n ≤ 2 ^ 53) :
    (a + b).raw.Finite ∧ (a + b).raw.real = (m + n : ℕ) := by
  have hr : Rep ((m + n : ℕ) : ℝ) := rep_nat (by omega)
  have e : a.raw.real + b.raw.real = ((m + n : ℕ) : ℝ) := by rw [ha.2, hb.2, Nat.cast_add]
  have := Raw.add_finite ha.1 hb.1 (by rw [e, rne_rep hr]; exact hr.2)
  rw [e, rne_rep hr] at this
  exact this

theorem chx_temp : (num 260 + num 40).raw.Finite ∧ (num 260 + num 40).raw.real = (300 : ℕ) :=
  add_num (num_real (by norm_num)) (num_real (by norm_num)) (by norm_num)

theorem hhx_temp : (num 700 - num 100).raw.Finite ∧ (num 700 - num 100).raw.real = (600 : ℕ) :=
  sub_num (num_real (by norm_num)) (num_real (by norm_num)) (by norm_num) (by norm_num)

theorem inner_ok (st : State (F64 Lib)) (h1 : st.temp.chx.raw.Finite ∧ st.temp.chx.raw.real = (300 : ℕ))
    (h2 : st.temp.hhx.raw.Finite ∧ st.temp.hhx.raw.real = (600 : ℕ)) :
    ∃ vs, Engine.inner env ones components settings st = .ok vs ∧ vs ≠ [] := by
  have hp := num_positive (n := 1) (by norm_num) (by norm_num)
  refine ⟨[⟨0.0, ⟨st.pres.t_zero, st.temp.chx, st.temp.hhx⟩, Solution.ofVec fun _ => num 1⟩,
    ⟨1.0 / num 1 + 1e-14, ⟨st.pres.t_zero, st.temp.chx, st.temp.hhx⟩, Solution.ofVec fun _ => num 1⟩],
    ?_, ?_⟩
  · unfold Engine.inner
    rw [C33_ok_iff]
    refine ⟨0, _, ?_, .hints, ⟨_, _, ⟨_, integration _ rfl _ _, rfl, rfl⟩, ?_, ?_⟩, _,
      integration _ rfl _ _, ?_⟩
    · simp [Engine.steadyInputs, settings]
    · exact within_self_ieee _ st.temp.chx h1.1 (by rw [h1.2]; norm_num) hp hp
    · exact within_self_ieee _ st.temp.hhx h2.1 (by rw [h2.2]; norm_num) hp hp
    · simp only [intoStateValues, stateValuesFrom]
      rw [show (Run.new ones components st).toCycle.Solver = ones from rfl]
      simp only [ones_solve]
      rfl
  · simp

/-! ### Logarithms -/

theorem log_two_rounded : (1 / 2 : ℝ) ≤ rne (Real.log 2) ∧ rne (Real.log 2) ≤ 1 := by
  have h1 : Fits (1 / 2 : ℝ) := ⟨1, -1, by norm_num, by norm_num, by norm_num⟩
  have h2 : Fits (1 : ℝ) := rep_one.1.1
  have l1 : (1 / 2 : ℝ) ≤ Real.log 2 := by
    have := Real.one_sub_inv_le_log_of_pos (x := 2) (by norm_num)
    norm_num at this ⊢; linarith
  have l2 : Real.log 2 ≤ 1 := by
    have := Real.log_le_sub_one_of_pos (x := 2) (by norm_num)
    linarith
  exact ⟨(rne_fits h1).symm.trans_le (rne_mono l1), (rne_mono l2).trans_eq (rne_fits h2)⟩

theorem half : (0.5 : F64 Lib).raw.Finite ∧ (0.5 : F64 Lib).raw.real = 1 / 2 := by
  have hr : Rep (1 / 2 : ℝ) := ⟨⟨1, -1, by norm_num, by norm_num, by norm_num⟩, by
    rw [abs_of_pos (by norm_num)]
    exact lt_trans (by norm_num) (one_lt_pow₀ (by norm_num : (1 : ℝ) < 2) (by norm_num : 1024 ≠ 0))⟩
  have e : (0.5 : ℝ) = 1 / 2 := by norm_num
  have := pack_finite false (x := (0.5 : ℝ)) (by rw [e, rne_rep hr]; exact hr.2)
  refine ⟨this.1, this.2.trans ?_⟩
  rw [e, rne_rep hr]

theorem half_zero {a : F64 Lib} (h : a.raw.Finite ∧ a.raw.real = (0 : ℕ)) :
    (0.5 * a).raw.Finite ∧ (0.5 * a).raw.real = (0 : ℕ) := by
  have e : (0.5 : F64 Lib).raw.real * a.raw.real = 0 := by rw [h.2]; simp
  have := Raw.mul_finite half.1 h.1 (by rw [e, rne_zero]; simp)
  rw [e, rne_zero] at this
  exact ⟨this.1, this.2.trans (by simp)⟩

/-- The logarithm of a quotient of two machine numbers in the ratio two. -/
theorem ln_ratio {a b : F64 Lib} (ha : a.raw.Finite ∧ a.raw.real = (600 : ℕ))
    (hb : b.raw.Finite ∧ b.raw.real = (300 : ℕ)) :
    (Scalar.ln (a / b)).raw.Finite ∧ (Scalar.ln (a / b)).raw.real = rne (Real.log 2) := by
  have e : a.raw.real / b.raw.real = 2 := by rw [ha.2, hb.2]; norm_num
  have hd := Raw.div_finite ha.1 hb.1 (by rw [hb.2]; norm_num) (by
    rw [e, rne_rep rep_two.1]; exact rep_two.1.2)
  rw [e, rne_rep rep_two.1] at hd
  have hq : Raw.div a.raw b.raw = fin 2 rep_two := by
    rcases (Raw.finite_iff _).1 hd.1 with ⟨s, h⟩ | ⟨x, hx, h⟩
    · rw [h] at hd; exact absurd hd.2 (by norm_num [Raw.real])
    · rw [h] at hd ⊢
      exact Raw.ext_eq hd.2
  have hl : (Scalar.ln (a / b)).raw = pack false (Real.log 2) := by
    show Lib.ln (Raw.div a.raw b.raw) = _
    rw [hq]
    show (if (2 : ℝ) < 0 then nan else pack false (Real.log 2)) = _
    rw [if_neg (by norm_num)]
  rw [hl]
  refine pack_finite false ?_
  rw [abs_of_nonneg (by linarith [log_two_rounded.1])]
  exact log_two_rounded.2.trans_lt (one_lt_pow₀ (by norm_num) (by norm_num))

/-- The average regenerator temperature of the example. -/
theorem avg_temp :
    ((⟨0.0⟩ : RegenImbalance (F64 Lib)).regen_temp (num 260 + num 40) (num 700 - num 100)
      (num 0)).avg.raw.Finite ∧
    ((⟨0.0⟩ : RegenImbalance (F64 Lib)).regen_temp (num 260 + num 40) (num 700 - num 100)
      (num 0)).avg.raw.real ≠ 0 := by
  have z0 := num_real (n := 0) (by norm_num)
  have z1 : (0.0 : F64 Lib).raw.Finite ∧ (0.0 : F64 Lib).raw.real = (0 : ℕ) := by
    rw [ieee_zero]; exact ⟨trivial, by show (0 : ℝ) = _; simp⟩
  have z2 := half_zero (add_num z0 z1 (by norm_num))
  have z3 := half_zero z0
  have th := sub_num hhx_temp z2 (by norm_num) (by norm_num)
  have tc := add_num chx_temp z3 (by norm_num)
  have top := sub_num (sub_num th chx_temp (by norm_num) (by norm_num)) z3 (by norm_num) (by norm_num)
  have bot := ln_ratio th tc
  have hz : Scalar.le (0.0 : F64 Lib) 0.0 = true := by
    rw [ieee_zero]
    exact (Raw.le_finite (a := zero false) (b := zero false) trivial trivial).2 le_rfl
  simp only [RegenImbalance.regen_temp, hz, if_true]
  obtain ⟨l1, l2⟩ := log_two_rounded
  have b1 : (300 : ℝ) ≤ 300 / rne (Real.log 2) := by
    rw [le_div_iff₀ (by linarith)]; nlinarith
  have b2 : 300 / rne (Real.log 2) ≤ 600 := by
    rw [div_le_iff₀ (by linarith)]; nlinarith
  have r3 : Rep (300 : ℝ) := by exact_mod_cast rep_nat (n := 300) (by norm_num)
  have r6 : Rep (600 : ℝ) := by exact_mod_cast rep_nat (n := 600) (by norm_num)
  have hd := Raw.div_finite top.1 bot.1 (by rw [bot.2]; linarith) (by
    rw [top.2, bot.2]
    refine rne_lt_of_le r6 ?_
    norm_num
    rw [abs_of_nonneg (by linarith)]; exact b2)
  refine ⟨hd.1, ?_⟩
  have : (300 : ℝ) ≤ rne (300 / rne (Real.log 2)) := (rne_rep r3).symm.trans_le (rne_mono b1)
  have e := hd.2
  rw [top.2, bot.2] at e
  norm_num at e
  intro h
  have := e.symm.trans h
  linarith

/-- The temperatures of the example are finite and not zero. -/
theorem temps_ok : ∀ t ∈ [num 260 + num 40, num 700 - num 100, num 260 + num 40 + num 0,
      ((⟨0.0⟩ : RegenImbalance (F64 Lib)).regen_temp (num 260 + num 40) (num 700 - num 100)
        (num 0)).avg, num 700 - num 100 - (num 0 + 0.0)],
    t.raw.Finite ∧ t.raw.real ≠ 0 := by
  have z0 := num_real (n := 0) (by norm_num)
  have z1 : (0.0 : F64 Lib).raw.Finite ∧ (0.0 : F64 Lib).raw.real = (0 : ℕ) := by
    rw [ieee_zero]; exact ⟨trivial, by show (0 : ℝ) = _; simp⟩
  have z2 := add_num z0 z1 (by norm_num)
  have c0 := add_num chx_temp z0 (by norm_num)
  have h0 := sub_num hhx_temp z2 (by norm_num) (by norm_num)
  intro t ht
  simp only [List.mem_cons, List.not_mem_nil, or_false] at ht
  rcases ht with rfl | rfl | rfl | rfl | rfl
  · exact ⟨chx_temp.1, by rw [chx_temp.2]; norm_num⟩
  · exact ⟨hhx_temp.1, by rw [hhx_temp.2]; norm_num⟩
  · exact ⟨c0.1, by rw [c0.2]; norm_num⟩
  · exact avg_temp
  · exact ⟨h0.1, by rw [h0.2]; norm_num⟩

/-- C39 on machine numbers: a complete run that succeeds in one outer iteration. -/
theorem run_ok : ∃ e log, Engine.runLogged env ones components fluid (runInputs 700) settings
    = (.ok e, log) ∧ log.length = 1 ∧ e.state.temp.chx = num 260 + num 40 := by
  have hp := num_positive (n := 1) (by norm_num) (by norm_num)
  obtain ⟨vs, hv, hne⟩ := inner_ok (State.new_hint components fluid (runInputs 700)) chx_temp hhx_temp
  obtain ⟨e, log, h1, h2, -, h3, -⟩ := C39_ieee env ones drive.toWorkingSpaces cold mid hot fluid
    (runInputs 700) settings vs (by simp [settings]) hp hp temps_ok hv hne
  exact ⟨e, log, h1, h2, h3⟩

/-- C02: all temperatures of that engine are finite. -/
example : ∃ e, Engine.run env ones components fluid (runInputs 700) settings = .ok e ∧
    e.state.temp.regen.avg.raw.Finite := by
  obtain ⟨e, log, h, -⟩ := run_ok
  have h' : Engine.run env ones components fluid (runInputs 700) settings = .ok e :=
    congrArg Prod.fst h
  obtain ⟨s', -, h2⟩ := C02_run_ok_finite _ _ _ _ _ _ e h'
  exact ⟨e, h', (h2 (e.state.temp.regen.avg, s'.temp.regen.avg) (by simp)).1⟩

/-- C22: with a source at 400 the two effective ends are both 300, and no settings make the run succeed. -/
example (settings : RunSettings (F64 Lib)) (e : Engine (F64 Lib)) :
    Engine.run env ones components fluid (runInputs 400) settings ≠ .ok e := by
  refine C22_never_ok env ones _ cold mid hot fluid (runInputs 400) settings ?_ e
  have z0 := num_real (n := 0) (by norm_num)
  have z1 : (0.0 : F64 Lib).raw.Finite ∧ (0.0 : F64 Lib).raw.real = (0 : ℕ) := by
    rw [ieee_zero]; exact ⟨trivial, by show (0 : ℝ) = _; simp⟩
  have z2 := half_zero (add_num z0 z1 (by norm_num))
  have z3 := half_zero z0
  have hz : Scalar.le (0.0 : F64 Lib) 0.0 = true := by
    rw [ieee_zero]
    exact (Raw.le_finite (a := zero false) (b := zero false) trivial trivial).2 le_rfl
  have th := sub_num (sub_num (num_real (n := 400) (by norm_num)) (num_real (n := 100) (by norm_num))
    (by norm_num) (by norm_num)) z2 (by norm_num) (by norm_num)
  have tc := add_num chx_temp z3 (by norm_num)
  unfold Coincide effectiveHot effectiveCold
  simp only [hz, if_true]
  exact ((Raw.ext_of_finite th.1).trans (by rw [th.2, tc.2])).trans
    (Raw.ext_of_finite tc.1).symm

/-- C25: a conductance of 10 without flow. -/
example (s : chx.State (F64 Lib)) (hm : s.hxr.m_dot = num 0) (hc : s.hxr.cp = num 5) (R V : F64 Lib)
    (p : ParasiticPower (F64 Lib)) :
    (chx.FixedConductance.approach ⟨R, V, num 10, p⟩ s).raw = nan := by
  refine (C25_chx ⟨R, V, num 10, p⟩ s (num_positive (by norm_num) (by norm_num)) false
    (by rw [hm, num_zero]; rfl)).2 ?_
  rw [hm, hc, num_zero]
  show Raw.mul (num 5).raw (zero false) = zero false
  have h5 := num_real (n := 5) (by norm_num)
  rcases (Raw.finite_iff _).1 h5.1 with ⟨b, h⟩ | ⟨x, hx, h⟩
  · rw [h] at h5; exact absurd h5.2 (by norm_num [Raw.real])
  · rw [h] at h5 ⊢
    have : x = 5 := by have := h5.2; norm_num [Raw.real] at this; exact this
    show pack (decide (x < 0) ^^ false) (x * 0) = _
    rw [this, mul_zero, pack_zero]
    norm_num

/-- C01, C03: 300 is within a tolerance of one of itself. -/
example : (⟨num 1, num 1⟩ : ConvergenceTolerance (F64 Lib)).is_converged (num 300) (num 300) = true := by
  have hp := num_positive (n := 1) (by norm_num) (by norm_num)
  have h := num_real (n := 300) (by norm_num)
  exact within_iff.2 (within_self_ieee _ _ h.1 (by rw [h.2]; norm_num) hp hp)

end IeeeExample
end Sett
