import Verif.Props.Reversed
import Verif.Props.GridExample

/-! # An engine turned backwards whose gas warms by three kelvin a cycle and is reported as steady (C93) -/

namespace Sett

open Spec state_equations dopri5

namespace ReversedExample

open BalanceExample CycleExample EngineExample GridExample

/-- The compression space warms at three kelvin per second. -/
noncomputable def drifting : Vec10 ℝ := ![1, 1, 1, 1, 1 / 2, -1 / 2, 0, 3, 0, 0]

noncomputable def drift : MatrixDecomposition ℝ := fun _ _ => some drifting

/-- Temperature `300 + 3 t` in the compression space. -/
def q : V3 Quartic := ⟨⟨5, 0, 0, 0, 0⟩, ⟨300, 3, 0, 0, 0⟩, ⟨600, 0, 0, 0, 0⟩⟩

theorem speed_q (t : ℝ) : speed q t = ⟨0, 3, 0⟩ := by
  simp [speed, Quartic.deriv, q]

theorem drift_dir : FlowDirection.from_solution (Solution.ofVec drifting) = forward := by
  have : Direction.from_value (1 : ℝ) = .Positive := by
    unfold Direction.from_value
    rw [if_pos]; rw [real_le]; norm_num
  simp [FlowDirection.from_solution, Solution.ofVec, forward, this, drifting]

theorem drift_solve (i : Inputs ℝ) (hint : FlowDirection) :
    solve drift i hint = .ok (Solution.ofVec drifting) := by
  rw [C08_ok_iff]
  have hs : ∀ d, (System.new i).solve drift d = some (Solution.ofVec drifting) := fun d => rfl
  by_cases h : hint = forward
  · subst h
    exact ⟨[forward], forward, by simp, .here _, hs _, drift_dir⟩
  · exact ⟨[hint, forward], forward, by simp, .step ⟨h, _, hs _, drift_dir⟩ (.here _), hs _, drift_dir⟩

theorem drift_driven (cy : Cycle ℝ) (hc : cy.Solver = drift) : Spec.Driven cy (speed q) := by
  intro t c hint
  refine ⟨Solution.ofVec drifting, by rw [hc]; exact drift_solve _ _, ?_⟩
  rw [speed_q]
  simp [Solution.ofVec, drifting]

theorem output_succeeds_back (p : Problem ℝ) (hd : p.dx < 0) (outs : Nat) : ∀ s : dopri5.State ℝ,
    s.xOld = 0 → s.x ≤ 0 → s.xd ≤ 0 → s.xd + outs * p.dx < s.x →
    ∃ s', output p (outs + 1) s = some s' := by
  induction outs with
  | zero =>
    intro s h0 h1 h2 h3
    unfold output
    rw [if_neg]
    · exact ⟨_, rfl⟩
    · rw [real_le, real_abs, real_abs, abs_of_nonpos h1, abs_of_nonpos h2, not_le]
      simp at h3
      linarith
  | succ n ih =>
    intro s h0 h1 h2 h3
    unfold output
    split
    · rename_i h4
      rw [if_pos]
      · refine ih _ h0 h1 ?_ ?_
        · show s.xd + p.dx ≤ 0
          linarith
        · show s.xd + p.dx + n * p.dx < s.x
          push_cast at h3
          linarith
      · rw [Bool.and_eq_true]
        refine ⟨?_, h4⟩
        rw [real_le, real_abs, real_abs, h0, abs_zero]
        exact abs_nonneg _
    · exact ⟨_, rfl⟩

/-- The integration backwards over one second takes a single step. -/
theorem yields (outs : ℕ) (X dx : ℝ) (hX : X = -1 + 1e-14) (hd : dx < 0) (ho : outs * dx < -1) :
    ∃ out, Yields (speed q) (dopri5.solve (outs + 1) 0.0 X dx ⟨5, 300, 600⟩ 1 1) (some out) := by
  have hXn : X < 0 := by rw [hX]; norm_num
  have hX1 : -1 ≤ X := by rw [hX]; norm_num
  unfold dopri5.solve
  simp only
  set p : Problem ℝ := { xEnd := X, dx, rtol := 1, atol := 1, hMax := Scalar.abs (X - 0.0)
                         posneg := dopri5.sign 1.0 (X - 0.0) } with hp
  have hpos : p.posneg = -1 := by
    show dopri5.sign 1.0 (X - 0.0) = -1
    rw [sign_of_neg (by rw [lit_0]; linarith)]
    norm_num
  have hmax : p.hMax = -X := by
    show |X - 0.0| = -X
    rw [lit_0, sub_zero]; exact abs_of_neg hXn
  have hpE : p.xEnd = X := rfl
  have d1 : initNorm p (⟨5, 300, 600⟩ : V3 ℝ) ⟨0, 3, 0⟩ = (3 / 301) ^ 2 := by
    simp [initNorm, hp, Scalar.powi2]
    norm_num
  have d0 : 2 ≤ initNorm p (⟨5, 300, 600⟩ : V3 ℝ) ⟨5, 300, 600⟩ := by
    simp [initNorm, hp, Scalar.powi2]
    norm_num
  have hg : firstGuess p (⟨5, 300, 600⟩ : V3 ℝ) ⟨0, 3, 0⟩ = X := by
    simp only [firstGuess, fmin_real, hpos, hmax]
    rw [sign_of_neg (by norm_num), d1, if_neg (by
      rw [Bool.or_eq_true, real_lt, real_lt, not_or, not_lt, not_lt]
      exact ⟨le_trans (by norm_num) d0, by norm_num⟩)]
    have : -X ≤ 0.01 * Scalar.sqrt (initNorm p (⟨5, 300, 600⟩ : V3 ℝ) ⟨5, 300, 600⟩ / (3 / 301) ^ 2) := by
      refine le_trans (by linarith : -X ≤ 1) ?_
      have h1 : (100 : ℝ) ≤ Real.sqrt (initNorm p (⟨5, 300, 600⟩ : V3 ℝ) ⟨5, 300, 600⟩ / (3 / 301) ^ 2) := by
        refine Real.le_sqrt_of_sq_le ?_
        rw [le_div_iff₀ (by norm_num)]
        refine le_trans ?_ d0
        norm_num
      rw [real_sqrt]
      norm_num at h1 ⊢
      linarith
    rw [min_eq_right this, abs_of_pos (by linarith), neg_neg]
  have hg2 : secondGuess p (⟨5, 300, 600⟩ : V3 ℝ) ⟨0, 3, 0⟩ ⟨0, 3, 0⟩ X = X := by
    have e0 : initNorm p (⟨5, 300, 600⟩ : V3 ℝ) (sub3 ⟨0, 3, 0⟩ ⟨0, 3, 0⟩) = 0 := by
      simp [initNorm, sub3, zip3, Scalar.powi2, lit_0]
    have e1 : Real.sqrt (((3 : ℝ) / 301) ^ 2) = 3 / 301 := Real.sqrt_sq (by norm_num)
    simp only [secondGuess, fmin_real, fmax_real, hpos, hmax, e0, d1, real_sqrt, e1, Real.sqrt_zero, zero_div,
      real_abs, abs_zero]
    rw [sign_of_neg (by norm_num), if_neg (by rw [real_le, not_le]; norm_num)]
    have h1 : (1 : ℝ) ≤ HasPowf.powf (0.01 / max (3 / 301) 0) (1.0 / 5.0) := by
      show (1 : ℝ) ≤ (0.01 / max (3 / 301) 0) ^ ((1.0 : ℝ) / 5.0)
      refine Real.one_le_rpow ?_ (by norm_num)
      rw [max_eq_left (by norm_num)]
      norm_num
    rw [min_eq_right (show -X ≤ _ by linarith), min_eq_right (by
      rw [abs_of_neg hXn]
      norm_num
      linarith), abs_of_pos (by linarith), neg_neg]
  have e0 : (0.0 : ℝ) = 0 := lit_0
  simp only [e0, zero_add, hinit]
  set s : dopri5.State ℝ :=
    { x := 0, xOld := 0, xd := 0, h := X, hOld := X, y := ⟨5, 300, 600⟩
      rcont0 := ⟨0, 0, 0⟩, rcont1 := ⟨0, 0, 0⟩, rcont2 := ⟨0, 0, 0⟩, rcont3 := ⟨0, 0, 0⟩
      rcont4 := ⟨0, 0, 0⟩, facOld := 1.0e-4, reject := false, accepted := 0, iasti := 0, nonStiff := 0
      xOut := [], yOut := [] } with hs
  have hlast : isLast p s = true := by
    unfold isLast
    rw [real_lt, hpos, hpE, lit_0]
    show 0 < ((0 : ℝ) + 1.01 * X - X) * -1
    norm_num
    linarith
  have htr : tried p s = X := by
    unfold tried
    rw [if_pos hlast]
    show X - 0 = X
    ring
  have hpr : ¬Scalar.le (0.1 * Scalar.abs s.h) (2.220446049250313e-16 * Scalar.abs s.x) = true := by
    rw [real_le, real_abs, real_abs, not_le]
    show _ * |(0 : ℝ)| < _ * |X|
    rw [abs_zero, abs_of_neg hXn]
    norm_num
    linarith
  obtain ⟨s', hs'⟩ := output_succeeds_back p hd outs
    ((along q s.x (tried p s)).advance p s (tried p s) (0, s.nonStiff)) rfl
    (by show (0 : ℝ) + tried p s ≤ 0; rw [htr]; linarith) le_rfl
    (by
      show (0 : ℝ) + outs * dx < 0 + tried p s
      rw [htr]; linarith)
  have hy : s.y = curve q s.x := by simp [hs, curve, Quartic.eval, q]
  have hacc : ∃ hNew, accept p s.facOld s.reject ((along q s.x (tried p s)).err p s.y (tried p s)) (tried p s)
      = (true, hNew) := by
    rw [along_errorNorm]
    unfold accept
    rw [if_pos ((real_le _ _).2 (by norm_num))]
    exact ⟨_, rfl⟩
  obtain ⟨hNew, hacc⟩ := hacc
  have hone : Yields (speed q) (loop p (outs + 1) (100000 + 1) s (speed q s.x)) (some (s'.xOut, s'.yOut)) := by
    unfold loop
    rw [if_neg hpr]
    simp only [stages]
    iterate 6 refine yields_eval ?_
    refine Eq.subst (motive := fun st => Yields (speed q) st (some (s'.xOut, s'.yOut)))
      (conclude_accepted (k := along q s.x (tried p s)) (next := loop p (outs + 1) 100000)
        (last := isLast p s) (hNew := hNew) (st := (0, s.nonStiff)) hacc ?_ hs').symm ?_
    · unfold stiffness
      rw [if_neg (by simp [hs])]
    · rw [if_pos hlast]; exact yields_done
  refine ⟨(s'.xOut, s'.yOut), yields_eval (yields_eval (yields_eval ?_))⟩
  · rw [speed_q, hg, speed_q, hg2]
    rw [speed_q] at hone
    exact hone

theorem integrates (cy : Cycle ℝ) (hc : cy.Solver = drift) (hp : cy.period = -1) (n : UInt32)
    (h1 : 2 ≤ n.toNat) (h2 : n.toNat ≤ 8) :
    ∃ pts, integrationTryFrom GridExample.env cy ⟨5, 300, 600⟩ n ⟨1, 1⟩ = .ok pts := by
  have hn1 : (2 : ℝ) ≤ n.toNat := by exact_mod_cast h1
  have hn2 : (n.toNat : ℝ) ≤ 8 := by exact_mod_cast h2
  obtain ⟨dx, hdx⟩ : ∃ dx, timeStep GridExample.env.build cy.period n = .ok dx := by
    have hne : n ≠ 0 := by rintro rfl; exact absurd h1 (by decide)
    unfold timeStep pointsMinusOne
    cases GridExample.env.build
    · simp [hne]
    · exact ⟨_, rfl⟩
  have hdx' := timeStep_eq h1 hdx
  rw [hp] at hdx'
  have e : ((n.toNat : ℝ) - 1) * dx = -1 := by
    rw [hdx']; field_simp [show (n.toNat : ℝ) - 1 ≠ 0 by linarith]
  have hd : dx < 0 := by
    rw [hdx']; exact div_neg_of_neg_of_pos (by norm_num) (by linarith)
  obtain ⟨⟨xs, ys⟩, qs, g1, g2⟩ := yields 9 (cy.period + 1e-14) dx (by rw [hp]) hd (by
    have : ((9 : ℕ) : ℝ) * dx = (n.toNat - 1) * dx + (10 - n.toNat) * dx := by push_cast; ring
    rw [this, e]
    nlinarith)
  obtain ⟨log, hl⟩ := driven_run (drift_driven cy hc) g1 FlowDirection.default _ rfl g2
  refine ⟨toPoints xs ys, ?_⟩
  unfold integrationTryFrom startStepper
  rw [hdx]
  have hl' : Stepper.run cy (GridExample.env.ode 0.0 (cy.period + 1e-14) dx ⟨5, 300, 600⟩ 1 1)
      FlowDirection.default = .ok (some (xs, ys), log) := hl
  simp only [hl']

/-- The drive of `EngineExample` turned backwards. -/
noncomputable def components : Components ℝ :=
  fixedApproachEngine ({ EngineExample.drive with frequency := -1 } : ws.SinusoidalDrive ℝ).toWorkingSpaces
    cold mid hot

theorem backward : Spec.Backward components GridExample.settings.resolution := by
  refine ⟨fun _ => ?_, by decide, fun _ => ?_⟩
  · show (-1 : ℝ) < 0
    norm_num
  · show (((3 : UInt32).toNat : ℝ) - 1) * 1e-14 * -(-1) < 1
    rw [show (3 : UInt32).toNat = 3 from rfl]
    norm_num

/-- C93: a complete run succeeds with two samples instead of three, starting from the exchanger temperatures
300 and 600, although the compression space, warming at three kelvin per second, ends the cycle three kelvin
from where it started and the tolerance is one kelvin. -/
example : ∃ e, Engine.run GridExample.env drift components fluid runInputs GridExample.settings = .ok e ∧
    e.values.time.length = 2 ∧ e.values.T_c.head? = some 300 ∧ e.values.T_e.head? = some 600 ∧
    (∀ t c hint, ∃ s, solve drift ((Run.new drift components e.state).toCycle.calculate_inputs t c) hint = .ok s ∧
      s.dTc_dt = 3) ∧
    GridExample.settings.loop_tol.inner.abs = 1 := by
  set s := State.new_hint components fluid runInputs with hsd
  have hpd : (Run.new drift components s).toCycle.period = -1 := by
    show (1.0 : ℝ) / (-1) = -1; norm_num
  have t1 : s.temp.chx = 300 := by show (260 : ℝ) + 40 = 300; norm_num
  have t2 : s.temp.hhx = 600 := by show (700 : ℝ) - 100 = 600; norm_num
  obtain ⟨p2, i2⟩ := integrates (Run.new drift components s).toCycle rfl hpd 2 (by decide) (by decide)
  obtain ⟨p3, i3⟩ := integrates (Run.new drift components s).toCycle rfl hpd 3 (by decide) (by decide)
  have hic : (⟨s.pres.t_zero, s.temp.chx, s.temp.hhx⟩ : Conditions ℝ) = ⟨5, 300, 600⟩ := by
    rw [t1, t2]; rfl
  have hvals : ∀ (pts : List (Point ℝ)), ∃ vs, intoStateValues (Run.new drift components s).toCycle pts = .ok vs := by
    intro pts
    have : ∀ (pts : List (Point ℝ)) d, ∃ vs,
        stateValuesFrom (Run.new drift components s).toCycle d pts = .ok vs := by
      intro pts
      induction pts with
      | nil => exact fun d => ⟨[], rfl⟩
      | cons a pts ih =>
        intro d
        obtain ⟨vs, hv⟩ := ih (FlowDirection.from_solution (Solution.ofVec drifting))
        have hh : (Run.new drift components s).toCycle.Solver = drift := rfl
        unfold stateValuesFrom
        simp only [hh, drift_solve, hv]
        exact ⟨_, rfl⟩
    exact this pts _
  obtain ⟨vs, hvs⟩ := hvals p3
  have hone : ∃ first last, OneCycle GridExample.env (Run.new drift components s).toCycle
      (Engine.steadyInputs GridExample.settings s) ⟨5, 300, 600⟩ first last := by
    have hT : (Run.new drift components s).toCycle.period < -((((2 : UInt32).toNat : ℝ) - 1) * 1e-14) := by
      rw [hpd, show (2 : UInt32).toNat = 2 from rfl]; norm_num
    obtain ⟨a, b⟩ := C93_integration 10 GridExample.env rfl _ _ 2 _ (by decide) hT p2 i2
    cases hp2 : p2 with
    | nil => rw [hp2] at b; cases b
    | cons x xs =>
      cases hq2 : (x :: xs).getLast? with
      | none => simp at hq2
      | some z => exact ⟨_, _, p2, i2, by rw [hp2]; rfl, by rw [hp2, hq2]; rfl⟩
  have hi : Engine.inner GridExample.env drift components GridExample.settings s = .ok vs := by
    unfold Engine.inner
    rw [C33_ok_iff]
    refine ⟨0, _, by decide, .hints, ?_, p3, ?_, hvs⟩
    · obtain ⟨first, last, h1⟩ := hone
      obtain ⟨r1, r2⟩ := C93_cycle_end_is_start 10 GridExample.env rfl _ (by rw [hpd]; norm_num) _ _ _ _ h1
      refine ⟨first, last, hic ▸ h1, ?_⟩
      rw [r1, r2]
      exact ⟨within_self _ one_pos one_pos _, within_self _ one_pos one_pos _⟩
    · exact hic ▸ i3
  have hne : vs ≠ [] := by
    have := (C93_guess_kept 10 GridExample.env rfl _ (Engine.steadyInputs GridExample.settings s)
      backward.resolution (by
        rw [hpd]
        show (-1 : ℝ) < -((((3 : UInt32).toNat : ℝ) - 1) * 1e-14)
        rw [show (3 : UInt32).toNat = 3 from rfl]
        norm_num) one_pos one_pos vs hi).2
    rintro rfl
    cases this
  have hs := fun x : ℝ => within_self GridExample.settings.loop_tol.outer one_pos one_pos x
  have hrun := congrArg Prod.fst (C39_one_iteration GridExample.env drift _ cold mid hot fluid runInputs
    GridExample.settings vs (by decide) hi hne ⟨hs _, hs _, hs _, hs _, hs _⟩)
  obtain ⟨e1, e2, e3⟩ := C93_run 10 GridExample.env rfl drift components fluid runInputs GridExample.settings
    backward one_pos one_pos _ hrun
  refine ⟨_, hrun, e1, e2.trans (congrArg some t1), e3.trans (congrArg some t2), fun t c hint => ?_, rfl⟩
  exact ⟨_, drift_solve _ _, by simp [Solution.ofVec, drifting]⟩

end ReversedExample
end Sett
