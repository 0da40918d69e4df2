import Verif.Props.GridLost
import Verif.Props.Resolution
import Verif.Props.FixedApproach

/-! # Engines that do not turn, or turn infinitely fast (C94)

Nothing in the crate rejects a frequency of zero, NaN or infinity.  The period is then infinite, NaN or zero. -/

namespace Sett

open Float64 Raw Spec state_equations dopri5

variable {L : Libm} [HasPowf (F64 L)]

/-! ## No end -/

theorem lt_zero_bot : Raw.lt (zero false) (inf true) = false := by
  simp [Raw.lt, ext]

theorem add_inf_cases (v : Raw) (t : Bool) : Raw.add v (inf t) = nan ∨ Raw.add v (inf t) = inf t := by
  cases v with
  | nan => exact .inl rfl
  | inf s =>
    show (if s = t then inf s else nan) = nan ∨ (if s = t then inf s else nan) = inf t
    split
    · rename_i h; exact .inr (by rw [h])
    · exact .inl rfl
  | zero s => exact .inr rfl
  | fin x h => exact .inr rfl

theorem lt_nan_right (a : Raw) : Raw.lt a nan = false := by
  unfold Raw.lt
  cases a.ext <;> rfl

omit [HasPowf (F64 L)] in
/-- No pass is the last one when the end is not a finite time. -/
theorem never_last (p : Problem (F64 L)) (hx : ¬p.xEnd.raw.Finite)
    (hp : p.posneg = dopri5.sign 1.0 (p.xEnd - 0.0)) (s : dopri5.State (F64 L)) : isLast p s = false := by
  unfold isLast
  generalize s.x + 1.01 * s.h = v
  rw [ieee_zero]
  show Raw.lt (zero false) (Raw.mul (Raw.sub v p.xEnd) p.posneg) = false
  rw [hp]
  clear hp
  generalize p.xEnd = e at hx
  unfold dopri5.sign
  rw [ieee_zero, ieee_one]
  cases e with
  | nan =>
    have : Raw.sub v nan = nan := by
      unfold Raw.sub Raw.neg
      cases v <;> rfl
    rw [this]
    exact lt_nan_right _
  | inf t =>
    have key : ∀ w : Raw, (t = false → w = Raw.abs one) → (t = true → w = Raw.neg (Raw.abs one)) →
        Raw.lt (zero false) (Raw.mul (Raw.sub v (inf t)) w) = false := by
      intro w w1 w2
      rw [show Raw.sub v (inf t) = Raw.add v (inf !t) from rfl]
      rcases add_inf_cases v !t with h | h
      · rw [h]; exact lt_nan_right _
      · rw [h]
        cases t
        · rw [w1 rfl, show Raw.mul (inf !false) (Raw.abs one) = inf true by
            simp [Raw.abs, one, Raw.mul, Raw.sign]]
          exact lt_zero_bot
        · rw [w2 rfl, show Raw.mul (inf !true) (Raw.neg (Raw.abs one)) = inf true by
            simp [Raw.abs, Raw.neg, one, Raw.mul, Raw.sign]]
          exact lt_zero_bot
    split
    · rename_i hc
      have hc : Raw.lt (zero false) (inf t) = true := hc
      refine key _ (fun _ => rfl) (fun ht => ?_)
      rw [ht, lt_zero_bot] at hc
      cases hc
    · rename_i hc
      have hc : ¬Raw.lt (zero false) (inf t) = true := hc
      refine key _ (fun ht => ?_) (fun _ => rfl)
      rw [ht] at hc
      exact absurd (by simp [Raw.lt, ext, real]) hc
  | zero t => exact absurd trivial hx
  | fin x h => exact absurd trivial hx

/-- **C94**, the integrator.  Whatever derivatives it is answered, an integration to an end that is not a finite
time does not succeed. -/
theorem C94_no_end (outs : ℕ) (x xEnd dx rtol atol : F64 L) (y : V3 (F64 L)) (hx0 : x = 0.0)
    (hx : ¬xEnd.raw.Finite) (qs : List (F64 L × V3 (F64 L) × V3 (F64 L))) (xs : List (F64 L))
    (ys : List (V3 (F64 L))) :
    ¬Reaches (dopri5.solve outs x xEnd dx y rtol atol) qs (.done (some (xs, ys))) := by
  subst hx0
  intro h
  unfold dopri5.solve at h
  set p : Problem (F64 L) := { xEnd, dx, rtol, atol, hMax := Scalar.abs (xEnd - 0.0)
                               posneg := dopri5.sign 1.0 (xEnd - 0.0) } with hp
  have hA : Answered (fun _ _ _ => True) qs := fun _ _ => trivial
  obtain ⟨_, _, h, hA, -⟩ := reaches_eval h hA
  obtain ⟨_, _, h, hA, -⟩ := reaches_eval h hA
  obtain ⟨_, _, h, hA, -⟩ := reaches_eval h hA
  obtain ⟨_, hf, -⟩ := reaches_loop p outs (fun _ _ _ => True) (fun _ _ => True) (fun _ => False)
    (by
      intro s k st s' hNew _ _ _ _ _
      rw [never_last p hx rfl s]
      trivial)
    (fun _ _ _ _ _ _ _ => trivial) _ _ _ _ _ _ trivial hA h
  exact hf

/-! ## No time at all -/

theorem le_zero_abs (x : Raw) : Raw.le (zero false) (Raw.abs x) = true ∨ x = nan := by
  cases x with
  | nan => exact .inr rfl
  | inf s => exact .inl (by simp [Raw.le, Raw.abs, ext])
  | zero s => exact .inl (by simp [Raw.le, Raw.abs, ext, real])
  | fin x h => exact .inl (by simp [Raw.le, Raw.abs, ext, real])

omit [HasPowf (F64 L)] in
/-- With an output interval of zero the next output is due at time zero for ever: the output loop ends only
if the time reached is NaN. -/
theorem output_stuck (p : Problem (F64 L)) (t : Bool) (hd : p.dx = (zero t : Raw)) (outs : ℕ) :
    ∀ s s' : dopri5.State (F64 L), s.xd = (zero false : Raw) → output p outs s = some s' →
      s'.xd = (zero false : Raw) ∧ s'.x = s.x ∧ s.x = (nan : Raw) := by
  intro s s' h0 h
  obtain ⟨⟨h1, h2⟩, h3⟩ := output_invariant p (fun u => u.xd = (zero false : Raw) ∧ u.x = s.x) (by
      rintro u ⟨h1, h2⟩ - -
      refine ⟨?_, h2⟩
      show u.xd + p.dx = _
      rw [h1, hd]
      rfl) outs s s' ⟨h0, rfl⟩ h
  refine ⟨h1, h2, ?_⟩
  rw [h1, h2] at h3
  rcases le_zero_abs s.x with g | g
  · exact absurd g h3
  · exact g

theorem not_nan_of_finite {r : Raw} (hr : r.Finite) : Raw.add (zero false) (Raw.sub r (zero false)) ≠ nan := by
  have key : ∀ w : Raw, w ≠ nan → Raw.add (zero false) w ≠ nan := by
    intro w hw
    cases w with
    | nan => exact absurd rfl hw
    | inf s => intro h; cases h
    | zero s => intro h; cases h
    | fin x h => exact pack_ne_nan _ _
  refine key _ ?_
  rcases (Raw.finite_iff r).1 hr with ⟨s, rfl⟩ | ⟨x, hx, rfl⟩
  · intro h; cases h
  · exact pack_ne_nan _ _

/-- **C94**, the integrator.  With an output interval of zero no integration to a finite end succeeds, however
many points it may emit. -/
theorem C94_no_interval (outs : ℕ) (x xEnd dx rtol atol : F64 L) (y : V3 (F64 L)) (hx0 : x = 0.0) (t : Bool)
    (hd : dx = (zero t : Raw)) (hx : xEnd.raw.Finite) (qs : List (F64 L × V3 (F64 L) × V3 (F64 L)))
    (xs : List (F64 L)) (ys : List (V3 (F64 L))) :
    ¬Reaches (dopri5.solve outs x xEnd dx y rtol atol) qs (.done (some (xs, ys))) := by
  subst hx0
  intro h
  unfold dopri5.solve at h
  set p : Problem (F64 L) := { xEnd, dx, rtol, atol, hMax := Scalar.abs (xEnd - 0.0)
                               posneg := dopri5.sign 1.0 (xEnd - 0.0) } with hp
  have hA : Answered (fun _ _ _ => True) qs := fun _ _ => trivial
  obtain ⟨_, _, h, hA, -⟩ := reaches_eval h hA
  obtain ⟨_, _, h, hA, -⟩ := reaches_eval h hA
  obtain ⟨_, _, h, hA, -⟩ := reaches_eval h hA
  have hnan : ∀ s : dopri5.State (F64 L), s.x = (nan : Raw) → isLast p s = false := by
    intro s hs
    unfold isLast
    rw [hs]
    exact lt_nan_right _
  obtain ⟨_, hf, -⟩ := reaches_loop p outs (fun _ _ _ => True)
    (fun s _ => s.xd = (zero false : Raw) ∧ (s.x = (zero false : Raw) ∨ s.x = (nan : Raw))) (fun _ => False)
    (by
      rintro s k st s' hNew ⟨h1, h2⟩ _ _ _ hout
      obtain ⟨e1, e2, e3⟩ := output_stuck p t hd outs (k.advance p s (tried p s) st) s' h1 hout
      have e3 : s.x + tried p s = (nan : Raw) := e3
      split
      · rename_i hl
        rcases h2 with h2 | h2
        · unfold tried at e3
          rw [if_pos hl, h2] at e3
          have e3 : Raw.add (zero false) (Raw.sub xEnd (zero false)) = nan := e3
          exact absurd e3 (not_nan_of_finite hx)
        · rw [hnan s h2] at hl
          cases hl
      · exact ⟨e1, .inr (e2.trans e3)⟩)
    (fun _ _ _ hI _ _ _ => hI) _ _ _ _ _ _ ⟨ieee_zero, .inl ieee_zero⟩ hA h
  exact hf

/-! ## Runs -/

theorem zero_add_finite (t : Bool) {w : Raw} (hw : w.Finite) : (Raw.add (zero t) w).Finite := by
  rcases (Raw.finite_iff w).1 hw with ⟨s, rfl⟩ | ⟨x, hx, rfl⟩
  · trivial
  · show (pack false (0 + x)).Finite
    rw [zero_add, pack_fin false hx]
    trivial

/-- **C94**, a cycle.  Over a period that is infinite, NaN or zero no integration succeeds. -/
theorem C94_integration (outs : ℕ) (env : Env (F64 L)) (ho : env.ode = dopri5.solve outs) (cycle : Cycle (F64 L))
    (hp : ¬cycle.period.raw.Finite ∨ ∃ t, cycle.period = (zero t : Raw)) (ic : Conditions (F64 L))
    (tol : OdeTolerance (F64 L)) (pts : List (Point (F64 L))) :
    integrationTryFrom env cycle ic 2 tol ≠ .ok pts := by
  intro h
  obtain ⟨dx, log, xs, ys, h1, h2, -⟩ := (C32_integration_ok_iff _ _ _ _ _ _).1 h
  rw [ho] at h2
  rcases hp with hp | ⟨t, hp⟩
  · exact C94_no_end outs _ _ dx _ _ _ rfl (fun hc => hp (add_finite_iff hc).1) _ xs ys h2
  · obtain ⟨m, g1, g2⟩ := pointsMinusOne_ok env.build (n := 2) (by decide)
    have hm : m.toNat = 1 := g2
    unfold timeStep at h1
    rw [g1] at h1
    injection h1 with h1
    have hdx : dx = (zero t : Raw) := by
      rw [← h1, hm, hp]
      show Raw.div (zero t) (pack false ((1 : ℕ) : ℝ)) = _
      rw [Nat.cast_one, pack_fin false rep_one]
      show pack (t ^^ Raw.sign (fin 1 rep_one)) (0 / 1) = _
      have hs : Raw.sign (fin 1 rep_one) = false := decide_eq_false (by norm_num)
      rw [zero_div, pack_zero, hs, Bool.xor_false]
    refine C94_no_interval outs _ _ dx _ _ _ rfl t hdx ?_ _ xs ys h2
    rw [hp]
    obtain ⟨-, hf, -⟩ := lit_small (L := L)
    exact zero_add_finite t hf

/-- **C94**, a run.  A drive whose frequency is zero, NaN or infinite never gives results. -/
theorem C94_run (outs : ℕ) (env : Env (F64 L)) (ho : env.ode = dopri5.solve outs)
    (U : MatrixDecomposition (F64 L)) (c : Components (F64 L)) (fluid : Fluid (F64 L)) (inputs : RunInputs (F64 L))
    (settings : RunSettings (F64 L))
    (hc : ∀ q, ¬(c.ws.frequency q).raw.Finite ∨ ∃ t, c.ws.frequency q = (zero t : Raw)) (e : Engine (F64 L)) :
    Engine.run env U c fluid inputs settings ≠ .ok e := by
  intro h
  obtain ⟨n, vs, s', -, h2, h3, h4, -⟩ := (C36_ok_iff env U c fluid inputs settings e).1 h
  obtain ⟨m, ic, -, -, ⟨_, _, ⟨pts, g3, -⟩, -⟩, -⟩ := (C33_ok_iff _ _ _ _).1 h3
  refine C94_integration outs env ho _ ?_ _ _ pts g3
  show ¬Raw.Finite (1.0 / c.ws.frequency ⟨e.state.pres⟩ : F64 L) ∨
    ∃ t, (1.0 / c.ws.frequency ⟨e.state.pres⟩ : F64 L) = (zero t : Raw)
  have hc := hc ⟨e.state.pres⟩
  generalize c.ws.frequency ⟨e.state.pres⟩ = f at hc
  rw [ieee_one]
  cases f with
  | nan => exact .inl id
  | inf t => exact .inr ⟨_, rfl⟩
  | zero t => exact .inl id
  | fin x h =>
    rcases hc with hc | ⟨t, hc⟩
    · exact absurd trivial hc
    · cases hc

/-- C94: an engine with a sinusoidal drive, 90 degrees between the pistons and one litre each, at rest or
turning infinitely fast. -/
example (outs : ℕ) (U : MatrixDecomposition (F64 L)) (k : chx.FixedApproach (F64 L))
    (r : regen.FixedApproach (F64 L)) (l : hhx.FixedApproach (F64 L)) (inputs : RunInputs (F64 L))
    (settings : RunSettings (F64 L)) (f : F64 L) (hf : f = 0.0 ∨ f = (inf false : Raw)) (e : Engine (F64 L)) :
    Engine.run ⟨dopri5.solve outs, .wrapping⟩ U
      (fixedApproachEngine ({ frequency := f, phase_angle := 90.0, comp_geometry := ⟨1e-3, 1e-3⟩
                              exp_geometry := ⟨1e-3, 1e-3⟩, thermal_resistance := ⟨10.0, 10.0⟩
                              parasitics := { comp := ⟨0.0, 0.0, 0.0⟩, exp := ⟨0.0, 0.0, 0.0⟩ } } :
          ws.SinusoidalDrive (F64 L)).toWorkingSpaces k r l)
      IdealGas.helium.toFluid inputs settings ≠ .ok e := by
  refine C94_run outs _ rfl U _ _ inputs settings (fun q => ?_) e
  show ¬Raw.Finite f ∨ ∃ t, f = (zero t : Raw)
  rcases hf with rfl | rfl
  · exact .inr ⟨false, ieee_zero⟩
  · exact .inl id

end Sett
