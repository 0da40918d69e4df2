import Verif.Spec.Finite
import Verif.Proofs.LuNan
import Verif.Props.Ieee
import Verif.Props.Config
import Verif.Props.Standing
import Verif.Props.GridIeeeExample

/-! # NaN and infinities do not get past the integrator (C102) -/

namespace Sett

open Float64 Raw Spec state_equations dopri5 api

variable {L : Libm}

/-! ## The linear system -/

/-- **C102**, elimination.  With NaN among the coefficients or on the right side, `LU` fails or returns nothing but
NaN; with an infinity on the right side it fails or returns no finite number. -/
theorem C102_lu (a : Mat10 (F64 L)) (b x : Vec10 (F64 L)) (h : lu.LU a b = some x) :
    ((∃ r c, (a r c).raw = nan) ∨ (∃ r, (b r).raw = nan) → ∀ r, (x r).raw = nan) ∧
    ((∃ r, ¬(b r).raw.Finite) → ∀ r, ¬(x r).raw.Finite) :=
  ⟨lu.solve_nan h, lu.solve_infinite h⟩

theorem neN_mul {a b : F64 L} (h : (a * b).raw ≠ nan) : a.raw ≠ nan ∧ b.raw ≠ nan := mul_ne h
theorem neN_add {a b : F64 L} (h : (a + b).raw ≠ nan) : a.raw ≠ nan ∧ b.raw ≠ nan := add_ne h
theorem neN_div {a b : F64 L} (h : (a / b).raw ≠ nan) : a.raw ≠ nan ∧ b.raw ≠ nan := div_ne h

/-- The entries the claims look at. -/
theorem entries (i : Inputs (F64 L)) (d : FlowDirection) :
    let a := (System.new i).stencil.create_matrix d
    a 0 9 = i.comp.vol * i.comp.dd_dP_T ∧
    a 2 9 = i.chx.vol * i.chx.dd_dP_T ∧
    a 3 9 = i.chx.vol * (i.chx.dens * i.chx.du_dP_T + i.chx.inte * i.chx.dd_dP_T) / i.enth_norm ∧
    a 4 9 = i.regen.vol * i.regen.dd_dP_T ∧
    a 5 9 = i.regen.vol * (i.regen.dens * i.regen.du_dP_T + i.regen.inte * i.regen.dd_dP_T) / i.enth_norm ∧
    a 6 9 = i.hhx.vol * i.hhx.dd_dP_T ∧
    a 7 9 = i.hhx.vol * (i.hhx.dens * i.hhx.du_dP_T + i.hhx.inte * i.hhx.dd_dP_T) / i.enth_norm ∧
    a 8 9 = i.exp.vol * i.exp.dd_dP_T := by
  refine ⟨?_, ?_, ?_, ?_, ?_, ?_, ?_, ?_⟩ <;>
    simp [System.new, MatrixStencil.create_matrix, System.matrix, Mat10.set]

theorem rhs_entries (i : Inputs (F64 L)) :
    (System.new i).b 1 = (-(i.pres + i.comp.dens * i.comp.inte) * i.comp.dV_dt - i.comp.Q_dot) / i.enth_norm ∧
    (System.new i).b 9 = (-(i.pres + i.exp.dens * i.exp.inte) * i.exp.dV_dt - i.exp.Q_dot) / i.enth_norm := by
  constructor <;> simp [System.new, System.rhs, Vec10.set]

/-- **C102**, the state equations.  If as much as one of the ten unknowns `solve` returns (with `LU`) is finite, then
nothing that entered the equations was NaN, and what entered the right side was finite. -/
theorem C102_equations (i : Inputs (F64 L)) (s : Solution (F64 L)) (h : SelfConsistent lu.LU i s)
    (hs : ∃ v ∈ unknowns s, v.raw.Finite) : Numbers i := by
  obtain ⟨x, hx, rfl⟩ := h
  set a := (System.new i).stencil.create_matrix (FlowDirection.from_solution (Solution.ofVec x)) with ha
  obtain ⟨g1, g2⟩ := C102_lu _ _ _ hx
  have hf : ∃ r, (x r).raw.Finite := by
    obtain ⟨v, hv, hfin⟩ := hs
    simp only [unknowns, Solution.ofVec, List.mem_cons, List.not_mem_nil, or_false] at hv
    rcases hv with rfl | rfl | rfl | rfl | rfl | rfl | rfl | rfl | rfl | rfl <;> exact ⟨_, hfin⟩
  obtain ⟨r0, hr0⟩ := hf
  have ga : ∀ r c, (a r c).raw ≠ nan := fun r c hn =>
    finite_ne_nan hr0 (g1 (.inl ⟨r, c, hn⟩) r0)
  have gb : ∀ r, ok ((System.new i).b r) := fun r => by
    by_contra hn
    exact g2 ⟨r, hn⟩ r0 hr0
  obtain ⟨e1, e2, e3, e4, e5, e6, e7, e8⟩ := entries i (FlowDirection.from_solution (Solution.ofVec x))
  obtain ⟨b1, b9⟩ := rhs_entries i
  have q1 := gb 1
  have q9 := gb 9
  have hsc : i.enth_norm.raw ≠ nan := by
    rw [b1] at q1
    exact (Raw.div_inv q1).2
  rw [b1] at q1
  rw [b9] at q9
  obtain ⟨c1, c2, -⟩ := Float64.sub_inv (Float64.div_inv q1)
  obtain ⟨c3, c4, -⟩ := Float64.mul_inv c1
  obtain ⟨c5, c6, -⟩ := Float64.add_inv (ok_neg.1 c3)
  obtain ⟨c7, c8, -⟩ := Float64.mul_inv c6
  obtain ⟨d1, d2, -⟩ := Float64.sub_inv (Float64.div_inv q9)
  obtain ⟨d3, d4, -⟩ := Float64.mul_inv d1
  obtain ⟨d5, d6, -⟩ := Float64.add_inv (ok_neg.1 d3)
  obtain ⟨d7, d8, -⟩ := Float64.mul_inv d6
  have f1 := ga 0 9
  have f2 := ga 2 9
  have f3 := ga 3 9
  have f4 := ga 4 9
  have f5 := ga 5 9
  have f6 := ga 6 9
  have f7 := ga 7 9
  have f8 := ga 8 9
  rw [ha, e1] at f1
  rw [ha, e2] at f2
  rw [ha, e3] at f3
  rw [ha, e4] at f4
  rw [ha, e5] at f5
  rw [ha, e6] at f6
  rw [ha, e7] at f7
  rw [ha, e8] at f8
  have side : ∀ {v d u q p : F64 L}, (v * (d * u + q * p) / i.enth_norm).raw ≠ nan → d.raw ≠ nan ∧ q.raw ≠ nan := by
    intro v d u q p h
    obtain ⟨h1, h2⟩ := neN_add (neN_mul (neN_div h).1).2
    exact ⟨(neN_mul h1).1, (neN_mul h2).1⟩
  exact
    { pres := c5, dens_c := c7, dens_e := d7, inte_c := c8, inte_e := d8, rate_c := c4, rate_e := d4
      heat_c := c2, heat_e := d2, scale := hsc
      vols := by
        intro v hv
        simp only [List.mem_cons, List.not_mem_nil, or_false] at hv
        rcases hv with rfl | rfl | rfl | rfl | rfl
        · exact (neN_mul f1).1
        · exact (neN_mul f2).1
        · exact (neN_mul f4).1
        · exact (neN_mul f6).1
        · exact (neN_mul f8).1
      chx := ⟨(side f3).1, (side f3).2, (neN_mul f2).2⟩
      regen := ⟨(side f5).1, (side f5).2, (neN_mul f4).2⟩
      hhx := ⟨(side f7).1, (side f7).2, (neN_mul f6).2⟩ }

/-! ## Steps -/

theorem ok_sqrt {a : F64 L} (h : ok (Scalar.sqrt a)) : ok a := by
  cases a with
  | nan => exact h
  | inf s => cases s <;> exact h
  | zero s => trivial
  | fin x hx => trivial

theorem ok_powi2 {a : F64 L} (h : ok (Scalar.powi2 a)) : ok a := (Float64.mul_inv h).1

theorem ok_scaled {p : Problem (F64 L)} {a b v : F64 L} (h : ok (scaled p a b v)) :
    ok v ∧ p.atol.raw ≠ nan ∧ p.rtol.raw ≠ nan := by
  have h := ok_powi2 h
  obtain ⟨h1, h2⟩ := Raw.div_inv h
  obtain ⟨h3, h4⟩ := neN_add h2
  exact ⟨h1, h3, (neN_mul h4).2⟩

theorem ok_errorNorm {p : Problem (F64 L)} {y yNext err : V3 (F64 L)} (h : ok (errorNorm p y yNext err)) :
    FiniteVec err ∧ p.atol.raw ≠ nan ∧ p.rtol.raw ≠ nan := by
  have h := Float64.div_inv (ok_sqrt h)
  obtain ⟨h, h2, -⟩ := Float64.add_inv h
  obtain ⟨h, h1, -⟩ := Float64.add_inv h
  obtain ⟨-, h0, -⟩ := Float64.add_inv h
  exact ⟨⟨(ok_scaled h0).1, (ok_scaled h1).1, (ok_scaled h2).1⟩, (ok_scaled h0).2⟩

theorem fin_add3 {a b : V3 (F64 L)} (h : FiniteVec (add3 a b)) : FiniteVec a ∧ FiniteVec b :=
  ⟨⟨(Float64.add_inv h.1).1, (Float64.add_inv h.2.1).1, (Float64.add_inv h.2.2).1⟩,
    (Float64.add_inv h.1).2.1, (Float64.add_inv h.2.1).2.1, (Float64.add_inv h.2.2).2.1⟩

theorem fin_scale3 {a : V3 (F64 L)} {c : F64 L} (h : FiniteVec (scale3 a c)) : FiniteVec a ∧ ok c :=
  ⟨⟨(Float64.mul_inv h.1).1, (Float64.mul_inv h.2.1).1, (Float64.mul_inv h.2.2).1⟩, (Float64.mul_inv h.1).2.1⟩

variable [HasPowf (F64 L)]

/-- An error estimate that passes the test is finite. -/
theorem accept_ok {p : Problem (F64 L)} {facOld err h hNew : F64 L} {reject : Bool}
    (ha : accept p facOld reject err h = (true, hNew)) (hu : Up err) : ok err := by
  unfold accept at ha
  simp only at ha
  split at ha
  · rename_i hle
    have hle : Raw.le err.raw (1.0 : F64 L).raw = true := hle
    unfold ok
    cases hr : err.raw with
    | nan => rw [hr, Raw.nan_le] at hle; cases hle
    | inf s =>
      have hs : s = false := by
        have : err.raw.sign = false := hu
        rw [hr] at this
        exact this
      subst hs
      rw [hr, ieee_one] at hle
      have hle := (le_V (by rintro ⟨⟩) (by rintro ⟨⟩)).1 hle
      rw [V_inf_pos, top_le_iff] at hle
      exact absurd hle (by rw [show (F64.raw (one : Raw) : Raw) = fin 1 rep_one from rfl, V_fin]; exact EReal.coe_ne_top 1)
    | zero s => trivial
    | fin x hx => trivial
  · cases ha

/-- **C102**, the integrator.  A step that passes the error test has a finite size, six finite slopes (all that enter
the estimate), and tolerances that are numbers, whatever slopes it was answered. -/
theorem C102_accepted (p : Problem (F64 L)) (k : Ks (F64 L)) (y : V3 (F64 L)) (facOld h hNew : F64 L) (reject : Bool)
    (ha : accept p facOld reject (k.err p y h) h = (true, hNew)) :
    h.raw.Finite ∧ FiniteVec k.k0 ∧ FiniteVec k.k2 ∧ FiniteVec k.k3 ∧ FiniteVec k.k4 ∧ FiniteVec k.k5 ∧
      FiniteVec k.k6 ∧ p.atol.raw ≠ nan ∧ p.rtol.raw ≠ nan := by
  have h0 : ok (k.err p y h) := accept_ok ha (up_errorNorm _ _ _ _)
  obtain ⟨h1, h2, h3⟩ := ok_errorNorm h0
  obtain ⟨h4, h5⟩ := fin_scale3 h1
  simp only [weighted, e, List.zip_cons_cons, List.zip_nil_left, List.foldl_cons, List.foldl_nil] at h4
  obtain ⟨h4, g6⟩ := fin_add3 h4
  obtain ⟨h4, g5⟩ := fin_add3 h4
  obtain ⟨h4, g4⟩ := fin_add3 h4
  obtain ⟨h4, g3⟩ := fin_add3 h4
  obtain ⟨g0, g2⟩ := fin_add3 h4
  exact ⟨h5, (fin_scale3 g0).1, (fin_scale3 g2).1, (fin_scale3 g3).1, (fin_scale3 g4).1, (fin_scale3 g5).1,
    (fin_scale3 g6).1, h2, h3⟩

/-- C102: a step of one second, with one Pascal in 2¹⁶ seconds as every slope, passes the test. -/
example [HasPowf (F64 IeeeExample.Lib)] : ∃ hNew, accept (⟨1.0, 1.0, 0.0, 1.0, 1.0, 1.0⟩ : Problem (F64 IeeeExample.Lib)) 1.0e-4 false
    (GridIeeeExample.ks.err ⟨1.0, 1.0, 0.0, 1.0, 1.0, 1.0⟩ ⟨1.0, 1.0, 1.0⟩ 1.0) 1.0 = (true, hNew) := by
  open GridIeeeExample in
  have one : Is (1.0 : F64 IeeeExample.Lib) 1 := is_one
  have b : Bd (1.0 : F64 IeeeExample.Lib) (2 ^ (10 : ℤ)) := is_bd one (by norm_num)
  have hy : Start (⟨1.0, 1.0, 1.0⟩ : V3 (F64 IeeeExample.Lib)) := ⟨b, b, b, one.2.ge⟩
  have hp : Posed (⟨1.0, 1.0, 0.0, 1.0, 1.0, 1.0⟩ : Problem (F64 IeeeExample.Lib)) 1 :=
    ⟨by norm_num, by norm_num, one, one, ieee_one, is_zero, one⟩
  have h := small_error hp hy one (next_bd hy (is_bd one (by norm_num))).1
  unfold accept
  simp only
  rw [if_pos ((le_fin h.1 one.1).2 (by rw [one.2]; exact (abs_le.1 h.2).2))]
  exact ⟨_, rfl⟩

/-! ## Integrations -/

omit [HasPowf (F64 L)] in
theorem times_one (a : F64 L) : a * c7 = a := by
  show Raw.mul a (c7 : F64 L) = a
  rw [show (c7 : F64 L) = (1.0 : F64 L) from rfl, ieee_one]
  have hs : Raw.sign one = false := decide_eq_false (by norm_num)
  cases a with
  | nan => rfl
  | inf s => show Raw.inf (s ^^ Raw.sign one) = _; rw [hs, Bool.xor_false]
  | zero s =>
    show pack (s ^^ Raw.sign one) (0 * 1) = _
    rw [hs, zero_mul, pack_zero, Bool.xor_false]
  | fin x h =>
    show pack _ (x * 1) = _
    rw [mul_one, pack_fin _ h]

theorem joined_snoc {α : Type} [Scalar α] (s : MachineStep α) (l : List (MachineStep α)) :
    ∀ t y t' y', Joined t y l t' y' → s.t = t' → s.y = y' →
      Joined t y (l ++ [s]) (t' + s.h) (s.k.next y' s.h) := by
  induction l with
  | nil =>
    rintro t y t' y' ⟨rfl, rfl⟩ h1 h2
    exact ⟨h1, h2, rfl, rfl⟩
  | cons a l ih =>
    rintro t y t' y' ⟨h1, h2, h3⟩ h4 h5
    exact ⟨h1, h2, ih _ _ _ _ h3 h4 h5⟩

omit [HasPowf (F64 L)] in
theorem fin_stage {y : V3 (F64 L)} {h : F64 L} {k0 k1 k2 : V3 (F64 L)}
    (hf : FiniteVec (dopri5.stage y h [k0, k1, k2] a4)) : FiniteVec k1 := by
  simp only [dopri5.stage, a4, List.zip_cons_cons, List.zip_nil_left, List.foldl_cons, List.foldl_nil] at hf
  exact (fin_scale3 (fin_scale3 (fin_add3 (fin_add3 hf).1).2).1).1

/-- The integrator, asked of a system whose slopes are finite only where the state is. -/
theorem finite_steps (p : Problem (F64 L)) (outs passes : ℕ) (A : F64 L → V3 (F64 L) → V3 (F64 L) → Prop)
    (hA : ∀ t y dy, A t y dy → FiniteVec dy → FiniteVec y) (t0 : F64 L) (y0 : V3 (F64 L))
    (s : dopri5.State (F64 L)) (k0 : V3 (F64 L)) (hs : s.x = t0) (hy : s.y = y0) (hk : A t0 y0 k0)
    (qs : List (F64 L × V3 (F64 L) × V3 (F64 L))) (hq : Answered A qs) (xs : List (F64 L)) (ys : List (V3 (F64 L)))
    (h : Reaches (loop p outs passes s k0) qs (.done (some (xs, ys)))) :
    (∃ (l : List (MachineStep (F64 L))) (t' : F64 L) (y' : V3 (F64 L)), l ≠ [] ∧ Joined t0 y0 l t' y' ∧
      ∀ s ∈ l, FiniteStep s ∧ A s.t s.y s.k.k0 ∧ s.k.Answer A s.t s.y s.h) ∧
      p.atol.raw ≠ nan ∧ p.rtol.raw ≠ nan := by
  obtain ⟨_, hf, -⟩ := reaches_loop p outs A
    (fun s k0 => A s.x s.y k0 ∧ ∃ l, Joined t0 y0 l s.x s.y ∧
      ∀ s ∈ l, FiniteStep s ∧ A s.t s.y s.k.k0 ∧ s.k.Answer A s.t s.y s.h)
    (fun _ => (∃ (l : List (MachineStep (F64 L))) (t' : F64 L) (y' : V3 (F64 L)), l ≠ [] ∧ Joined t0 y0 l t' y' ∧
      ∀ s ∈ l, FiniteStep s ∧ A s.t s.y s.k.k0 ∧ s.k.Answer A s.t s.y s.h) ∧
      p.atol.raw ≠ nan ∧ p.rtol.raw ≠ nan)
    (by
      rintro s k st s' hNew ⟨h0, l, h1, h2⟩ _ hk hacc hout
      obtain ⟨g1, g2, g3, g4, g5, g6, g7, g8, g9⟩ := C102_accepted p k s.y s.facOld (tried p s) hNew s.reject hacc
      obtain ⟨⟨e1, e2⟩, -⟩ := output_invariant p (fun u => u.x = s.x + tried p s ∧ u.y = k.next s.y (tried p s))
        (fun _ h _ _ => h) outs _ _ ⟨rfl, rfl⟩ hout
      have hstep : FiniteStep (⟨s.x, tried p s, s.y, k⟩ : MachineStep (F64 L)) :=
        { size := g1, start := hA _ _ _ h0 g2, finish := hA _ _ _ hk.s6 g7
          k0 := g2, k1 := fin_stage (hA _ _ _ hk.s3 g4), k2 := g3, k3 := g4, k4 := g5, k5 := g6, k6 := g7 }
      have hj := joined_snoc (⟨s.x, tried p s, s.y, k⟩ : MachineStep (F64 L)) l _ _ _ _ h1 rfl rfl
      have hall : ∀ u ∈ l ++ [(⟨s.x, tried p s, s.y, k⟩ : MachineStep (F64 L))],
          FiniteStep u ∧ A u.t u.y u.k.k0 ∧ u.k.Answer A u.t u.y u.h := by
        intro u hu
        rcases List.mem_append.1 hu with hu | hu
        · exact h2 u hu
        · rw [List.mem_singleton] at hu
          subst hu
          exact ⟨hstep, h0, hk⟩
      split
      · exact ⟨⟨_, _, _, by simp, hj, hall⟩, g8, g9⟩
      · refine ⟨?_, _, ?_, hall⟩
        · have := hk.s6
          rw [times_one] at this
          show A s'.x s'.y k.k6
          rw [e1, e2]
          exact this
        · show Joined t0 y0 _ s'.x s'.y
          rw [e1, e2]
          exact hj)
    (fun _ _ _ hI _ _ _ => hI) passes s k0 qs xs ys
    ⟨by rw [hs, hy]; exact hk, [], ⟨hs, hy⟩, by simp⟩ hq h
  exact hf

omit [HasPowf (F64 L)] in
/-- An ideal gas has a finite internal energy only at a finite temperature. -/
theorem inte_finite {g : IdealGas (F64 L)} {T P : F64 L} (h : ok (g.inte T P)) : ok T :=
  (Float64.sub_inv (Float64.mul_inv (Float64.sub_inv h).2.1).2.1).1

omit [HasPowf (F64 L)] in
theorem inte_ne {g : IdealGas (F64 L)} {T P : F64 L} (h : (g.inte T P).raw ≠ nan) : T.raw ≠ nan :=
  (sub_ne (neN_mul (sub_ne h).2).2).1

omit [HasPowf (F64 L)] in
theorem enth_ne {g : IdealGas (F64 L)} {T P : F64 L} (h : (g.enth T P).raw ≠ nan) : T.raw ≠ nan :=
  (neN_mul (neN_add h).1).2

omit [HasPowf (F64 L)] in
/-- Where a finite pressure rate is answered, the equations had numbers in them. -/
theorem derivative_numbers {r : Run (F64 L)} (hU : r.solver = lu.LU) {t : F64 L} {y dy : V3 (F64 L)}
    (h : Derivative r.toCycle t y dy) (hf : dy.y0.raw.Finite) :
    Numbers (r.calculate_inputs t ⟨y.y0, y.y1, y.y2⟩) := by
  obtain ⟨s, h1, rfl⟩ := h
  have h1 : SelfConsistent r.solver _ s := h1
  rw [hU] at h1
  exact C102_equations _ s h1 ⟨s.dP_dt, by simp [unknowns], hf⟩

omit [HasPowf (F64 L)] in
theorem derivative_finite {r : Run (F64 L)} (hU : r.solver = lu.LU) {g : IdealGas (F64 L)} (hg : r.fluid = g.toFluid)
    {t : F64 L} {y dy : V3 (F64 L)} (h : Derivative r.toCycle t y dy) (hf : FiniteVec dy) : FiniteVec y := by
  have hn := derivative_numbers hU h hf.1
  have hc : ok (r.fluid.inte y.y1 y.y0) := hn.inte_c
  have he : ok (r.fluid.inte y.y2 y.y0) := hn.inte_e
  rw [hg] at hc he
  exact ⟨hn.pres, inte_finite (g := g) hc, inte_finite (g := g) he⟩

/-- **C102**, integrations.  An integration with `LU` and `dopri5` of an engine filled with an ideal gas succeeds only
over steps, joined from the initial condition on, in which nothing is NaN or infinite: not the sizes, not the
pressures and temperatures they lead through, not one of the seven slopes each is made of; and the tolerances are
numbers. -/
theorem C102_integration (outs : ℕ) (env : Env (F64 L)) (ho : env.ode = dopri5.solve outs) (r : Run (F64 L))
    (hU : r.solver = lu.LU) (g : IdealGas (F64 L)) (hg : r.fluid = g.toFluid) (ic : Conditions (F64 L)) (n : UInt32)
    (tol : OdeTolerance (F64 L)) (pts : List (Point (F64 L)))
    (h : integrationTryFrom env r.toCycle ic n tol = .ok pts) :
    FiniteSteps r.toCycle ic ∧ tol.abs.raw ≠ nan ∧ tol.rel.raw ≠ nan := by
  obtain ⟨dx, log, xs, ys, -, h2, h3, -⟩ := (C32_integration_ok_iff _ _ _ _ _ _).1 h
  rw [ho] at h2
  have hq : Answered (Derivative r.toCycle) (log.map question) := by
    intro q hq
    obtain ⟨e, he, rfl⟩ := List.mem_map.1 hq
    obtain ⟨m, hm⟩ := List.getElem?_of_mem he
    obtain ⟨g1, -⟩ := h3 m e hm
    exact ⟨e.solution, g1.consistent, g1.deriv⟩
  unfold dopri5.solve at h2
  obtain ⟨_, _, h2, hq, -⟩ := reaches_eval h2 hq
  obtain ⟨_, _, h2, hq, -⟩ := reaches_eval h2 hq
  obtain ⟨k0, _, h2, hq, q0⟩ := reaches_eval h2 hq
  exact finite_steps _ outs _ (Derivative r.toCycle) (fun t y dy => derivative_finite hU hg) 0.0 (stateVector ic) _ _
    rfl rfl q0 _ hq _ _ h2

omit [HasPowf (F64 L)] in
/-- The steps start where the equations have numbers. -/
theorem steps_start {r : Run (F64 L)} (hU : r.solver = lu.LU) {ic : Conditions (F64 L)}
    (h : FiniteSteps r.toCycle ic) :
    FiniteVec (⟨ic.P, ic.T_c, ic.T_e⟩ : V3 (F64 L)) ∧ Numbers (r.calculate_inputs 0.0 ic) := by
  obtain ⟨l, t', y', h1, h2, h3⟩ := h
  cases l with
  | nil => exact absurd rfl h1
  | cons s l =>
    obtain ⟨e1, e2, -⟩ := h2
    obtain ⟨g1, g2, -⟩ := h3 s List.mem_cons_self
    have hs := g1.start
    rw [e2] at hs
    rw [e1, e2] at g2
    exact ⟨hs, derivative_numbers hU g2 g1.k0.1⟩

/-! ## Runs -/

/-- The first cycle of a search that succeeds is integrated. -/
theorem substituted_first {α : Type} [Scalar α] {env : Env α} {cycle : Cycle α} {i : SteadyStateInputs α} {n : Nat}
    {ic : Conditions α} (h : Substituted env cycle i n ic) (h1 : ∃ first last, OneCycle env cycle i ic first last) :
    ∃ pts, integrationTryFrom env cycle ⟨i.pres_zero, i.temp_comp_hint, i.temp_exp_hint⟩ 2 i.ode_tol = .ok pts := by
  induction h with
  | hints =>
    obtain ⟨_, _, pts, h1, -⟩ := h1
    exact ⟨pts, h1⟩
  | next _ h2 _ ih => exact ih ⟨_, _, h2⟩

/-- The first state of a run that succeeds has a steady cycle. -/
theorem visited_first {α : Type} [Scalar α] {env : Env α} {U : MatrixDecomposition α} {c : Components α}
    {settings : RunSettings α} {start s : State α} {n : Nat} (h : Visited env U c settings start n s)
    (h1 : ∃ vs, Engine.inner env U c settings s = .ok vs) : ∃ vs, Engine.inner env U c settings start = .ok vs := by
  induction h with
  | start => exact h1
  | next _ h2 _ _ ih => exact ih ⟨_, h2⟩

/-- **C102**, searches.  The search for the steady cycle of an engine filled with an ideal gas (with `LU` and
`dopri5`) succeeds only when it was given numbers. -/
theorem C102_inner (outs : ℕ) (env : Env (F64 L)) (ho : env.ode = dopri5.solve outs) (c : Components (F64 L))
    (settings : RunSettings (F64 L)) (s : State (F64 L)) (g : IdealGas (F64 L)) (hg : s.fluid = g.toFluid)
    (vs : List (state_equations.Values (F64 L))) (h : Engine.inner env lu.LU c settings s = .ok vs) :
    GivenNumbers c s settings.ode_tol := by
  obtain ⟨n, ic, -, h1, ⟨a, b, h2, -⟩, -⟩ := (C33_ok_iff _ _ _ _).1 h
  obtain ⟨pts, h3⟩ := substituted_first h1 ⟨a, b, h2⟩
  obtain ⟨h4, h5, h6⟩ := C102_integration outs env ho (Run.new lu.LU c s) rfl g hg _ _ _ _ h3
  obtain ⟨h7, h8⟩ := steps_start rfl h4
  have hn : (g.inte s.temp.regen.avg s.pres.t_zero).raw ≠ nan := by
    have := h8.regen.2.1
    change (s.fluid.inte _ _).raw ≠ nan at this
    rw [hg] at this
    exact this
  have he : ((0.5 : F64 L) * (g.enth s.temp.sink s.pres.avg + g.enth s.temp.source s.pres.avg)).raw ≠ nan := by
    have := h8.scale
    change ((0.5 : F64 L) * (s.fluid.enth _ _ + s.fluid.enth _ _)).raw ≠ nan at this
    rw [hg] at this
    exact this
  have he := neN_add (neN_mul he).2
  exact
    { tol := ⟨h5, h6⟩, pres := h7.1, chx := h7.2.1, hhx := h7.2.2, regen := inte_ne hn
      sink := enth_ne he.1, source := enth_ne he.2
      volumes := ⟨h8.vols c.chx.volume (by simp [Run.calculate_inputs, Run.chx_inputs, Run.new]),
        h8.vols c.regen.volume (by simp [Run.calculate_inputs, Run.regen_inputs, Run.new]),
        h8.vols c.hhx.volume (by simp [Run.calculate_inputs, Run.hhx_inputs, Run.new])⟩
      spaces := ⟨h8.vols (c.ws.volumes ⟨s.pres⟩ 0.0).1.value (List.mem_cons_self),
        h8.vols (c.ws.volumes ⟨s.pres⟩ 0.0).2.value
          (List.mem_cons_of_mem _ (List.mem_cons_of_mem _ (List.mem_cons_of_mem _ (List.mem_cons_of_mem _
            List.mem_cons_self))))⟩
      rates := ⟨h8.rate_c, h8.rate_e⟩
      heats := ⟨h8.heat_c, h8.heat_e⟩ }

/-- **C102**, runs.  `Engine::run` succeeds only when the engine and its inputs are numbers, in the state it starts
from and in the state it returns. -/
theorem C102_run (outs : ℕ) (env : Env (F64 L)) (ho : env.ode = dopri5.solve outs) (c : Components (F64 L))
    (g : IdealGas (F64 L)) (inputs : RunInputs (F64 L)) (settings : RunSettings (F64 L)) (e : Engine (F64 L))
    (h : Engine.run env lu.LU c g.toFluid inputs settings = .ok e) :
    GivenNumbers c (State.new_hint c g.toFluid inputs) settings.ode_tol ∧ GivenNumbers c e.state settings.ode_tol := by
  obtain ⟨n, vs, s', -, h2, h3, -⟩ := (C36_ok_iff _ _ _ _ _ _ e).1 h
  obtain ⟨vs', h4⟩ := visited_first h2 ⟨vs, h3⟩
  obtain ⟨hf, -⟩ := visited_invariant _ _ _ _ _ _ h2
  exact ⟨C102_inner outs env ho c settings _ g rfl _ h4, C102_inner outs env ho c settings _ g hf _ h3⟩

omit [HasPowf (F64 L)] in
theorem sin_arg {x : F64 L} (h : (Scalar.sin x).raw ≠ nan) : ok x := by
  cases x with
  | nan => exact absurd L.sin_nan h
  | inf s => exact absurd (L.sin_inf s) h
  | zero s => trivial
  | fin x hx => trivial

omit [HasPowf (F64 L)] in
theorem ne_of_ok {x : F64 L} (h : ok x) : x.raw ≠ nan := finite_ne_nan h

omit [HasPowf (F64 L)] in
theorem sinusoidal_numbers {d : ws.SinusoidalDrive (F64 L)} {t : F64 L}
    (h1 : (d.volumes t).1.value.raw ≠ nan) (h2 : (d.volumes t).2.value.raw ≠ nan)
    (h3 : (d.volumes t).1.deriv.raw.Finite) (h4 : (d.volumes t).2.deriv.raw.Finite) :
    ok d.frequency ∧ ok d.phase_angle ∧ ok d.comp_geometry.swept_volume ∧ ok d.exp_geometry.swept_volume ∧
      d.comp_geometry.clearance_volume.raw ≠ nan ∧ d.exp_geometry.clearance_volume.raw ≠ nan := by
  obtain ⟨a1, a2, -⟩ := Float64.mul_inv h3
  obtain ⟨b1, b2, -⟩ := Float64.mul_inv h4
  obtain ⟨c1, c2, -⟩ := Float64.mul_inv a1
  obtain ⟨d1, d2, -⟩ := Float64.mul_inv b1
  refine ⟨(Float64.mul_inv a2).2.1, ?_, (Float64.mul_inv c1).2.1, (Float64.mul_inv d1).2.1, (neN_add h1).1, (neN_add h2).1⟩
  exact (Float64.mul_inv (Float64.div_inv (Float64.add_inv (sin_arg (ne_of_ok d2))).2.1)).1

omit [HasPowf (F64 L)] in
theorem powi2_ne {a : F64 L} (h : (Scalar.powi2 a).raw ≠ nan) : a.raw ≠ nan := (mul_ne h).1

omit [HasPowf (F64 L)] in
theorem sqrt_ne {a : F64 L} (h : (Scalar.sqrt a).raw ≠ nan) : a.raw ≠ nan := by
  intro h'
  have h' : a = (nan : Raw) := h'
  subst h'
  exact h rfl

omit [HasPowf (F64 L)] in
theorem rhombic_numbers {d : ws.RhombicDrive (F64 L)} {t : F64 L}
    (h1 : (d.volumes t).1.value.raw ≠ nan) (h2 : (d.volumes t).2.value.raw ≠ nan)
    (h3 : (d.volumes t).1.deriv.raw.Finite) :
    ok d.frequency ∧ ok d.geometry.eccentricity ∧ ok d.geometry.r_crank ∧ ok d.geometry.D_p ∧
      d.V_clearance_c.raw ≠ nan ∧ d.V_clearance_e.raw ≠ nan ∧ d.geometry.L_conn.raw ≠ nan := by
  obtain ⟨a1, a2, -⟩ := Float64.mul_inv h3
  obtain ⟨b1, b2, -⟩ := Float64.mul_inv (Float64.div_inv a1)
  obtain ⟨c1, c2, -⟩ := Float64.mul_inv b1
  obtain ⟨d1, d2, -⟩ := Float64.mul_inv c1
  refine ⟨(Float64.mul_inv a2).2.1, (Float64.add_inv b2).1, d2, ?_, (neN_add h1).1, (neN_add h2).1, ?_⟩
  · exact ok_powi2 (Float64.mul_inv (Float64.div_inv (Float64.mul_inv d1).2.1)).2.1
  · exact powi2_ne (sub_ne (sqrt_ne (sub_ne (neN_mul (neN_add h1).2).2).1)).1

omit [HasPowf (F64 L)] in
/-- With a conductance that is NaN the approach is NaN. -/
theorem ntu_number {UA : F64 L} {s : HeatExchanger (F64 L)} (h : ok (Spec.ntuApproach UA s)) : UA.raw ≠ nan := by
  intro hn
  have hn : UA = (nan : Raw) := hn
  subst hn
  have e2 := (Float64.mul_inv h).2.1
  have e3 := (Float64.sub_inv e2).1
  have e4 := (Raw.div_inv e3).2
  have e5 := (sub_ne e4).2
  refine e5 ?_
  exact (congrArg (fun r => L.exp (Raw.neg r)) (Raw.nan_div (s.cp * s.m_dot : F64 L).raw)).trans L.exp_nan

omit [HasPowf (F64 L)] in
theorem regenApproach_number {UA dT : F64 L} {s : HeatExchanger (F64 L)} (h : ok (Spec.regenApproach UA dT s)) :
    UA.raw ≠ nan := by
  have e1 := (Float64.sub_inv (Float64.mul_inv h).1).2.1
  exact (neN_div (neN_div (neN_div (ne_of_ok e1)).1).1).1

/-- **C102**, configurations.  `run_engine` succeeds only on configurations made of numbers: with NaN for any
dimension of the drive, volume, approach, conductance, temperature, pressure or tolerance, or an infinity for one that
moves the gas, it does not return results. -/
theorem C102_run_engine (outs : ℕ) (env : Env (F64 L)) (ho : env.ode = dopri5.solve outs) (c : Config (F64 L))
    (res : RunResults (F64 L)) (h : run_engine env lu.LU c = .ok res) : ConfigIsNumbers c := by
  obtain ⟨-, x, g, e, hx, h1, -⟩ := C50_ok_only_if_run_ok env lu.LU c res h
  obtain ⟨g1, g2⟩ := C102_run outs env ho x g _ _ e h1
  obtain ⟨n, vs, s', -, v1, v2, v3, v4, v5, v6⟩ := (C36_ok_iff _ _ _ _ _ _ e).1 h1
  have key : ∀ {tol : ConvergenceTolerance (F64 L)} {a b : F64 L}, Within tol a b →
      ok b ∧ tol.abs.raw ≠ nan ∧ tol.rel.raw ≠ nan := by
    intro tol a b hw
    obtain ⟨-, h2, -, h4, h5⟩ := C02_accepts_only_sane _ _ _ (within_iff.2 hw)
    refine ⟨h2, ?_, ?_⟩
    · intro hn; obtain ⟨_, hx, -⟩ := h4; rw [hn] at hx; cases hx
    · intro hn; obtain ⟨_, hx, -⟩ := h5; rw [hn] at hx; cases hx
  have hinner : (settingsOf c).loop_tol.inner.abs.raw ≠ nan ∧ (settingsOf c).loop_tol.inner.rel.raw ≠ nan := by
    obtain ⟨m, ic, -, -, ⟨a, b, -, h2, -⟩, -⟩ := (C33_ok_iff _ _ _ _).1 v2
    exact (key h2).2
  have hk : ok (e.state.temp.sink + x.chx.approach (coldView e.state.fluid e.state.temp s'.pres s'.mass_flow s'.heat_flow)) := by
    rw [← v5.chx]; exact (key v6.chx).1
  have hl : ok (e.state.temp.source - x.hhx.approach (hotView e.state.fluid e.state.temp s'.pres s'.mass_flow s'.heat_flow)) := by
    rw [← v5.hhx]; exact (key v6.hhx).1
  have hr : ok (x.regen.approach (regenView e.state.fluid e.state.temp s'.pres s'.mass_flow s'.heat_flow)) := by
    by_contra hn
    refine regen_cold_not_finite e.state.regen_imbalance s'.temp.chx s'.temp.hhx _ hn ?_
    rw [← v5.regen]; exact (key v6.cold).1
  obtain ⟨-, k2, -⟩ := Float64.add_inv hk
  obtain ⟨-, l2, -⟩ := Float64.sub_inv hl
  exact
    { pres := g1.pres
      sink := (Float64.add_inv g1.chx).1
      source := (Float64.sub_inv g1.hhx).1
      ode := g1.tol
      inner := hinner
      outer := (key v6.chx).2
      drive := by
        have hw := hx.ws
        have sp := g1.spaces
        have ra := g1.rates
        have qh := g1.heats.2
        generalize x.ws = y at hw sp ra qh
        generalize c.engine.components.ws = d at hw
        cases hw with
        | sinusoidal p y h1 h2 h3 h4 =>
          rw [h2] at sp ra
          obtain ⟨q1, q2, q3, q4, q5, q6⟩ := sinusoidal_numbers sp.1 sp.2 ra.1 ra.2
          rw [h4] at qh
          refine .sinusoidal p ?_ ?_
          · intro v hv
            simp only [List.mem_cons, List.not_mem_nil, or_false] at hv
            rcases hv with rfl | rfl | rfl | rfl | rfl <;> assumption
          · intro v hv
            simp only [List.mem_cons, List.not_mem_nil, or_false] at hv
            rcases hv with rfl | rfl <;> assumption
        | rhombic p y h1 h2 h3 h4 =>
          obtain ⟨D, -, h2⟩ := h2
          rw [h2] at sp ra
          obtain ⟨q1, q2, q3, q4, q5, q6, q7⟩ := rhombic_numbers sp.1 sp.2 ra.1
          rw [h4] at qh
          refine .rhombic p ?_ ?_
          · intro v hv
            simp only [List.mem_cons, List.not_mem_nil, or_false] at hv
            rcases hv with rfl | rfl | rfl | rfl | rfl <;> assumption
          · intro v hv
            simp only [List.mem_cons, List.not_mem_nil, or_false] at hv
            rcases hv with rfl | rfl | rfl <;> assumption
      chx := by
        have hw := hx.chx
        have sp := g1.volumes.1
        generalize x.chx = y at hw sp k2
        generalize c.engine.components.chx = d at hw
        cases hw with
        | fixedApproach p y h1 h2 h3 h4 h5 =>
          rw [h1] at sp; rw [h2] at k2
          exact .approach p sp k2
        | fixedConductance p y h1 h2 h3 h4 h5 =>
          rw [h1] at sp; rw [h2] at k2
          exact .conductance p sp (ntu_number k2)
      regen := by
        have hw := hx.regen
        have sp := g1.volumes.2.1
        generalize x.regen = y at hw sp hr
        generalize c.engine.components.regen = d at hw
        cases hw with
        | fixedApproach p y h1 h2 h3 h4 h5 =>
          rw [h1] at sp; rw [h2] at hr
          exact .approach p sp hr
        | fixedConductance p y h1 h2 h3 h4 h5 =>
          rw [h1] at sp; rw [h2] at hr
          exact .conductance p sp (regenApproach_number hr)
      hhx := by
        have hw := hx.hhx
        have sp := g1.volumes.2.2
        generalize x.hhx = y at hw sp l2
        generalize c.engine.components.hhx = d at hw
        cases hw with
        | fixedApproach p y h1 h2 h3 h4 h5 =>
          rw [h1] at sp; rw [h2] at l2
          exact .approach p sp l2
        | fixedConductance p y h1 h2 h3 h4 h5 =>
          rw [h1] at sp; rw [h2] at l2
          exact .conductance p sp (ntu_number l2) }

/-- C102: with NaN as phase angle, infinite strokes or an infinite pressure, whatever the rest of the configuration,
`run_engine` does not return results. -/
example (outs : ℕ) (c : Config (F64 L)) (p : ws.SinusoidalDrive.Config (F64 L))
    (h : c.engine.components.ws = .Sinusoidal { p with phase_angle := (nan : Raw) } ∨
      c.engine.components.ws = .Sinusoidal { p with V_swept_c := (inf false : Raw) } ∨
      c.conditions.pres_zero = (inf false : Raw)) (res : RunResults (F64 L)) :
    run_engine ⟨dopri5.solve outs, .wrapping⟩ lu.LU c ≠ .ok res := by
  intro hr
  have hn := C102_run_engine outs _ rfl c res hr
  rcases h with h | h | h
  · have hd := hn.drive
    rw [h] at hd
    cases hd with
    | sinusoidal _ h1 _ => exact h1 (nan : Raw) (.tail _ (.head _))
  · have hd := hn.drive
    rw [h] at hd
    cases hd with
    | sinusoidal _ h1 _ => exact h1 (inf false : Raw) (.tail _ (.tail _ (.head _)))
  · have hd := hn.pres
    rw [h] at hd
    exact hd

/-- C102: a clearance that is infinite is not excluded by the statement, one that is NaN is. -/
example (outs : ℕ) (c : Config (F64 L)) (p : ws.RhombicDrive.Config (F64 L))
    (h : c.engine.components.ws = .Rhombic { p with V_clearance_e := (nan : Raw) }) (res : RunResults (F64 L)) :
    run_engine ⟨dopri5.solve outs, .wrapping⟩ lu.LU c ≠ .ok res := by
  intro hr
  have hd := (C102_run_engine outs _ rfl c res hr).drive
  rw [h] at hd
  cases hd with
  | rhombic _ _ h1 => exact h1 (nan : Raw) (.tail _ (.head _)) rfl

end Sett
