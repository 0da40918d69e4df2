import Verif.Props.GridIeee

/-! # A slow engine loses its last sample (C76) -/

namespace Sett

open Float64 Raw Spec state_equations dopri5

/-- The exponent of the last place, from the binade. -/
theorem place_eq {x : ℝ} {e : ℤ} (he : -1074 ≤ e) (h1 : (2 : ℝ) ^ (e + 52) ≤ x) (h2 : x < 2 ^ (e + 53)) :
    place x = e := by
  have hx : 0 < x := (two_pow_pos _).trans_le h1
  have a := lt_place x
  rw [abs_of_pos hx] at a
  have a' := (zpow_lt_zpow_iff_right₀ (by norm_num : (1 : ℝ) < 2)).1 (h1.trans_lt a)
  rcases eq_or_lt_of_le (place_ge x) with hp | hp
  · omega
  · have b := place_le x hx.ne' hp
    rw [abs_of_pos hx] at b
    have b' := (zpow_lt_zpow_iff_right₀ (by norm_num : (1 : ℝ) < 2)).1 (b.trans_lt h2)
    omega

theorem roundInt_eq {y : ℝ} {m : ℤ} (h : |y - m| < 1 / 2 ∨ (|y - m| = 1 / 2 ∧ Even m)) :
    roundInt y = m := by
  rcases h with h | ⟨h, he⟩
  · have h' := abs_lt.1 h
    have r := abs_le.1 (roundInt_near y)
    have a : (roundInt y : ℝ) < m + 1 := by linarith [r.2]
    have b : (m : ℝ) < roundInt y + 1 := by linarith [r.1]
    have a' : roundInt y < m + 1 := by exact_mod_cast a
    have b' : m < roundInt y + 1 := by exact_mod_cast b
    omega
  · rcases (abs_eq (by norm_num)).1 h with h | h
    · have hy : y = m + 1 / 2 := by linarith
      have hf : ⌊y⌋ = m := by rw [Int.floor_eq_iff]; constructor <;> linarith
      unfold roundInt
      rw [hf, hy]
      simp [he]
    · have hy : y = m - 1 / 2 := by linarith
      have hf : ⌊y⌋ = m - 1 := by rw [Int.floor_eq_iff]; push_cast; constructor <;> linarith
      have ho : ¬Even (m - 1) := by rw [Int.even_sub_one, not_not]; exact he
      unfold roundInt
      rw [hf, hy]
      push_cast
      rw [if_neg (by linarith), if_neg (by linarith), if_neg ho]
      ring

/-- Rounding an integer multiple of 2⁻⁵¹ to `j` places fewer. -/
theorem rne_units {S R j : ℕ} (h1 : 2 ^ (52 + j) ≤ S) (h2 : S < 2 ^ (53 + j))
    (h3 : (2 * S < 2 * (R * 2 ^ j) + 2 ^ j ∧ 2 * (R * 2 ^ j) < 2 * S + 2 ^ j) ∨
      ((2 * S = 2 * (R * 2 ^ j) + 2 ^ j ∨ 2 * (R * 2 ^ j) = 2 * S + 2 ^ j) ∧ R % 2 = 0)) :
    rne (S * 2 ^ (-51 : ℤ)) = (R * 2 ^ j : ℕ) * 2 ^ (-51 : ℤ) := by
  have hp : (0 : ℝ) < 2 ^ j := by positivity
  have e1 : ∀ k : ℕ, (2 : ℝ) ^ ((j : ℤ) - 51 + k) = 2 ^ (k + j) * 2 ^ (-51 : ℤ) := by
    intro k
    rw [← zpow_natCast, ← zpow_add₀ (by norm_num)]
    congr 1; push_cast; ring
  have h1' : (2 : ℝ) ^ (52 + j) ≤ S := by exact_mod_cast h1
  have h2' : (S : ℝ) < 2 ^ (53 + j) := by exact_mod_cast h2
  have hpl : place ((S : ℝ) * 2 ^ (-51 : ℤ)) = (j : ℤ) - 51 := by
    apply place_eq (by omega)
    · rw [show ((j : ℤ) - 51 + 52) = (j : ℤ) - 51 + (52 : ℕ) by norm_num, e1]
      exact mul_le_mul_of_nonneg_right h1' (two_pow_pos _).le
    · rw [show ((j : ℤ) - 51 + 53) = (j : ℤ) - 51 + (53 : ℕ) by norm_num, e1]
      exact mul_lt_mul_of_pos_right h2' (two_pow_pos _)
  have e2 : (2 : ℝ) ^ ((j : ℤ) - 51) = 2 ^ j * 2 ^ (-51 : ℤ) := by
    have := e1 0
    simpa using this
  have hq : (S : ℝ) * 2 ^ (-51 : ℤ) / 2 ^ ((j : ℤ) - 51) = S / 2 ^ j := by
    rw [e2, mul_div_mul_right _ _ (two_pow_pos _).ne']
  have hr : roundInt ((S : ℝ) / 2 ^ j) = (R : ℤ) := by
    apply roundInt_eq
    have e3 : (S : ℝ) / 2 ^ j - ((R : ℤ) : ℝ) = (S - R * 2 ^ j) / 2 ^ j := by
      push_cast; field_simp
    rw [e3, abs_div, abs_of_pos hp, div_lt_iff₀ hp, div_eq_iff hp.ne']
    rcases h3 with ⟨a, b⟩ | ⟨a | a, b⟩
    · left
      have a' : (2 : ℝ) * S < 2 * (R * 2 ^ j) + 2 ^ j := by exact_mod_cast a
      have b' : (2 : ℝ) * (R * 2 ^ j) < 2 * S + 2 ^ j := by exact_mod_cast b
      rw [abs_lt]; constructor <;> linarith
    · right
      have a' : (2 : ℝ) * S = 2 * (R * 2 ^ j) + 2 ^ j := by exact_mod_cast a
      refine ⟨?_, by exact_mod_cast Nat.even_iff.2 b⟩
      rw [abs_of_nonneg (by linarith)]; linarith
    · right
      have a' : (2 : ℝ) * (R * 2 ^ j) = 2 * S + 2 ^ j := by exact_mod_cast a
      refine ⟨?_, by exact_mod_cast Nat.even_iff.2 b⟩
      rw [abs_of_nonpos (by linarith)]; linarith
  unfold rne
  rw [hpl, hq, hr, e2]
  push_cast; ring

variable {L : Libm}

/-- The machine number is the `M`-fold of 2⁻⁵¹. -/
def Units (a : F64 L) (M : ℕ) : Prop := a.raw.Finite ∧ a.raw.real = M * 2 ^ (-51 : ℤ)

theorem units_bound {S : ℕ} (hb : S < 2 ^ 60) :
    |rne ((S : ℝ) * 2 ^ (-51 : ℤ))| < 2 ^ 1024 := by
  apply rne_lt_of_le rep_2048
  have : (S : ℝ) ≤ 2 ^ 60 := by exact_mod_cast hb.le
  rw [abs_of_nonneg (by positivity)]
  calc (S : ℝ) * 2 ^ (-51 : ℤ) ≤ 2 ^ 60 * 2 ^ (-51 : ℤ) := mul_le_mul_of_nonneg_right this (two_pow_pos _).le
    _ ≤ 2048 := by norm_num

theorem units_add {a b : F64 L} {A B R j : ℕ} (ha : Units a A) (hb : Units b B)
    (h : A + B < 2 ^ 60 ∧ 2 ^ (52 + j) ≤ A + B ∧ A + B < 2 ^ (53 + j) ∧
      ((2 * (A + B) < 2 * (R * 2 ^ j) + 2 ^ j ∧ 2 * (R * 2 ^ j) < 2 * (A + B) + 2 ^ j) ∨
      ((2 * (A + B) = 2 * (R * 2 ^ j) + 2 ^ j ∨ 2 * (R * 2 ^ j) = 2 * (A + B) + 2 ^ j) ∧ R % 2 = 0))) :
    Units (a + b) (R * 2 ^ j) := by
  obtain ⟨h0, h1, h2, h3⟩ := h
  have e : a.raw.real + b.raw.real = (A + B : ℕ) * 2 ^ (-51 : ℤ) := by
    rw [ha.2, hb.2]; push_cast; ring
  obtain ⟨g1, g2⟩ := Raw.add_finite ha.1 hb.1 (by
    rw [e]; exact units_bound h0)
  refine ⟨g1, ?_⟩
  show (add a.raw b.raw).real = _
  rw [g2, e, rne_units h1 h2 h3]

/-- The 27th and the 28th tick of a sixty second period in 28 intervals. -/
theorem ticks_sixty {dx : F64 L} (hd : Units dx 4825285315039817) :
    Units (Spec.tick dx 27) 130282703506075136 ∧ Units (Spec.tick dx 28) 135107988821114960 := by
  have t0 : Units (Spec.tick dx 0) 0 := by
    refine ⟨?_, ?_⟩
    · show (0.0 : F64 L).raw.Finite
      rw [ieee_zero]; trivial
    · show (0.0 : F64 L).raw.real = _
      rw [ieee_zero, Nat.cast_zero, zero_mul]; rfl
  have t1 : Units (Spec.tick dx 1) 4825285315039817 := by
    exact units_add (R := 4825285315039817) (j := 0) t0 hd (by norm_num)
  have t2 := units_add (R := 4825285315039817) (j := 1) t1 hd (by norm_num)
  have t3 := units_add (R := 7237927972559726) (j := 1) t2 hd (by norm_num)
  have t4 := units_add (R := 4825285315039817) (j := 2) t3 hd (by norm_num)
  have t5 := units_add (R := 6031606643799771) (j := 2) t4 hd (by norm_num)
  have t6 := units_add (R := 7237927972559725) (j := 2) t5 hd (by norm_num)
  have t7 := units_add (R := 8444249301319679) (j := 2) t6 hd (by norm_num)
  have t8 := units_add (R := 4825285315039817) (j := 3) t7 hd (by norm_num)
  have t9 := units_add (R := 5428445979419794) (j := 3) t8 hd (by norm_num)
  have t10 := units_add (R := 6031606643799771) (j := 3) t9 hd (by norm_num)
  have t11 := units_add (R := 6634767308179748) (j := 3) t10 hd (by norm_num)
  have t12 := units_add (R := 7237927972559725) (j := 3) t11 hd (by norm_num)
  have t13 := units_add (R := 7841088636939702) (j := 3) t12 hd (by norm_num)
  have t14 := units_add (R := 8444249301319679) (j := 3) t13 hd (by norm_num)
  have t15 := units_add (R := 4523704982849828) (j := 4) t14 hd (by norm_num)
  have t16 := units_add (R := 4825285315039817) (j := 4) t15 hd (by norm_num)
  have t17 := units_add (R := 5126865647229806) (j := 4) t16 hd (by norm_num)
  have t18 := units_add (R := 5428445979419795) (j := 4) t17 hd (by norm_num)
  have t19 := units_add (R := 5730026311609784) (j := 4) t18 hd (by norm_num)
  have t20 := units_add (R := 6031606643799773) (j := 4) t19 hd (by norm_num)
  have t21 := units_add (R := 6333186975989762) (j := 4) t20 hd (by norm_num)
  have t22 := units_add (R := 6634767308179751) (j := 4) t21 hd (by norm_num)
  have t23 := units_add (R := 6936347640369740) (j := 4) t22 hd (by norm_num)
  have t24 := units_add (R := 7237927972559729) (j := 4) t23 hd (by norm_num)
  have t25 := units_add (R := 7539508304749718) (j := 4) t24 hd (by norm_num)
  have t26 := units_add (R := 7841088636939707) (j := 4) t25 hd (by norm_num)
  have t27 := units_add (R := 8142668969129696) (j := 4) t26 hd (by norm_num)
  have t28 := units_add (R := 8444249301319685) (j := 4) t27 hd (by norm_num)
  exact ⟨t27, t28⟩

theorem rep_60 : Rep 60 ∧ (60 : ℝ) ≠ 0 := ⟨by exact_mod_cast rep_nat (n := 60) (by norm_num), by norm_num⟩

theorem dx_sixty {build : Build} {period dx : F64 L} (hp : period.raw = fin 60 rep_60)
    (h : timeStep build period 29 = .ok dx) : Units dx 4825285315039817 := by
  obtain ⟨hr, e⟩ := timeStep_ieee (by decide) h
  have hn : ((29 : UInt32).toNat : ℝ) - 1 = 28 := by
    rw [show (29 : UInt32).toNat = 29 from rfl]; norm_num
  have hv : rne ((60 : ℝ) / 28) = (4825285315039817 : ℕ) * 2 ^ (-51 : ℤ) := by
    have hpl : place ((60 : ℝ) / 28) = -51 := place_eq (by norm_num) (by norm_num) (by norm_num)
    unfold rne
    rw [hpl, roundInt_eq (m := 4825285315039817)]
    · norm_num
    · left
      rw [abs_lt]; constructor <;> norm_num
  have hfin : |rne ((60 : ℝ) / 28)| < 2 ^ 1024 := rne_lt_of_le rep_60.1 (by
    rw [abs_of_pos (by norm_num)]; norm_num)
  obtain ⟨g1, g2⟩ := Raw.div_finite (a := fin 60 rep_60) (b := fin _ hr) trivial trivial hr.2 (by
    show |rne ((60 : ℝ) / (((29 : UInt32).toNat : ℝ) - 1))| < _
    rw [hn]; exact hfin)
  rw [hp] at e
  rw [← e] at g1 g2
  refine ⟨g1, g2.trans ?_⟩
  show rne ((60 : ℝ) / (((29 : UInt32).toNat : ℝ) - 1)) = _
  rw [hn, hv]

theorem end_sixty {period : F64 L} (hp : period.raw = fin 60 rep_60) :
    Units (period + 1e-14 : F64 L) 135107988821114896 := by
  obtain ⟨t, t1, t2, t3⟩ := lit_small (L := L)
  have t3' := abs_le.1 t3
  have ht : 0.9e-14 ≤ t ∧ t ≤ 1.1e-14 := by
    norm_num at t3' ⊢
    constructor <;> linarith [t3'.1, t3'.2]
  obtain ⟨ht1, ht2⟩ := ht
  norm_num at ht1 ht2
  have hv : rne (60 + t) = (135107988821114896 : ℕ) * 2 ^ (-51 : ℤ) := by
    have hpl : place (60 + t) = -47 := by
      apply place_eq (by norm_num)
      · norm_num; linarith
      · norm_num; linarith
    unfold rne
    rw [hpl, roundInt_eq (m := 8444249301319681)]
    · norm_num
    · left
      rw [abs_lt]
      norm_num
      constructor <;> linarith
  obtain ⟨g1, g2⟩ := Raw.add_finite (a := period.raw) (by rw [hp]; trivial) t1 (by
    rw [hp, t2]
    show |rne (60 + t)| < _
    exact rne_lt_of_le rep_2048 (by rw [abs_of_nonneg (by linarith)]; linarith))
  refine ⟨g1, g2.trans ?_⟩
  rw [hp, t2]
  exact hv

variable [HasPowf (F64 L)]

/-- **C76**, the bound on the period is needed.  An engine that turns once a minute, sampled at 29 points:
every successful integration returns only 28 points, and the last of them is more than two seconds before the
end of the cycle. -/
theorem C76_last_sample_lost (hw : Spec.PowfSign L) (outs : ℕ) (env : Env (F64 L))
    (ho : env.ode = dopri5.solve outs) (cycle : Cycle (F64 L)) (ic : Conditions (F64 L))
    (tol : OdeTolerance (F64 L)) (hp : cycle.period = 60.0) (pts : List (Point (F64 L)))
    (h : integrationTryFrom env cycle ic 29 tol = .ok pts) :
    pts.length = 28 ∧ ∀ p ∈ pts, p.time.raw.Finite ∧ p.time.raw.real < 58 := by
  have hp' : cycle.period.raw = fin 60 rep_60 := by
    rw [hp]
    show pack false (60.0 : ℝ) = _
    rw [show (60.0 : ℝ) = 60 by norm_num, pack_fin _ rep_60]
  obtain ⟨dx, log, xs, ys, h1, h2, -, h4, h5⟩ := (C32_integration_ok_iff _ _ _ _ _ _).1 h
  have hd := dx_sixty hp' h1
  have hX := end_sixty hp'
  obtain ⟨k27, k28⟩ := ticks_sixty hd
  have hup : Up dx := up_of_pos hd.1 (by rw [hd.2]; norm_num)
  rw [ho] at h2
  obtain ⟨g1, g2, r, g3, g4, g5, g6⟩ := C76_dopri5_ticks hw outs _ dx _ _ _ hX.1
    (tiny (by rw [hX.2]; norm_num)) (huge (by rw [hX.2]; norm_num)) hup _ xs ys h2
  rw [hX.2] at g3
  have g3' := abs_le.1 g3
  norm_num at g3'
  have hlen : xs.length = 28 := by
    by_contra hne
    rcases lt_or_gt_of_ne hne with hlt | hgt
    · refine g6 (tick_atMost hup (j := 27) (by omega) ⟨k27.1, ?_⟩)
      rw [k27.2]; norm_num; linarith [g3'.1]
    · have := (tick_atMost hup (i := 28) (j := xs.length - 1) (by omega) g5).2
      rw [k28.2] at this
      norm_num at this
      linarith [g3'.2]
  have hlp : pts.length = 28 := by rw [h4, g1, hlen, min_self]
  refine ⟨hlp, fun p hp => ?_⟩
  obtain ⟨k, hk, rfl⟩ := List.getElem_of_mem hp
  have hkx : k < xs.length := by rw [hlen, ← hlp]; exact hk
  have e1 := (h5 k _ (List.getElem?_eq_getElem hk)).1
  have e2 : xs[k]? = some (Spec.tick dx k) := by
    rw [g2]; simp [hkx]
  rw [e2, Option.some.injEq] at e1
  rw [← e1]
  have := tick_atMost hup (i := k) (j := 27) (by omega) (r := 57.9) ⟨k27.1, by rw [k27.2]; norm_num⟩
  exact ⟨this.1, this.2.trans_lt (by norm_num)⟩

/-! ## Runs -/

omit [HasPowf (F64 L)] in
theorem run_times {env : Env (F64 L)} {U : MatrixDecomposition (F64 L)} {c : Components (F64 L)}
    {fluid : Fluid (F64 L)} {inputs : RunInputs (F64 L)} {settings : RunSettings (F64 L)} {e : Engine (F64 L)}
    (h : Engine.run env U c fluid inputs settings = .ok e) :
    ∃ ic pts, integrationTryFrom env (Run.new U c e.state).toCycle ic settings.resolution settings.ode_tol = .ok pts ∧
      e.values.time = pts.map (·.time) := by
  obtain ⟨n, vs, s', -, h2, h3, h4, -⟩ := (C36_ok_iff env U c fluid inputs settings e).1 h
  obtain ⟨m, ic, -, g2, -, pts, g3, g4⟩ := (C33_ok_iff _ _ _ _).1 h3
  obtain ⟨h6, -⟩ := C32_values_self_consistent _ _ _ g4
  refine ⟨ic, pts, g3, ?_⟩
  rw [h4, ofStateValues_eq, ← h6, List.map_map]
  rfl

/-- The drive turns so fast, and is sampled so finely, that the rounding of the output times does no harm. -/
structure Spec.TurningIeee (c : Components (F64 L)) (n : UInt32) : Prop where
  resolution : 2 ≤ n.toNat
  finite : ∀ p, (1.0 / c.ws.frequency p : F64 L).raw.Finite
  long : ∀ p, ((n.toNat : ℝ) + 6) * (1.0 / c.ws.frequency p : F64 L).raw.real ≤ 89
  short : ∀ p, ((n.toNat : ℝ) - 1) * 1e-12 ≤ (1.0 / c.ws.frequency p : F64 L).raw.real

/-- **C76**, a run.  In binary64 the series of a successful run have exactly the requested number of samples,
at multiples of the sampling interval up to 1e-14 seconds. -/
theorem C76_run (hw : Spec.PowfSign L) (outs : ℕ) (env : Env (F64 L)) (ho : env.ode = dopri5.solve outs)
    (U : MatrixDecomposition (F64 L)) (c : Components (F64 L)) (fluid : Fluid (F64 L)) (inputs : RunInputs (F64 L))
    (settings : RunSettings (F64 L)) (hc : Spec.TurningIeee c settings.resolution) (e : Engine (F64 L))
    (h : Engine.run env U c fluid inputs settings = .ok e) :
    e.values.time.length = settings.resolution.toNat ∧
      ∀ k : ℕ, ∀ hk : k < e.values.time.length, e.values.time[k].raw.Finite ∧
        |e.values.time[k].raw.real - k * ((1.0 / c.ws.frequency ⟨e.state.pres⟩ : F64 L).raw.real
          / ((settings.resolution.toNat : ℝ) - 1))| ≤ 1e-14 := by
  obtain ⟨ic, pts, h1, h2⟩ := run_times h
  obtain ⟨g1, g2⟩ := C76_integration hw outs env ho _ ic _ _ hc.resolution (hc.finite ⟨e.state.pres⟩)
    (hc.long ⟨e.state.pres⟩) (hc.short ⟨e.state.pres⟩) pts h1
  simp only [h2, List.length_map, List.getElem_map]
  exact ⟨g1, g2⟩

/-- **C76**, a run that loses its last sample: one turn a minute, 29 samples requested. -/
theorem C76_run_lost (hw : Spec.PowfSign L) (outs : ℕ) (env : Env (F64 L)) (ho : env.ode = dopri5.solve outs)
    (U : MatrixDecomposition (F64 L)) (c : Components (F64 L)) (fluid : Fluid (F64 L)) (inputs : RunInputs (F64 L))
    (settings : RunSettings (F64 L)) (hr : settings.resolution = 29)
    (hc : ∀ p, (1.0 / c.ws.frequency p : F64 L) = 60.0) (e : Engine (F64 L))
    (h : Engine.run env U c fluid inputs settings = .ok e) :
    e.values.time.length = 28 ∧ ∀ t ∈ e.values.time, t.raw.Finite ∧ t.raw.real < 58 := by
  obtain ⟨ic, pts, h1, h2⟩ := run_times h
  rw [hr] at h1
  obtain ⟨g1, g2⟩ := C76_last_sample_lost hw outs env ho _ ic _ (hc ⟨e.state.pres⟩) pts h1
  rw [h2]
  refine ⟨by rw [List.length_map, g1], fun t ht => ?_⟩
  obtain ⟨p, hp, rfl⟩ := List.mem_map.1 ht
  exact g2 p hp

end Sett
