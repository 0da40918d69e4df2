import Verif.Props.Rounding
import Verif.Props.GridIeeeExample

/-! Concrete machine-number cases for C77. -/

namespace Sett

open Float64 Raw Spec

namespace RoundingExample

open IeeeExample
open GridIeeeExample (Is Bd is_bd is_mul bd_mul bd_div bd_add bd_lit bd_rne rep_pow)

/-- The correctly rounded library is tame. -/
theorem tame : Tame Lib := by
  have one : val (1.0 : F64 Lib) = 1 := val_one
  have neg : val (-1.0 : F64 Lib) = -1 := by rw [val_neg, one]
  constructor
  · intro a
    have h : Num (Scalar.cos a) → val (Scalar.cos a) ≤ 1 ∧ -1 ≤ val (Scalar.cos a) := by
      intro hn
      rcases a with _ | s | s | ⟨x, hx⟩
      · exact absurd rfl hn
      · exact absurd rfl hn
      · show val (Raw.one : F64 Lib) ≤ 1 ∧ -1 ≤ val (Raw.one : F64 Lib)
        rw [← ieee_one, one]
        exact ⟨le_rfl, EReal.coe_le_coe_iff.2 (by norm_num : (-1 : ℝ) ≤ 1)⟩
      · show V (pack false (Real.cos x)) ≤ 1 ∧ -1 ≤ V (pack false (Real.cos x))
        have h1 := V_pack_mono false false (Real.cos_le_one x)
        have h2 := V_pack_mono false false (Real.neg_one_le_cos x)
        rw [V_pack_rep false rep_one.1] at h1
        rw [V_pack_rep false (x := -1) ⟨⟨-1, 0, by norm_num, by norm_num, by norm_num⟩, by rw [abs_neg]; exact rep_one.1.2⟩] at h2
        exact ⟨h1, h2⟩
    constructor <;> apply not_below
    · intro _ hn; rw [one]; exact (h hn).1
    · intro hn _; rw [neg]; exact (h hn).2
  · intro a ha
    apply not_below
    intro _ hn
    rw [one]
    rcases a with _ | s | s | ⟨x, hx⟩
    · exact absurd rfl hn
    · cases s
      · exact absurd ha (by rw [ieee_zero]; decide)
      · show V (zero false) ≤ 1
        rw [V_zero]; exact zero_le_one
    · show val (Raw.one : F64 Lib) ≤ 1
      rw [← ieee_one, one]
    · have hx0 : x ≤ 0 := by
        have := val_le_of_not_below ha (num_finite (by rw [ieee_zero]; trivial)) (by intro h; cases h)
        rw [val_zero] at this
        exact EReal.coe_nonpos.1 this
      show V (pack false (Real.exp x)) ≤ 1
      have := V_pack_mono false false (Real.exp_le_one_iff.2 hx0)
      rwa [V_pack_rep false rep_one.1] at this

theorem num_is {n : ℕ} (h : n ≤ 2 ^ 53) : Is (num n) n := num_real h

theorem num_leq {m n : ℕ} (h : m ≤ n) (hn : n ≤ 2 ^ 53) : Scalar.le (num m) (num n) = true := by
  have a := num_is (h.trans hn)
  have b := num_is hn
  exact (Raw.le_finite a.1 b.1).2 (by rw [a.2, b.2]; exact_mod_cast h)

theorem zero_num : (0.0 : F64 Lib) = num 0 := by rw [ieee_zero, num_zero]

theorem zero_leq {n : ℕ} (hn : n ≤ 2 ^ 53) : Scalar.le 0.0 (num n) = true := by
  rw [zero_num]; exact num_leq (Nat.zero_le _) hn

theorem small_leq {n : ℕ} (h : 1 ≤ n) (hn : n ≤ 2 ^ 53) : Scalar.le 1e-30 (num n) = true := by
  have b := num_is hn
  have one : Rep (1 : ℝ) := rep_one.1
  have a : Bd (1e-30 : F64 Lib) 1 := bd_lit (by norm_num) (by norm_num) one
  refine (Raw.le_finite a.1 b.1).2 ((abs_le.1 a.2).2.trans ?_)
  rw [b.2]; exact_mod_cast h

theorem angle : (crankAngle (num 1) (num 3)).raw.Finite ∧
    (crankAngle (num 1) (num 3) + num 90 * Scalar.pi / 180.0).raw.Finite := by
  have p (k : ℤ) (h1 : -1074 ≤ k) (h2 : k < 1024) := rep_pow h1 h2
  have hpi : Bd (Scalar.pi : F64 Lib) (2 ^ (2 : ℤ)) := by
    have h : |Real.pi| ≤ (2 : ℝ) ^ (2 : ℤ) := by
      rw [abs_of_pos Real.pi_pos]; exact Real.pi_le_four.trans (by norm_num)
    obtain ⟨h1, h2⟩ := pack_finite false (rne_lt_of_le (p 2 (by norm_num) (by norm_num)) h)
    exact ⟨h1, (congrArg (fun r : ℝ => |r|) h2).le.trans (bd_rne (p 2 (by norm_num) (by norm_num)) h)⟩
  have two : Bd (2.0 : F64 Lib) (2 ^ (1 : ℤ)) := bd_lit (by norm_num) (by norm_num) (p 1 (by norm_num) (by norm_num))
  have one : Bd (num 1) (2 ^ (0 : ℤ)) := is_bd (num_is (by norm_num)) (by norm_num)
  have three : Bd (num 3) (2 ^ (2 : ℤ)) := is_bd (num_is (by norm_num)) (by norm_num)
  have ninety : Bd (num 90) (2 ^ (7 : ℤ)) := is_bd (num_is (by norm_num)) (by norm_num)
  have h1 := bd_mul (bd_mul (bd_mul two hpi (t := 2 ^ (3 : ℤ)) (by norm_num) (p 3 (by norm_num) (by norm_num))) one
    (t := 2 ^ (3 : ℤ)) (by norm_num) (p 3 (by norm_num) (by norm_num))) three
    (t := 2 ^ (5 : ℤ)) (by norm_num) (p 5 (by norm_num) (by norm_num))
  have h2 := bd_mul ninety hpi (t := 2 ^ (9 : ℤ)) (by norm_num) (p 9 (by norm_num) (by norm_num))
  have r180 : Rep (180 : ℝ) := by exact_mod_cast rep_nat (n := 180) (by norm_num)
  have d : Is (180.0 : F64 Lib) 180 := by
    obtain ⟨h1, h2⟩ := pack_finite false (x := (180.0 : ℝ)) (by
      rw [show (180.0 : ℝ) = 180 by norm_num, rne_rep r180]; exact r180.2)
    exact ⟨h1, h2.trans (by rw [show (180.0 : ℝ) = 180 by norm_num, rne_rep r180])⟩
  have h3 := bd_div h2 d (by norm_num) (t := 2 ^ (5 : ℤ)) (by norm_num) (p 5 (by norm_num) (by norm_num))
  exact ⟨h1.1, (bd_add h1 h3 (t := 2 ^ (6 : ℤ)) (by norm_num) (p 6 (by norm_num) (by norm_num))).1⟩

/-- A sinusoidal drive at one cycle per second, after three seconds. -/
example : Scalar.le (num 1) (drive.volumes (num 3)).1.value = true ∧
    Scalar.le (drive.volumes (num 3)).2.value (num 1 + num 1) = true := by
  have h1 : (num 1).raw.Finite := (num_is (n := 1) (by norm_num)).1
  have h := C77_sinusoidal_volumes tame drive (num 3) h1 h1 (small_leq le_rfl (by norm_num)) h1 h1
    (small_leq le_rfl (by norm_num)) angle.1 angle.2
  exact ⟨h.1, h.2.2.2⟩

/-- A rhombic drive with crank radius 1 and eccentricity 2, at every time, not-a-number included. -/
example (d : ws.RhombicDrive (F64 Lib)) (h : d.geometry = ⟨num 2, num 1, num 3, num 3, num 5⟩) (t : F64 Lib) :
    Scalar.lt (d.volumes t).1.value d.V_clearance_c = false :=
  C77_rhombic_compression tame d t (by rw [h]; exact zero_leq (by norm_num))
    (by rw [h]; exact num_leq (by norm_num) (by norm_num))

/-- Positive capacity flow rates. -/
theorem flow_pos : Scalar.lt (0.0 : F64 Lib) (num 5 * num 1) = true := by
  have h : Is (num 5 * num 1) ((5 : ℕ) : ℝ) := is_mul (num_is (by norm_num)) (num_is (by norm_num)) (by norm_num)
    (rep_nat (by norm_num))
  rw [zero_num]
  exact (Raw.lt_finite (num_is (n := 0) (by norm_num)).1 h.1).2 (by
    rw [h.2, (num_is (n := 0) (by norm_num)).2]; norm_num)

/-- Exchangers of conductance 10 with a capacity rate of 5. -/
example (x : chx.FixedConductance (F64 Lib)) (s : chx.State (F64 Lib)) (hx : x.UA = num 10)
    (h1 : s.hxr.cp = num 5) (h2 : s.hxr.m_dot = num 1) (h3 : s.hxr.Q_dot = num 100) :
    Scalar.lt (x.approach s) 0.0 = false :=
  C77_chx_approach tame x s (by rw [hx]; exact zero_leq (by norm_num)) (by rw [h1, h2]; exact flow_pos)
    (by rw [h3]; exact zero_leq (by norm_num))

example (x : hhx.FixedConductance (F64 Lib)) (s : hhx.State (F64 Lib)) (hx : x.UA = num 10)
    (h1 : s.hxr.cp = num 5) (h2 : s.hxr.m_dot = num 1) (h3 : s.hxr.Q_dot = num 100) :
    Scalar.lt (x.approach s) 0.0 = false :=
  C77_hhx_approach tame x s (by rw [hx]; exact zero_leq (by norm_num)) (by rw [h1, h2]; exact flow_pos)
    (by rw [h3]; exact zero_leq (by norm_num))

example (x : regen.FixedConductance (F64 Lib)) (s : regen.State (F64 Lib)) (hx : x.UA = num 10)
    (h1 : s.hxr.cp = num 5) (h2 : s.hxr.m_dot = num 1) (h3 : s.temp_chx = num 300) (h4 : s.temp_hhx = num 600) :
    Scalar.lt (x.approach s) 0.0 = false ∧ Scalar.lt (num 600 - num 300) (x.approach s) = false := by
  have := C77_regen_approach x s (by rw [hx]; exact zero_leq (by norm_num)) (by rw [h1, h2]; exact flow_pos)
    (by rw [h3, h4]; exact num_leq (by norm_num) (by norm_num))
  rwa [h3, h4] at this

/-- A ladder between 260 and 700. -/
example : Scalar.lt (num 700) (Temperatures.from_approach (num 260) (num 700) ⟨num 40, num 5, num 100⟩
    ⟨num 3⟩).hhx = false :=
  (C77_ladder (num 260) (num 700) ⟨num 40, num 5, num 100⟩ ⟨num 3⟩ (zero_leq (by norm_num))
    (zero_leq (by norm_num)) (zero_leq (by norm_num))).2.2.2

/-- Two samples of a cycle. -/
noncomputable def samples : Values (F64 Lib) :=
  { time := [num 0, num 1], P := [num 5, num 7], T_c := [], T_e := [], m_dot_ck := [num 1, num 2]
    m_dot_kr := [num 3, -num 4], m_dot_rl := [num 1, -num 1], m_dot_le := [num 2, num 2]
    Q_dot_k := [], Q_dot_r := [], Q_dot_l := [] }

example : ∃ m, MassFlows.from_values samples = .ok m ∧ Scalar.lt m.regen 0.0 = false := by
  refine ⟨_, rfl, (C77_mass_flows samples _ (num 1) ?_ rfl ?_ rfl).2.1⟩
  · exact .cons_cons (num_leq (by norm_num) (by norm_num)) (.singleton _)
  · have h1 := num_is (n := 1) (by norm_num)
    rw [zero_num]
    exact (Raw.lt_finite (num_is (n := 0) (by norm_num)).1 h1.1).2 (by
      rw [h1.2, (num_is (n := 0) (by norm_num)).2]; norm_num)

example : ∃ p, Pressure.from_values samples = .ok p ∧ Scalar.lt p.max (num 7) = false := by
  refine ⟨_, rfl, ((C77_pressure_extrema samples _ rfl).2.2.2.1 (num 7) (by simp [samples])).1⟩

/-- The complete run on machine numbers. -/
example : ∃ e r, Engine.run env ones components fluid (runInputs 700) settings = .ok e ∧
    RunResults.ofEngine e = .ok r ∧
    ∀ (i : ℕ) (P pc pe : F64 Lib), r.values.P[i]? = some P → r.values.P_c[i]? = some pc →
        r.values.P_e[i]? = some pe → (Scalar.lt pc P = false ∧ Scalar.lt P pe = false) ∨
          (Scalar.lt P pc = false ∧ Scalar.lt pe P = false) := by
  obtain ⟨e, log, h, -⟩ := run_ok
  have h' : Engine.run env ones components fluid (runInputs 700) settings = .ok e := congrArg Prod.fst h
  obtain ⟨r, hr, -, -, hp⟩ := C77_run_space_pressures _ _ _ _ _ _ _ h'
  exact ⟨e, r, h', hr, hp⟩

/-- Its exchangers have no hydraulic resistance. -/
example : ∃ e r, Engine.run env ones components fluid (runInputs 700) settings = .ok e ∧
    RunResults.ofEngine e = .ok r ∧
    ∀ (i : ℕ) (P pc pe : F64 Lib), r.values.P[i]? = some P → r.values.P_c[i]? = some pc →
        r.values.P_e[i]? = some pe → Scalar.le pc pc = true → Scalar.le pc P = true ∧ Scalar.le P pc = true := by
  obtain ⟨e, log, h, -⟩ := run_ok
  have h' : Engine.run env ones components fluid (runInputs 700) settings = .ok e := congrArg Prod.fst h
  obtain ⟨n, vs, s', -, -, -, hv, hc, -⟩ := (C36_ok_iff _ _ _ _ _ _ e).1 h'
  obtain ⟨r, hr⟩ := results_ok e vs hv
  have hz := zero_num
  exact ⟨e, r, h', hr, fun i P pc pe h1 h2 h3 =>
    (C77_no_drop e vs hv r hr (by rw [hc, hz]; rfl) (by rw [hc, hz]; rfl) (by rw [hc, hz]; rfl) i P pc pe h1 h2 h3).1⟩

end RoundingExample
end Sett
