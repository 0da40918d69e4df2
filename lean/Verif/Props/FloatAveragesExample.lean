import Verif.Props.FloatAverages
import Verif.Props.FloatBalancesExample

/-! # Examples for C92: a sampled engine whose numbers are short binary fractions -/

namespace Sett

open Float64 Raw Spec lu performance

namespace FloatAveragesExample

open IeeeExample (Lib)
open FloatBalancesExample

attribute [local instance] scalarRat

theorem usual_q {a : F64 Lib} {q : ℚ} (h : IsQ a q) (hq : |q| ≤ 2 ^ 60) : Usual a := by
  refine ⟨h.1, ?_⟩
  rw [h.2]
  have : |(q : ℝ)| ≤ 2 ^ 60 := by exact_mod_cast hq
  exact this.trans (pow_le_pow_right₀ (by norm_num) (by norm_num))

/-- Three samples of a cycle that heats on one side and cools on the other. -/
noncomputable def vals : Values (F64 Lib) :=
  { time := [F 0, F (1/2), F 2], P := [F 8, F 16, F 4], T_c := [F 300, F 320, F 290], T_e := [F 900, F 870, F 910]
    m_dot_ck := [F 2, F (-1), F 2], m_dot_kr := [F 1, F (-2), F 1], m_dot_rl := [F 1, F 1, F (-1)]
    m_dot_le := [F 1, F 3, F (-1)], Q_dot_k := [F 3, F (-5), F 3], Q_dot_r := [F 1, F (-1), F 1]
    Q_dot_l := [F 4, F 4, F (-1)] }

theorem f {q : ℚ} (h : Dy q) : (F q).raw.real = (q : ℝ) := (q_F h).2

theorem three {a b c : ℚ} (ha : Dy a) (hb : Dy b) (hc : Dy c) : AllUsual [F a, F b, F c] := by
  intro z hz
  simp only [List.mem_cons, List.not_mem_nil, or_false] at hz
  rcases hz with rfl | rfl | rfl
  exacts [usual_F ha, usual_F hb, usual_F hc]

theorem times : MachineTimes vals.time := by
  refine ⟨three (by decide +kernel) (by decide +kernel) (by decide +kernel), ?_, by simp [vals]⟩
  show Increasing [(F 0).raw.real, (F (1/2)).raw.real, (F 2).raw.real]
  rw [f (by decide +kernel), f (by decide +kernel), f (by decide +kernel)]
  norm_num [Increasing]

theorem last : vals.time.getLast? = some (F 2) := rfl

theorem long : 1 / 2 ^ 100 ≤ (F 2).raw.real := by
  rw [f (by decide +kernel)]; norm_num

/-- C92_integral, C92_pressure. -/
example : Rounded 3 11 (integrate vals.time vals.P) (trapezoid (reals vals.time) (reals vals.P))
    (trapezoid (reals vals.time) (sizes (reals vals.P))) :=
  C92_integral vals.time vals.P times (three (by decide +kernel) (by decide +kernel) (by decide +kernel))

/-- The trapezoidal rule of the samples: 12·0.5 + 10·1.5. -/
example : trapezoid (reals vals.time) (reals vals.P) = 21 := by
  show trapezoid [(F 0).raw.real, (F (1/2)).raw.real, (F 2).raw.real] [(F 8).raw.real, (F 16).raw.real, (F 4).raw.real] = 21
  rw [f (by decide +kernel), f (by decide +kernel), f (by decide +kernel), f (by decide +kernel), f (by decide +kernel),
    f (by decide +kernel)]
  norm_num [trapezoid]

example : ∃ p, Pressure.from_values vals = .ok p ∧
    p.min.raw.real * (1 - (2 * (3 : ℕ) + 13) / 2 ^ 53) - 1 / 2 ^ 400 ≤ p.avg.raw.real ∧
    p.avg.raw.real ≤ p.max.raw.real * (1 + (2 * (3 : ℕ) + 13) / 2 ^ 53) + 1 / 2 ^ 400 := by
  refine ⟨_, rfl, ?_⟩
  refine (C92_pressure vals _ (F 2) times last long
    (three (by decide +kernel) (by decide +kernel) (by decide +kernel)) rfl).2 ?_ rfl ?_
  · intro a ha
    simp only [vals, List.mem_cons, List.not_mem_nil, or_false] at ha
    rcases ha with rfl | rfl | rfl <;> rw [f (by decide +kernel)] <;> norm_num
  · show some (F 0).raw.real = some 0
    rw [f (by decide +kernel)]; norm_num

/-- C92_mass_flows. -/
example : ∃ m, MassFlows.from_values vals = .ok m ∧
    Rounded 3 17 m.chx (mean (reals vals.time) (F 2).raw.real (through (reals vals.m_dot_ck) (reals vals.m_dot_kr)))
      (mean (reals vals.time) (F 2).raw.real (through (reals vals.m_dot_ck) (reals vals.m_dot_kr))) :=
  ⟨_, rfl, (C92_mass_flows vals _ (F 2) times last long (three (by decide +kernel) (by decide +kernel) (by decide +kernel))
    (three (by decide +kernel) (by decide +kernel) (by decide +kernel))
    (three (by decide +kernel) (by decide +kernel) (by decide +kernel))
    (three (by decide +kernel) (by decide +kernel) (by decide +kernel)) rfl).1⟩

/-- One wall conducts, the other insulates. -/
noncomputable def walls : ws.ThermalResistance (F64 Lib) := { comp := F (1/4), exp := HasInfinity.infinity }

theorem conducts : Resists walls.comp := by
  refine Or.inr ⟨(q_F (by decide +kernel)).1, ?_⟩
  show _ ≤ |(F (1/4)).raw.real|
  rw [f (by decide +kernel)]; norm_num

theorem insulates : Resists walls.exp := Or.inl rfl

/-- C92_heat_flows. -/
example : ∃ q, HeatFlows.from_values vals (F 280) (F 880) walls = .ok q ∧
    Rounded 3 18 q.chx
      (mean (reals vals.time) (F 2).raw.real (vals.T_c.map fun T => wallFlow walls.comp T (F 280))
        + mean (reals vals.time) (F 2).raw.real (reals vals.Q_dot_k))
      (mean (reals vals.time) (F 2).raw.real (sizes (vals.T_c.map fun T => wallFlow walls.comp T (F 280)))
        + mean (reals vals.time) (F 2).raw.real (sizes (reals vals.Q_dot_k))) :=
  ⟨_, rfl, (C92_heat_flows vals _ (F 280) (F 880) walls (F 2) times last long (usual_F (by decide +kernel))
    (usual_F (by decide +kernel)) conducts insulates (three (by decide +kernel) (by decide +kernel) (by decide +kernel))
    (three (by decide +kernel) (by decide +kernel) (by decide +kernel))
    (three (by decide +kernel) (by decide +kernel) (by decide +kernel))
    (three (by decide +kernel) (by decide +kernel) (by decide +kernel))
    (three (by decide +kernel) (by decide +kernel) (by decide +kernel)) rfl).1⟩

/-! ## An engine -/

noncomputable def losses (m t : ℚ) : ParasiticPower (F64 Lib) :=
  { ParasiticPower.default with mechanical := F m, thermal := F t }

/-- Volumes changing at the rates `t` and `-t`; a fluid of unit density; one exchanger resists the flow. -/
noncomputable def eng : Engine (F64 Lib) where
  components :=
    { ws := { frequency := fun _ => F 2
              volumes := fun _ t => ({ value := F 1, deriv := t }, { value := F 1, deriv := -t })
              thermal_resistance := fun _ => walls
              parasitics := fun _ => { comp := losses 1 0, exp := losses 2 3 } }
      chx := { volume := F 1, approach := fun _ => F 1, hydraulic_resistance := fun _ => F 1
               parasitics := fun _ => losses 1 0, initial_approach := F 1 }
      regen := { volume := F 1, approach := fun _ => F 1, hydraulic_resistance := fun _ => F 2
                 parasitics := fun _ => losses 0 5, initial_approach := F 1 }
      hhx := { volume := F 1, approach := fun _ => F 1, hydraulic_resistance := fun _ => F 1
               parasitics := fun _ => losses 1 2, initial_approach := F 1 } }
  state :=
    { fluid := { dens := fun _ _ => F 1, inte := fun _ _ => F 1, enth := fun _ _ => F 1, cp := fun _ _ => F 1
                 dd_dP_T := fun _ _ => F 1, dd_dT_P := fun _ _ => F 1, du_dP_T := fun _ _ => F 1
                 du_dT_P := fun _ _ => F 1 }
      pres := { avg := F 8, max := F 16, min := F 4, t_zero := F 8 }
      temp := { sink := F 270, chx := F 280, regen := { cold := F 280, avg := F 500, hot := F 880 }, hhx := F 880
                source := F 900 }
      mass_flow := { chx := F 1, regen := F 1, hhx := F 1 }
      heat_flow := { chx := F 1, regen := F 1, hhx := F 1 }
      regen_imbalance := { val := F 1 } }
  values := vals

theorem half_q : IsQ (0.5 : F64 Lib) (1/2) := ⟨half_ok.1, half_ok.2.trans (by norm_num)⟩

/-- Pressure drop of one exchanger at one sample. -/
theorem q_drop {a b r : ℚ} (ha : Dy a) (hb : Dy b) (hr : Dy r) (h1 : Dy (a + b)) (h2 : Dy (1/2 * (a + b)))
    (h3 : Dy (1/2 * (a + b) / 1)) (h4 : Dy (r * (1/2 * (a + b) / 1))) :
    IsQ (F r * ((0.5 * (F a + F b)) / F 1)) (r * (1/2 * (a + b) / 1)) :=
  q_mul (q_F hr) (q_div (q_mul half_q (q_add (q_F ha) (q_F hb) h1) h2) (q_F (by decide +kernel)) (by norm_num) h3) h4

theorem pressures {p x y z : F64 Lib} {P X Y Z : ℚ} (hp : IsQ p P) (hx : IsQ x X) (hy : IsQ y Y) (hz : IsQ z Z)
    (h1 : Dy (X + Y)) (h2 : Dy (X + Y + Z)) (h3 : Dy (1/2 * (X + Y + Z))) (h4 : Dy (P + 1/2 * (X + Y + Z)))
    (h5 : Dy (P - 1/2 * (X + Y + Z))) (h6 : |P + 1/2 * (X + Y + Z)| ≤ 2 ^ 60) (h7 : |P - 1/2 * (X + Y + Z)| ≤ 2 ^ 60) :
    Usual (p + 0.5 * (x + y + z)) ∧ Usual (p - 0.5 * (x + y + z)) := by
  have ht := q_mul half_q (q_add (q_add hx hy h1) hz h2) h3
  exact ⟨usual_q (q_add hp ht h4) h6, usual_q (q_sub hp ht h5) h7⟩

theorem eng_ok : ∃ perf, Performance.ofEngine eng = .ok perf ∧ UsualPerformance eng perf := by
  refine ⟨_, rfl, ?_⟩
  have s0 := pressures (q_F (q := 8) (by decide +kernel))
    (q_drop (a := 2) (b := 1) (r := 1) (by decide +kernel) (by decide +kernel) (by decide +kernel) (by decide +kernel)
      (by decide +kernel) (by decide +kernel) (by decide +kernel))
    (q_drop (a := 1) (b := 1) (r := 1) (by decide +kernel) (by decide +kernel) (by decide +kernel) (by decide +kernel)
      (by decide +kernel) (by decide +kernel) (by decide +kernel))
    (q_drop (a := 1) (b := 1) (r := 2) (by decide +kernel) (by decide +kernel) (by decide +kernel) (by decide +kernel)
      (by decide +kernel) (by decide +kernel) (by decide +kernel))
    (by decide +kernel) (by decide +kernel) (by decide +kernel) (by decide +kernel) (by decide +kernel)
    (by decide +kernel) (by decide +kernel)
  have s1 := pressures (q_F (q := 16) (by decide +kernel))
    (q_drop (a := -1) (b := -2) (r := 1) (by decide +kernel) (by decide +kernel) (by decide +kernel) (by decide +kernel)
      (by decide +kernel) (by decide +kernel) (by decide +kernel))
    (q_drop (a := 1) (b := 3) (r := 1) (by decide +kernel) (by decide +kernel) (by decide +kernel) (by decide +kernel)
      (by decide +kernel) (by decide +kernel) (by decide +kernel))
    (q_drop (a := -2) (b := 1) (r := 2) (by decide +kernel) (by decide +kernel) (by decide +kernel) (by decide +kernel)
      (by decide +kernel) (by decide +kernel) (by decide +kernel))
    (by decide +kernel) (by decide +kernel) (by decide +kernel) (by decide +kernel) (by decide +kernel)
    (by decide +kernel) (by decide +kernel)
  have s2 := pressures (q_F (q := 4) (by decide +kernel))
    (q_drop (a := 2) (b := 1) (r := 1) (by decide +kernel) (by decide +kernel) (by decide +kernel) (by decide +kernel)
      (by decide +kernel) (by decide +kernel) (by decide +kernel))
    (q_drop (a := -1) (b := -1) (r := 1) (by decide +kernel) (by decide +kernel) (by decide +kernel) (by decide +kernel)
      (by decide +kernel) (by decide +kernel) (by decide +kernel))
    (q_drop (a := 1) (b := -1) (r := 2) (by decide +kernel) (by decide +kernel) (by decide +kernel) (by decide +kernel)
      (by decide +kernel) (by decide +kernel) (by decide +kernel))
    (by decide +kernel) (by decide +kernel) (by decide +kernel) (by decide +kernel) (by decide +kernel)
    (by decide +kernel) (by decide +kernel)
  have hF : ∀ {q : ℚ}, Dy q → Usual (F q) := usual_F
  have mem3 : ∀ {a b c : F64 Lib}, Usual a → Usual b → Usual c → AllUsual [a, b, c] := by
    intro a b c ha hb hc z hz
    simp only [List.mem_cons, List.not_mem_nil, or_false] at hz
    rcases hz with rfl | rfl | rfl
    exacts [ha, hb, hc]
  have neg : ∀ {a : F64 Lib}, Usual a → Usual (-a) := fun {a} h =>
    ⟨Raw.neg_finite h.1, by
      have : (-a).raw.real = -a.raw.real := Raw.neg_real a.raw
      rw [this, abs_neg]; exact h.2⟩
  exact
    { time := times
      frequency := hF (by decide +kernel)
      P := three (by decide +kernel) (by decide +kernel) (by decide +kernel)
      P_c := mem3 s0.1 s1.1 s2.1
      P_e := mem3 s0.2 s1.2 s2.2
      dVc := times.usual
      dVe := mem3 (neg (hF (by decide +kernel))) (neg (hF (by decide +kernel))) (neg (hF (by decide +kernel)))
      T_c := three (by decide +kernel) (by decide +kernel) (by decide +kernel)
      T_e := three (by decide +kernel) (by decide +kernel) (by decide +kernel)
      Q_dot_k := three (by decide +kernel) (by decide +kernel) (by decide +kernel)
      Q_dot_l := three (by decide +kernel) (by decide +kernel) (by decide +kernel)
      chx := hF (by decide +kernel)
      hhx := hF (by decide +kernel)
      R_c := conducts
      R_e := insulates
      comp_mechanical := hF (by decide +kernel)
      exp_mechanical := hF (by decide +kernel)
      exp_thermal := hF (by decide +kernel)
      chx_mechanical := hF (by decide +kernel)
      hhx_mechanical := hF (by decide +kernel)
      hhx_thermal := hF (by decide +kernel)
      regen_thermal := hF (by decide +kernel) }

/-- C92_performance. -/
example : ∃ perf, Performance.ofEngine eng = .ok perf ∧
    Rounded 3 26 perf.power.indicated
      ((F 2).raw.real * trapezoid (reals vals.time) (work (reals perf.pressures_with_drops.P_c) (reals vals.time)
        (reals perf.pressures_with_drops.P_e) (reals (vals.time.map fun t => -t))))
      (|(F 2).raw.real| * trapezoid (reals vals.time) (work (sizes (reals perf.pressures_with_drops.P_c))
        (sizes (reals vals.time)) (sizes (reals perf.pressures_with_drops.P_e))
        (sizes (reals (vals.time.map fun t => -t))))) := by
  obtain ⟨perf, h, hu⟩ := eng_ok
  exact ⟨perf, h, (C92_performance eng perf h hu).1⟩

end FloatAveragesExample

end Sett
