import Verif.Proofs.Integrate
import Mathlib.Analysis.SpecialFunctions.Integrals.Basic
import Mathlib.Topology.Algebra.Order.Field

/-! # C27–C31: cycle integrals, summaries and time series -/

namespace Sett

open Spec (trapezoid Increasing)

/-! ## C27 -/

/-- **C27.** The coded sum over adjacent pairs is the trapezoidal rule. -/
theorem C27_integrate_is_trapezoid (x y : List ℝ) : integrate x y = trapezoid x y :=
  integrate_eq x y

/-- **C27**, linear in the samples. -/
theorem C27_linear (a b : ℝ) (x y z : List ℝ) (h : y.length = z.length) :
    integrate x (List.zipWith (fun u v => a * u + b * v) y z)
      = a * integrate x y + b * integrate x z := by
  simp only [integrate_eq]; exact trapezoid_linear a b x y z h

/-- **C27**, additive when the sampled interval is split at a sample. -/
theorem C27_additive (xs us ys ws : List ℝ) (m v : ℝ) (h : xs.length = us.length) :
    integrate (xs ++ m :: ys) (us ++ v :: ws)
      = integrate (xs ++ [m]) (us ++ [v]) + integrate (m :: ys) (v :: ws) := by
  simp only [integrate_eq]; exact trapezoid_append xs us m v ys ws h

/-- **C27**, exact for affine signals on any grid: equal to the Riemann integral between the first and
the last sample time. -/
theorem C27_affine_exact (a b x0 : ℝ) (xs : List ℝ) :
    integrate (x0 :: xs) ((x0 :: xs).map fun t => a * t + b)
      = ∫ t in x0..(x0 :: xs).getLast (by simp), (a * t + b) := by
  rw [integrate_eq, trapezoid_affine]
  rw [intervalIntegral.integral_add (Continuous.intervalIntegrable (by fun_prop) _ _)
      (Continuous.intervalIntegrable (by fun_prop) _ _),
    intervalIntegral.integral_const_mul, integral_id, intervalIntegral.integral_const]
  simp only [smul_eq_mul]
  ring

/-- **C27**, monotone in the samples for non-decreasing times. -/
theorem C27_monotone (x y z : List ℝ) (hx : Increasing x) (h : List.Forall₂ (· ≤ ·) y z) :
    integrate x y ≤ integrate x z := by
  simp only [integrate_eq]; exact trapezoid_mono x y z hx h

/-- **C27**, zero for fewer than two samples. -/
theorem C27_short (x y : List ℝ) (h : x.length < 2 ∨ y.length < 2) : integrate x y = 0 := by
  rw [integrate_eq]; exact trapezoid_short x y h

example : integrate [0, 1, 3] [(2 : ℝ), 4, 0] = 7 := by
  rw [C27_integrate_is_trapezoid]; simp [trapezoid]; norm_num

/-! ## C28 -/

/-- Reading of a successful `Pressure::from_values`. -/
theorem pressure_ok {α : Type} [Scalar α] {v : Values α} {p : Pressure α} (h : Pressure.from_values v = .ok p) :
    ∃ t, v.time.getLast? = some t ∧ p.avg = integrate v.time v.P / t ∧ v.P.head? = some p.t_zero ∧
      maxBy v.P = some p.max ∧ minBy v.P = some p.min := by
  unfold Pressure.from_values Values.final_time at h
  cases ht : v.time.getLast? with
  | none => rw [ht] at h; cases h
  | some t =>
    cases hh : v.P.head? with
    | none => rw [ht, hh] at h; cases h
    | some p0 =>
      cases hM : maxBy v.P with
      | none => rw [ht, hh, hM] at h; cases h
      | some M =>
        cases hm : minBy v.P with
        | none => rw [ht, hh, hM, hm] at h; cases h
        | some m =>
          rw [ht, hh, hM, hm] at h
          cases h
          exact ⟨t, rfl, rfl, rfl, rfl, rfl⟩

/-- **C28**, extrema and first sample. -/
theorem C28_extrema (v : Values ℝ) (p : Pressure ℝ) (h : Pressure.from_values v = .ok p) :
    (p.max ∈ v.P ∧ ∀ x ∈ v.P, x ≤ p.max) ∧ (p.min ∈ v.P ∧ ∀ x ∈ v.P, p.min ≤ x) ∧
      v.P.head? = some p.t_zero := by
  obtain ⟨t, -, -, h3, h4, h5⟩ := pressure_ok h
  exact ⟨maxBy_spec h4, minBy_spec h5, h3⟩

/-- **C28**, the summary exists for every non-empty series. -/
theorem C28_total (v : Values ℝ) (ht : v.time ≠ []) (hP : v.P ≠ []) :
    ∃ p, Pressure.from_values v = .ok p := by
  unfold Pressure.from_values Values.final_time
  cases hT : v.time.getLast? with
  | none => exact absurd (List.getLast?_eq_none_iff.1 hT) ht
  | some t =>
    cases hp : v.P with
    | nil => exact absurd hp hP
    | cons a l => exact ⟨_, rfl⟩

theorem average_bounds (x0 : ℝ) (xs ys : List ℝ) (hl : ys.length = (x0 :: xs).length)
    (hx : Increasing (x0 :: xs)) (lo hi : ℝ) (hlo : ∀ y ∈ ys, lo ≤ y) (hhi : ∀ y ∈ ys, y ≤ hi) :
    lo * ((x0 :: xs).getLast (by simp) - x0) ≤ trapezoid (x0 :: xs) ys ∧
      trapezoid (x0 :: xs) ys ≤ hi * ((x0 :: xs).getLast (by simp) - x0) := by
  constructor
  · rw [← trapezoid_const lo x0 xs (ys.map fun _ => lo) (by simpa using hl) (by simp)]
    apply trapezoid_mono _ _ _ hx
    rw [List.forall₂_map_left_iff, List.forall₂_same]; exact hlo
  · rw [← trapezoid_const hi x0 xs (ys.map fun _ => hi) (by simpa using hl) (by simp)]
    apply trapezoid_mono _ _ _ hx
    rw [List.forall₂_map_right_iff, List.forall₂_same]; exact hhi

/-- A sampled cycle: times start at zero, never decrease and end at a positive time; the samples match
the times. -/
structure Spec.CycleGrid (time : List ℝ) (t_final : ℝ) : Prop where
  first : time.head? = some 0
  last : time.getLast? = some t_final
  increasing : Increasing time
  positive : 0 < t_final

theorem Spec.CycleGrid.cons {time : List ℝ} {tf : ℝ} (h : Spec.CycleGrid time tf) :
    ∃ ts, time = 0 :: ts ∧ (0 :: ts).getLast (by simp) = tf := by
  obtain ⟨h1, h2, -, -⟩ := h
  cases time with
  | nil => simp at h1
  | cons a ts =>
    simp at h1; subst h1
    exact ⟨ts, rfl, by rw [List.getLast?_eq_getLast_of_ne_nil (by simp)] at h2; simpa using h2⟩

/-- **C28**, the average lies between the extrema. -/
theorem C28_average_between (v : Values ℝ) (p : Pressure ℝ) (tf : ℝ)
    (hg : Spec.CycleGrid v.time tf) (hl : v.P.length = v.time.length)
    (h : Pressure.from_values v = .ok p) : p.min ≤ p.avg ∧ p.avg ≤ p.max := by
  obtain ⟨t, h1, h2, -, -, -⟩ := pressure_ok h
  obtain ⟨⟨-, hmax⟩, ⟨-, hmin⟩, -⟩ := C28_extrema v p h
  obtain ⟨ts, hts, hlast⟩ := hg.cons
  have : t = tf := by have := hg.last; rw [h1] at this; exact Option.some.inj this
  subst this
  rw [h2, integrate_eq, hts]
  have hb := average_bounds 0 ts v.P (by rw [hl, hts]) (by rw [← hts]; exact hg.increasing)
    p.min p.max hmin hmax
  rw [hlast, sub_zero] at hb
  exact ⟨by rw [le_div_iff₀ hg.positive]; exact hb.1, by rw [div_le_iff₀ hg.positive]; exact hb.2⟩

example : Spec.CycleGrid [0, 1, 3] 3 := ⟨rfl, rfl, by simp [Increasing], by norm_num⟩

/-! ## C29 -/

theorem m_dot_ok {v : Values ℝ} {l r : List ℝ} {m : ℝ} (h : v.m_dot_avg l r = .ok m) :
    ∃ t, v.time.getLast? = some t ∧
      m = trapezoid v.time (List.zipWith (fun a b => |a + b| / 2) l r) / t := by
  unfold Values.m_dot_avg Values.final_time at h
  cases ht : v.time.getLast? with
  | none => rw [ht] at h; cases h
  | some t =>
    rw [ht] at h
    cases h
    refine ⟨t, rfl, ?_⟩
    rw [integrate_eq]
    congr 2
    rw [List.map_zip_eq_zipWith]
    congr 1
    funext a b
    simp only [Function.curry]
    scalars
    ring

theorem trapezoid_zero : ∀ x y : List ℝ, (∀ a ∈ y, a = 0) → trapezoid x y = 0
  | [], _, _ => by simp [trapezoid]
  | [_], _, _ => by simp [trapezoid]
  | _ :: _ :: _, [], _ => by simp [trapezoid]
  | _ :: _ :: _, [_], _ => by simp [trapezoid]
  | x0 :: x1 :: xs, y0 :: y1 :: ys, h => by
    have := trapezoid_zero (x1 :: xs) (y1 :: ys) (fun a ha => h a (List.mem_cons_of_mem _ ha))
    simp only [trapezoid]
    rw [this, h y0 (by simp), h y1 (by simp)]; ring

theorem trapezoid_nonneg (x y : List ℝ) (hx : Increasing x) (hy : ∀ a ∈ y, 0 ≤ a) :
    0 ≤ trapezoid x y := by
  have h := trapezoid_mono x (y.map fun _ => 0) y hx
    (by rw [List.forall₂_map_left_iff, List.forall₂_same]; exact hy)
  rwa [trapezoid_zero x _ (by simp)] at h

theorem massflows_ok {α : Type} [Scalar α] {v : Values α} {m : MassFlows α} (h : MassFlows.from_values v = .ok m) :
    v.m_dot_avg v.m_dot_ck v.m_dot_kr = .ok m.chx ∧
    v.m_dot_avg v.m_dot_kr v.m_dot_rl = .ok m.regen ∧
    v.m_dot_avg v.m_dot_rl v.m_dot_le = .ok m.hhx := by
  unfold MassFlows.from_values at h
  cases h1 : v.m_dot_avg v.m_dot_ck v.m_dot_kr with
  | error e => rw [h1] at h; cases h
  | ok a =>
    cases h2 : v.m_dot_avg v.m_dot_kr v.m_dot_rl with
    | error e => rw [h1, h2] at h; cases h
    | ok b =>
      cases h3 : v.m_dot_avg v.m_dot_rl v.m_dot_le with
      | error e => rw [h1, h2, h3] at h; cases h
      | ok c => rw [h1, h2, h3] at h; cases h; exact ⟨rfl, rfl, rfl⟩

theorem mem_zipWith {α β γ : Type} {f : α → β → γ} {l : List α} {r : List β} {x : γ}
    (h : x ∈ List.zipWith f l r) : ∃ p ∈ l.zip r, x = f p.1 p.2 := by
  rw [← List.map_uncurry_zip_eq_zipWith] at h
  obtain ⟨p, hp, rfl⟩ := List.mem_map.1 h
  exact ⟨p, hp, rfl⟩

theorem m_dot_nonneg {v : Values ℝ} {l r : List ℝ} {m tf : ℝ} (hg : Spec.CycleGrid v.time tf)
    (h : v.m_dot_avg l r = .ok m) : 0 ≤ m := by
  obtain ⟨t, h1, rfl⟩ := m_dot_ok h
  have : t = tf := by have := hg.last; rw [h1] at this; exact Option.some.inj this
  subst this
  refine div_nonneg (trapezoid_nonneg _ _ hg.increasing fun a ha => ?_) hg.positive.le
  obtain ⟨p, -, rfl⟩ := mem_zipWith ha
  positivity

theorem m_dot_cancel {v : Values ℝ} {l r : List ℝ} {m : ℝ} (h : v.m_dot_avg l r = .ok m)
    (hz : ∀ p ∈ l.zip r, p.1 + p.2 = 0) : m = 0 := by
  obtain ⟨t, h1, rfl⟩ := m_dot_ok h
  rw [trapezoid_zero, zero_div]
  intro a ha
  obtain ⟨p, hp, rfl⟩ := mem_zipWith ha
  rw [hz p hp]; simp

theorem m_dot_le {v : Values ℝ} {l r : List ℝ} {m tf : ℝ} (hg : Spec.CycleGrid v.time tf)
    (h : v.m_dot_avg l r = .ok m) (hl : l.length = r.length) :
    m ≤ (trapezoid v.time (l.map fun a => |a|) / tf + trapezoid v.time (r.map fun a => |a|) / tf)
      / 2 := by
  obtain ⟨t, h1, rfl⟩ := m_dot_ok h
  have : t = tf := by have := hg.last; rw [h1] at this; exact Option.some.inj this
  subst this
  have hlin := trapezoid_linear (1 / 2) (1 / 2) v.time (l.map fun a => |a|) (r.map fun a => |a|)
    (by simpa using hl)
  have hle : trapezoid v.time (List.zipWith (fun a b => |a + b| / 2) l r)
      ≤ trapezoid v.time (List.zipWith (fun u v => 1 / 2 * u + 1 / 2 * v) (l.map fun a => |a|)
          (r.map fun a => |a|)) := by
    apply trapezoid_mono _ _ _ hg.increasing
    clear * - hl
    induction l generalizing r with
    | nil => simp
    | cons a l ih =>
      cases r with
      | nil => simp at hl
      | cons b r =>
        simp only [List.zipWith_cons_cons, List.map_cons]
        refine List.Forall₂.cons ?_ (ih (by simpa using hl))
        have := abs_add_le a b
        linarith
  rw [hlin] at hle
  rw [← add_div, div_div, mul_comm t 2, ← div_div]
  apply div_le_div_of_nonneg_right _ hg.positive.le
  linarith

/-- **C29**, sign: average mass flows are magnitudes. -/
theorem C29_nonneg (v : Values ℝ) (m : MassFlows ℝ) (tf : ℝ) (hg : Spec.CycleGrid v.time tf)
    (h : MassFlows.from_values v = .ok m) : 0 ≤ m.chx ∧ 0 ≤ m.regen ∧ 0 ≤ m.hhx := by
  obtain ⟨h1, h2, h3⟩ := massflows_ok h
  exact ⟨m_dot_nonneg hg h1, m_dot_nonneg hg h2, m_dot_nonneg hg h3⟩

/-- **C29**, reversal: reversing every flow changes nothing. -/
theorem C29_reversal (v : Values ℝ) :
    MassFlows.from_values { v with
      m_dot_ck := v.m_dot_ck.map (-·), m_dot_kr := v.m_dot_kr.map (-·),
      m_dot_rl := v.m_dot_rl.map (-·), m_dot_le := v.m_dot_le.map (-·) }
      = MassFlows.from_values v := by
  have key : ∀ l r : List ℝ, ((l.map (-·)).zip (r.map (-·))).map
        (fun p : ℝ × ℝ => 0.5 * Scalar.abs (p.1 + p.2))
      = (l.zip r).map fun p : ℝ × ℝ => 0.5 * Scalar.abs (p.1 + p.2) := by
    intro l r
    rw [List.zip_map, List.map_map]
    apply List.map_congr_left
    intro p _
    simp only [Function.comp, Prod.map]
    rw [show -p.1 + -p.2 = -(p.1 + p.2) by ring, real_abs, real_abs, abs_neg]
  simp only [MassFlows.from_values, Values.m_dot_avg, Values.final_time, key]

/-- **C29**, cancellation: equal and opposite interface flows at every sample give zero. -/
theorem C29_cancel (v : Values ℝ) (m : MassFlows ℝ) (h : MassFlows.from_values v = .ok m) :
    ((∀ p ∈ v.m_dot_ck.zip v.m_dot_kr, p.1 + p.2 = 0) → m.chx = 0) ∧
    ((∀ p ∈ v.m_dot_kr.zip v.m_dot_rl, p.1 + p.2 = 0) → m.regen = 0) ∧
    ((∀ p ∈ v.m_dot_rl.zip v.m_dot_le, p.1 + p.2 = 0) → m.hhx = 0) := by
  obtain ⟨h1, h2, h3⟩ := massflows_ok h
  exact ⟨m_dot_cancel h1, m_dot_cancel h2, m_dot_cancel h3⟩

/-- Cycle average of the magnitude of a sampled flow. -/
noncomputable def Spec.meanAbs (time : List ℝ) (tf : ℝ) (y : List ℝ) : ℝ :=
  trapezoid time (y.map fun a => |a|) / tf

/-- **C29**, bound: an exchanger's average flow never exceeds the mean of the average magnitudes at its
two faces. -/
theorem C29_le_mean_magnitude (v : Values ℝ) (m : MassFlows ℝ) (tf : ℝ)
    (hg : Spec.CycleGrid v.time tf) (h : MassFlows.from_values v = .ok m)
    (h1 : v.m_dot_ck.length = v.m_dot_kr.length) (h2 : v.m_dot_kr.length = v.m_dot_rl.length)
    (h3 : v.m_dot_rl.length = v.m_dot_le.length) :
    m.chx ≤ (Spec.meanAbs v.time tf v.m_dot_ck + Spec.meanAbs v.time tf v.m_dot_kr) / 2 ∧
    m.regen ≤ (Spec.meanAbs v.time tf v.m_dot_kr + Spec.meanAbs v.time tf v.m_dot_rl) / 2 ∧
    m.hhx ≤ (Spec.meanAbs v.time tf v.m_dot_rl + Spec.meanAbs v.time tf v.m_dot_le) / 2 := by
  obtain ⟨e1, e2, e3⟩ := massflows_ok h
  exact ⟨m_dot_le hg e1 h1, m_dot_le hg e2 h2, m_dot_le hg e3 h3⟩

/-- A three-point series meeting the hypotheses of C28 and C29. -/
noncomputable def exampleValues : Values ℝ :=
  { time := [0, 1, 2], P := [5, 7, 6], T_c := [1, 1, 1], T_e := [2, 2, 2], m_dot_ck := [1, -1, 1]
    m_dot_kr := [1, -2, 1], m_dot_rl := [0, 0, 0], m_dot_le := [0, 0, 0], Q_dot_k := [3, 3, 3]
    Q_dot_r := [0, 0, 0], Q_dot_l := [4, 4, 4] }

example : Spec.CycleGrid exampleValues.time 2 ∧ (∃ p, Pressure.from_values exampleValues = .ok p) ∧
    ∃ m, MassFlows.from_values exampleValues = .ok m ∧ m.chx = 5 / 4 :=
  ⟨⟨rfl, rfl, by simp [Increasing, exampleValues], by norm_num⟩, ⟨_, rfl⟩, _, rfl, by
    show integrate _ _ / _ = _
    rw [integrate_eq]
    simp only [exampleValues, List.zip_cons_cons, List.map_cons, trapezoid, List.zip_nil_left,
      List.map_nil]
    scalars
    norm_num [abs_of_pos, abs_of_neg]⟩

/-! ## C30 -/

/-- Cycle average as the code forms it. -/
noncomputable def Spec.mean (time : List ℝ) (tf : ℝ) (y : List ℝ) : ℝ := trapezoid time y / tf

/-- **C30**, adiabatic case, any arithmetic: an infinite resistance makes its own wall contribute the
literal zero, whatever the temperatures and whatever the other wall does; a resistance that is not infinite
makes its own wall contribute the mean of temperature difference over that resistance. -/
theorem C30_adiabatic {α : Type} [Scalar α] (v : Values α) (Tk Tl : α)
    (R : ws.ThermalResistance α) (q : HeatFlows α) (h : HeatFlows.from_values v Tk Tl R = .ok q) :
    ∃ t, v.time.getLast? = some t ∧ q.regen = integrate v.time v.Q_dot_r / t ∧
      (Scalar.isInfinite R.comp = true → q.chx = 0.0 + integrate v.time v.Q_dot_k / t) ∧
      (Scalar.isInfinite R.comp = false →
        q.chx = integrate v.time (v.T_c.map fun T => (T - Tk) / R.comp) / t
          + integrate v.time v.Q_dot_k / t) ∧
      (Scalar.isInfinite R.exp = true → q.hhx = 0.0 + integrate v.time v.Q_dot_l / t) ∧
      (Scalar.isInfinite R.exp = false →
        q.hhx = integrate v.time (v.T_e.map fun T => (Tl - T) / R.exp) / t
          + integrate v.time v.Q_dot_l / t) := by
  unfold HeatFlows.from_values Values.final_time at h
  cases ht : v.time.getLast? with
  | none => rw [ht] at h; cases h
  | some t =>
    rw [ht] at h
    cases h
    refine ⟨t, rfl, rfl, fun h => ?_, fun h => ?_, fun h => ?_, fun h => ?_⟩ <;> simp [h]

theorem heatflows_real (v : Values ℝ) (Tk Tl : ℝ) (R : ws.ThermalResistance ℝ) (tf : ℝ)
    (ht : v.time.getLast? = some tf) :
    HeatFlows.from_values v Tk Tl R = .ok
      { chx := trapezoid v.time (v.T_c.map fun T => (T - Tk) / R.comp) / tf
          + trapezoid v.time v.Q_dot_k / tf
        regen := trapezoid v.time v.Q_dot_r / tf
        hhx := trapezoid v.time (v.T_e.map fun T => (Tl - T) / R.exp) / tf
          + trapezoid v.time v.Q_dot_l / tf } := by
  unfold HeatFlows.from_values Values.final_time
  rw [ht]
  simp only [real_isInfinite, integrate_eq]
  rfl

theorem trapezoid_map_div (x y : List ℝ) (f : ℝ → ℝ) (R : ℝ) :
    trapezoid x (y.map fun T => f T / R) = trapezoid x (y.map f) / R := by
  have := trapezoid_linear (1 / R) 0 x (y.map f) (y.map f) rfl
  rw [show trapezoid x (y.map f) / R = 1 / R * trapezoid x (y.map f) + 0 * trapezoid x (y.map f) by
    ring, ← this]
  congr 1
  clear this
  induction y with
  | nil => rfl
  | cons a y ih => simp only [List.map_cons, List.zipWith_cons_cons, ih]; congr 1; ring

/-- **C30**, limit: as the thermal resistances grow without bound, the reported exchanger heat flows
tend to the adiabatic values, i.e. the averages of the exchanger heats alone. -/
theorem C30_limit (v : Values ℝ) (Tk Tl tf : ℝ) (ht : v.time.getLast? = some tf)
    (q : ℝ → HeatFlows ℝ) (hq : ∀ R, HeatFlows.from_values v Tk Tl ⟨R, R⟩ = .ok (q R)) :
    Filter.Tendsto (fun R => (q R).chx) Filter.atTop (nhds (Spec.mean v.time tf v.Q_dot_k)) ∧
    Filter.Tendsto (fun R => (q R).regen) Filter.atTop (nhds (Spec.mean v.time tf v.Q_dot_r)) ∧
    Filter.Tendsto (fun R => (q R).hhx) Filter.atTop (nhds (Spec.mean v.time tf v.Q_dot_l)) := by
  have hval : ∀ R, q R = _ := fun R => Except.ok.inj ((hq R).symm.trans
    (heatflows_real v Tk Tl ⟨R, R⟩ tf ht))
  have hlim : ∀ c d : ℝ, Filter.Tendsto (fun R : ℝ => c / R / tf + d) Filter.atTop (nhds d) := by
    intro c d
    have h0 : Filter.Tendsto (fun R : ℝ => c / R) Filter.atTop (nhds 0) :=
      tendsto_const_nhds.div_atTop Filter.tendsto_id
    simpa using (h0.div_const tf).add_const d
  refine ⟨?_, ?_, ?_⟩
  · simp only [hval, trapezoid_map_div]; exact hlim _ _
  · simp only [hval]; exact tendsto_const_nhds
  · simp only [hval, trapezoid_map_div]; exact hlim _ _

example : ∃ q : ℝ → HeatFlows ℝ, ∀ R, HeatFlows.from_values exampleValues 1 2 ⟨R, R⟩ = .ok (q R) :=
  ⟨_, fun R => heatflows_real exampleValues 1 2 ⟨R, R⟩ 2 rfl⟩

/-! ## C31 -/

/-- **C31.** Every series has one entry per point and entry `i` is that field of point `i`. Any
arithmetic. -/
theorem C31_series_aligned {α : Type} (l : List (state_equations.Values α)) :
    let v := Values.ofStateValues l
    (v.time.length = l.length ∧ v.P.length = l.length ∧ v.T_c.length = l.length ∧
      v.T_e.length = l.length ∧ v.m_dot_ck.length = l.length ∧ v.m_dot_kr.length = l.length ∧
      v.m_dot_rl.length = l.length ∧ v.m_dot_le.length = l.length ∧ v.Q_dot_k.length = l.length ∧
      v.Q_dot_r.length = l.length ∧ v.Q_dot_l.length = l.length) ∧
    ∀ (i : Nat) (p : state_equations.Values α), l[i]? = some p →
      v.time[i]? = some p.time ∧ v.P[i]? = some p.conditions.P ∧
      v.T_c[i]? = some p.conditions.T_c ∧ v.T_e[i]? = some p.conditions.T_e ∧
      v.m_dot_ck[i]? = some p.solution.m_dot_ck ∧ v.m_dot_kr[i]? = some p.solution.m_dot_kr ∧
      v.m_dot_rl[i]? = some p.solution.m_dot_rl ∧ v.m_dot_le[i]? = some p.solution.m_dot_le ∧
      v.Q_dot_k[i]? = some p.solution.Q_dot_k ∧ v.Q_dot_r[i]? = some p.solution.Q_dot_r ∧
      v.Q_dot_l[i]? = some p.solution.Q_dot_l := by
  intro v
  have hv : v = _ := ofStateValues_eq l
  rw [hv]
  refine ⟨by simp, fun i p hp => ?_⟩
  simp [hp]

example : (Values.ofStateValues [⟨(0 : ℕ), ⟨1, 2, 3⟩, ⟨4, 5, 6, 7, 8, 9, 10, 11, 12, 13⟩⟩,
    ⟨14, ⟨15, 16, 17⟩, ⟨18, 19, 20, 21, 22, 23, 24, 25, 26, 27⟩⟩]).Q_dot_l = [10, 24] := rfl

end Sett
