import Verif.Spec.FloatAverages
import Verif.Proofs.NearError
import Verif.Props.Averages
import Verif.Model.Performance

/-! # C92: cycle averages, powers and heats in binary64 -/

namespace Sett

open Float64 lu Spec performance

variable {L : Libm}

namespace FloatAverages

theorem slack_eq (n c : ℕ) : (2 * n + c) * ulp = ((2 * n + c) / 2 ^ 53 : ℝ) := by unfold ulp; ring

theorem slack_small {n c : ℕ} (hn : n ≤ 2 ^ 30) (hc : c ≤ 1000) : (2 * n + c) * ulp ≤ (1 / 100 : ℝ) := by
  have h1 : (n : ℝ) ≤ 2 ^ 30 := by exact_mod_cast hn
  have h2 : (c : ℝ) ≤ 1000 := by exact_mod_cast hc
  calc (2 * n + c) * ulp ≤ (2 * 2 ^ 30 + 1000) * ulp := mul_le_mul_of_nonneg_right (by linarith) ulp_pos.le
    _ ≤ _ := by unfold ulp; norm_num

theorem slack_nonneg (n c : ℕ) : (0 : ℝ) ≤ (2 * n + c) * ulp := by have := ulp_pos; positivity

theorem slack_succ (n c : ℕ) : ((2 * n + c) * ulp + 2 * ulp : ℝ) = (2 * n + (c + 2 : ℕ)) * ulp := by push_cast; ring

theorem slack_mono (n : ℕ) {c c' : ℕ} (h : c ≤ c') : ((2 * n + c) * ulp : ℝ) ≤ (2 * n + c') * ulp := by
  have h2 : (c : ℝ) ≤ c' := by exact_mod_cast h
  exact mul_le_mul_of_nonneg_right (by linarith) ulp_pos.le

/-- `Err64` with the error counted in roundings. -/
abbrev Close (n c d P : ℕ) (a : F64 L) (v s : ℝ) : Prop := Err64 ((2 * n + c) * ulp) d P a v s

variable {n c c' d d' P P' : ℕ} {a b : F64 L} {v w s t : ℝ}

theorem Close.add (hn : n ≤ 2 ^ 30) (hc : c' ≤ 900) (h : Close n c d P a v s) (h' : Close n c d P b w t)
    (hc' : c + 2 ≤ c') (hd : d' + 3 ≤ d) (hd' : d' ≤ 900) (hP : P + 1 ≤ P') (hP' : P' ≤ 1000) :
    Close n c' d' P' (a + b) (v + w) (s + t) :=
  (Err64.add (slack_nonneg n c) (slack_small hn (by omega)) h h' hd hd' hP hP').mono
    (by rw [slack_succ]; exact slack_mono n hc') le_rfl le_rfl

theorem Close.sub (hn : n ≤ 2 ^ 30) (hc : c' ≤ 900) (h : Close n c d P a v s) (h' : Close n c d P b w t)
    (hc' : c + 2 ≤ c') (hd : d' + 3 ≤ d) (hd' : d' ≤ 900) (hP : P + 1 ≤ P') (hP' : P' ≤ 1000) :
    Close n c' d' P' (a - b) (v - w) (s + t) :=
  (Err64.sub (slack_nonneg n c) (slack_small hn (by omega)) h h' hd hd' hP hP').mono
    (by rw [slack_succ]; exact slack_mono n hc') le_rfl le_rfl

theorem Close.weaken (h : Close n c d P a v s) (hc : c ≤ c') (hd : d' ≤ d) (hP : P ≤ P') : Close n c' d' P' a v s :=
  Err64.mono h (slack_mono n hc) hd hP

theorem Close.rounded (h : Close n c d P a v s) (hd : 400 ≤ d) (hc : c ≤ c') : Rounded n c' a v s := by
  have h := h.weaken hc hd le_rfl
  refine ⟨h.fin, ?_⟩
  rw [← slack_eq]
  exact h.err

theorem Close.exact (h : Usual a) : Close n c d 100 a a.raw.real |a.raw.real| :=
  Err64.exact (slack_nonneg n c) h.1 h.2

/-- The integral of samples each known up to a few roundings. -/
theorem close_integral {β : Type} {k p q : ℕ} (hk : k ≤ 80) (hp : p ≤ 300) (hq : q ≤ 300) (hpq : p + q ≤ 330)
    {x : List (F64 L)} (hx : MachineTimes x) (y : List β) (f : β → F64 L) (V S : β → ℝ)
    (hy : ∀ z ∈ y, Ap k p q (f z) (V z) (S z)) :
    Close x.length (k + 11) 590 (p + 140) (integrate x (y.map f)) (trapezoid (reals x) (y.map V))
      (trapezoid (reals x) (y.map S)) := by
  have h := integrate_near hk hp hq hpq x hx.usual hx.increasing (y.map fun z => (f z, V z, S z)) (by
    intro z hz
    obtain ⟨b, hb, rfl⟩ := List.mem_map.1 hz
    exact hy b hb) hx.count
  simp only [List.map_map] at h
  have e : ((2 * x.length + (k + 11 : ℕ)) * ulp : ℝ) = (2 * x.length + k + 11) * ulp := by push_cast; ring
  unfold Close
  rw [e]
  exact h

theorem Close.average (hn : n ≤ 2 ^ 30) (hc : c ≤ 900) (h : Close n c 590 P a v s) {f : F64 L} (hf : f.raw.Finite)
    (hf1 : 1 / 2 ^ 100 ≤ f.raw.real) (hP : P ≤ 500) :
    Close n (c + 2) 480 600 (a / f) (v / f.raw.real) (s / f.raw.real) := by
  have h0 : 0 < f.raw.real := lt_of_lt_of_le (by positivity) hf1
  have h1 : 1 / 2 ^ 100 ≤ |re f| := by
    show _ ≤ |f.raw.real|
    rw [abs_of_pos h0]; exact hf1
  have := Err64.div (slack_nonneg n c) (slack_small hn (by omega)) h hf h1 (d' := 480) (P' := 600) (by omega) (by omega)
    (by omega) (by omega)
  unfold Close
  rw [← slack_succ]
  have e : |re f| = f.raw.real := abs_of_pos h0
  rw [e] at this
  exact this

theorem Close.times (hn : n ≤ 2 ^ 30) (hc : c ≤ 900) (h : Close n c 590 P a v s) {f : F64 L} (hf : Usual f)
    (hP : P ≤ 500) : Close n (c + 2) 480 600 (f * a) (f.raw.real * v) (|f.raw.real| * s) := by
  have := Err64.mul (slack_nonneg n c) (slack_small hn (by omega)) h hf.1 hf.2 (d' := 480) (P' := 600) (by omega)
    (by omega) (by omega) (by omega)
  unfold Close
  rw [← slack_succ]
  exact this

theorem close_series {x y : List (F64 L)} (hx : MachineTimes x) (hy : AllUsual y) :
    Close x.length 11 590 240 (integrate x y) (trapezoid (reals x) (reals y)) (trapezoid (reals x) (sizes (reals y))) := by
  have := close_integral (k := 0) (p := 100) (q := 0) (by omega) (by omega) (by omega) (by omega) hx y id re
    (fun a => |re a|) (fun z hz => Ap.exact (hy z hz).1 (hy z hz).2)
  rw [List.map_id] at this
  unfold sizes reals
  rw [List.map_map]
  exact this

theorem div_inf {x R : F64 L} (hx : ok x) (hR : R.raw.isInfinite = true) : ok (x / R) ∧ re (x / R) = 0 := by
  cases R with
  | inf t =>
    cases x with
    | nan => exact hx.elim
    | inf _ => exact hx.elim
    | zero _ => exact ⟨trivial, rfl⟩
    | fin _ _ => exact ⟨trivial, rfl⟩
  | nan => cases hR
  | zero _ => cases hR
  | fin _ _ => cases hR

/-- Heat flow through a wall at one sample; an infinite resistance needs no special case. -/
theorem ap_wall {R T U : F64 L} (hR : Resists R) (hT : Usual T) (hU : Usual U) :
    Ap 3 201 103 ((T - U) / R) (wallFlow R T U) |wallFlow R T U| := by
  have h1 := Ap.diff hT.1 hU.1 (by omega) hT.2 hU.2
  unfold wallFlow
  rcases hR with hR | hR
  · have h2 := div_inf h1.fin hR
    rw [if_pos hR]
    refine ⟨h2.1, le_rfl, by rw [abs_zero]; positivity, ?_⟩
    have ht := tiny_pos
    rw [h2.2, sub_zero, abs_zero, mul_zero, zero_add]
    exact mul_nonneg ht.le (by positivity)
  · have hni : ¬ R.raw.isInfinite = true := by
      intro h
      cases R with
      | inf t => exact hR.1
      | nan => cases h
      | zero _ => cases h
      | fin _ _ => cases h
    rw [if_neg hni]
    have h2 := h1.div hR.1 hR.2 (e := 100) (Q := 103) (by omega) (by omega) (by omega) (by omega)
    rw [abs_div]
    exact h2

theorem zipWith_map {β γ δ : Type} (f : β → γ → δ) (l : List β) (r : List γ) :
    List.zipWith f l r = (l.zip r).map fun p => f p.1 p.2 := by
  induction l generalizing r with
  | nil => simp
  | cons a l ih =>
    cases r with
    | nil => simp
    | cons b r => simp [ih]

/-- `total_cmp` of finite numbers agrees with the order of the numbers they represent. -/
theorem totalLe_real {x y : F64 L} (hx : ok x) (hy : ok y) :
    (Scalar.totalLe x y = true → re x ≤ re y) ∧ (Scalar.totalLe x y = false → re y ≤ re x) := by
  have key : (Raw.le x y = true → re x ≤ re y) ∧ (Raw.le x y = false → re y ≤ re x) :=
    ⟨(Raw.le_finite hx hy).1, fun h => by
      by_contra h2
      have h3 : Raw.le x y = true := (Raw.le_finite hx hy).2 (not_le.1 h2).le
      rw [h] at h3; cases h3⟩
  cases x with
  | nan => exact hx.elim
  | inf _ => exact hx.elim
  | zero s =>
    cases y with
    | nan => exact hy.elim
    | inf _ => exact hy.elim
    | zero t => exact ⟨fun _ => le_rfl, fun _ => le_rfl⟩
    | fin _ _ => exact key
  | fin _ _ =>
    cases y with
    | nan => exact hy.elim
    | inf _ => exact hy.elim
    | zero t => exact key
    | fin _ _ => exact key

theorem maxBy_machine {l : List (F64 L)} (hl : AllUsual l) {m : F64 L} (h : maxBy l = some m) :
    m ∈ l ∧ ∀ z ∈ l, re z ≤ re m := by
  cases l with
  | nil => simp [maxBy] at h
  | cons a l =>
    simp only [maxBy, Option.some.injEq] at h
    rw [← h]
    clear h
    have : ∀ (l : List (F64 L)) (a : F64 L), AllUsual (a :: l) →
        let m := l.foldl (fun x y => if Scalar.totalLe x y then y else x) a
        m ∈ a :: l ∧ ∀ z ∈ a :: l, re z ≤ re m := by
      intro l
      induction l with
      | nil => intro a _; simp
      | cons b l ih =>
        intro a hl
        have hb := totalLe_real (hl a (by simp)).1 (hl b (by simp)).1
        simp only [List.foldl_cons]
        by_cases hab : Scalar.totalLe a b = true
        · simp only [hab, if_true]
          obtain ⟨i1, i2⟩ := ih b fun z hz => hl z (List.mem_cons_of_mem _ hz)
          refine ⟨List.mem_cons_of_mem _ i1, fun z hz => ?_⟩
          rcases List.mem_cons.1 hz with rfl | hz
          · exact (hb.1 hab).trans (i2 b (by simp))
          · exact i2 z hz
        · simp only [hab, Bool.false_eq_true, if_false]
          obtain ⟨i1, i2⟩ := ih a fun z hz => hl z (by
            rcases List.mem_cons.1 hz with rfl | hz
            · simp
            · simp [hz])
          refine ⟨by rcases List.mem_cons.1 i1 with h | h <;> simp [h], fun z hz => ?_⟩
          rcases List.mem_cons.1 hz with rfl | hz
          · exact i2 z (by simp)
          rcases List.mem_cons.1 hz with rfl | hz
          · exact (hb.2 (by simpa using hab)).trans (i2 a (by simp))
          · exact i2 z (by simp [hz])
    exact this l a hl

theorem minBy_machine {l : List (F64 L)} (hl : AllUsual l) {m : F64 L} (h : minBy l = some m) :
    m ∈ l ∧ ∀ z ∈ l, re m ≤ re z := by
  cases l with
  | nil => simp [minBy] at h
  | cons a l =>
    simp only [minBy, Option.some.injEq] at h
    rw [← h]
    clear h
    have : ∀ (l : List (F64 L)) (a : F64 L), AllUsual (a :: l) →
        let m := l.foldl (fun x y => if Scalar.totalLe x y then x else y) a
        m ∈ a :: l ∧ ∀ z ∈ a :: l, re m ≤ re z := by
      intro l
      induction l with
      | nil => intro a _; simp
      | cons b l ih =>
        intro a hl
        have hb := totalLe_real (hl a (by simp)).1 (hl b (by simp)).1
        simp only [List.foldl_cons]
        by_cases hab : Scalar.totalLe a b = true
        · simp only [hab, if_true]
          obtain ⟨i1, i2⟩ := ih a fun z hz => hl z (by
            rcases List.mem_cons.1 hz with rfl | hz
            · simp
            · simp [hz])
          refine ⟨by rcases List.mem_cons.1 i1 with h | h <;> simp [h], fun z hz => ?_⟩
          rcases List.mem_cons.1 hz with rfl | hz
          · exact i2 z (by simp)
          rcases List.mem_cons.1 hz with rfl | hz
          · exact (i2 a (by simp)).trans (hb.1 hab)
          · exact i2 z (by simp [hz])
        · simp only [hab, Bool.false_eq_true, if_false]
          obtain ⟨i1, i2⟩ := ih b fun z hz => hl z (List.mem_cons_of_mem _ hz)
          refine ⟨List.mem_cons_of_mem _ i1, fun z hz => ?_⟩
          rcases List.mem_cons.1 hz with rfl | hz
          · exact (i2 b (by simp)).trans (hb.2 (by simpa using hab))
          · exact i2 z hz
    exact this l a hl

end FloatAverages

open FloatAverages

/-- **C92**, the integral: for usual samples and non-decreasing times, `integrate` in binary64 is finite and
is the trapezoidal rule up to `(2n + 11)·2^-53` of the rule applied to the magnitudes. -/
theorem C92_integral (x y : List (F64 L)) (hx : MachineTimes x) (hy : AllUsual y) :
    Rounded x.length 11 (integrate x y) (trapezoid (reals x) (reals y)) (trapezoid (reals x) (sizes (reals y))) :=
  (close_series hx hy).rounded (by omega) le_rfl

/-- **C92**, the average pressure, and its position between the reported extremes. -/
theorem C92_pressure (v : Values (F64 L)) (p : Pressure (F64 L)) (tf : F64 L) (hx : MachineTimes v.time)
    (hlast : v.time.getLast? = some tf) (htf : 1 / 2 ^ 100 ≤ tf.raw.real) (hP : AllUsual v.P)
    (h : Pressure.from_values v = .ok p) :
    Rounded v.time.length 13 p.avg (mean (reals v.time) tf.raw.real (reals v.P))
      (mean (reals v.time) tf.raw.real (sizes (reals v.P))) ∧
    ((∀ a ∈ v.P, 0 < a.raw.real) → v.P.length = v.time.length → (reals v.time).head? = some 0 →
      p.min.raw.real * (1 - (2 * v.time.length + 13) / 2 ^ 53) - 1 / 2 ^ 400 ≤ p.avg.raw.real ∧
      p.avg.raw.real ≤ p.max.raw.real * (1 + (2 * v.time.length + 13) / 2 ^ 53) + 1 / 2 ^ 400) := by
  obtain ⟨t, h1, h2, -, h4, h5⟩ := pressure_ok h
  have ht : t = tf := by rw [hlast] at h1; exact (Option.some.inj h1).symm
  subst ht
  have htm : t ∈ v.time := List.mem_of_getLast? hlast
  have hr : Rounded v.time.length 13 p.avg (mean (reals v.time) t.raw.real (reals v.P))
      (mean (reals v.time) t.raw.real (sizes (reals v.P))) := by
    rw [h2]
    exact (Close.average hx.count (by omega) (close_series hx hP) (hx.usual t htm).1 htf (by omega)).rounded
      (by omega) le_rfl
  refine ⟨hr, fun hpos hlen h0 => ?_⟩
  have hsz : sizes (reals v.P) = reals v.P := by
    unfold sizes
    conv_rhs => rw [← List.map_id (reals v.P)]
    apply List.map_congr_left
    intro a ha
    obtain ⟨b, hb, rfl⟩ := List.mem_map.1 ha
    exact abs_of_pos (hpos b hb)
  rw [hsz] at hr
  obtain ⟨hM, hM'⟩ := maxBy_machine hP h4
  obtain ⟨hm, hm'⟩ := minBy_machine hP h5
  have t0 : 0 < t.raw.real := lt_of_lt_of_le (by positivity) htf
  have hg : CycleGrid (reals v.time) t.raw.real :=
    ⟨h0, by unfold reals; rw [List.getLast?_map, hlast]; rfl, hx.increasing, t0⟩
  obtain ⟨ts, hts, hl⟩ := hg.cons
  have hb := average_bounds 0 ts (reals v.P) (by rw [← hts]; simp [reals, hlen]) (by rw [← hts]; exact hx.increasing)
    p.min.raw.real p.max.raw.real
    (fun y hy => by obtain ⟨b, hb, rfl⟩ := List.mem_map.1 hy; exact hm' b hb)
    (fun y hy => by obtain ⟨b, hb, rfl⟩ := List.mem_map.1 hy; exact hM' b hb)
  rw [hl, sub_zero, ← hts] at hb
  have b1 : p.min.raw.real ≤ mean (reals v.time) t.raw.real (reals v.P) := (le_div_iff₀ t0).2 hb.1
  have b2 : mean (reals v.time) t.raw.real (reals v.P) ≤ p.max.raw.real := (div_le_iff₀ t0).2 hb.2
  have hmp := hpos _ hm
  have := hr.2
  push_cast at this
  obtain ⟨ε, hε⟩ : ∃ ε : ℝ, ε = (2 * v.time.length + 13) / 2 ^ 53 := ⟨_, rfl⟩
  have hε0 : 0 ≤ ε := by rw [hε]; positivity
  have hε1 : ε ≤ 1 := by
    have := slack_small (c := 13) hx.count (by omega)
    rw [slack_eq] at this
    push_cast at this
    rw [hε]; linarith
  rw [← hε] at this ⊢
  generalize mean (reals v.time) t.raw.real (reals v.P) = M at *
  generalize (1 : ℝ) / 2 ^ 400 = δ at *
  rw [abs_le] at this
  constructor
  · nlinarith [this.1, mul_le_mul_of_nonneg_left b1 (by linarith : 0 ≤ 1 - ε)]
  · nlinarith [this.2, mul_le_mul_of_nonneg_left b2 hε0]

/-- The average flow through an exchanger at each sample. -/
noncomputable def Spec.through (l r : List ℝ) : List ℝ := List.zipWith (fun a b => |a + b| / 2) l r

theorem m_dot_rounded {v : Values (F64 L)} {tf : F64 L} (hx : MachineTimes v.time)
    (hlast : v.time.getLast? = some tf) (htf : 1 / 2 ^ 100 ≤ tf.raw.real) {l r : List (F64 L)} (hl : AllUsual l)
    (hr : AllUsual r) {m : F64 L} (h : v.m_dot_avg l r = .ok m) :
    Rounded v.time.length 17 m (mean (reals v.time) tf.raw.real (through (reals l) (reals r)))
      (mean (reals v.time) tf.raw.real (through (reals l) (reals r))) := by
  unfold Values.m_dot_avg Values.final_time at h
  rw [hlast] at h
  cases h
  have htm : tf ∈ v.time := List.mem_of_getLast? hlast
  have hs := close_integral (k := 4) (p := 101) (q := 110) (by omega) (by omega) (by omega) (by omega) hx (l.zip r)
    (fun p => 0.5 * Scalar.abs (p.1 + p.2)) (fun p => |re p.1 + re p.2| / 2) (fun p => |re p.1 + re p.2| / 2) (by
      intro z hz
      have hz' := List.of_mem_zip hz
      have z1 := hl _ hz'.1
      have z2 := hr _ hz'.2
      have h1 := (Ap.plus z1.1 z2.1 (by omega) z1.2 z2.2).abs'
      have hh : Ap 0 0 0 (0.5 : F64 L) (1 / 2) (1 / 2) := by
        have := Ap.exact (p := 0) (half_ok (L := L)).1 (by rw [half_ok.2]; norm_num)
        rw [half_ok.2, abs_of_pos (by norm_num : (0 : ℝ) < 1 / 2)] at this
        exact this
      have h2 := hh.mul h1 (Q := 110) (by omega) (by omega) (by omega) (by omega) (by omega)
      have e : |re z.1 + re z.2| / 2 = 1 / 2 * |re z.1 + re z.2| := by ring
      rw [e]
      exact h2.weaken (by omega) le_rfl le_rfl (h2.size.trans (pow_le_pow_right₀ (by norm_num) (by omega))))
  have e : (l.zip r).map (fun p => |re p.1 + re p.2| / 2) = through (reals l) (reals r) := by
    unfold through reals
    rw [zipWith_map, List.zip_map, List.map_map]
    rfl
  rw [e] at hs
  exact (Close.average hx.count (by omega) hs (hx.usual tf htm).1 htf (by omega)).rounded (by omega) le_rfl

/-- **C92**, the average mass flows. -/
theorem C92_mass_flows (v : Values (F64 L)) (m : MassFlows (F64 L)) (tf : F64 L) (hx : MachineTimes v.time)
    (hlast : v.time.getLast? = some tf) (htf : 1 / 2 ^ 100 ≤ tf.raw.real) (hck : AllUsual v.m_dot_ck)
    (hkr : AllUsual v.m_dot_kr) (hrl : AllUsual v.m_dot_rl) (hle : AllUsual v.m_dot_le)
    (h : MassFlows.from_values v = .ok m) :
    let avg := fun l r => mean (reals v.time) tf.raw.real (through (reals l) (reals r))
    Rounded v.time.length 17 m.chx (avg v.m_dot_ck v.m_dot_kr) (avg v.m_dot_ck v.m_dot_kr) ∧
    Rounded v.time.length 17 m.regen (avg v.m_dot_kr v.m_dot_rl) (avg v.m_dot_kr v.m_dot_rl) ∧
    Rounded v.time.length 17 m.hhx (avg v.m_dot_rl v.m_dot_le) (avg v.m_dot_rl v.m_dot_le) := by
  obtain ⟨h1, h2, h3⟩ := massflows_ok h
  exact ⟨m_dot_rounded hx hlast htf hck hkr h1, m_dot_rounded hx hlast htf hkr hrl h2,
    m_dot_rounded hx hlast htf hrl hle h3⟩

theorem close_wall {x : List (F64 L)} (hx : MachineTimes x) {R U : F64 L} (hR : Resists R) (hU : Usual U)
    {T : List (F64 L)} (hT : AllUsual T) :
    Close x.length 14 590 341 (integrate x (T.map fun t => (t - U) / R)) (trapezoid (reals x) (T.map fun t => wallFlow R t U))
      (trapezoid (reals x) (sizes (T.map fun t => wallFlow R t U))) := by
  have := close_integral (k := 3) (p := 201) (q := 103) (by omega) (by omega) (by omega) (by omega) hx T
    (fun t => (t - U) / R) (fun t => wallFlow R t U) (fun t => |wallFlow R t U|) (fun t ht => ap_wall hR (hT t ht) hU)
  unfold sizes
  rw [List.map_map]
  exact this

theorem close_wall' {x : List (F64 L)} (hx : MachineTimes x) {R U : F64 L} (hR : Resists R) (hU : Usual U)
    {T : List (F64 L)} (hT : AllUsual T) :
    Close x.length 14 590 341 (integrate x (T.map fun t => (U - t) / R)) (trapezoid (reals x) (T.map fun t => wallFlow R U t))
      (trapezoid (reals x) (sizes (T.map fun t => wallFlow R U t))) := by
  have := close_integral (k := 3) (p := 201) (q := 103) (by omega) (by omega) (by omega) (by omega) hx T
    (fun t => (U - t) / R) (fun t => wallFlow R U t) (fun t => |wallFlow R U t|) (fun t ht => ap_wall hR hU (hT t ht))
  unfold sizes
  rw [List.map_map]
  exact this

theorem trapezoid_none (x : List ℝ) {β : Type} (l : List β) : trapezoid x (l.map fun _ => (0 : ℝ)) = 0 :=
  trapezoid_zero x _ (by simp)

theorem guarded {x : List (F64 L)} (hx : MachineTimes x) {tf : F64 L} (htf : tf.raw.Finite)
    (htf1 : 1 / 2 ^ 100 ≤ tf.raw.real) {R : F64 L} {T : List (F64 L)} {f : F64 L → F64 L} {V : F64 L → ℝ}
    (hV : R.raw.isInfinite = true → ∀ t, V t = 0)
    (h : Close x.length 14 590 341 (integrate x (T.map f)) (trapezoid (reals x) (T.map V))
      (trapezoid (reals x) (sizes (T.map V)))) :
    Close x.length 16 480 600 (if Scalar.isInfinite R then 0.0 else integrate x (T.map f) / tf)
      (mean (reals x) tf.raw.real (T.map V)) (mean (reals x) tf.raw.real (sizes (T.map V))) := by
  by_cases hR : R.raw.isInfinite = true
  · have e : Scalar.isInfinite R = true := hR
    rw [if_pos e]
    have e1 : T.map V = T.map fun _ => (0 : ℝ) := List.map_congr_left fun t _ => hV hR t
    have e2 : sizes (T.map V) = T.map fun _ => (0 : ℝ) := by
      rw [e1]; unfold sizes; rw [List.map_map]; exact List.map_congr_left fun t _ => abs_zero
    unfold mean
    rw [e2, e1, trapezoid_none, zero_div]
    refine ⟨lit_zero_ok.1, by simp, by positivity, ?_⟩
    rw [lit_zero_ok.2, sub_self, abs_zero, mul_zero, zero_add]
    positivity
  · have e : ¬ Scalar.isInfinite R = true := hR
    rw [if_neg e]
    exact Close.average hx.count (by omega) h htf htf1 (by omega)

/-- **C92**, the average heat flows. -/
theorem C92_heat_flows (v : Values (F64 L)) (q : HeatFlows (F64 L)) (Tk Tl : F64 L) (R : ws.ThermalResistance (F64 L))
    (tf : F64 L) (hx : MachineTimes v.time) (hlast : v.time.getLast? = some tf) (htf : 1 / 2 ^ 100 ≤ tf.raw.real)
    (hTk : Usual Tk) (hTl : Usual Tl) (hRc : Resists R.comp) (hRe : Resists R.exp) (hTc : AllUsual v.T_c)
    (hTe : AllUsual v.T_e) (hk : AllUsual v.Q_dot_k) (hr : AllUsual v.Q_dot_r) (hl : AllUsual v.Q_dot_l)
    (h : HeatFlows.from_values v Tk Tl R = .ok q) :
    let avg := mean (reals v.time) tf.raw.real
    let comp := v.T_c.map fun T => wallFlow R.comp T Tk
    let exp := v.T_e.map fun T => wallFlow R.exp Tl T
    Rounded v.time.length 18 q.chx (avg comp + avg (reals v.Q_dot_k)) (avg (sizes comp) + avg (sizes (reals v.Q_dot_k))) ∧
    Rounded v.time.length 18 q.regen (avg (reals v.Q_dot_r)) (avg (sizes (reals v.Q_dot_r))) ∧
    Rounded v.time.length 18 q.hhx (avg exp + avg (reals v.Q_dot_l)) (avg (sizes exp) + avg (sizes (reals v.Q_dot_l))) := by
  have htm : tf ∈ v.time := List.mem_of_getLast? hlast
  have hf := (hx.usual tf htm).1
  have hcnt := hx.count
  unfold HeatFlows.from_values Values.final_time at h
  rw [hlast] at h
  cases h
  have flow : ∀ {y : List (F64 L)}, AllUsual y → Close v.time.length 13 480 600 (integrate v.time y / tf)
      (mean (reals v.time) tf.raw.real (reals y)) (mean (reals v.time) tf.raw.real (sizes (reals y))) := fun hy =>
    Close.average hcnt (by omega) (close_series hx hy) hf htf (by omega)
  refine ⟨?_, (flow hr).rounded (by omega) (by omega), ?_⟩
  · have h1 := guarded (R := R.comp) hx hf htf (fun hR t => by simp [wallFlow, hR]) (close_wall hx hRc hTk hTc)
    exact (Close.add hcnt (by omega) h1 ((flow hk).weaken (by omega) le_rfl le_rfl) (c' := 18) (d' := 470) (P' := 610)
      (by omega) (by omega) (by omega) (by omega) (by omega)).rounded (by omega) le_rfl
  · have h1 := guarded (R := R.exp) hx hf htf (fun hR t => by simp [wallFlow, hR]) (close_wall' hx hRe hTl hTe)
    exact (Close.add hcnt (by omega) h1 ((flow hl).weaken (by omega) le_rfl le_rfl) (c' := 18) (d' := 470) (P' := 610)
      (by omega) (by omega) (by omega) (by omega) (by omega)).rounded (by omega) le_rfl


/-! ## Performance -/

/-- The machine numbers `Performance` is computed from. -/
structure Spec.UsualPerformance (e : Engine (F64 L)) (perf : Performance (F64 L)) : Prop where
  time : MachineTimes e.values.time
  frequency : Usual (e.components.ws.frequency e.state.ws)
  P : AllUsual e.values.P
  P_c : AllUsual perf.pressures_with_drops.P_c
  P_e : AllUsual perf.pressures_with_drops.P_e
  dVc : AllUsual (dV_dts e.values.time e.components.ws e.state.ws).1
  dVe : AllUsual (dV_dts e.values.time e.components.ws e.state.ws).2
  T_c : AllUsual e.values.T_c
  T_e : AllUsual e.values.T_e
  Q_dot_k : AllUsual e.values.Q_dot_k
  Q_dot_l : AllUsual e.values.Q_dot_l
  chx : Usual e.state.temp.chx
  hhx : Usual e.state.temp.hhx
  R_c : Resists (e.components.ws.thermal_resistance e.state.ws).comp
  R_e : Resists (e.components.ws.thermal_resistance e.state.ws).exp
  comp_mechanical : Usual (e.components.ws.parasitics e.state.ws).comp.mechanical
  exp_mechanical : Usual (e.components.ws.parasitics e.state.ws).exp.mechanical
  exp_thermal : Usual (e.components.ws.parasitics e.state.ws).exp.thermal
  chx_mechanical : Usual (e.components.chx.parasitics e.state.chx).mechanical
  hhx_mechanical : Usual (e.components.hhx.parasitics e.state.hhx).mechanical
  hhx_thermal : Usual (e.components.hhx.parasitics e.state.hhx).thermal
  regen_thermal : Usual (e.components.regen.parasitics e.state.regen).thermal

theorem close_work {x : List (F64 L)} (hx : MachineTimes x) {pc dvc pe dve : List (F64 L)} (h1 : AllUsual pc)
    (h2 : AllUsual dvc) (h3 : AllUsual pe) (h4 : AllUsual dve) :
    Close x.length 16 590 341
      (integrate x (List.zipWith (· + ·) (List.zipWith (· * ·) pc dvc) (List.zipWith (· * ·) pe dve)))
      (trapezoid (reals x) (work (reals pc) (reals dvc) (reals pe) (reals dve)))
      (trapezoid (reals x) (work (sizes (reals pc)) (sizes (reals dvc)) (sizes (reals pe)) (sizes (reals dve)))) := by
  have := close_integral (k := 5) (p := 201) (q := 107) (by omega) (by omega) (by omega) (by omega) hx
    ((pc.zip dvc).zip (pe.zip dve)) (fun z => z.1.1 * z.1.2 + z.2.1 * z.2.2)
    (fun z => re z.1.1 * re z.1.2 + re z.2.1 * re z.2.2)
    (fun z => |re z.1.1| * |re z.1.2| + |re z.2.1| * |re z.2.2|) (by
      intro z hz
      obtain ⟨z1, z2⟩ := z
      have hz := List.of_mem_zip hz
      have a := List.of_mem_zip hz.1
      have b := List.of_mem_zip hz.2
      have m1 := (Ap.exact (h1 _ a.1).1 (h1 _ a.1).2).mul (Ap.exact (h2 _ a.2).1 (h2 _ a.2).2) (Q := 104) (by omega)
        (by omega) (by omega) (by omega) (by omega)
      have m2 := (Ap.exact (h3 _ b.1).1 (h3 _ b.1).2).mul (Ap.exact (h4 _ b.2).1 (h4 _ b.2).2) (Q := 104) (by omega)
        (by omega) (by omega) (by omega) (by omega)
      exact m1.add m2 (K := 3) (P := 201) (Q := 107) (by omega) (by omega) (by omega) (by omega) (by omega) (by omega)
        (by omega) (by omega) (by omega))
  have e0 : List.zipWith (· + ·) (List.zipWith (· * ·) pc dvc) (List.zipWith (· * ·) pe dve)
      = ((pc.zip dvc).zip (pe.zip dve)).map fun z => z.1.1 * z.1.2 + z.2.1 * z.2.2 := by
    rw [zipWith_map (fun a b : F64 L => a + b), zipWith_map (fun a b : F64 L => a * b),
      zipWith_map (fun a b : F64 L => a * b), List.zip_map, List.map_map]
    rfl
  have e1 : work (reals pc) (reals dvc) (reals pe) (reals dve)
      = ((pc.zip dvc).zip (pe.zip dve)).map fun z => re z.1.1 * re z.1.2 + re z.2.1 * re z.2.2 := by
    unfold work reals
    rw [zipWith_map (fun a b : ℝ => a + b), zipWith_map (fun a b : ℝ => a * b),
      zipWith_map (fun a b : ℝ => a * b), List.zip_map, List.zip_map, List.zip_map, List.map_map, List.zip_map,
      List.map_map]
    rfl
  have e2 : work (sizes (reals pc)) (sizes (reals dvc)) (sizes (reals pe)) (sizes (reals dve))
      = ((pc.zip dvc).zip (pe.zip dve)).map fun z => |re z.1.1| * |re z.1.2| + |re z.2.1| * |re z.2.2| := by
    unfold work sizes reals
    simp only [List.map_map]
    rw [zipWith_map (fun a b : ℝ => a + b), zipWith_map (fun a b : ℝ => a * b),
      zipWith_map (fun a b : ℝ => a * b), List.zip_map, List.zip_map, List.zip_map, List.map_map, List.zip_map,
      List.map_map]
    rfl
  rw [e0, e1, e2]
  exact this

theorem close_ideal {x : List (F64 L)} (hx : MachineTimes x) {p dvc dve : List (F64 L)} (h1 : AllUsual p)
    (h2 : AllUsual dvc) (h3 : AllUsual dve) :
    Close x.length 16 590 341 (integrate x (List.zipWith (· * ·) p (List.zipWith (· + ·) dvc dve)))
      (trapezoid (reals x) (idealWork (reals p) (reals dvc) (reals dve)))
      (trapezoid (reals x) (sizes (idealWork (reals p) (reals dvc) (reals dve)))) := by
  have := close_integral (k := 5) (p := 201) (q := 107) (by omega) (by omega) (by omega) (by omega) hx
    (p.zip (dvc.zip dve)) (fun z => z.1 * (z.2.1 + z.2.2))
    (fun z => re z.1 * (re z.2.1 + re z.2.2))
    (fun z => |re z.1 * (re z.2.1 + re z.2.2)|) (by
      intro z hz
      obtain ⟨z1, z2⟩ := z
      have hz := List.of_mem_zip hz
      have b := List.of_mem_zip hz.2
      have m1 := Ap.plus (h2 _ b.1).1 (h3 _ b.2).1 (by omega) (h2 _ b.1).2 (h3 _ b.2).2
      have m2 := (Ap.exact (h1 _ hz.1).1 (h1 _ hz.1).2).mul m1 (Q := 107) (by omega) (by omega) (by omega) (by omega)
        (by omega)
      rw [abs_mul]
      exact m2.weaken (by omega) le_rfl le_rfl m2.size)
  have e0 : List.zipWith (· * ·) p (List.zipWith (· + ·) dvc dve)
      = (p.zip (dvc.zip dve)).map fun z => z.1 * (z.2.1 + z.2.2) := by
    rw [zipWith_map (fun a b : F64 L => a * b), zipWith_map (fun a b : F64 L => a + b), List.zip_map_right,
      List.map_map]
    rfl
  have e1 : idealWork (reals p) (reals dvc) (reals dve)
      = (p.zip (dvc.zip dve)).map fun z => re z.1 * (re z.2.1 + re z.2.2) := by
    unfold idealWork reals
    rw [zipWith_map (fun a b : ℝ => a * b), zipWith_map (fun a b : ℝ => a + b), List.zip_map (l₁ := dvc), List.map_map,
      List.zip_map, List.map_map]
    rfl
  rw [e0, e1]
  unfold sizes
  rw [List.map_map]
  exact this

theorem zipWith_ok {α : Type} {f : α → α → α} {a b c : List α} (h : DVector.zipWith f a b = .ok c) :
    c = List.zipWith f a b := by
  unfold DVector.zipWith at h
  split_ifs at h
  cases h
  rfl

theorem step_ok {β γ : Type} {x : Panics β} {f : β → Panics γ} {b : γ} (h : (x >>= f) = .ok b) :
    ∃ a, x = .ok a ∧ f a = .ok b := by
  cases x with
  | ok a => exact ⟨a, rfl, h⟩
  | error p => cases h

/-- **C92**, powers and heats: each reported number is the cycle integral of the machine series, times the
frequency, plus or minus the parasitic losses, up to `(2n + 26)·2^-53` of the same expression with every
term taken in absolute value. -/
theorem C92_performance (e : Engine (F64 L)) (perf : Performance (F64 L)) (h : Performance.ofEngine e = .ok perf)
    (hu : UsualPerformance e perf) :
    let n := e.values.time.length
    let x := reals e.values.time
    let f := (e.components.ws.frequency e.state.ws).raw.real
    let dVc := reals (dV_dts e.values.time e.components.ws e.state.ws).1
    let dVe := reals (dV_dts e.values.time e.components.ws e.state.ws).2
    let P_c := reals perf.pressures_with_drops.P_c
    let P_e := reals perf.pressures_with_drops.P_e
    let work_c := (e.components.ws.parasitics e.state.ws).comp.mechanical.raw.real
    let work_e := (e.components.ws.parasitics e.state.ws).exp.mechanical.raw.real
    let work_k := (e.components.chx.parasitics e.state.chx).mechanical.raw.real
    let work_l := (e.components.hhx.parasitics e.state.hhx).mechanical.raw.real
    let leak_l := (e.components.hhx.parasitics e.state.hhx).thermal.raw.real
    let leak_r := (e.components.regen.parasitics e.state.regen).thermal.raw.real
    let leak_e := (e.components.ws.parasitics e.state.ws).exp.thermal.raw.real
    let R := e.components.ws.thermal_resistance e.state.ws
    let wall_c := e.values.T_c.map fun T => wallFlow R.comp T e.state.temp.chx
    let wall_e := e.values.T_e.map fun T => wallFlow R.exp T e.state.temp.hhx
    let Qk := reals e.values.Q_dot_k
    let Ql := reals e.values.Q_dot_l
    let W := f * trapezoid x (work P_c dVc P_e dVe)
    let W' := |f| * trapezoid x (work (sizes P_c) (sizes dVc) (sizes P_e) (sizes dVe))
    let W0 := f * trapezoid x (idealWork (reals e.values.P) dVc dVe)
    let W0' := |f| * trapezoid x (sizes (idealWork (reals e.values.P) dVc dVe))
    Rounded n 26 perf.power.indicated W W' ∧
    Rounded n 26 perf.power.indicated_zero_dP W0 W0' ∧
    Rounded n 26 perf.power.shaft (W - work_c - work_e) (W' + |work_c| + |work_e|) ∧
    Rounded n 26 perf.power.net (W - work_c - work_e - work_k - work_l)
      (W' + |work_c| + |work_e| + |work_k| + |work_l|) ∧
    Rounded n 26 perf.heat.input (f * trapezoid x Ql - f * trapezoid x wall_e + (leak_l + leak_r + leak_e))
      (|f| * trapezoid x (sizes Ql) + |f| * trapezoid x (sizes wall_e) + (|leak_l| + |leak_r| + |leak_e|)) ∧
    Rounded n 26 perf.heat.rejected
      (f * trapezoid x wall_c + f * trapezoid x Qk + (W0 - W) + (work_c + work_e) + (leak_l + leak_r + leak_e))
      (|f| * trapezoid x (sizes wall_c) + |f| * trapezoid x (sizes Qk) + (W0' + W') + (|work_c| + |work_e|)
        + (|leak_l| + |leak_r| + |leak_e|)) := by
  have hcnt := hu.time.count
  unfold Performance.ofEngine at h
  obtain ⟨pd, hpd, h⟩ := step_ok h
  obtain ⟨pw, hpw, h⟩ := step_ok h
  cases h
  have hpw' := hpw
  unfold Powers.new at hpw'
  obtain ⟨wc, hwc, hpw'⟩ := step_ok hpw'
  obtain ⟨we, hwe, hpw'⟩ := step_ok hpw'
  obtain ⟨w, hw, hpw'⟩ := step_ok hpw'
  obtain ⟨dV, hdV, hpw'⟩ := step_ok hpw'
  obtain ⟨w0, hw0, hpw'⟩ := step_ok hpw'
  cases hpw'
  have ew := zipWith_ok hw
  rw [zipWith_ok hwc, zipWith_ok hwe] at ew
  have ew0 := zipWith_ok hw0
  rw [zipWith_ok hdV] at ew0
  have cW := Close.times hcnt (by omega) (close_work hu.time hu.P_c hu.dVc hu.P_e hu.dVe) hu.frequency (by omega)
  have cW0 := Close.times hcnt (by omega) (close_ideal hu.time hu.P hu.dVc hu.dVe) hu.frequency (by omega)
  rw [← ew] at cW
  rw [← ew0] at cW0
  have ex : ∀ {a : F64 L} {c d : ℕ}, Usual a → Close e.values.time.length c d 600 a a.raw.real |a.raw.real| :=
    fun ha => Close.weaken (Close.exact ha) le_rfl le_rfl (by omega)
  have two : ∀ {a b : F64 L} {v w s t : ℝ} {c d P : ℕ}, c ≤ 100 → 410 ≤ d → d ≤ 800 → P ≤ 700 →
      Close e.values.time.length c d P a v s → Close e.values.time.length c d P b w t →
      Close e.values.time.length (c + 2) (d - 3) (P + 1) (a + b) (v + w) (s + t) ∧
      Close e.values.time.length (c + 2) (d - 3) (P + 1) (a - b) (v - w) (s + t) := fun h1 h2 h3 h4 ha hb =>
    ⟨Close.add hcnt (by omega) ha hb le_rfl (by omega) (by omega) le_rfl (by omega),
      Close.sub hcnt (by omega) ha hb le_rfl (by omega) (by omega) le_rfl (by omega)⟩
  have exP : ∀ {a : F64 L} {c d P : ℕ}, 600 ≤ P → Usual a → Close e.values.time.length c d P a a.raw.real |a.raw.real| :=
    fun hP ha => Close.weaken (ex ha) le_rfl le_rfl hP
  have shaft1 := (two (by omega) (by omega) (by omega) (by omega) cW (ex hu.comp_mechanical)).2
  have shaft2 := (two (by omega) (by omega) (by omega) (by omega) shaft1 (exP (by omega) hu.exp_mechanical)).2
  have net1 := (two (by omega) (by omega) (by omega) (by omega) shaft2 (exP (by omega) hu.chx_mechanical)).2
  have net2 := (two (by omega) (by omega) (by omega) (by omega) net1 (exP (by omega) hu.hhx_mechanical)).2
  have cQl := Close.times hcnt (by omega) (close_series hu.time hu.Q_dot_l) hu.frequency (by omega)
  have cQk := Close.times hcnt (by omega) (close_series hu.time hu.Q_dot_k) hu.frequency (by omega)
  have cE := Close.times hcnt (by omega) (close_wall hu.time hu.R_e hu.hhx hu.T_e) hu.frequency (by omega)
  have cC := Close.times hcnt (by omega) (close_wall hu.time hu.R_c hu.chx hu.T_c) hu.frequency (by omega)
  have loss1 := (two (c := 14) (d := 480) (by omega) (by omega) (by omega) (by omega) (ex hu.hhx_thermal)
    (ex hu.regen_thermal)).1
  have loss2 := (two (by omega) (by omega) (by omega) (by omega) loss1 (exP (by omega) hu.exp_thermal)).1
  have mech := (two (c := 14) (d := 480) (by omega) (by omega) (by omega) (by omega) (ex hu.comp_mechanical)
    (ex hu.exp_mechanical)).1
  have in1 := (two (by omega) (by omega) (by omega) (by omega) (Close.weaken cQl (c' := 16) (by omega) le_rfl le_rfl) cE).2
  have in2 := (two (d := 474) (P := 602) (by omega) (by omega) (by omega) (by omega)
    (Close.weaken in1 (c' := 18) (by omega) (by omega) (by omega))
    (Close.weaken loss2 (c' := 18) (by omega) (by omega) (by omega))).1
  have re1 := (two (by omega) (by omega) (by omega) (by omega) cC (Close.weaken cQk (c' := 16) (by omega) le_rfl le_rfl)).1
  have dP := (two (by omega) (by omega) (by omega) (by omega) cW0 cW).2
  have re2 := (two (by omega) (by omega) (by omega) (by omega) (Close.weaken re1 (c' := 20) (by omega) le_rfl le_rfl)
    dP).1
  have re3 := (two (d := 474) (by omega) (by omega) (by omega) (by omega)
    (Close.weaken re2 (c' := 22) (P' := 602) (by omega) (by omega) le_rfl)
    (Close.weaken mech (c' := 22) (by omega) (by omega) (by omega))).1
  have re4 := (two (d := 471) (P := 603) (by omega) (by omega) (by omega) (by omega)
    (Close.weaken re3 (c' := 24) (by omega) (by omega) (by omega))
    (Close.weaken loss2 (c' := 24) (by omega) (by omega) (by omega))).1
  have eE : DVector.sdiv (e.values.T_e.map fun T => T - e.state.temp.hhx) (e.components.ws.thermal_resistance e.state.ws).exp
      = e.values.T_e.map fun T => (T - e.state.temp.hhx) / (e.components.ws.thermal_resistance e.state.ws).exp := by
    unfold DVector.sdiv; rw [List.map_map]; rfl
  have eC : DVector.sdiv (e.values.T_c.map fun T => T - e.state.temp.chx) (e.components.ws.thermal_resistance e.state.ws).comp
      = e.values.T_c.map fun T => (T - e.state.temp.chx) / (e.components.ws.thermal_resistance e.state.ws).comp := by
    unfold DVector.sdiv; rw [List.map_map]; rfl
  refine ⟨cW.rounded (by omega) (by omega), cW0.rounded (by omega) (by omega), shaft2.rounded (by omega) (by omega),
    net2.rounded (by omega) (by omega), ?_, ?_⟩
  · have := in2.rounded (c' := 26) (by omega) (by omega)
    unfold Heats.new
    dsimp only
    rw [eE]
    exact this
  · have := re4.rounded (c' := 26) (by omega) (by omega)
    unfold Heats.new
    dsimp only
    rw [eC]
    exact this

end Sett
