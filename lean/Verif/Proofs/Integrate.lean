import Verif.Model.State
import Verif.Proofs.Lits
import Mathlib.Tactic.Linarith
import Mathlib.Tactic.LinearCombination
import Mathlib.Algebra.BigOperators.Group.List.Basic

/-! # Lemmas about the trapezoidal rule, extrema and the time-series conversion -/

namespace Sett

/-- Specification of the trapezoidal rule by recursion on both sample lists. -/
noncomputable def Spec.trapezoid : List ℝ → List ℝ → ℝ
  | x0 :: x1 :: xs, y0 :: y1 :: ys =>
    (x1 - x0) * ((y0 + y1) / 2) + Spec.trapezoid (x1 :: xs) (y1 :: ys)
  | _, _ => 0

theorem foldl_add_eq (l : List ℝ) (a : ℝ) : l.foldl (· + ·) a = a + l.sum := by
  induction l generalizing a with
  | nil => simp
  | cons b l ih => simp only [List.foldl_cons, List.sum_cons]; rw [ih]; ring

theorem sum_eq (l : List ℝ) : sum l = l.sum := by
  unfold sum
  have : l.foldl (fun x1 x2 : ℝ => x1 + x2) 0.0 = 0.0 + l.sum := foldl_add_eq l 0.0
  rw [show l.foldl _ (0.0 : ℝ) = (0.0 : ℝ) + l.sum from this, lit_0, zero_add]

theorem integrate_eq (x y : List ℝ) : integrate x y = Spec.trapezoid x y := by
  unfold integrate
  rw [sum_eq]
  scalars
  induction x generalizing y with
  | nil => simp [windows, Spec.trapezoid]
  | cons x0 xs ih =>
    match xs, y with
    | [], _ => simp [windows, Spec.trapezoid]
    | x1 :: xs, [] => simp [windows, Spec.trapezoid]
    | x1 :: xs, [y0] => simp [windows, Spec.trapezoid]
    | x1 :: xs, y0 :: y1 :: ys =>
      have := ih (y1 :: ys)
      simp only [windows, List.tail_cons, List.zip_cons_cons, List.map_cons, List.sum_cons,
        Spec.trapezoid] at this ⊢
      rw [this]; ring

open Spec (trapezoid)

/-- Adjacent values never decrease. -/
abbrev Spec.Increasing (x : List ℝ) : Prop := x.IsChain (· ≤ ·)

theorem trapezoid_linear (a b : ℝ) : ∀ x y z : List ℝ, y.length = z.length →
    trapezoid x (List.zipWith (fun u v => a * u + b * v) y z)
      = a * trapezoid x y + b * trapezoid x z
  | [], _, _, _ => by simp [trapezoid]
  | [_], _, _, _ => by simp [trapezoid]
  | _ :: _ :: _, [], [], _ => by simp [trapezoid]
  | _ :: _ :: _, [_], [_], _ => by simp [trapezoid]
  | x0 :: x1 :: xs, y0 :: y1 :: ys, z0 :: z1 :: zs, h => by
    have := trapezoid_linear a b (x1 :: xs) (y1 :: ys) (z1 :: zs) (by simpa using h)
    simp only [List.zipWith_cons_cons, trapezoid] at this ⊢
    rw [this]; ring

theorem trapezoid_append : ∀ (xs us : List ℝ) (m v : ℝ) (ys ws : List ℝ), xs.length = us.length →
    trapezoid (xs ++ m :: ys) (us ++ v :: ws)
      = trapezoid (xs ++ [m]) (us ++ [v]) + trapezoid (m :: ys) (v :: ws)
  | [], [], _, _, _, _, _ => by simp [trapezoid]
  | [x], [u], m, v, ys, ws, _ => by simp [trapezoid]
  | x :: x' :: xs, u :: u' :: us, m, v, ys, ws, h => by
    have := trapezoid_append (x' :: xs) (u' :: us) m v ys ws (by simpa using h)
    simp only [List.cons_append, trapezoid] at this ⊢
    rw [this]; ring

theorem trapezoid_mono : ∀ x y z : List ℝ, Spec.Increasing x → List.Forall₂ (· ≤ ·) y z →
    trapezoid x y ≤ trapezoid x z
  | [], _, _, _, _ => by simp [trapezoid]
  | [_], _, _, _, _ => by simp [trapezoid]
  | _ :: _ :: _, [], [], _, _ => by simp [trapezoid]
  | _ :: _ :: _, [_], [_], _, _ => by simp [trapezoid]
  | x0 :: x1 :: xs, y0 :: y1 :: ys, z0 :: z1 :: zs, hx, h => by
    cases h with
    | cons h0 h =>
      have hx' := (List.isChain_cons_cons.1 hx)
      have := trapezoid_mono (x1 :: xs) (y1 :: ys) (z1 :: zs) hx'.2 h
      cases h with
      | cons h1 h =>
        simp only [trapezoid]
        have : (x1 - x0) * ((y0 + y1) / 2) ≤ (x1 - x0) * ((z0 + z1) / 2) :=
          mul_le_mul_of_nonneg_left (by linarith) (by linarith [hx'.1])
        linarith

theorem trapezoid_affine (a b : ℝ) : ∀ (x0 : ℝ) (xs : List ℝ),
    trapezoid (x0 :: xs) ((x0 :: xs).map fun t => a * t + b)
      = a * (((x0 :: xs).getLast (by simp)) ^ 2 - x0 ^ 2) / 2
        + b * ((x0 :: xs).getLast (by simp) - x0)
  | x0, [] => by simp [trapezoid]
  | x0, x1 :: xs => by
    have := trapezoid_affine a b x1 xs
    simp only [List.map_cons, trapezoid, List.getLast_cons_cons] at this ⊢
    rw [this]; ring

theorem trapezoid_const (c x0 : ℝ) (xs ys : List ℝ) (hl : ys.length = (x0 :: xs).length)
    (hc : ∀ y ∈ ys, y = c) :
    trapezoid (x0 :: xs) ys = c * ((x0 :: xs).getLast (by simp) - x0) := by
  have := trapezoid_affine 0 c x0 xs
  have he : ys = (x0 :: xs).map fun t => 0 * t + c := by
    apply List.ext_getElem
    · simpa using hl
    · intro i h1 h2
      rw [hc _ (List.getElem_mem h1), List.getElem_map]; ring
  rw [he, this]; ring

theorem trapezoid_short (x y : List ℝ) (h : x.length < 2 ∨ y.length < 2) : trapezoid x y = 0 := by
  match x, y with
  | [], _ => simp [trapezoid]
  | [_], _ => simp [trapezoid]
  | _ :: _ :: _, [] => simp [trapezoid]
  | _ :: _ :: _, [_] => simp [trapezoid]
  | _ :: _ :: _, _ :: _ :: _ => simp at h

/-! ## Extrema -/

theorem foldl_max (l : List ℝ) (a : ℝ) :
    let m := l.foldl (fun x y => if Scalar.totalLe x y then y else x) a
    m ∈ a :: l ∧ ∀ z ∈ a :: l, z ≤ m := by
  induction l generalizing a with
  | nil => simp
  | cons b l ih =>
    simp only [List.foldl_cons]
    by_cases h : Scalar.totalLe a b = true
    · rw [if_pos h]
      obtain ⟨h1, h2⟩ := ih b
      rw [real_totalLe] at h
      refine ⟨List.mem_cons_of_mem _ h1, fun z hz => ?_⟩
      rcases List.mem_cons.1 hz with rfl | hz
      · exact h.trans (h2 b (by simp))
      · exact h2 z hz
    · rw [if_neg h]
      obtain ⟨h1, h2⟩ := ih a
      rw [real_totalLe, not_le] at h
      constructor
      · rcases List.mem_cons.1 h1 with h1 | h1
        · rw [h1]; simp
        · exact List.mem_cons_of_mem _ (List.mem_cons_of_mem _ h1)
      · intro z hz
        rcases List.mem_cons.1 hz with rfl | hz
        · exact h2 _ (by simp)
        · rcases List.mem_cons.1 hz with rfl | hz
          · exact h.le.trans (h2 a (by simp))
          · exact h2 z (List.mem_cons_of_mem _ hz)

theorem foldl_min (l : List ℝ) (a : ℝ) :
    let m := l.foldl (fun x y => if Scalar.totalLe x y then x else y) a
    m ∈ a :: l ∧ ∀ z ∈ a :: l, m ≤ z := by
  induction l generalizing a with
  | nil => simp
  | cons b l ih =>
    simp only [List.foldl_cons]
    by_cases h : Scalar.totalLe a b = true
    · rw [if_pos h]
      obtain ⟨h1, h2⟩ := ih a
      rw [real_totalLe] at h
      constructor
      · rcases List.mem_cons.1 h1 with h1 | h1
        · rw [h1]; simp
        · exact List.mem_cons_of_mem _ (List.mem_cons_of_mem _ h1)
      · intro z hz
        rcases List.mem_cons.1 hz with rfl | hz
        · exact h2 _ (by simp)
        · rcases List.mem_cons.1 hz with rfl | hz
          · exact (h2 a (by simp)).trans h
          · exact h2 z (List.mem_cons_of_mem _ hz)
    · rw [if_neg h]
      obtain ⟨h1, h2⟩ := ih b
      rw [real_totalLe, not_le] at h
      refine ⟨List.mem_cons_of_mem _ h1, fun z hz => ?_⟩
      rcases List.mem_cons.1 hz with rfl | hz
      · exact (h2 b (by simp)).trans h.le
      · exact h2 z hz

theorem maxBy_spec {l : List ℝ} {m : ℝ} (h : maxBy l = some m) : m ∈ l ∧ ∀ z ∈ l, z ≤ m := by
  cases l with
  | nil => simp [maxBy] at h
  | cons a l => simp only [maxBy, Option.some.injEq] at h; rw [← h]; exact foldl_max l a

theorem minBy_spec {l : List ℝ} {m : ℝ} (h : minBy l = some m) : m ∈ l ∧ ∀ z ∈ l, m ≤ z := by
  cases l with
  | nil => simp [minBy] at h
  | cons a l => simp only [minBy, Option.some.injEq] at h; rw [← h]; exact foldl_min l a

/-! ## The time-series conversion -/

/-- The conversion is a map, field by field. -/
theorem ofStateValues_eq {α : Type} (l : List (state_equations.Values α)) :
    Values.ofStateValues l =
      { time := l.map (·.time)
        P := l.map (·.conditions.P)
        T_c := l.map (·.conditions.T_c)
        T_e := l.map (·.conditions.T_e)
        m_dot_ck := l.map (·.solution.m_dot_ck)
        m_dot_kr := l.map (·.solution.m_dot_kr)
        m_dot_rl := l.map (·.solution.m_dot_rl)
        m_dot_le := l.map (·.solution.m_dot_le)
        Q_dot_k := l.map (·.solution.Q_dot_k)
        Q_dot_r := l.map (·.solution.Q_dot_r)
        Q_dot_l := l.map (·.solution.Q_dot_l) } := by
  unfold Values.ofStateValues
  induction l using List.reverseRecOn with
  | nil => rfl
  | append_singleton l a ih => rw [List.foldl_append, ih]; simp

end Sett
