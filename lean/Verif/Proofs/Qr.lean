import Verif.Model.Decompositions
import Verif.Proofs.Lu
import Mathlib.LinearAlgebra.Matrix.ToLinearEquiv
import Mathlib.Analysis.SpecialFunctions.Pow.Real
import Mathlib.Tactic.Positivity

/-! # Householder reflections in exact arithmetic: `Qᵀ A = R` -/

namespace Sett.qr

variable {n : Nat}

/-- The scalar product of two columns from row `i` down. -/
noncomputable def ip (i : Fin n) (a b : Fin n → ℝ) : ℝ := ∑ r, if i ≤ r then a r * b r else 0

theorem foldl_sum {β : Type} (f : β → ℝ) (l : List β) (z : ℝ) :
    l.foldl (fun s r => s + f r) z = z + (l.map f).sum := by
  induction l generalizing z with
  | nil => simp
  | cons a l ih => simp [ih, add_assoc]

theorem sum_filter {β : Type} (f : β → ℝ) (p : β → Prop) [DecidablePred p] (l : List β) :
    ((l.filter p).map f).sum = (l.map fun r => if p r then f r else 0).sum := by
  induction l with
  | nil => rfl
  | cons a l ih => by_cases h : p a <;> simp [h, ih]

theorem dotFrom_eq (i : Fin n) (a b : Fin n → ℝ) : dotFrom i a b = ip i a b := by
  rw [dotFrom, foldl_sum, lit_0, zero_add, sum_filter, ip, Fin.sum_univ_def]

theorem ip_self (i : Fin n) (a : Fin n → ℝ) : 0 ≤ ip i a a :=
  Finset.sum_nonneg fun r _ => by split <;> nlinarith [mul_self_nonneg (a r)]

theorem ip_self_zero {i : Fin n} {a : Fin n → ℝ} (h : ip i a a = 0) (r : Fin n) (hr : i ≤ r) : a r = 0 := by
  have := (Finset.sum_eq_zero_iff_of_nonneg fun r _ => by split <;> nlinarith [mul_self_nonneg (a r)]).1 h r
    (Finset.mem_univ r)
  simpa [hr] using this

theorem ip_le {i : Fin n} (a : Fin n → ℝ) : a i * a i ≤ ip i a a := by
  have := Finset.single_le_sum (f := fun r => if i ≤ r then a r * a r else 0)
    (fun r _ => by split <;> nlinarith [mul_self_nonneg (a r)]) (Finset.mem_univ i)
  simpa [ip] using this

theorem reflect_eq (i : Fin n) (a : Fin n → ℝ) (sg : ℝ) (v : Fin n → ℝ) (r : Fin n) :
    reflect i a sg v r = if i ≤ r then sg * v r - 2 * sg * ip i a v * a r else v r := by
  simp only [reflect, dotFrom_eq]
  split
  · rw [lit_2]; ring
  · rfl

theorem ip_comb (i : Fin n) (a v w : Fin n → ℝ) (x y : ℝ) :
    ip i a (fun r => x * v r + y * w r) = x * ip i a v + y * ip i a w := by
  simp only [ip, Finset.mul_sum, ← Finset.sum_add_distrib]
  refine Finset.sum_congr rfl fun r _ => ?_
  split <;> ring

theorem ip_congr {i : Fin n} {a v w : Fin n → ℝ} (h : ∀ r, i ≤ r → v r = w r) : ip i a v = ip i a w := by
  refine Finset.sum_congr rfl fun r _ => ?_
  split
  · rename_i hr; rw [h r hr]
  · rfl

/-- A vector from which reflections are made. -/
def Axis (i : Fin n) (a : Fin n → ℝ) : Prop := ip i a a = 1 ∨ ∀ r, i ≤ r → a r = 0

theorem reflect_twice {i : Fin n} {a : Fin n → ℝ} {sg : ℝ} (hs : sg * sg = 1) (ha : Axis i a) (v : Fin n → ℝ) :
    reflect i a sg (reflect i a sg v) = v := by
  funext r
  rw [reflect_eq]
  split
  · rename_i hr
    have h1 : ip i a (reflect i a sg v) = -2 * sg * ip i a v * ip i a a + sg * ip i a v := by
      rw [← ip_comb]
      refine ip_congr fun r hr => ?_
      rw [reflect_eq, if_pos hr]
      ring
    rw [h1, reflect_eq, if_pos hr]
    rcases ha with h | h
    · rw [h]
      linear_combination (v r) * hs
    · rw [h r hr]
      linear_combination (v r) * hs
  · rename_i hr
    rw [reflect_eq, if_neg hr]

theorem ip_sum (i : Fin n) (a : Fin n → ℝ) (m : Fin n → Fin n → ℝ) (x : Fin n → ℝ) :
    ip i a (fun r => ∑ c, m r c * x c) = ∑ c, ip i a (fun r => m r c) * x c := by
  simp only [ip, Finset.sum_mul]
  rw [Finset.sum_comm]
  refine Finset.sum_congr rfl fun r _ => ?_
  split
  · rw [Finset.mul_sum]
    exact Finset.sum_congr rfl fun c _ => by ring
  · simp

theorem reflect_sum (i : Fin n) (a : Fin n → ℝ) (sg : ℝ) (m : Fin n → Fin n → ℝ) (x : Fin n → ℝ) (r : Fin n) :
    reflect i a sg (fun r => ∑ c, m r c * x c) r = ∑ c, reflect i a sg (fun r => m r c) r * x c := by
  simp only [reflect_eq, ip_sum]
  split
  · rw [Finset.mul_sum, Finset.mul_sum, Finset.sum_mul, ← Finset.sum_sub_distrib]
    exact Finset.sum_congr rfl fun c _ => by ring
  · rfl

/-- Reflecting both sides of a system. -/
theorem reflect_system {i : Fin n} {a : Fin n → ℝ} {sg : ℝ} (hs : sg * sg = 1) (ha : Axis i a)
    (m : Fin n → Fin n → ℝ) (x b : Fin n → ℝ) :
    (∀ r, ∑ c, m r c * x c = b r) ↔
      ∀ r, ∑ c, reflect i a sg (fun r => m r c) r * x c = reflect i a sg b r := by
  simp only [← reflect_sum]
  constructor
  · intro h r
    rw [show (fun r => ∑ c, m r c * x c) = b from funext h]
  · intro h
    have := congrArg (reflect i a sg) (funext h)
    rw [reflect_twice hs ha, reflect_twice hs ha] at this
    exact fun r => congrFun this r

theorem signum_sq (x : ℝ) : signum x * signum x = 1 := by
  unfold signum
  split <;> norm_num

theorem signum_mul (x : ℝ) : signum x * x = |x| := by
  unfold signum
  simp only [real_lt, lit_0]
  split
  · rename_i h
    rw [abs_of_neg h]; norm_num
  · rename_i h
    rw [abs_of_nonneg (not_lt.1 h)]; norm_num

/-- What `reflectionAxis` computes. -/
theorem axis_spec (i : Fin n) (v : Fin n → ℝ) :
    Axis i (reflectionAxis i v).1 ∧
    (∀ r, i ≤ r → reflect i (reflectionAxis i v).1 (signum (reflectionAxis i v).2.1) v r =
      if r = i then |(reflectionAxis i v).2.1| else 0) ∧
    ((reflectionAxis i v).2.2 = false → ∀ w, reflect i (reflectionAxis i v).1
      (signum (reflectionAxis i v).2.1) w = w) := by
  obtain ⟨sg, hsg, hsv⟩ : ∃ sg : ℝ, sg * sg = 1 ∧ sg * v i = |v i| ∧
      (if Scalar.le 0.0 (v i) then (1.0 : ℝ) else -1.0) = sg := by
    by_cases h : 0 ≤ v i
    · exact ⟨1, by norm_num, by simp [abs_of_nonneg h], by simp only [real_le, lit_0, h, if_true]; norm_num⟩
    · exact ⟨-1, by norm_num, by simp [abs_of_neg (not_le.1 h)], by
        simp only [real_le, lit_0, h, if_false]; norm_num⟩
  set S := ip i v v with hS
  have hS0 : 0 ≤ S := ip_self i v
  set N := Real.sqrt S with hN
  have hN0 : 0 ≤ N := Real.sqrt_nonneg _
  have hNN : N * N = S := Real.mul_self_sqrt hS0
  set F := (S + |v i| * N) * 2 with hF
  have hF0 : 0 ≤ F := by positivity
  set w : Fin n → ℝ := fun r => if r = i then v r + sg * N else v r with hw
  have hax : reflectionAxis i v = if lu.isZero F then (w, sg * N, false) else
      (fun r => if i ≤ r then w r / Real.sqrt F else w r, -(sg * N), true) := by
    unfold reflectionAxis
    simp only [dotFrom_eq, real_sqrt, real_abs, hsv.2, lit_2]
    rfl
  by_cases hz : F = 0
  · have h0 : S = 0 := by
      have : 0 ≤ |v i| * N := by positivity
      nlinarith
    have hv := ip_self_zero h0
    have hN' : N = 0 := by rw [hN, h0, Real.sqrt_zero]
    rw [hax, if_pos ((lu.isZero_iff _).2 hz)]
    have hwz : ∀ r, i ≤ r → w r = 0 := by
      intro r hr
      simp only [hw, hN', mul_zero, add_zero, ite_self]
      exact hv r hr
    have hsig : signum (sg * N) = 1 := by
      rw [hN', mul_zero]
      simp only [signum, real_lt, lit_0, lt_irrefl, if_false]
      norm_num
    have href : ∀ u, reflect i w (signum (sg * N)) u = u := by
      intro u
      funext r
      rw [reflect_eq, hsig]
      split
      · rename_i hr
        rw [hwz r hr]; ring
      · rfl
    refine ⟨.inr hwz, fun r hr => ?_, fun _ => href⟩
    simp only [href]
    rw [hv r hr, hN', mul_zero, abs_zero, ite_self]
  · have hFp : 0 < F := lt_of_le_of_ne hF0 (Ne.symm hz)
    set q := Real.sqrt F with hq
    have hqp : 0 < q := Real.sqrt_pos.2 hFp
    have hqq : q * q = F := Real.mul_self_sqrt hF0
    rw [hax, if_neg fun h => hz ((lu.isZero_iff _).1 h)]
    simp only
    set a : Fin n → ℝ := fun r => if i ≤ r then w r / q else w r with ha
    have har : ∀ r, i ≤ r → a r = w r / q := fun r hr => by simp [ha, hr]
    -- scalar products with the axis
    have hai : ∀ u : Fin n → ℝ, ip i a u = (ip i v u + sg * N * u i) / q := by
      intro u
      have h1 : ∀ r, (if i ≤ r then a r * u r else 0) =
          (if i ≤ r then v r * u r else 0) / q + if r = i then sg * N * u i / q else 0 := by
        intro r
        by_cases hr : i ≤ r
        · rw [if_pos hr, if_pos hr, har r hr]
          by_cases e : r = i
          · subst e; simp only [hw, if_true]; ring
          · simp only [hw, e, if_false]; ring
        · have e : r ≠ i := by rintro rfl; exact hr le_rfl
          simp [hr, e]
      simp only [ip, h1, Finset.sum_add_distrib, div_eq_mul_inv, ← Finset.sum_mul, Finset.sum_ite_eq', Finset.mem_univ, if_true]
      ring
    have hva : ip i v a = (S + sg * N * v i) / q := by
      rw [← hai v]
      exact Finset.sum_congr rfl fun r _ => by split <;> ring
    have hav : ip i a v = q / 2 := by
      rw [hai v]
      field_simp
      rw [pow_two, hqq, hF]
      linear_combination (2 * N) * hsv.1 - 2 * hS
    have haa : ip i a a = 1 := by
      rw [hai a, hva, har i le_rfl]
      simp only [hw, if_true]
      field_simp
      rw [pow_two, hqq, hF]
      linear_combination (2 * N) * hsv.1 + hsg * N * N + hNN
    refine ⟨.inl haa, fun r hr => ?_, by simp⟩
    rw [reflect_eq, if_pos hr, hav, har r hr]
    by_cases e : r = i
    · subst e
      rw [if_pos rfl, ← signum_mul]
      simp only [hw, if_true]
      field_simp
      ring
    · simp only [hw, e, if_false]
      field_simp
      ring

/-- The matrix the state of the factorisation stands for after `k` passes. -/
noncomputable def tri (k : Nat) (f : Qr n ℝ) (r c : Fin n) : ℝ :=
  if c.val < k then (if r < c then f.packed r c else if r = c then |f.diag c| else 0) else f.packed r c

theorem step_tri (f : Qr n ℝ) (i : Fin n) (r c : Fin n) :
    tri (i.val + 1) (step f i) r c =
      reflect i (fun r => (step f i).packed r i) (signum ((step f i).diag i)) (fun r => tri i f r c) r := by
  obtain ⟨h1, h2, h3⟩ := axis_spec i fun r => f.packed r i
  set a := reflectionAxis i fun r => f.packed r i with ha
  have hax : (fun r => (step f i).packed r i) = a.1 := by funext r; simp [step, ha]
  have hd : (step f i).diag i = a.2.1 := by simp [step, ha]
  rw [hax, hd]
  rcases lt_trichotomy c i with hc | hc | hc
  · -- columns already done have nothing below row `i`
    have hv : ∀ r, i ≤ r → tri i f r c = 0 := by
      intro r hr
      have e1 : ¬ r < c := fun h => absurd (h.trans hc) (not_lt.2 hr)
      have e2 : r ≠ c := by rintro rfl; exact absurd hc (not_lt.2 hr)
      simp [tri, Fin.lt_def.1 hc, e1, e2]
    have hip : ip i a.1 (fun r => tri i f r c) = 0 :=
      Finset.sum_eq_zero fun r _ => by
        split
        · rename_i hr; simp only [hv r hr, mul_zero]
        · rfl
    have hs : tri (i.val + 1) (step f i) r c = tri i f r c := by
      have l1 : c.val < i.val := Fin.lt_def.1 hc
      have l2 : c.val < i.val + 1 := by omega
      have l3 : ¬ i < c := not_lt.2 hc.le
      simp [tri, l1, l2, step, hc.ne, l3]
    rw [hs, reflect_eq, hip]
    split
    · rename_i hr; rw [hv r hr]; ring
    · rfl
  · subst hc
    have l1 : c.val < c.val + 1 := by omega
    have hcol : (fun r => tri c f r c) = fun r => f.packed r c := by funext r; simp [tri]
    rw [hcol]
    by_cases hr : c ≤ r
    · rw [h2 r hr]
      have e1 : ¬ r < c := not_lt.2 hr
      simp only [tri, l1, if_true, e1, if_false, hd]
    · have e1 : r < c := not_le.1 hr
      rw [reflect_eq, if_neg hr]
      simp only [tri, l1, if_true, e1]
      have : (step f c).packed r c = a.1 r := congrFun hax r
      rw [this, ha]
      have hne : r ≠ c := e1.ne
      unfold reflectionAxis
      simp only
      split
      · simp [hne]
      · simp [hne, hr]
  · have l1 : ¬ c.val < i.val + 1 := by have := Fin.lt_def.1 hc; omega
    have l2 : ¬ c.val < i.val := by omega
    have hcol : (fun r => tri i f r c) = fun r => f.packed r c := by funext r; simp [tri, l2]
    rw [hcol]
    simp only [tri, l1, if_false, step, hc.ne', hc, true_and]
    split
    · rfl
    · rename_i hb
      rw [h3 (by simpa using hb)]

theorem stable (a : Fin n → Fin n → ℝ) (k : Nat) : ∀ m, k ≤ m → m ≤ n → ∀ j : Fin n, j.val < k →
    (∀ r, (factorTo a m).packed r j = (factorTo a k).packed r j) ∧ (factorTo a m).diag j = (factorTo a k).diag j := by
  intro m hkm
  induction m, hkm using Nat.le_induction with
  | base => exact fun _ j _ => ⟨fun _ => rfl, rfl⟩
  | succ m hm ih =>
    intro hmn j hj
    have hm' : m < n := hmn
    obtain ⟨g1, g2⟩ := ih hm'.le j hj
    have hne : j ≠ ⟨m, hm'⟩ := by rintro rfl; exact absurd hj (not_lt.2 hm)
    have hlt : ¬ (⟨m, hm'⟩ : Fin n) < j := by rw [Fin.lt_def]; simp only; omega
    simp only [factorTo, hm', dite_true, step, hne, if_false, hlt, false_and]
    exact ⟨g1, g2⟩

/-- The factorisation reflects the system into one with the matrix `tri`. -/
theorem system_to (a : Fin n → Fin n → ℝ) (x b : Fin n → ℝ) : ∀ k ≤ n,
    (∀ r, ∑ c, a r c * x c = b r) ↔
      ∀ r, ∑ c, tri k (factorTo a k) r c * x c = qTrMulTo (factorTo a n) b k r := by
  intro k
  induction k with
  | zero => intro _; simp [tri, factorTo, qTrMulTo]
  | succ k ih =>
    intro hk
    have hk' : k < n := hk
    set i : Fin n := ⟨k, hk'⟩ with hi
    have hf : factorTo a (k + 1) = step (factorTo a k) i := by simp [factorTo, hk', hi]
    obtain ⟨s1, s2⟩ := stable a (k + 1) n hk le_rfl i (by simp [hi])
    have hq : qTrMulTo (factorTo a n) b (k + 1) = reflect i (fun r => (step (factorTo a k) i).packed r i)
        (signum ((step (factorTo a k) i).diag i)) (qTrMulTo (factorTo a n) b k) := by
      rw [qTrMulTo, dif_pos hk', ← hf, ← s2]
      congr 1
      funext r
      exact s1 r
    have hA : Axis i fun r => (step (factorTo a k) i).packed r i := by
      have := (axis_spec i fun r => (factorTo a k).packed r i).1
      simpa [step] using this
    rw [ih hk'.le, reflect_system (signum_sq ((step (factorTo a k) i).diag i)) hA, hq, hf]
    have := step_tri (factorTo a k) i
    simp only [hi] at this ⊢
    simp only [this]

/-- The triangular matrix handed to back substitution. -/
theorem upper (a : Fin n → Fin n → ℝ) (r c : Fin n) :
    lu.upp n (fun r c => if r = c then Scalar.abs ((factorTo a n).diag c) else (factorTo a n).packed r c) r c =
      tri n (factorTo a n) r c := by
  rw [← lu.back_zero]
  simp only [lu.back, tri, c.2, if_true, Nat.not_lt_zero, if_false]
  rcases lt_trichotomy r c with h | h | h
  · simp [h, h.not_gt, h.ne]
  · subst h; simp
  · simp [h, h.not_gt, h.ne']

theorem qTrMul_zero (f : Qr n ℝ) (k : Nat) : qTrMulTo f (fun _ => 0) k = fun _ => 0 := by
  induction k with
  | zero => rfl
  | succ k ih =>
    rw [qTrMulTo]
    split
    · rw [ih]
      funext r
      rw [reflect_eq]
      simp [ip]
    · exact ih

theorem det_iff (a : Fin n → Fin n → ℝ) : (Matrix.of a).det = 0 ↔ ∃ r, (factorTo a n).diag r = 0 := by
  have h : (Matrix.of a).det = 0 ↔ (Matrix.of (tri n (factorTo a n))).det = 0 := by
    rw [← Matrix.exists_mulVec_eq_zero_iff, ← Matrix.exists_mulVec_eq_zero_iff]
    refine exists_congr fun v => and_congr_right fun _ => ?_
    have := system_to a v (fun _ => 0) n le_rfl
    rw [qTrMul_zero] at this
    exact ⟨fun h => funext (this.1 fun r => congrFun h r), fun h => funext (this.2 fun r => congrFun h r)⟩
  rw [h, show Matrix.of (tri n (factorTo a n)) = Matrix.of (lu.upp n (fun r c => if r = c then
    Scalar.abs ((factorTo a n).diag c) else (factorTo a n).packed r c)) from by ext r c; exact (upper a r c).symm,
    lu.upp_det, Finset.prod_eq_zero_iff]
  simp

/-- What `solve` does in exact arithmetic. -/
theorem solve_spec (a : Fin n → Fin n → ℝ) (b : Fin n → ℝ) :
    ((Matrix.of a).det = 0 ∧ solve a b = none) ∨
    ((Matrix.of a).det ≠ 0 ∧ ∃ x, solve a b = some x ∧ ∀ r, ∑ c, a r c * x c = b r) := by
  set m : Fin n → Fin n → ℝ := fun r c => if r = c then Scalar.abs ((factorTo a n).diag c) else (factorTo a n).packed r c
    with hm
  rcases lu.backward_spec m n le_rfl (qTrMulTo (factorTo a n) b n) with ⟨⟨r, -, hr⟩, h⟩ | ⟨hd, x, h, hx⟩
  · refine .inl ⟨(det_iff a).2 ⟨r, by simpa [hm] using hr⟩, h⟩
  · refine .inr ⟨fun h0 => ?_, x, h, ?_⟩
    · obtain ⟨r, hr⟩ := (det_iff a).1 h0
      exact hd r r.2 (by simp [hm, hr])
    · rw [system_to a x b n le_rfl]
      intro r
      rw [← lu.back_full m (qTrMulTo (factorTo a n) b n) r, ← hx r]
      refine Finset.sum_congr rfl fun c _ => ?_
      rw [lu.back_zero, hm, upper a r c]

end Sett.qr
