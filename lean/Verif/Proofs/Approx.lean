import Verif.Proofs.FloatError
import Mathlib.Tactic.FieldSimp
import Mathlib.Tactic.Positivity

/-! # Running error analysis: a machine number near a real one -/

namespace Sett.Float64

variable {L : Libm}

/-- `a` is finite and within `k` rounding units of size `s` (plus an underflow) of `v`. -/
structure Ap (k p q : ℕ) (a : F64 L) (v s : ℝ) : Prop where
  fin : ok a
  bound : |v| ≤ s
  size : s ≤ 2 ^ p
  err : |re a - v| ≤ k * ulp * s + tiny * 2 ^ q

theorem tiny_pow_le {q : ℕ} (h : q ≤ 1000) : tiny * 2 ^ q ≤ 1 / 2 ^ 75 := by
  have h1 : (2 : ℝ) ^ q ≤ 2 ^ 1000 := pow_le_pow_right₀ (by norm_num) h
  have h2 : tiny * 2 ^ 1000 = 1 / 2 ^ 75 := by
    unfold tiny
    rw [show (2 : ℝ) ^ 1000 = 2 ^ (1000 : ℤ) from (zpow_natCast 2 1000).symm, ← zpow_add₀ (by norm_num)]
    norm_num [zpow_neg]
  rw [← h2]
  exact mul_le_mul_of_nonneg_left h1 tiny_pos.le

theorem tiny_pow_mul {q p Q : ℕ} (c : ℕ) (h : q + p + c ≤ Q) : tiny * 2 ^ q * 2 ^ p ≤ tiny * 2 ^ Q / 2 ^ c := by
  rw [le_div_iff₀ (by positivity), mul_assoc, mul_assoc, ← pow_add, ← pow_add]
  exact mul_le_mul_of_nonneg_left (pow_le_pow_right₀ (by norm_num) (by omega)) tiny_pos.le

theorem tiny_pow_c {q Q : ℕ} (c : ℕ) (h : q + c ≤ Q) : tiny * 2 ^ q ≤ tiny * 2 ^ Q / 2 ^ c := by
  have := tiny_pow_mul (q := q) (p := 0) (Q := Q) c (by omega)
  simpa using this

theorem tiny_c {Q : ℕ} (c : ℕ) (h : c ≤ Q) : tiny ≤ tiny * 2 ^ Q / 2 ^ c := by
  have := tiny_pow_c (q := 0) (Q := Q) c (by omega)
  simpa using this

variable {k k' p p' q q' : ℕ} {a b : F64 L} {v w s t : ℝ}

namespace Ap

theorem nonneg (h : Ap k p q a v s) : 0 ≤ s := (abs_nonneg _).trans h.bound

theorem weaken (h : Ap k p q a v s) {K P Q : ℕ} {S : ℝ} (hk : k ≤ K) (hq : q ≤ Q) (hs : s ≤ S)
    (hS : S ≤ 2 ^ P) : Ap K P Q a v S := by
  have hu := ulp_pos
  refine ⟨h.fin, h.bound.trans hs, hS, h.err.trans ?_⟩
  have h1 : (k : ℝ) * ulp * s ≤ K * ulp * S := by
    apply mul_le_mul _ hs h.nonneg (by positivity)
    exact mul_le_mul_of_nonneg_right (by exact_mod_cast hk) hu.le
  have h2 : tiny * 2 ^ q ≤ tiny * 2 ^ Q :=
    mul_le_mul_of_nonneg_left (pow_le_pow_right₀ (by norm_num) hq) tiny_pos.le
  linarith

theorem exact {p : ℕ} (h : ok a) (hb : |re a| ≤ 2 ^ p) : Ap 0 p 0 a (re a) |re a| :=
  ⟨h, le_rfl, hb, by rw [sub_self, abs_zero]; have := tiny_pos; simp [this.le]⟩

theorem neg (h : Ap k p q a v s) : Ap k p q (-a) (-v) s :=
  ⟨ok_neg.2 h.fin, by rw [abs_neg]; exact h.bound, h.size, by
    rw [re_neg, ← neg_sub_neg, neg_neg, neg_neg, abs_sub_comm]; exact h.err⟩

/-- Absolute value of the machine number. -/
theorem abs_le (h : Ap k p q a v s) : |re a| ≤ s + (k * ulp * s + tiny * 2 ^ q) := by
  have h1 := abs_add_le v (re a - v)
  rw [add_sub_cancel] at h1
  linarith [h.bound, h.err]

theorem kulp (hk : k ≤ 100) : (k : ℝ) * ulp ≤ 1 / 10 ^ 6 := by
  have hu2 : ulp ≤ 1 / 10 ^ 9 := by unfold ulp; norm_num
  have : (k : ℝ) ≤ 100 := by exact_mod_cast hk
  calc (k : ℝ) * ulp ≤ 100 * (1 / 10 ^ 9) := mul_le_mul this hu2 ulp_pos.le (by norm_num)
    _ ≤ _ := by norm_num

theorem abs_le' (h : Ap k p q a v s) (hk : k ≤ 100) (hq : q ≤ 1000) : |re a| ≤ 2 * 2 ^ p := by
  have h1 := h.abs_le
  have h2 := mul_le_mul_of_nonneg_right (kulp hk) h.nonneg
  have h3 := tiny_pow_le hq
  have h4 := h.size
  have h5 : (1 : ℝ) ≤ 2 ^ p := one_le_pow₀ (by norm_num)
  have h6 : (1 : ℝ) / 2 ^ 75 ≤ 1 / 10 := by norm_num
  have h7 := h.nonneg
  linarith

theorem mul (h : Ap k p q a v s) (h' : Ap k' p' q' b w t) {Q : ℕ} (hk : k + k' ≤ 90) (hp : p + p' ≤ 900)
    (hq : q + p' + 4 ≤ Q) (hq' : q' + p + 4 ≤ Q) (hQ : Q ≤ 1000) :
    Ap (k + k' + 3) (p + p') Q (a * b) (v * w) (s * t) := by
  have hu := ulp_pos
  have hu2 : ulp ≤ 1 / 10 ^ 9 := by unfold ulp; norm_num
  have ht := tiny_pos
  have hs0 := h.nonneg
  have ht0 := h'.nonneg
  have hok : ok (a * b) := by
    refine mul_ok h.fin h'.fin ?_
    rw [abs_mul]
    have e1 := mul_le_mul (h.abs_le' (by omega) (by omega)) (h'.abs_le' (by omega) (by omega)) (abs_nonneg _) (by positivity)
    refine e1.trans ?_
    have : (2 : ℝ) * 2 ^ p * (2 * 2 ^ p') = 2 ^ (p + p' + 2) := by rw [pow_add, pow_add]; ring
    rw [this]
    exact pow_le_pow_right₀ (by norm_num) (by omega)
  set τ := tiny * 2 ^ q with hτ
  set τ' := tiny * 2 ^ q' with hτ'
  have hτ0 : 0 < τ := by positivity
  have hτ0' : 0 < τ' := by positivity
  have hτ1 : τ' ≤ 1 := (tiny_pow_le (q := q') (by omega)).trans (by norm_num)
  set α := k * ulp * s + τ with hα
  set β := k' * ulp * t + τ' with hβ
  have hα0 : 0 ≤ α := by positivity
  have hβ0 : 0 ≤ β := by positivity
  have he : |re a - v| ≤ α := h.err
  have he' : |re b - w| ≤ β := h'.err
  have hB : |re b| ≤ t + β := h'.abs_le
  have hprod : |re a * re b - v * w| ≤ α * (t + β) + s * β := by
    have e : re a * re b - v * w = (re a - v) * re b + v * (re b - w) := by ring
    rw [e]
    refine (abs_add_le _ _).trans (add_le_add ?_ ?_)
    · rw [abs_mul]; exact mul_le_mul he hB (abs_nonneg _) hα0
    · rw [abs_mul]; exact mul_le_mul h.bound he' (abs_nonneg _) hs0
  have hP : s * τ' ≤ tiny * 2 ^ Q / 16 := by
    have e1 := tiny_pow_mul (q := q') (p := p) (Q := Q) 4 hq'
    have e2 := mul_le_mul_of_nonneg_right h.size hτ0'.le
    norm_num at e1
    rw [← hτ'] at e1
    linarith
  have hP' : t * τ ≤ tiny * 2 ^ Q / 16 := by
    have e1 := tiny_pow_mul (q := q) (p := p') (Q := Q) 4 hq
    have e2 := mul_le_mul_of_nonneg_right h'.size hτ0.le
    norm_num at e1
    rw [← hτ] at e1
    linarith
  have hττ : τ * τ' ≤ tiny * 2 ^ Q / 16 := by
    have e1 := tiny_pow_c (q := q) (Q := Q) 4 (by omega)
    have e2 := mul_le_mul_of_nonneg_left hτ1 hτ0.le
    norm_num at e1
    rw [← hτ] at e1
    linarith
  have hη : tiny ≤ tiny * 2 ^ Q / 16 := by
    have e1 := tiny_c (Q := Q) 4 (by omega)
    norm_num at e1
    exact e1
  set Θ := tiny * 2 ^ Q / 16 with hΘ
  have hku := kulp (k := k) (by omega)
  have hku' := kulp (k := k') (by omega)
  have hk0 : (0 : ℝ) ≤ k * ulp := by positivity
  have hk0' : (0 : ℝ) ≤ k' * ulp := by positivity
  have hst : 0 ≤ s * t := mul_nonneg hs0 ht0
  have hust : 0 ≤ ulp * (s * t) := by positivity
  have hkk : (k * ulp) * (k' * ulp) ≤ ulp := by
    have e1 : (k' : ℝ) * ulp ≤ 100 * ulp := mul_le_mul_of_nonneg_right (by exact_mod_cast (by omega : k' ≤ 100)) hu.le
    have e2 := mul_le_mul hku e1 hk0' (by norm_num)
    linarith
  have hmain : α * (t + β) + s * β ≤ (k + k' + 1) * ulp * (s * t) + 6 * Θ := by
    have e : α * (t + β) + s * β = (k + k') * ulp * (s * t) + (k * ulp) * (k' * ulp) * (s * t) + t * τ
        + (k * ulp) * (s * τ') + (k' * ulp) * (t * τ) + τ * τ' + s * τ' := by rw [hα, hβ]; ring
    have e1 := mul_le_mul_of_nonneg_right hkk hst
    have e2 : (k * ulp) * (s * τ') ≤ 1 * (s * τ') := mul_le_mul_of_nonneg_right (by linarith) (by positivity)
    have e3 : (k' * ulp) * (t * τ) ≤ 1 * (t * τ) := mul_le_mul_of_nonneg_right (by linarith) (by positivity)
    rw [e]; nlinarith
  have hmain' := hprod.trans hmain
  refine ⟨hok, by rw [abs_mul]; exact mul_le_mul h.bound h'.bound (abs_nonneg _) hs0, ?_, ?_⟩
  · rw [pow_add]; exact mul_le_mul h.size h'.size ht0 (by positivity)
  · rw [(mul_inv hok).2.2]
    have hr := (rne_error (re a * re b)).1
    have hab : |re a * re b| ≤ s * t + ((k + k' + 1) * ulp * (s * t) + 6 * Θ) := by
      have e1 := abs_add_le (v * w) (re a * re b - v * w)
      rw [add_sub_cancel] at e1
      have e2 : |v * w| ≤ s * t := by rw [abs_mul]; exact mul_le_mul h.bound h'.bound (abs_nonneg _) hs0
      linarith
    have hkk1 : ((k : ℝ) + k' + 1) * ulp ≤ 1 / 10 ^ 6 := by
      have := kulp (k := k + k' + 1) (by omega)
      push_cast at this; exact this
    have e1 : ulp * |re a * re b| ≤ ulp * (s * t) + (ulp * (s * t) + Θ) := by
      have c1 := mul_le_mul_of_nonneg_left hab hu.le
      have c2 : ((k : ℝ) + k' + 1) * ulp * (ulp * (s * t)) ≤ 1 * (ulp * (s * t)) :=
        mul_le_mul_of_nonneg_right (by linarith) hust
      have c3 : ulp * Θ ≤ 1 / 10 ^ 9 * Θ := mul_le_mul_of_nonneg_right hu2 (by positivity)
      have c4 : 0 ≤ Θ := by positivity
      nlinarith
    have tri := abs_add_le (rne (re a * re b) - re a * re b) (re a * re b - v * w)
    rw [sub_add_sub_cancel] at tri
    have hΘ16 : tiny * 2 ^ Q = 16 * Θ := by rw [hΘ]; ring
    have c4 : 0 ≤ Θ := by positivity
    rw [hΘ16]
    push_cast
    nlinarith

theorem add (h : Ap k p q a v s) (h' : Ap k' p' q' b w t) {K P Q : ℕ} (hk : k ≤ K) (hk' : k' ≤ K) (hK : K ≤ 90)
    (hp : p + 1 ≤ P) (hp' : p' + 1 ≤ P) (hP : P ≤ 900) (hq : q + 3 ≤ Q) (hq' : q' + 3 ≤ Q) (hQ : Q ≤ 1000) :
    Ap (K + 2) P Q (a + b) (v + w) (s + t) := by
  have hu := ulp_pos
  have hu2 : ulp ≤ 1 / 10 ^ 9 := by unfold ulp; norm_num
  have ht := tiny_pos
  have hs0 := h.nonneg
  have ht0 := h'.nonneg
  have hPpow : (2 : ℝ) ^ p ≤ 2 ^ P / 2 := by
    rw [le_div_iff₀ (by norm_num), ← pow_succ]; exact pow_le_pow_right₀ (by norm_num) hp
  have hPpow' : (2 : ℝ) ^ p' ≤ 2 ^ P / 2 := by
    rw [le_div_iff₀ (by norm_num), ← pow_succ]; exact pow_le_pow_right₀ (by norm_num) hp'
  have hok : ok (a + b) := by
    refine add_ok h.fin h'.fin ((abs_add_le _ _).trans ?_)
    have e1 := h.abs_le' (by omega) (by omega)
    have e2 := h'.abs_le' (by omega) (by omega)
    have e3 : (2 : ℝ) * 2 ^ P ≤ 2 ^ 1023 := by
      rw [mul_comm, ← pow_succ]; exact pow_le_pow_right₀ (by norm_num) (by omega)
    refine le_trans ?_ e3
    linarith
  set Θ := tiny * 2 ^ Q / 8 with hΘ
  have hΘ8 : tiny * 2 ^ Q = 8 * Θ := by rw [hΘ]; ring
  have hΘ0 : 0 ≤ Θ := by positivity
  have hτ : tiny * 2 ^ q ≤ Θ := by have := tiny_pow_c (q := q) (Q := Q) 3 hq; norm_num at this; exact this
  have hτ' : tiny * 2 ^ q' ≤ Θ := by have := tiny_pow_c (q := q') (Q := Q) 3 hq'; norm_num at this; exact this
  have hη : tiny ≤ Θ := by have := tiny_c (Q := Q) 3 (by omega); norm_num at this; exact this
  have e1 : (k : ℝ) * ulp * s ≤ K * ulp * s :=
    mul_le_mul_of_nonneg_right (mul_le_mul_of_nonneg_right (by exact_mod_cast hk) hu.le) hs0
  have e2 : (k' : ℝ) * ulp * t ≤ K * ulp * t :=
    mul_le_mul_of_nonneg_right (mul_le_mul_of_nonneg_right (by exact_mod_cast hk') hu.le) ht0
  have hsum : |re a + re b - (v + w)| ≤ K * ulp * (s + t) + 2 * Θ := by
    have e : re a + re b - (v + w) = (re a - v) + (re b - w) := by ring
    rw [e]
    have := abs_add_le (re a - v) (re b - w)
    have := h.err
    have := h'.err
    linarith
  have hvw : |v + w| ≤ s + t := (abs_add_le _ _).trans (add_le_add h.bound h'.bound)
  refine ⟨hok, hvw, by linarith [h.size, h'.size], ?_⟩
  rw [(add_inv hok).2.2]
  have hr := (rne_error (re a + re b)).1
  have hab : |re a + re b| ≤ s + t + (K * ulp * (s + t) + 2 * Θ) := by
    have c1 := abs_add_le (v + w) (re a + re b - (v + w))
    rw [add_sub_cancel] at c1
    linarith
  have hKu := kulp (k := K) (by omega)
  have hust : 0 ≤ ulp * (s + t) := by positivity
  have e3 : ulp * |re a + re b| ≤ ulp * (s + t) + (ulp * (s + t) + Θ) := by
    have c1 := mul_le_mul_of_nonneg_left hab hu.le
    have c2 : (K : ℝ) * ulp * (ulp * (s + t)) ≤ 1 * (ulp * (s + t)) :=
      mul_le_mul_of_nonneg_right (by linarith) hust
    have c3 : ulp * Θ ≤ 1 / 10 ^ 9 * Θ := mul_le_mul_of_nonneg_right hu2 hΘ0
    nlinarith
  have tri := abs_add_le (rne (re a + re b) - (re a + re b)) (re a + re b - (v + w))
  rw [sub_add_sub_cancel] at tri
  rw [hΘ8]
  push_cast
  nlinarith

theorem sub (h : Ap k p q a v s) (h' : Ap k' p' q' b w t) {K P Q : ℕ} (hk : k ≤ K) (hk' : k' ≤ K) (hK : K ≤ 90)
    (hp : p + 1 ≤ P) (hp' : p' + 1 ≤ P) (hP : P ≤ 900) (hq : q + 3 ≤ Q) (hq' : q' + 3 ≤ Q) (hQ : Q ≤ 1000) :
    Ap (K + 2) P Q (a - b) (v - w) (s + t) := by
  have := h.add h'.neg hk hk' hK hp hp' hP hq hq' hQ
  rw [← sub_eq_add_neg v w] at this
  exact this

/-- Division by a number that is exact. -/
theorem div (h : Ap k p q a v s) {d : F64 L} {e Q : ℕ} (hd : ok d) (hd1 : 1 / 2 ^ e ≤ |re d|) (hk : k ≤ 90)
    (hp : p + e ≤ 900) (hq : q + e + 3 ≤ Q) (hQ : Q ≤ 1000) :
    Ap (k + 2) (p + e) Q (a / d) (v / re d) (s / |re d|) := by
  have hu := ulp_pos
  have hu2 : ulp ≤ 1 / 10 ^ 9 := by unfold ulp; norm_num
  have ht := tiny_pos
  have hs0 := h.nonneg
  have hdpos : 0 < |re d| := lt_of_lt_of_le (by positivity) hd1
  have hd0 : re d ≠ 0 := abs_pos.1 hdpos
  set j := 1 / |re d| with hj
  have hj0 : 0 < j := by positivity
  have hj1 : j ≤ 2 ^ e := by
    rw [hj, div_le_iff₀ hdpos]
    have := mul_le_mul_of_nonneg_left hd1 (by positivity : (0 : ℝ) ≤ 2 ^ e)
    rw [mul_one_div_cancel (by positivity)] at this
    exact this
  have hdiv : ∀ z : ℝ, |z / re d| = |z| * j := fun z => by rw [abs_div, hj]; ring
  have hab : |re a / re d| ≤ 2 ^ 1023 := by
    rw [hdiv]
    have e1 := mul_le_mul (h.abs_le' (by omega) (by omega)) hj1 hj0.le (by positivity)
    refine e1.trans ?_
    have : (2 : ℝ) * 2 ^ p * 2 ^ e = 2 ^ (p + e + 1) := by rw [pow_add, pow_add]; ring
    rw [this]
    exact pow_le_pow_right₀ (by norm_num) (by omega)
  have hfin := Raw.div_finite h.fin hd hd0 (rne_bound hab)
  have hok : ok (a / d) := hfin.1
  have hre : re (a / d) = rne (re a / re d) := hfin.2
  have hsj : s / |re d| = s * j := by rw [hj]; ring
  rw [hsj]
  set Θ := tiny * 2 ^ Q / 8 with hΘ
  have hΘ8 : tiny * 2 ^ Q = 8 * Θ := by rw [hΘ]; ring
  have hΘ0 : 0 ≤ Θ := by positivity
  have hτ : tiny * 2 ^ q * j ≤ Θ := by
    have e1 := tiny_pow_mul (q := q) (p := e) (Q := Q) 3 hq
    norm_num at e1
    exact (mul_le_mul_of_nonneg_left hj1 (by positivity)).trans e1
  have hη : tiny ≤ Θ := by have := tiny_c (Q := Q) 3 (by omega); norm_num at this; exact this
  have hquot : |re a / re d - v / re d| ≤ k * ulp * (s * j) + Θ := by
    rw [← sub_div, hdiv]
    have := mul_le_mul_of_nonneg_right h.err hj0.le
    have e1 : (k * ulp * s + tiny * 2 ^ q) * j = k * ulp * (s * j) + tiny * 2 ^ q * j := by ring
    rw [e1] at this
    linarith
  have hvw : |v / re d| ≤ s * j := by rw [hdiv]; exact mul_le_mul_of_nonneg_right h.bound hj0.le
  refine ⟨hok, hvw, ?_, ?_⟩
  · rw [pow_add]; exact mul_le_mul h.size hj1 hj0.le (by positivity)
  · rw [hre]
    have hr := (rne_error (re a / re d)).1
    have hab : |re a / re d| ≤ s * j + (k * ulp * (s * j) + Θ) := by
      have c1 := abs_add_le (v / re d) (re a / re d - v / re d)
      rw [add_sub_cancel] at c1
      linarith
    have hKu := kulp (k := k) (by omega)
    have hsj0 : 0 ≤ s * j := by positivity
    have hust : 0 ≤ ulp * (s * j) := by positivity
    have e3 : ulp * |re a / re d| ≤ ulp * (s * j) + (ulp * (s * j) + Θ) := by
      have c1 := mul_le_mul_of_nonneg_left hab hu.le
      have c2 : (k : ℝ) * ulp * (ulp * (s * j)) ≤ 1 * (ulp * (s * j)) :=
        mul_le_mul_of_nonneg_right (by linarith) hust
      have c3 : ulp * Θ ≤ 1 / 10 ^ 9 * Θ := mul_le_mul_of_nonneg_right hu2 hΘ0
      nlinarith
    have tri := abs_add_le (rne (re a / re d) - re a / re d) (re a / re d - v / re d)
    rw [sub_add_sub_cancel] at tri
    rw [hΘ8]
    push_cast
    nlinarith

end Ap

end Sett.Float64
