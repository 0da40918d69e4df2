import Verif.Props.FloatBalances
import Verif.Props.IeeeExample

/-! # Examples for C91: systems solved exactly in binary64

A run of the elimination on fractions whose intermediate results are all short binary fractions is followed step
by step by the run on machine numbers. -/

namespace Sett

open Float64 Raw Spec state_equations lu

namespace FloatBalancesExample

open IeeeExample (Lib)

/-- Exact fractions, to evaluate the model; only arithmetic and comparisons are used. -/
@[reducible] def scalarRat : Scalar ℚ where
  toAdd := inferInstance
  toSub := inferInstance
  toMul := inferInstance
  toDiv := inferInstance
  toNeg := inferInstance
  toOfScientific := inferInstance
  abs x := |x|
  sin x := x
  cos x := x
  exp x := x
  ln x := x
  sqrt x := x
  powi2 x := x * x
  pi := 3
  lt a b := decide (a < b)
  le a b := decide (a ≤ b)
  totalLe a b := decide (a ≤ b)
  isInfinite _ := false
  ofNat n := n

attribute [local instance] scalarRat

/-- The machine number is the fraction `q`. -/
def IsQ (a : F64 Lib) (q : ℚ) : Prop := a.raw.Finite ∧ a.raw.real = (q : ℝ)

/-- A short binary fraction. -/
abbrev Dy (q : ℚ) : Prop := q.num.natAbs ≤ 2 ^ 53 ∧ q.den ∣ 2 ^ 60

theorem rep_dy {q : ℚ} (h : Dy q) : Rep (q : ℝ) := by
  obtain ⟨k, hk, hd⟩ := (Nat.dvd_prime_pow Nat.prime_two).1 h.2
  have hnum : |(q.num : ℝ)| ≤ 2 ^ 53 := by
    have : |q.num| ≤ 2 ^ 53 := by rw [Int.abs_eq_natAbs]; exact_mod_cast h.1
    exact_mod_cast this
  have e : (q : ℝ) = q.num * 2 ^ (-(k : ℤ)) := by
    rw [zpow_neg, zpow_natCast, ← div_eq_mul_inv]
    have := Rat.cast_def (K := ℝ) q
    rw [this, hd]; push_cast; rfl
  refine ⟨⟨q.num, -(k : ℤ), by rw [Int.abs_eq_natAbs]; exact_mod_cast h.1, by omega, e⟩, ?_⟩
  rw [e, abs_mul]
  have h1 : |(2 : ℝ) ^ (-(k : ℤ))| ≤ 1 := by
    rw [abs_of_pos (by positivity)]
    exact zpow_le_one_of_nonpos₀ (by norm_num) (by omega)
  calc _ ≤ (2 : ℝ) ^ 53 * 1 := mul_le_mul hnum h1 (abs_nonneg _) (by positivity)
    _ = 2 ^ 53 := mul_one _
    _ < _ := pow_lt_pow_right₀ (by norm_num) (by norm_num)

section ops
variable {a b : F64 Lib} {p q : ℚ}

theorem q_add (ha : IsQ a p) (hb : IsQ b q) (h : Dy (p + q)) : IsQ (a + b) (p + q) := by
  have e : a.raw.real + b.raw.real = ((p + q : ℚ) : ℝ) := by rw [ha.2, hb.2]; push_cast; rfl
  obtain ⟨h1, h2⟩ := Raw.add_finite ha.1 hb.1 (by rw [e, rne_rep (rep_dy h)]; exact (rep_dy h).2)
  exact ⟨h1, h2.trans (by rw [e, rne_rep (rep_dy h)])⟩

theorem q_sub (ha : IsQ a p) (hb : IsQ b q) (h : Dy (p - q)) : IsQ (a - b) (p - q) := by
  have e : a.raw.real - b.raw.real = ((p - q : ℚ) : ℝ) := by rw [ha.2, hb.2]; push_cast; rfl
  obtain ⟨h1, h2⟩ := Raw.sub_finite ha.1 hb.1 (by rw [e, rne_rep (rep_dy h)]; exact (rep_dy h).2)
  exact ⟨h1, h2.trans (by rw [e, rne_rep (rep_dy h)])⟩

theorem q_mul (ha : IsQ a p) (hb : IsQ b q) (h : Dy (p * q)) : IsQ (a * b) (p * q) := by
  have e : a.raw.real * b.raw.real = ((p * q : ℚ) : ℝ) := by rw [ha.2, hb.2]; push_cast; rfl
  obtain ⟨h1, h2⟩ := Raw.mul_finite ha.1 hb.1 (by rw [e, rne_rep (rep_dy h)]; exact (rep_dy h).2)
  exact ⟨h1, h2.trans (by rw [e, rne_rep (rep_dy h)])⟩

theorem q_div (ha : IsQ a p) (hb : IsQ b q) (h0 : q ≠ 0) (h : Dy (p / q)) : IsQ (a / b) (p / q) := by
  have e : a.raw.real / b.raw.real = ((p / q : ℚ) : ℝ) := by rw [ha.2, hb.2]; push_cast; rfl
  obtain ⟨h1, h2⟩ := Raw.div_finite ha.1 hb.1 (by rw [hb.2]; exact_mod_cast h0)
    (by rw [e, rne_rep (rep_dy h)]; exact (rep_dy h).2)
  exact ⟨h1, h2.trans (by rw [e, rne_rep (rep_dy h)])⟩

theorem q_neg (ha : IsQ a p) : IsQ (-a) (-p) :=
  ⟨Raw.neg_finite ha.1, (Raw.neg_real a.raw).trans (by rw [ha.2]; push_cast; rfl)⟩

theorem q_zero : IsQ (0.0 : F64 Lib) 0.0 := ⟨lit_zero_ok.1, lit_zero_ok.2.trans (by norm_num)⟩

theorem q_one : IsQ (1.0 : F64 Lib) 1.0 := ⟨lit_one_ok.1, lit_one_ok.2.trans (by norm_num)⟩

/-- The machine number for a fraction. -/
noncomputable def F (q : ℚ) : F64 Lib := (pack false (q : ℝ) : Raw)

theorem q_F (h : Dy q) : IsQ (F q) q := by
  have hr := rep_dy h
  obtain ⟨h1, h2⟩ := pack_finite (x := (q : ℝ)) false (by rw [rne_rep hr]; exact hr.2)
  exact ⟨h1, h2.trans (rne_rep hr)⟩

theorem q_le (ha : IsQ a p) (hb : IsQ b q) : Scalar.le a b = Scalar.le p q := by
  rw [Bool.eq_iff_iff]
  refine (Raw.le_finite ha.1 hb.1).trans ?_
  rw [ha.2, hb.2]
  show _ ↔ decide (p ≤ q) = true
  rw [decide_eq_true_iff]; exact_mod_cast Iff.rfl

theorem q_lt_abs (ha : IsQ a p) (hb : IsQ b q) :
    Scalar.lt (Scalar.abs a) (Scalar.abs b) = Scalar.lt (Scalar.abs p) (Scalar.abs q) := by
  rw [Bool.eq_iff_iff]
  refine (Raw.lt_finite (Raw.abs_finite ha.1) (Raw.abs_finite hb.1)).trans ?_
  rw [Raw.abs_real, Raw.abs_real, ha.2, hb.2]
  show _ ↔ decide (|p| < |q|) = true
  rw [decide_eq_true_iff]; exact_mod_cast Iff.rfl

theorem q_isZero (ha : IsQ a p) : isZero a = isZero p := by
  unfold isZero
  rw [q_le ha q_zero, q_le q_zero ha]

end ops

/-! ## Following the elimination -/

variable {n : ℕ}

def RelM (m : Fin n → Fin n → F64 Lib) (M : Fin n → Fin n → ℚ) : Prop := ∀ r c, IsQ (m r c) (M r c)

def RelV (b : Fin n → F64 Lib) (B : Fin n → ℚ) : Prop := ∀ r, IsQ (b r) (B r)

/-- Every intermediate result of `gaussStep` is short. -/
abbrev GaussOk (M : Fin n → Fin n → ℚ) (D : ℚ) (i : Fin n) : Prop :=
  D ≠ 0 ∧ Dy (1.0 / D) ∧ ∀ r, i < r → Dy (M r i * (1.0 / D)) ∧
    ∀ c, i < c → Dy (-M i c * (M r i * (1.0 / D))) ∧ Dy (-M i c * (M r i * (1.0 / D)) + M r c)

theorem gauss_rel {m : Fin n → Fin n → F64 Lib} {M : Fin n → Fin n → ℚ} (h : RelM m M) {d : F64 Lib} {D : ℚ}
    (hd : IsQ d D) {i : Fin n} (hc : GaussOk M D i) : RelM (gaussStep m d i) (gaussStep M D i) := by
  intro r c
  have hinv := q_div q_one hd hc.1 hc.2.1
  unfold gaussStep
  by_cases hr : i < r
  · obtain ⟨h1, h2⟩ := hc.2.2 r hr
    have hl := q_mul (h r i) hinv h1
    simp only [hr, if_true]
    by_cases hci : c = i
    · simp only [hci, if_true]; exact hl
    · simp only [hci, if_false]
      by_cases hlt : i < c
      · simp only [hlt, if_true]
        exact q_add (q_mul (q_neg (h i c)) hl (h2 c hlt).1) (h r c) (h2 c hlt).2
      · simp only [hlt, if_false]; exact h r c
  · simp only [hr, if_false]; exact h r c

theorem pivot_rel {m : Fin n → Fin n → F64 Lib} {M : Fin n → Fin n → ℚ} (h : RelM m M) (i : Fin n) :
    pivotRow m i = pivotRow M i := by
  unfold pivotRow
  congr 1
  funext best r
  rw [q_lt_abs (h best i) (h r i)]

theorem swap_rel {m : Fin n → Fin n → F64 Lib} {M : Fin n → Fin n → ℚ} (h : RelM m M) (i j : Fin n) :
    RelM (swapRows m i j) (swapRows M i j) := by
  intro r c
  unfold swapRows
  split_ifs
  exacts [h _ _, h _ _, h _ _]

theorem swap_self {β : Type} (m : Fin n → β) (i : Fin n) : swapRows m i i = m := by
  funext r
  unfold swapRows
  by_cases hr : r = i
  · simp [hr]
  · simp [hr]

def RelLu (s : Lu n (F64 Lib)) (S : Lu n ℚ) : Prop := RelM s.packed S.packed ∧ s.p = S.p

/-- Every intermediate result of `step` is short and the pivot is not zero. -/
abbrev StepOk (S : Lu n ℚ) (i : Fin n) : Prop :=
  GaussOk (swapRows S.packed i (pivotRow S.packed i)) (S.packed (pivotRow S.packed i) i) i

theorem step_rel {s : Lu n (F64 Lib)} {S : Lu n ℚ} (h : RelLu s S) {i : Fin n} (hc : StepOk S i) :
    RelLu (step s i) (step S i) := by
  obtain ⟨h1, h2⟩ := h
  unfold step
  rw [pivot_rel h1]
  have hd := h1 (pivotRow S.packed i) i
  dsimp only
  rw [q_isZero hd]
  have hz : isZero (S.packed (pivotRow S.packed i) i) = false := by
    rw [Bool.eq_false_iff]
    intro hz
    unfold isZero at hz
    rw [Bool.and_eq_true] at hz
    have a1 := of_decide_eq_true hz.1
    have a2 := of_decide_eq_true hz.2
    norm_num at a1 a2
    exact hc.1 (le_antisymm a1 a2)
  simp only [hz, Bool.false_eq_true, if_false]
  unfold StepOk at hc
  by_cases hp : pivotRow S.packed i = i
  · rw [hp, swap_self] at hc
    simp only [hp, if_true]
    rw [hp] at hd
    exact ⟨gauss_rel h1 hd hc, h2⟩
  · simp only [hp, if_false]
    exact ⟨gauss_rel (swap_rel h1 _ _) hd hc, by rw [h2]⟩

theorem permute_rel {b : Fin n → F64 Lib} {B : Fin n → ℚ} (h : RelV b B) (p : List (Fin n × Fin n)) :
    RelV (permuteRows p b) (permuteRows p B) := by
  unfold permuteRows
  induction p generalizing b B with
  | nil => exact h
  | cons ij p ih =>
    simp only [List.foldl_cons]
    apply ih
    intro r
    unfold swapRows
    split_ifs
    exacts [h _, h _, h _]

/-- One pass of the forward substitution. -/
def forwardPass (M : Fin n → Fin n → ℚ) (B : Fin n → ℚ) (k : Fin n) : Fin n → ℚ :=
  fun r => if k < r then -B k * M r k + B r else B r

theorem forward_rel {m : Fin n → Fin n → F64 Lib} {M : Fin n → Fin n → ℚ} (hm : RelM m M) {b : Fin n → F64 Lib}
    {T : ℕ → Fin n → ℚ} (hb : RelV b (T 0))
    (hT : ∀ k : Fin n, (∀ r, T (k + 1) r = forwardPass M (T k) k r) ∧
      ∀ r, k < r → Dy (-T k k * M r k) ∧ Dy (-T k k * M r k + T k r)) (k : ℕ) (hk : k ≤ n) :
    RelV (forwardTo m b k) (T k) := by
  induction k with
  | zero => exact hb
  | succ k ih =>
    have hkn : k < n := hk
    have ih := ih (by omega)
    obtain ⟨e, h2⟩ := hT ⟨k, hkn⟩
    intro r
    rw [e r]
    simp only [forwardTo, hkn, dite_true, forwardPass]
    by_cases hr : (⟨k, hkn⟩ : Fin n) < r
    · simp only [hr, if_true]
      exact q_add (q_mul (q_neg (ih _)) (hm _ _) (h2 r hr).1) (ih r) (h2 r hr).2
    · simp only [hr, if_false]; exact ih r

/-- One pass of the backward substitution. -/
def backwardPass (M : Fin n → Fin n → ℚ) (B : Fin n → ℚ) (k : Fin n) : Fin n → ℚ :=
  fun r => if r = k then B k / M k k else if r < k then -(B k / M k k) * M r k + B r else B r

theorem backward_rel {m : Fin n → Fin n → F64 Lib} {M : Fin n → Fin n → ℚ} (hm : RelM m M) {T : ℕ → Fin n → ℚ}
    (hT : ∀ k : Fin n, (∀ r, T k r = backwardPass M (T (k + 1)) k r) ∧ M k k ≠ 0 ∧ Dy (T (k + 1) k / M k k) ∧
      ∀ r, r < k → Dy (-(T (k + 1) k / M k k) * M r k) ∧ Dy (-(T (k + 1) k / M k k) * M r k + T (k + 1) r))
    (k : ℕ) (hk : k ≤ n) {b : Fin n → F64 Lib} (hb : RelV b (T k)) : ∃ x, backward m k b = some x ∧ RelV x (T 0) := by
  induction k generalizing b with
  | zero => exact ⟨b, rfl, hb⟩
  | succ k ih =>
    have hkn : k < n := hk
    obtain ⟨e, h0, h1, h2⟩ := hT ⟨k, hkn⟩
    have hz : isZero (m ⟨k, hkn⟩ ⟨k, hkn⟩) = false := by
      rw [q_isZero (hm _ _), Bool.eq_false_iff]
      intro hz
      unfold isZero at hz
      rw [Bool.and_eq_true] at hz
      have a1 := of_decide_eq_true hz.1
      have a2 := of_decide_eq_true hz.2
      norm_num at a1 a2
      exact h0 (le_antisymm a1 a2)
    simp only [backward, hkn, dite_true, hz, Bool.false_eq_true, if_false]
    refine ih (by omega) fun r => ?_
    have hco := q_div (hb ⟨k, hkn⟩) (hm ⟨k, hkn⟩ ⟨k, hkn⟩) h0 h1
    have er := e r
    simp only at er
    rw [er]
    unfold backwardPass
    by_cases hr : r = ⟨k, hkn⟩
    · simp only [hr, if_true]; exact hco
    · simp only [hr, if_false]
      by_cases hlt : r < ⟨k, hkn⟩
      · simp only [hlt, if_true]
        exact q_add (q_mul (q_neg hco) (hm _ _) (h2 r hlt).1) (hb r) (h2 r hlt).2
      · simp only [hlt, if_false]; exact hb r

theorem factor_rel {a : Fin n → Fin n → F64 Lib} {S : ℕ → Lu n ℚ} (h0 : RelLu { packed := a, p := [] } (S 0))
    (hS : ∀ k : Fin n, StepOk (S k) k ∧ (∀ r c, (step (S k) k).packed r c = (S (k + 1)).packed r c) ∧
      (step (S k) k).p = (S (k + 1)).p) (k : ℕ) (hk : k ≤ n) : RelLu (factorTo a k) (S k) := by
  induction k with
  | zero => exact h0
  | succ k ih =>
    have hkn : k < n := hk
    obtain ⟨h1, h2, h3⟩ := hS ⟨k, hkn⟩
    have := step_rel (ih (by omega)) h1
    simp only [factorTo, hkn, dite_true]
    exact ⟨fun r c => by rw [← h2 r c]; exact this.1 r c, this.2.trans h3⟩

/-! ## A gas in motion -/

/-- Gas flowing from the compression to the expansion space, every number a short binary fraction. -/
def inputsQ : Inputs ℚ where
  pres := 2
  enth_norm := 4
  comp := { vol := 2, dens := 1, inte := 4, enth := 2, dd_dP_T := 1, dd_dT_P := -1, du_dP_T := 0, du_dT_P := 4
            dV_dt := 1, Q_dot := -1 }
  chx := { vol := 1, dens := 4, inte := 1, enth := 4, dd_dP_T := 1/2, du_dP_T := 0 }
  regen := { vol := 2, dens := 2, inte := 2, enth_cold := 2, enth_hot := 4, dd_dP_T := 1/2, du_dP_T := 0 }
  hhx := { vol := 2, dens := 4, inte := 2, enth := 2, dd_dP_T := 1, du_dP_T := 0 }
  exp := { vol := 1, dens := 4, inte := 2, enth := 4, dd_dP_T := 1/2, dd_dT_P := -2, du_dP_T := 0, du_dT_P := 1
           dV_dt := 2, Q_dot := 1 }

/-- The same as machine numbers. -/
noncomputable def inputs : Inputs (F64 Lib) where
  pres := F 2
  enth_norm := F 4
  comp := { vol := F 2, dens := F 1, inte := F 4, enth := F 2, dd_dP_T := F 1, dd_dT_P := F (-1), du_dP_T := F 0
            du_dT_P := F 4, dV_dt := F 1, Q_dot := F (-1) }
  chx := { vol := F 1, dens := F 4, inte := F 1, enth := F 4, dd_dP_T := F (1/2), du_dP_T := F 0 }
  regen := { vol := F 2, dens := F 2, inte := F 2, enth_cold := F 2, enth_hot := F 4, dd_dP_T := F (1/2)
             du_dP_T := F 0 }
  hhx := { vol := F 2, dens := F 4, inte := F 2, enth := F 2, dd_dP_T := F 1, du_dP_T := F 0 }
  exp := { vol := F 1, dens := F 4, inte := F 2, enth := F 4, dd_dP_T := F (1/2), dd_dT_P := F (-2), du_dP_T := F 0
           du_dT_P := F 1, dV_dt := F 2, Q_dot := F 1 }

theorem usual_F {q : ℚ} (h : Dy q) : Usual (F q) := by
  have hq := q_F h
  refine ⟨hq.1, ?_⟩
  rw [hq.2]
  have hnum : |(q.num : ℝ)| ≤ 2 ^ 53 := by
    have : |q.num| ≤ 2 ^ 53 := by rw [Int.abs_eq_natAbs]; exact_mod_cast h.1
    exact_mod_cast this
  have hden : (1 : ℝ) ≤ q.den := by exact_mod_cast q.pos
  rw [Rat.cast_def, abs_div, abs_of_pos (by linarith : (0 : ℝ) < q.den)]
  calc _ ≤ |(q.num : ℝ)| / 1 := div_le_div_of_nonneg_left (abs_nonneg _) (by norm_num) hden
    _ ≤ 2 ^ 53 := by rw [div_one]; exact hnum
    _ ≤ _ := pow_le_pow_right₀ (by norm_num) (by norm_num)

theorem usual_inputs : UsualInputs inputs := by
  have u : ∀ q : ℚ, Dy q → Usual (F q) := fun q => usual_F
  refine ⟨u _ (by decide +kernel), u _ (by decide +kernel), ?_, ?_, ?_, ?_, ?_, ?_⟩
  · have : inputs.enth_norm.raw.real = 4 := (q_F (q := 4) (by decide +kernel)).2.trans (by norm_num)
    rw [this]; norm_num
  all_goals constructor <;> exact u _ (by decide +kernel)

def dir : FlowDirection := ⟨.Positive, .Positive, .Positive, .Positive⟩

def tables : List (List (List ℚ)) :=
  [[[1, 0, 0, 0, 0, 0, 0, -2, 0, 2],
      [1/2, 0, 0, 0, 0, 0, 0, 0, 0, 2],
      [-1, 1, 0, 0, 0, 0, 0, 0, 0, 1/2],
      [-1/2, 1, 0, 0, 1/4, 0, 0, 0, 0, 1/8],
      [0, -1, 1, 0, 0, 0, 0, 0, 0, 1],
      [0, -1, 1, 0, 0, 1/4, 0, 0, 0, 1/2],
      [0, 0, -1, 1, 0, 0, 0, 0, 0, 2],
      [0, 0, -1, 1/2, 0, 0, -1/4, 0, 0, 1],
      [0, 0, 0, -1, 0, 0, 0, 0, -2, 1/2],
      [0, 0, 0, -1/2, 0, 0, 0, 0, 0, 1/4]],
   [[1, 0, 0, 0, 0, 0, 0, -2, 0, 2],
      [1/2, 0, 0, 0, 0, 0, 0, 1, 0, 1],
      [-1, 1, 0, 0, 0, 0, 0, -2, 0, 5/2],
      [-1/2, 1, 0, 0, 1/4, 0, 0, -1, 0, 9/8],
      [0, -1, 1, 0, 0, 0, 0, 0, 0, 1],
      [0, -1, 1, 0, 0, 1/4, 0, 0, 0, 1/2],
      [0, 0, -1, 1, 0, 0, 0, 0, 0, 2],
      [0, 0, -1, 1/2, 0, 0, -1/4, 0, 0, 1],
      [0, 0, 0, -1, 0, 0, 0, 0, -2, 1/2],
      [0, 0, 0, -1/2, 0, 0, 0, 0, 0, 1/4]],
   [[1, 0, 0, 0, 0, 0, 0, -2, 0, 2],
      [-1, 1, 0, 0, 0, 0, 0, -2, 0, 5/2],
      [1/2, 0, 0, 0, 0, 0, 0, 1, 0, 1],
      [-1/2, 1, 0, 0, 1/4, 0, 0, 1, 0, -11/8],
      [0, -1, 1, 0, 0, 0, 0, -2, 0, 7/2],
      [0, -1, 1, 0, 0, 1/4, 0, -2, 0, 3],
      [0, 0, -1, 1, 0, 0, 0, 0, 0, 2],
      [0, 0, -1, 1/2, 0, 0, -1/4, 0, 0, 1],
      [0, 0, 0, -1, 0, 0, 0, 0, -2, 1/2],
      [0, 0, 0, -1/2, 0, 0, 0, 0, 0, 1/4]],
   [[1, 0, 0, 0, 0, 0, 0, -2, 0, 2],
      [-1, 1, 0, 0, 0, 0, 0, -2, 0, 5/2],
      [0, -1, 1, 0, 0, 0, 0, -2, 0, 7/2],
      [-1/2, 1, 0, 0, 1/4, 0, 0, 1, 0, -11/8],
      [1/2, 0, 0, 0, 0, 0, 0, 1, 0, 1],
      [0, -1, 1, 0, 0, 1/4, 0, 0, 0, -1/2],
      [0, 0, -1, 1, 0, 0, 0, -2, 0, 11/2],
      [0, 0, -1, 1/2, 0, 0, -1/4, -2, 0, 9/2],
      [0, 0, 0, -1, 0, 0, 0, 0, -2, 1/2],
      [0, 0, 0, -1/2, 0, 0, 0, 0, 0, 1/4]],
   [[1, 0, 0, 0, 0, 0, 0, -2, 0, 2],
      [-1, 1, 0, 0, 0, 0, 0, -2, 0, 5/2],
      [0, -1, 1, 0, 0, 0, 0, -2, 0, 7/2],
      [0, 0, -1, 1, 0, 0, 0, -2, 0, 11/2],
      [1/2, 0, 0, 0, 0, 0, 0, 1, 0, 1],
      [0, -1, 1, 0, 0, 1/4, 0, 0, 0, -1/2],
      [-1/2, 1, 0, 0, 1/4, 0, 0, 1, 0, -11/8],
      [0, 0, -1, 1/2, 0, 0, -1/4, -1, 0, 7/4],
      [0, 0, 0, -1, 0, 0, 0, -2, -2, 6],
      [0, 0, 0, -1/2, 0, 0, 0, -1, 0, 3]],
   [[1, 0, 0, 0, 0, 0, 0, -2, 0, 2],
      [-1, 1, 0, 0, 0, 0, 0, -2, 0, 5/2],
      [0, -1, 1, 0, 0, 0, 0, -2, 0, 7/2],
      [0, 0, -1, 1, 0, 0, 0, -2, 0, 11/2],
      [-1/2, 1, 0, 0, 1/4, 0, 0, 1, 0, -11/8],
      [0, -1, 1, 0, 0, 1/4, 0, 0, 0, -1/2],
      [1/2, 0, 0, 0, 0, 0, 0, 1, 0, 1],
      [0, 0, -1, 1/2, 0, 0, -1/4, -1, 0, 7/4],
      [0, 0, 0, -1, 0, 0, 0, -2, -2, 6],
      [0, 0, 0, -1/2, 0, 0, 0, -1, 0, 3]],
   [[1, 0, 0, 0, 0, 0, 0, -2, 0, 2],
      [-1, 1, 0, 0, 0, 0, 0, -2, 0, 5/2],
      [0, -1, 1, 0, 0, 0, 0, -2, 0, 7/2],
      [0, 0, -1, 1, 0, 0, 0, -2, 0, 11/2],
      [-1/2, 1, 0, 0, 1/4, 0, 0, 1, 0, -11/8],
      [0, -1, 1, 0, 0, 1/4, 0, 0, 0, -1/2],
      [1/2, 0, 0, 0, 0, 0, 0, 1, 0, 1],
      [0, 0, -1, 1/2, 0, 0, -1/4, -1, 0, 7/4],
      [0, 0, 0, -1, 0, 0, 0, -2, -2, 6],
      [0, 0, 0, -1/2, 0, 0, 0, -1, 0, 3]],
   [[1, 0, 0, 0, 0, 0, 0, -2, 0, 2],
      [-1, 1, 0, 0, 0, 0, 0, -2, 0, 5/2],
      [0, -1, 1, 0, 0, 0, 0, -2, 0, 7/2],
      [0, 0, -1, 1, 0, 0, 0, -2, 0, 11/2],
      [-1/2, 1, 0, 0, 1/4, 0, 0, 1, 0, -11/8],
      [0, -1, 1, 0, 0, 1/4, 0, 0, 0, -1/2],
      [0, 0, -1, 1/2, 0, 0, -1/4, -1, 0, 7/4],
      [1/2, 0, 0, 0, 0, 0, 0, 1, 0, 1],
      [0, 0, 0, -1, 0, 0, 0, -2, -2, 6],
      [0, 0, 0, -1/2, 0, 0, 0, -1, 0, 3]],
   [[1, 0, 0, 0, 0, 0, 0, -2, 0, 2],
      [-1, 1, 0, 0, 0, 0, 0, -2, 0, 5/2],
      [0, -1, 1, 0, 0, 0, 0, -2, 0, 7/2],
      [0, 0, -1, 1, 0, 0, 0, -2, 0, 11/2],
      [-1/2, 1, 0, 0, 1/4, 0, 0, 1, 0, -11/8],
      [0, -1, 1, 0, 0, 1/4, 0, 0, 0, -1/2],
      [0, 0, -1, 1/2, 0, 0, -1/4, -1, 0, 7/4],
      [0, 0, 0, -1, 0, 0, 0, -2, -2, 6],
      [1/2, 0, 0, 0, 0, 0, 0, -1/2, -1, 4],
      [0, 0, 0, -1/2, 0, 0, 0, 1/2, 1, 0]],
   [[1, 0, 0, 0, 0, 0, 0, -2, 0, 2],
      [-1, 1, 0, 0, 0, 0, 0, -2, 0, 5/2],
      [0, -1, 1, 0, 0, 0, 0, -2, 0, 7/2],
      [0, 0, -1, 1, 0, 0, 0, -2, 0, 11/2],
      [-1/2, 1, 0, 0, 1/4, 0, 0, 1, 0, -11/8],
      [0, -1, 1, 0, 0, 1/4, 0, 0, 0, -1/2],
      [0, 0, -1, 1/2, 0, 0, -1/4, -1, 0, 7/4],
      [0, 0, 0, -1, 0, 0, 0, -2, -2, 6],
      [1/2, 0, 0, 0, 0, 0, 0, -1/2, -1, 4],
      [0, 0, 0, -1/2, 0, 0, 0, 1/2, -1, 4]],
   [[1, 0, 0, 0, 0, 0, 0, -2, 0, 2],
      [-1, 1, 0, 0, 0, 0, 0, -2, 0, 5/2],
      [0, -1, 1, 0, 0, 0, 0, -2, 0, 7/2],
      [0, 0, -1, 1, 0, 0, 0, -2, 0, 11/2],
      [-1/2, 1, 0, 0, 1/4, 0, 0, 1, 0, -11/8],
      [0, -1, 1, 0, 0, 1/4, 0, 0, 0, -1/2],
      [0, 0, -1, 1/2, 0, 0, -1/4, -1, 0, 7/4],
      [0, 0, 0, -1, 0, 0, 0, -2, -2, 6],
      [1/2, 0, 0, 0, 0, 0, 0, -1/2, -1, 4],
      [0, 0, 0, -1/2, 0, 0, 0, 1/2, -1, 4]]]

def swaps : List (List (Fin 10 × Fin 10)) :=
  [[], [], [(1, 2)], [(1, 2), (2, 4)], [(1, 2), (2, 4), (3, 6)], [(1, 2), (2, 4), (3, 6), (4, 6)], [(1, 2), (2, 4), (3, 6), (4, 6)], [(1, 2), (2, 4), (3, 6), (4, 6), (6, 7)], [(1, 2), (2, 4), (3, 6), (4, 6), (6, 7), (7, 8)], [(1, 2), (2, 4), (3, 6), (4, 6), (6, 7), (7, 8)], [(1, 2), (2, 4), (3, 6), (4, 6), (6, 7), (7, 8)]]

def forwards : List (List ℚ) :=
  [[-1, 0, 0, 0, 0, 0, 0, -8, -5/4, -21/4],
   [-1, -1, 0, 0, -1/2, 0, 0, -8, -3/4, -21/4],
   [-1, -1, -1, 0, 1/2, -1, 0, -8, -3/4, -21/4],
   [-1, -1, -1, -1, 1/2, 0, -1, -8, -3/4, -21/4],
   [-1, -1, -1, -1, 1/2, 0, -1/2, -9, -3/4, -23/4],
   [-1, -1, -1, -1, 1/2, 0, -1/2, -9, -3/4, -23/4],
   [-1, -1, -1, -1, 1/2, 0, -1/2, -9, -3/4, -23/4],
   [-1, -1, -1, -1, 1/2, 0, -1/2, -9, -3/4, -23/4],
   [-1, -1, -1, -1, 1/2, 0, -1/2, -9, -21/4, -5/4],
   [-1, -1, -1, -1, 1/2, 0, -1/2, -9, -21/4, -13/2],
   [-1, -1, -1, -1, 1/2, 0, -1/2, -9, -21/4, -13/2]]

def backwards : List (List ℚ) :=
  [[4, 77/16, 103/16, 155/16, -167/16, -13/4, -103/8, 7/8, -5/4, -13/8],
   [4, 77/16, 103/16, 155/16, -167/16, -13/4, -103/8, 7/8, -5/4, -13/8],
   [4, 77/16, 103/16, 155/16, -167/16, -13/4, -103/8, 7/8, -5/4, -13/8],
   [4, 77/16, 103/16, 155/16, -167/16, -13/4, -103/8, 7/8, -5/4, -13/8],
   [4, 77/16, 103/16, 155/16, -167/16, -13/4, -103/8, 7/8, -5/4, -13/8],
   [4, 77/16, 103/16, 155/16, -167/64, -13/4, -103/8, 7/8, -5/4, -13/8],
   [4, 77/16, 103/16, 155/16, -167/64, -13/16, -103/8, 7/8, -5/4, -13/8],
   [4, 77/16, 103/16, 155/16, -167/64, -13/16, 103/32, 7/8, -5/4, -13/8],
   [9/4, 49/16, 75/16, 127/16, -111/64, -13/16, 75/32, -7/4, -5/4, -13/8],
   [9/4, 49/16, 75/16, 127/16, -111/64, -13/16, 75/32, 3/4, 5/4, -13/8],
   [-1, -1, -1, -1, 1/2, 0, -1/2, -9, -21/4, -13/2]]

def cell (t : List (List ℚ)) (r c : Fin 10) : ℚ := ((t.getD r []).getD c 0)

/-- The factors after `k` passes. -/
def factors (k : ℕ) : Lu 10 ℚ := { packed := cell (tables.getD k []), p := swaps.getD k [] }

/-- The right-hand side after `k` passes of the forward substitution. -/
def forwards' (k : ℕ) (r : Fin 10) : ℚ := (forwards.getD k []).getD r 0

/-- The right-hand side with `k` passes of the backward substitution left. -/
def backwards' (k : ℕ) (r : Fin 10) : ℚ := (backwards.getD k []).getD r 0

theorem RelM.set {m : Mat10 (F64 Lib)} {M : Mat10 ℚ} (h : RelM m M) (i j : Fin 10) {v : F64 Lib} {w : ℚ} (hv : IsQ v w) :
    RelM (m.set i j v) (M.set i j w) := by
  intro r c
  unfold Mat10.set
  by_cases hrc : r = i ∧ c = j
  · rw [if_pos hrc, if_pos hrc]; exact hv
  · rw [if_neg hrc, if_neg hrc]; exact h r c

theorem q_energy {V ρ u d z k : ℚ} (hV : Dy V) (hρ : Dy ρ) (hu : Dy u) (hd : Dy d) (hz : Dy z) (hk : Dy k) (h0 : k ≠ 0)
    (h1 : Dy (ρ * d)) (h2 : Dy (u * z)) (h3 : Dy (ρ * d + u * z)) (h4 : Dy (V * (ρ * d + u * z)))
    (h5 : Dy (V * (ρ * d + u * z) / k)) :
    IsQ (F V * (F ρ * F d + F u * F z) / F k) (V * (ρ * d + u * z) / k) :=
  q_div (q_mul (q_F hV) (q_add (q_mul (q_F hρ) (q_F hd) h1) (q_mul (q_F hu) (q_F hz) h2) h3) h4) (q_F hk) h0 h5

theorem q_drive {P ρ u d z k : ℚ} (hP : Dy P) (hρ : Dy ρ) (hu : Dy u) (hd : Dy d) (hz : Dy z) (hk : Dy k) (h0 : k ≠ 0)
    (h1 : Dy (ρ * u)) (h2 : Dy (P + ρ * u)) (h3 : Dy (-(P + ρ * u) * d)) (h4 : Dy (-(P + ρ * u) * d - z))
    (h5 : Dy ((-(P + ρ * u) * d - z) / k)) :
    IsQ ((-(F P + F ρ * F u) * F d - F z) / F k) ((-(P + ρ * u) * d - z) / k) :=
  q_div (q_sub (q_mul (q_neg (q_add (q_F hP) (q_mul (q_F hρ) (q_F hu) h1) h2)) (q_F hd) h3) (q_F hz) h4) (q_F hk) h0 h5

theorem matrix_rel : RelM ((System.new inputs).stencil.create_matrix dir) ((System.new inputsQ).stencil.create_matrix dir) := by
  have zero : RelM (fun _ _ : Fin 10 => (0.0 : F64 Lib)) (fun _ _ => (0.0 : ℚ)) := fun _ _ => q_zero
  have put : ∀ {m : Mat10 (F64 Lib)} {M : Mat10 ℚ} {v : F64 Lib} {w : ℚ} (r c : Fin 10), IsQ v w → RelM m M →
      RelM (m.set r c v) (M.set r c w) := fun r c hv h => h.set r c hv
  have quot : ∀ p k : ℚ, Dy p → Dy k → k ≠ 0 → Dy (p / k) → IsQ (F p / F k) (p / k) :=
    fun p k h1 h2 h3 h4 => q_div (q_F h1) (q_F h2) h3 h4
  have prod : ∀ p k : ℚ, Dy p → Dy k → Dy (p * k) → IsQ (F p * F k) (p * k) :=
    fun p k h1 h2 h4 => q_mul (q_F h1) (q_F h2) h4
  refine put 9 3 (q_neg (quot 2 4 (by decide +kernel) (by decide +kernel) (by decide +kernel) (by decide +kernel))) ?_
  refine put 7 3 (quot 2 4 (by decide +kernel) (by decide +kernel) (by decide +kernel) (by decide +kernel)) ?_
  refine put 7 2 (q_neg (quot 4 4 (by decide +kernel) (by decide +kernel) (by decide +kernel) (by decide +kernel))) ?_
  refine put 5 2 (quot 4 4 (by decide +kernel) (by decide +kernel) (by decide +kernel) (by decide +kernel)) ?_
  refine put 5 1 (q_neg (quot 4 4 (by decide +kernel) (by decide +kernel) (by decide +kernel) (by decide +kernel))) ?_
  refine put 3 1 (quot 4 4 (by decide +kernel) (by decide +kernel) (by decide +kernel) (by decide +kernel)) ?_
  refine put 3 0 (q_neg (quot 2 4 (by decide +kernel) (by decide +kernel) (by decide +kernel) (by decide +kernel))) ?_
  refine put 1 0 (quot 2 4 (by decide +kernel) (by decide +kernel) (by decide +kernel) (by decide +kernel)) ?_
  show RelM (System.matrix inputs) (System.matrix inputsQ)
  refine put 9 9 (by apply q_energy <;> decide +kernel) ?_
  refine put 9 8 (by apply q_energy <;> decide +kernel) ?_
  refine put 8 9 (prod _ _ (by decide +kernel) (by decide +kernel) (by decide +kernel)) ?_
  refine put 8 8 (prod _ _ (by decide +kernel) (by decide +kernel) (by decide +kernel)) ?_
  refine put 8 3 (q_neg q_one) ?_
  refine put 7 9 (by apply q_energy <;> decide +kernel) ?_
  refine put 7 6 (q_div (q_neg q_one) (q_F (by decide +kernel)) (by decide +kernel) (by decide +kernel)) ?_
  refine put 6 9 (prod _ _ (by decide +kernel) (by decide +kernel) (by decide +kernel)) ?_
  refine put 6 3 q_one ?_
  refine put 6 2 (q_neg q_one) ?_
  refine put 5 9 (by apply q_energy <;> decide +kernel) ?_
  refine put 5 5 (q_div q_one (q_F (by decide +kernel)) (by decide +kernel) (by decide +kernel)) ?_
  refine put 4 9 (prod _ _ (by decide +kernel) (by decide +kernel) (by decide +kernel)) ?_
  refine put 4 2 q_one ?_
  refine put 4 1 (q_neg q_one) ?_
  refine put 3 9 (by apply q_energy <;> decide +kernel) ?_
  refine put 3 4 (q_div q_one (q_F (by decide +kernel)) (by decide +kernel) (by decide +kernel)) ?_
  refine put 2 9 (prod _ _ (by decide +kernel) (by decide +kernel) (by decide +kernel)) ?_
  refine put 2 1 q_one ?_
  refine put 2 0 (q_neg q_one) ?_
  refine put 1 9 (by apply q_energy <;> decide +kernel) ?_
  refine put 1 7 (by apply q_energy <;> decide +kernel) ?_
  refine put 0 9 (prod _ _ (by decide +kernel) (by decide +kernel) (by decide +kernel)) ?_
  refine put 0 7 (prod _ _ (by decide +kernel) (by decide +kernel) (by decide +kernel)) ?_
  exact put 0 0 q_one zero

theorem rhs_rel : RelV (System.new inputs).b (System.new inputsQ).b := by
  intro r
  fin_cases r
  · exact q_mul (q_neg (q_F (by decide +kernel))) (q_F (by decide +kernel)) (by decide +kernel)
  · show IsQ ((-(F 2 + F 1 * F 4) * F 1 - F (-1)) / F 4) ((-(2 + 1 * 4) * 1 - (-1)) / 4)
    apply q_drive <;> decide +kernel
  iterate 6 exact q_zero
  · exact q_mul (q_neg (q_F (by decide +kernel))) (q_F (by decide +kernel)) (by decide +kernel)
  · show IsQ ((-(F 2 + F 4 * F 2) * F 2 - F 1) / F 4) ((-(2 + 4 * 2) * 2 - 1) / 4)
    apply q_drive <;> decide +kernel

theorem factors_start : (∀ r c, (System.new inputsQ).stencil.create_matrix dir r c = (factors 0).packed r c) ∧
    (factors 0).p = [] := by decide +kernel

theorem factors_step : ∀ k : Fin 10, StepOk (factors k) k ∧
    (∀ r c, (step (factors k) k).packed r c = (factors (k + 1)).packed r c) ∧
      (step (factors k) k).p = (factors (k + 1)).p := by decide +kernel

theorem forwards_start : ∀ r, permuteRows (factors 10).p (System.new inputsQ).b r = forwards' 0 r := by decide +kernel

theorem forwards_step : ∀ k : Fin 10, (∀ r, forwards' (k + 1) r = forwardPass (factors 10).packed (forwards' k) k r) ∧
      ∀ r, k < r → Dy (-forwards' k k * (factors 10).packed r k) ∧
        Dy (-forwards' k k * (factors 10).packed r k + forwards' k r) := by decide +kernel

theorem backwards_start : ∀ r, forwards' 10 r = backwards' 10 r := by decide +kernel

theorem backwards_step : ∀ k : Fin 10, (∀ r, backwards' k r = backwardPass (factors 10).packed (backwards' (k + 1)) k r) ∧
    (factors 10).packed k k ≠ 0 ∧ Dy (backwards' (k + 1) k / (factors 10).packed k k) ∧
      ∀ r, r < k → Dy (-(backwards' (k + 1) k / (factors 10).packed k k) * (factors 10).packed r k) ∧
        Dy (-(backwards' (k + 1) k / (factors 10).packed k k) * (factors 10).packed r k + backwards' (k + 1) r) := by
  decide +kernel

/-- The elimination returns exactly the solution in fractions. -/
theorem solved : ∃ x, lu.solve ((System.new inputs).stencil.create_matrix dir) (System.new inputs).b = some x ∧
    RelV x (backwards' 0) := by
  have hf := factor_rel (a := (System.new inputs).stencil.create_matrix dir) (S := factors)
    ⟨fun r c => by rw [← factors_start.1 r c]; exact matrix_rel r c, factors_start.2.symm⟩ factors_step 10 le_rfl
  unfold lu.solve
  dsimp only
  rw [hf.2]
  refine backward_rel hf.1 backwards_step 10 le_rfl fun r => ?_
  rw [← backwards_start r]
  refine forward_rel hf.1 (fun r => ?_) forwards_step 10 le_rfl r
  rw [← forwards_start r]
  exact permute_rel rhs_rel _ r

theorem accepted : ∃ s, Sett.solve lu.LU inputs dir = .ok s ∧ FiniteSolution s ∧
    (exactSolution s).m_dot_ck = 4 ∧ (exactSolution s).m_dot_le = 155 / 16 ∧ (exactSolution s).Q_dot_l = -103 / 8 := by
  obtain ⟨x, hx, hq⟩ := solved
  have pos : ∀ r : Fin 10, 0 ≤ backwards' 0 r → Direction.from_value (x r) = .Positive := by
    intro r hr
    unfold Direction.from_value
    rw [q_le q_zero (hq r)]
    have : Scalar.le (0.0 : ℚ) (backwards' 0 r) = true := by
      show decide ((0.0 : ℚ) ≤ _) = true
      rw [decide_eq_true_iff]; norm_num; exact hr
    rw [if_pos this]
  have hd : FlowDirection.from_solution (Solution.ofVec x) = dir := by
    show FlowDirection.mk (Direction.from_value (x 0)) (Direction.from_value (x 1)) (Direction.from_value (x 2))
      (Direction.from_value (x 3)) = _
    rw [pos 0 (by decide +kernel), pos 1 (by decide +kernel), pos 2 (by decide +kernel), pos 3 (by decide +kernel)]
    rfl
  have hsys : (System.new inputs).solve lu.LU dir = some (Solution.ofVec x) := by
    unfold System.solve
    have : lu.LU ((System.new inputs).stencil.create_matrix dir) (System.new inputs).b = some x := hx
    rw [this]; rfl
  refine ⟨Solution.ofVec x, ?_, ?_, ?_, ?_, ?_⟩
  · unfold Sett.solve solveLogged ALLOWED_FLOW_UPDATES
    unfold solveLoop
    rw [hsys]
    simp only [hd, if_true]
  · exact ⟨(hq 0).1, (hq 1).1, (hq 2).1, (hq 3).1, (hq 4).1, (hq 5).1, (hq 6).1, (hq 7).1, (hq 8).1, (hq 9).1⟩
  · have h : backwards' 0 0 = 4 := by decide +kernel
    refine (hq 0).2.trans ?_
    rw [h]; norm_num
  · have h : backwards' 0 3 = 155 / 16 := by decide +kernel
    refine (hq 3).2.trans ?_
    rw [h]; norm_num
  · have h : backwards' 0 6 = -103 / 8 := by decide +kernel
    refine (hq 6).2.trans ?_
    rw [h]; norm_num

/-- The hypotheses of the balances: moving gas, accepted and finite. -/
example : ∃ s, UsualInputs inputs ∧ Sett.solve lu.LU inputs dir = .ok s ∧ FiniteSolution s ∧
    (exactSolution s).m_dot_ck = 4 := by
  obtain ⟨s, h1, h2, h3, -⟩ := accepted
  exact ⟨s, usual_inputs, h1, h2, h3⟩

/-- The hypotheses of the elimination theorem: the ten equations of this gas. -/
example : ∃ x : Vec10 (F64 Lib), lu.solve ((System.new inputs).stencil.create_matrix dir) (System.new inputs).b = some x ∧
    (∀ r, (x r).raw.Finite) ∧
    ∀ r c, ((System.new inputs).stencil.create_matrix dir r c).raw.Finite ∧
      |((System.new inputs).stencil.create_matrix dir r c).raw.real| ≤ 4 := by
  obtain ⟨x, h1, h2⟩ := solved
  refine ⟨x, h1, fun r => (h2 r).1, fun r c => ⟨(matrix_rel r c).1, ?_⟩⟩
  rw [(matrix_rel r c).2, factors_start.1 r c]
  have : ∀ r c, |(factors 0).packed r c| ≤ 4 := by decide +kernel
  exact_mod_cast this r c

/-- Conservation of mass applies to it. -/
example : ∃ s, Sett.solve lu.LU inputs dir = .ok s ∧ |totalMassRate (exactInputs inputs) (exactSolution s)|
      ≤ 5 * (2 ^ (-32 : ℤ) * balanceScale (exactInputs inputs) (upwind (exactInputs inputs) (exactSolution s)) (exactSolution s)
        + 2 ^ (-600 : ℤ) * (1 + solutionSum (exactSolution s))) := by
  obtain ⟨s, h1, h2, -⟩ := accepted
  exact ⟨s, h1, C91_mass_conserved_up_to_rounding usual_inputs h1 h2⟩

end FloatBalancesExample

end Sett
