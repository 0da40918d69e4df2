import Mathlib.Analysis.SpecialFunctions.Pow.Real
import Mathlib.Topology.Order.Compact
import Mathlib.Tactic.Linarith
import Mathlib.Tactic.Positivity
import Mathlib.Tactic.FieldSimp
import Mathlib.Tactic.Ring
import Mathlib.Tactic.LinearCombination

/-! # Pairs of bounded quantities that differ by at most a multiple of `ε`

A small calculus for Lipschitz estimates: a quantity is evaluated in two situations (`f` and `g`), indexed
by everything the situations depend on. -/

namespace Sett

variable {ι : Type} {ε : ι → ℝ}

/-- `f` and `g` are bounded, and differ by at most a multiple of `ε`. -/
def Near (ε : ι → ℝ) (f g : ι → ℝ) : Prop :=
  ∃ C, 0 ≤ C ∧ ∀ i, |f i| ≤ C ∧ |g i| ≤ C ∧ |f i - g i| ≤ C * ε i

/-- `f` and `g` are bounded away from zero. -/
def Above (f g : ι → ℝ) : Prop := ∃ c, 0 < c ∧ ∀ i, c ≤ f i ∧ c ≤ g i

namespace Near

variable {f g f' g' : ι → ℝ}

theorem of_bounds (hε : ∀ i, 0 ≤ ε i) {B K : ℝ} (h1 : ∀ i, |f i| ≤ B) (h2 : ∀ i, |g i| ≤ B)
    (h3 : ∀ i, |f i - g i| ≤ K * ε i) : Near ε f g := by
  refine ⟨max 0 (max B K), le_max_left _ _, fun i => ?_⟩
  have hB : B ≤ max 0 (max B K) := (le_max_left _ _).trans (le_max_right _ _)
  have hK : K ≤ max 0 (max B K) := (le_max_right _ _).trans (le_max_right _ _)
  exact ⟨(h1 i).trans hB, (h2 i).trans hB, (h3 i).trans (mul_le_mul_of_nonneg_right hK (hε i))⟩

theorem const (hε : ∀ i, 0 ≤ ε i) (c : ℝ) : Near ε (fun _ => c) (fun _ => c) :=
  ⟨|c|, abs_nonneg c, fun i => ⟨le_rfl, le_rfl, by
    simpa using mul_nonneg (abs_nonneg c) (hε i)⟩⟩

theorem symm (h : Near ε f g) : Near ε g f := by
  obtain ⟨C, h0, h⟩ := h
  exact ⟨C, h0, fun i => ⟨(h i).2.1, (h i).1, by rw [abs_sub_comm]; exact (h i).2.2⟩⟩

theorem neg (h : Near ε f g) : Near ε (fun i => -f i) (fun i => -g i) := by
  obtain ⟨C, h0, h⟩ := h
  refine ⟨C, h0, fun i => ⟨by rw [abs_neg]; exact (h i).1, by rw [abs_neg]; exact (h i).2.1, ?_⟩⟩
  rw [neg_sub_neg, abs_sub_comm]; exact (h i).2.2

theorem add (h : Near ε f g) (h' : Near ε f' g') :
    Near ε (fun i => f i + f' i) (fun i => g i + g' i) := by
  obtain ⟨C, h0, h⟩ := h
  obtain ⟨C', h0', h'⟩ := h'
  refine ⟨C + C', add_nonneg h0 h0', fun i => ⟨?_, ?_, ?_⟩⟩
  · exact (abs_add_le _ _).trans (add_le_add (h i).1 (h' i).1)
  · exact (abs_add_le _ _).trans (add_le_add (h i).2.1 (h' i).2.1)
  · rw [show f i + f' i - (g i + g' i) = (f i - g i) + (f' i - g' i) by ring, add_mul]
    exact (abs_add_le _ _).trans (add_le_add (h i).2.2 (h' i).2.2)

theorem sub (h : Near ε f g) (h' : Near ε f' g') :
    Near ε (fun i => f i - f' i) (fun i => g i - g' i) := by
  simpa only [sub_eq_add_neg] using h.add h'.neg

theorem mul (h : Near ε f g) (h' : Near ε f' g') :
    Near ε (fun i => f i * f' i) (fun i => g i * g' i) := by
  obtain ⟨C, h0, h⟩ := h
  obtain ⟨C', h0', h'⟩ := h'
  refine ⟨2 * (C * C'), by positivity, fun i => ?_⟩
  obtain ⟨a1, a2, a3⟩ := h i
  obtain ⟨b1, b2, b3⟩ := h' i
  have hCC : C * C' ≤ 2 * (C * C') := by nlinarith [mul_nonneg h0 h0']
  refine ⟨?_, ?_, ?_⟩
  · rw [abs_mul]; exact (mul_le_mul a1 b1 (abs_nonneg _) h0).trans hCC
  · rw [abs_mul]; exact (mul_le_mul a2 b2 (abs_nonneg _) h0).trans hCC
  · rw [show f i * f' i - g i * g' i = f i * (f' i - g' i) + (f i - g i) * g' i by ring]
    refine (abs_add_le _ _).trans ?_
    rw [abs_mul, abs_mul]
    have e1 := mul_le_mul a1 b3 (abs_nonneg _) h0
    have e2 := mul_le_mul a3 b2 (abs_nonneg _) ((abs_nonneg _).trans a3)
    calc |f i| * |f' i - g' i| + |f i - g i| * |g' i| ≤ C * (C' * ε i) + C * ε i * C' :=
          add_le_add e1 e2
      _ = 2 * (C * C') * ε i := by ring

theorem pow (hε : ∀ i, 0 ≤ ε i) (h : Near ε f g) (n : ℕ) :
    Near ε (fun i => f i ^ n) (fun i => g i ^ n) := by
  induction n with
  | zero => simpa using const hε 1
  | succ n ih => simpa only [pow_succ] using ih.mul h

theorem inv (h : Near ε f g) (ha : Above f g) :
    Near ε (fun i => (f i)⁻¹) (fun i => (g i)⁻¹) := by
  obtain ⟨C, h0, h⟩ := h
  obtain ⟨c, hc, ha⟩ := ha
  refine ⟨max c⁻¹ (C * (c⁻¹ * c⁻¹)), le_max_of_le_left (by positivity), fun i => ?_⟩
  obtain ⟨f1, g1⟩ := ha i
  have f0 : 0 < f i := hc.trans_le f1
  have g0 : 0 < g i := hc.trans_le g1
  have hf : (f i)⁻¹ ≤ c⁻¹ := inv_anti₀ hc f1
  have hg : (g i)⁻¹ ≤ c⁻¹ := inv_anti₀ hc g1
  refine ⟨?_, ?_, ?_⟩
  · rw [abs_of_pos (inv_pos.2 f0)]; exact hf.trans (le_max_left _ _)
  · rw [abs_of_pos (inv_pos.2 g0)]; exact hg.trans (le_max_left _ _)
  · have e : (f i)⁻¹ - (g i)⁻¹ = -(f i - g i) * ((f i)⁻¹ * (g i)⁻¹) := by
      field_simp; ring
    have hε : 0 ≤ C * ε i := (abs_nonneg _).trans (h i).2.2
    rw [e, abs_mul, abs_neg, abs_of_pos (mul_pos (inv_pos.2 f0) (inv_pos.2 g0))]
    calc |f i - g i| * ((f i)⁻¹ * (g i)⁻¹) ≤ (C * ε i) * (c⁻¹ * c⁻¹) :=
          mul_le_mul (h i).2.2 (mul_le_mul hf hg (inv_pos.2 g0).le (inv_pos.2 hc).le)
            (by positivity) hε
      _ = C * (c⁻¹ * c⁻¹) * ε i := by ring
      _ ≤ max c⁻¹ (C * (c⁻¹ * c⁻¹)) * ε i := by
          rcases h0.eq_or_lt with rfl | hC
          · have hz : |f i| ≤ 0 := (h i).1
            have : f i = 0 := abs_nonpos_iff.1 hz
            linarith
          · exact mul_le_mul_of_nonneg_right (le_max_right _ _) (nonneg_of_mul_nonneg_right hε hC)

theorem div (h : Near ε f g) (h' : Near ε f' g') (ha : Above f' g') :
    Near ε (fun i => f i / f' i) (fun i => g i / g' i) := by
  simpa only [div_eq_mul_inv] using h.mul (h'.inv ha)

theorem posPart (h : Near ε f g) : Near ε (fun i => max (f i) 0) (fun i => max (g i) 0) := by
  obtain ⟨C, h0, h⟩ := h
  refine ⟨C, h0, fun i => ⟨?_, ?_, ?_⟩⟩
  · rw [abs_of_nonneg (le_max_right _ _)]; exact max_le ((le_abs_self _).trans (h i).1) h0
  · rw [abs_of_nonneg (le_max_right _ _)]; exact max_le ((le_abs_self _).trans (h i).2.1) h0
  · exact (abs_max_sub_max_le_abs _ _ _).trans (h i).2.2

theorem negPart (h : Near ε f g) : Near ε (fun i => min (f i) 0) (fun i => min (g i) 0) := by
  have e : ∀ x : ℝ, min x 0 = -max (-x) 0 := fun x => by
    rw [← neg_zero, max_neg_neg, neg_neg, neg_zero]
  simp only [e]
  exact h.neg.posPart.neg

theorem congr (h : Near ε f g) (hf : ∀ i, f' i = f i) (hg : ∀ i, g' i = g i) : Near ε f' g' := by
  rw [show f' = f from funext hf, show g' = g from funext hg]; exact h

/-- Bounds alone. -/
theorem bounds (h : Near ε f g) : ∃ C, 0 ≤ C ∧ ∀ i, |f i| ≤ C ∧ |g i| ≤ C := by
  obtain ⟨C, h0, h⟩ := h
  exact ⟨C, h0, fun i => ⟨(h i).1, (h i).2.1⟩⟩

end Near

namespace Above

variable {f g f' g' : ι → ℝ}

theorem const {c : ℝ} (hc : 0 < c) : Above (fun _ : ι => c) (fun _ => c) :=
  ⟨c, hc, fun _ => ⟨le_rfl, le_rfl⟩⟩

theorem mul (h : Above f g) (h' : Above f' g') : Above (fun i => f i * f' i) (fun i => g i * g' i) := by
  obtain ⟨c, hc, h⟩ := h
  obtain ⟨c', hc', h'⟩ := h'
  exact ⟨c * c', mul_pos hc hc', fun i =>
    ⟨mul_le_mul (h i).1 (h' i).1 hc'.le (hc.le.trans (h i).1),
      mul_le_mul (h i).2 (h' i).2 hc'.le (hc.le.trans (h i).2)⟩⟩

theorem pow (h : Above f g) (n : ℕ) : Above (fun i => f i ^ n) (fun i => g i ^ n) := by
  induction n with
  | zero => simpa using Above.const (ι := ι) one_pos
  | succ n ih => simpa only [pow_succ] using ih.mul h

theorem div (h : Above f g) (ha : Above f' g') (h' : Near ε f' g') :
    Above (fun i => f i / f' i) (fun i => g i / g' i) := by
  obtain ⟨c, hc, h⟩ := h
  obtain ⟨C, h0, h'⟩ := h'
  obtain ⟨c', hc', ha⟩ := ha
  refine ⟨c / (C + 1), by positivity, fun i => ⟨?_, ?_⟩⟩
  · exact div_le_div₀ (hc.le.trans (h i).1) (h i).1 (hc'.trans_le (ha i).1)
      ((le_abs_self _).trans ((h' i).1.trans (by linarith)))
  · exact div_le_div₀ (hc.le.trans (h i).2) (h i).2 (hc'.trans_le (ha i).2)
      ((le_abs_self _).trans ((h' i).2.1.trans (by linarith)))

theorem congr (h : Above f g) (hf : ∀ i, f' i = f i) (hg : ∀ i, g' i = g i) : Above f' g' := by
  rw [show f' = f from funext hf, show g' = g from funext hg]; exact h

/-- A continuous positive function of a quantity that stays in an interval. -/
theorem comp {φ : ℝ → ℝ} {a b : ℝ} (hφ : ContinuousOn φ (Set.Icc a b)) (h0 : ∀ x ∈ Set.Icc a b, 0 < φ x)
    (hf : ∀ i, f i ∈ Set.Icc a b) (hg : ∀ i, g i ∈ Set.Icc a b) :
    Above (fun i => φ (f i)) (fun i => φ (g i)) := by
  by_cases hab : a ≤ b
  · obtain ⟨x, hx, hm⟩ := isCompact_Icc.exists_isMinOn (Set.nonempty_Icc.2 hab) hφ
    exact ⟨φ x, h0 x hx, fun i => ⟨hm (hf i), hm (hg i)⟩⟩
  · exact ⟨1, one_pos, fun i => absurd ((hf i).1.trans (hf i).2) hab⟩

end Above

/-! ## One flow, and the pressure rate of two flows -/

/-- Flow with coefficient `a` one way and `b` the other, driven by `R`. -/
theorem flow_formula {a b c m R : ℝ} (ha : 0 < a) (hb : 0 < b) (hc : c = if 0 ≤ m then a else b)
    (h : c * m = R) : m = max R 0 / a + min R 0 / b := by
  by_cases hm : 0 ≤ m
  · rw [if_pos hm] at hc; subst hc
    have : 0 ≤ R := by rw [← h]; positivity
    rw [max_eq_left this, min_eq_right this, ← h]; field_simp; ring
  · rw [if_neg hm] at hc; subst hc
    have : R ≤ 0 := by rw [← h]; exact (mul_neg_of_pos_of_neg hb (not_le.1 hm)).le
    rw [max_eq_right this, min_eq_left this, ← h]; field_simp; ring

/-- The coefficient of the secant between two flows. -/
theorem flow_secant {a b m m' : ℝ} (ha : 0 < a) (hb : 0 < b) :
    ∃ e, 0 < e ∧ e ≤ max a b ∧
      (if 0 ≤ m then a else b) * m - (if 0 ≤ m' then a else b) * m' = e * (m - m') := by
  by_cases h : 0 ≤ m <;> by_cases h' : 0 ≤ m'
  · exact ⟨a, ha, le_max_left _ _, by simp only [h, h', if_true]; ring⟩
  · have hd : 0 < m - m' := by linarith
    refine ⟨(a * m - b * m') / (m - m'), div_pos (by nlinarith) hd, ?_, ?_⟩
    · rw [div_le_iff₀ hd]
      nlinarith [le_max_left a b, le_max_right a b,
        mul_le_mul_of_nonneg_right (le_max_left a b) h,
        mul_le_mul_of_nonneg_right (le_max_right a b) (by linarith : 0 ≤ -m')]
    · simp only [h, h', if_true, if_false]; field_simp
  · have hd : 0 < m' - m := by linarith
    refine ⟨(a * m' - b * m) / (m' - m), div_pos (by nlinarith) hd, ?_, ?_⟩
    · rw [div_le_iff₀ hd]
      nlinarith [mul_le_mul_of_nonneg_right (le_max_left a b) h',
        mul_le_mul_of_nonneg_right (le_max_right a b) (by linarith : 0 ≤ -m)]
    · simp only [h, h', if_true, if_false]; field_simp; ring
  · exact ⟨b, hb, le_max_right _ _, by simp only [h, h', if_false]; ring⟩

/-- A flow balance: two flows driven by a pressure rate, their difference stored. -/
structure TwoFlows (a b d e δ δ' ρ ρ' K m n p : ℝ) : Prop where
  first : (if 0 ≤ m then a else b) * m = ρ - δ * p
  second : (if 0 ≤ n then d else e) * n = ρ' + δ' * p
  stored : m - n = K * p

theorem TwoFlows.bound {a b d e δ δ' ρ ρ' K m n p : ℝ} (h : TwoFlows a b d e δ δ' ρ ρ' K m n p)
    (ha : 0 < a) (hb : 0 < b) (hd : 0 < d) (he : 0 < e) (hδ : 0 < δ) (hδ' : 0 < δ') (hK : 0 ≤ K) :
    |p| ≤ |ρ| / δ + |ρ'| / δ' := by
  obtain ⟨h1, h2, h3⟩ := h
  have sgn : ∀ {a b m R : ℝ}, 0 < a → 0 < b → (if 0 ≤ m then a else b) * m = R →
      (0 < R → 0 < m) ∧ (R < 0 → m < 0) := by
    intro a b m R ha hb hR
    split at hR
    · refine ⟨fun h => ?_, fun h => ?_⟩ <;> by_contra hm <;> nlinarith
    · refine ⟨fun h => ?_, fun h => ?_⟩ <;> by_contra hm <;> nlinarith
  have s1 := sgn ha hb h1
  have s2 := sgn hd he h2
  have q1 : 0 ≤ |ρ| / δ := by positivity
  have q2 : 0 ≤ |ρ'| / δ' := by positivity
  rw [abs_le]
  by_contra hcon
  rw [not_and_or] at hcon
  rcases hcon with hlt | hlt
  · rw [not_le] at hlt
    have e1 : |ρ| < δ * -p := by rw [← div_lt_iff₀' hδ]; linarith
    have e2 : |ρ'| < δ' * -p := by rw [← div_lt_iff₀' hδ']; linarith
    have t1 := s1.1 (by linarith [neg_abs_le ρ])
    have t2 := s2.2 (by linarith [le_abs_self ρ'])
    have : p < 0 := by linarith
    nlinarith
  · rw [not_le] at hlt
    have e1 : |ρ| < δ * p := by rw [← div_lt_iff₀' hδ]; linarith
    have e2 : |ρ'| < δ' * p := by rw [← div_lt_iff₀' hδ']; linarith
    have t1 := s1.2 (by linarith [le_abs_self ρ])
    have t2 := s2.1 (by linarith [neg_abs_le ρ'])
    have : 0 < p := by linarith
    nlinarith

/-- How the pressure rate changes with the data. -/
theorem TwoFlows.diff {a b d e δ δ' ρ ρ' K m n p a₂ b₂ d₂ e₂ δ₂ δ'₂ ρ₂ ρ'₂ K₂ m₂ n₂ p₂ D E : ℝ}
    (h : TwoFlows a b d e δ δ' ρ ρ' K m n p)
    (h₂ : TwoFlows a₂ b₂ d₂ e₂ δ₂ δ'₂ ρ₂ ρ'₂ K₂ m₂ n₂ p₂)
    (ha : 0 < a) (hb : 0 < b) (hd : 0 < d) (he : 0 < e) (hK : 0 ≤ K) (hD : 0 < D)
    (hδ : D ≤ δ) (hδ' : D ≤ δ') (hE : max a b ≤ E) :
    D * |p - p₂| ≤ (|δ - δ₂| + |δ' - δ'₂|) * |p₂| + |ρ - ρ₂| + |ρ' - ρ'₂|
      + (|a - a₂| + |b - b₂|) * |m₂| + (|d - d₂| + |e - e₂|) * |n₂| + E * (|K - K₂| * |p₂|) := by
  obtain ⟨h1, h2, h3⟩ := h
  obtain ⟨k1, k2, k3⟩ := h₂
  obtain ⟨x, hx, hxE, ex⟩ := flow_secant (m := m) (m' := m₂) ha hb
  obtain ⟨y, hy, -, ey⟩ := flow_secant (m := n) (m' := n₂) hd he
  set ξ := (δ₂ - δ) * p₂ + (ρ - ρ₂) + ((if 0 ≤ m₂ then a₂ else b₂) - (if 0 ≤ m₂ then a else b)) * m₂
    with hξ
  set η := (δ' - δ'₂) * p₂ + (ρ' - ρ'₂) + ((if 0 ≤ n₂ then d₂ else e₂) - (if 0 ≤ n₂ then d else e)) * n₂
    with hη
  set ζ := (K - K₂) * p₂ with hζ
  have e1 : x * (m - m₂) = -δ * (p - p₂) + ξ := by
    rw [← ex, hξ]; linear_combination h1 - k1
  have e2 : y * (n - n₂) = δ' * (p - p₂) + η := by
    rw [← ey, hη]; linear_combination h2 - k2
  have e3 : (m - m₂) - (n - n₂) = K * (p - p₂) + ζ := by
    rw [hζ]; linear_combination h3 - k3
  have e4 : (p - p₂) * (K * x * y + δ * y + δ' * x) = ξ * y - η * x - ζ * x * y := by
    linear_combination y * e1 - x * e2 - x * y * e3
  have hw : 0 < δ * y + δ' * x := by
    have := hD.trans_le hδ; have := hD.trans_le hδ'; positivity
  have e5 : |p - p₂| * (δ * y + δ' * x) ≤ |ξ| * y + |η| * x + |ζ| * x * y := by
    have hKxy : 0 ≤ K * x * y := by positivity
    calc |p - p₂| * (δ * y + δ' * x) ≤ |p - p₂| * (K * x * y + δ * y + δ' * x) :=
          mul_le_mul_of_nonneg_left (by linarith) (abs_nonneg _)
      _ = |ξ * y - η * x - ζ * x * y| := by
          rw [← e4, abs_mul, abs_of_pos (by linarith : 0 < K * x * y + δ * y + δ' * x)]
      _ ≤ |ξ * y| + |η * x| + |ζ * x * y| := by
          refine (abs_sub _ _).trans (add_le_add_left ?_ _)
          exact abs_sub _ _
      _ = _ := by simp only [abs_mul, abs_of_pos hx, abs_of_pos hy]
  have e6 : D * |p - p₂| ≤ |ξ| + |η| + E * |ζ| := by
    have hxE' : x ≤ E := hxE.trans hE
    by_contra hcon
    push Not at hcon
    have g1 : D * (|ξ| * y + |η| * x + |ζ| * x * y) ≤ (|ξ| + |η| + E * |ζ|) * (δ * y + δ' * x) := by
      have c1 : D * (|ξ| * y) ≤ |ξ| * (δ * y) := by
        have := mul_le_mul_of_nonneg_right hδ (mul_nonneg (abs_nonneg ξ) hy.le); linarith
      have c2 : D * (|η| * x) ≤ |η| * (δ' * x) := by
        have := mul_le_mul_of_nonneg_right hδ' (mul_nonneg (abs_nonneg η) hx.le); linarith
      have c3 : D * (|ζ| * x * y) ≤ E * |ζ| * (δ * y) := by
        have i1 : D * x ≤ δ * E := mul_le_mul hδ hxE' hx.le (hD.le.trans hδ)
        have := mul_le_mul_of_nonneg_right i1 (mul_nonneg (abs_nonneg ζ) hy.le); linarith
      have c4 : 0 ≤ |ξ| * (δ' * x) := mul_nonneg (abs_nonneg _) (mul_nonneg (hD.le.trans hδ') hx.le)
      have c5 : 0 ≤ |η| * (δ * y) := mul_nonneg (abs_nonneg _) (mul_nonneg (hD.le.trans hδ) hy.le)
      have c6 : 0 ≤ E * |ζ| * (δ' * x) :=
        mul_nonneg (mul_nonneg (hx.le.trans hxE') (abs_nonneg _)) (mul_nonneg (hD.le.trans hδ') hx.le)
      linarith
    have g2 := mul_lt_mul_of_pos_right hcon hw
    have g3 := mul_le_mul_of_nonneg_left e5 hD.le
    linarith
  have side : ∀ a b a₂ b₂ m : ℝ,
      |((if 0 ≤ m then a₂ else b₂) - (if 0 ≤ m then a else b)) * m| ≤ (|a - a₂| + |b - b₂|) * |m| := by
    intro a b a₂ b₂ m
    rw [abs_mul]
    apply mul_le_mul_of_nonneg_right _ (abs_nonneg _)
    split
    · rw [abs_sub_comm]; linarith [abs_nonneg (b - b₂)]
    · rw [abs_sub_comm]; linarith [abs_nonneg (a - a₂)]
  have f1 : |ξ| ≤ |δ - δ₂| * |p₂| + |ρ - ρ₂| + (|a - a₂| + |b - b₂|) * |m₂| := by
    refine (abs_add_le _ _).trans (add_le_add ((abs_add_le _ _).trans (add_le_add ?_ le_rfl)) (side _ _ _ _ _))
    rw [abs_mul, abs_sub_comm]
  have f2 : |η| ≤ |δ' - δ'₂| * |p₂| + |ρ' - ρ'₂| + (|d - d₂| + |e - e₂|) * |n₂| := by
    refine (abs_add_le _ _).trans (add_le_add ((abs_add_le _ _).trans (add_le_add ?_ le_rfl)) (side _ _ _ _ _))
    rw [abs_mul]
  have f3 : |ζ| = |K - K₂| * |p₂| := abs_mul _ _
  rw [f3] at e6
  linarith

/-- The pressure rates of two families of balances are near if the data are. -/
theorem near_rate (hε : ∀ i, 0 ≤ ε i)
    {a b d e δ δ' ρ ρ' K m n p a₂ b₂ d₂ e₂ δ₂ δ'₂ ρ₂ ρ'₂ K₂ m₂ n₂ p₂ : ι → ℝ}
    (h : ∀ i, TwoFlows (a i) (b i) (d i) (e i) (δ i) (δ' i) (ρ i) (ρ' i) (K i) (m i) (n i) (p i))
    (h₂ : ∀ i, TwoFlows (a₂ i) (b₂ i) (d₂ i) (e₂ i) (δ₂ i) (δ'₂ i) (ρ₂ i) (ρ'₂ i) (K₂ i) (m₂ i) (n₂ i)
      (p₂ i))
    (na : Near ε a a₂) (nb : Near ε b b₂) (nd : Near ε d d₂) (ne : Near ε e e₂) (nδ : Near ε δ δ₂)
    (nδ' : Near ε δ' δ'₂) (nρ : Near ε ρ ρ₂) (nρ' : Near ε ρ' ρ'₂) (nK : Near ε K K₂)
    (ba : Above a a₂) (bb : Above b b₂) (bd : Above d d₂) (be : Above e e₂) (bδ : Above δ δ₂)
    (bδ' : Above δ' δ'₂) (hK : ∀ i, 0 ≤ K i) (hK₂ : ∀ i, 0 ≤ K₂ i) :
    Near ε p p₂ ∧ Near ε m m₂ ∧ Near ε n n₂ := by
  have pos : ∀ {f g : ι → ℝ}, Above f g → ∀ i, 0 < f i ∧ 0 < g i := by
    rintro f g ⟨c, hc, h⟩ i; exact ⟨hc.trans_le (h i).1, hc.trans_le (h i).2⟩
  -- bounds of the rate
  have hb : Near ε (fun i => |ρ i| / δ i + |ρ' i| / δ' i) (fun i => |ρ₂ i| / δ₂ i + |ρ'₂ i| / δ'₂ i) := by
    have abs' : ∀ {f g : ι → ℝ}, Near ε f g → Near ε (fun i => |f i|) (fun i => |g i|) := by
      rintro f g ⟨C, h0, h⟩
      exact ⟨C, h0, fun i => ⟨by rw [abs_abs]; exact (h i).1, by rw [abs_abs]; exact (h i).2.1,
        (abs_abs_sub_abs_le _ _).trans (h i).2.2⟩⟩
    exact ((abs' nρ).div nδ bδ).add ((abs' nρ').div nδ' bδ')
  obtain ⟨B, hB, hb⟩ := hb.bounds
  have hp : ∀ i, |p i| ≤ B := fun i => ((h i).bound (pos ba i).1 (pos bb i).1 (pos bd i).1 (pos be i).1
    (pos bδ i).1 (pos bδ' i).1 (hK i)).trans ((le_abs_self _).trans (hb i).1)
  have hp₂ : ∀ i, |p₂ i| ≤ B := fun i => ((h₂ i).bound (pos ba i).2 (pos bb i).2 (pos bd i).2 (pos be i).2
    (pos bδ i).2 (pos bδ' i).2 (hK₂ i)).trans ((le_abs_self _).trans (hb i).2)
  have hm : ∀ i, m i = max (ρ i - δ i * p i) 0 / a i + min (ρ i - δ i * p i) 0 / b i := fun i =>
    flow_formula (pos ba i).1 (pos bb i).1 rfl (h i).first
  have hm₂ : ∀ i, m₂ i = max (ρ₂ i - δ₂ i * p₂ i) 0 / a₂ i + min (ρ₂ i - δ₂ i * p₂ i) 0 / b₂ i := fun i =>
    flow_formula (pos ba i).2 (pos bb i).2 rfl (h₂ i).first
  have hn : ∀ i, n i = max (ρ' i + δ' i * p i) 0 / d i + min (ρ' i + δ' i * p i) 0 / e i := fun i =>
    flow_formula (pos bd i).1 (pos be i).1 rfl (h i).second
  have hn₂ : ∀ i, n₂ i = max (ρ'₂ i + δ'₂ i * p₂ i) 0 / d₂ i + min (ρ'₂ i + δ'₂ i * p₂ i) 0 / e₂ i :=
    fun i => flow_formula (pos bd i).2 (pos be i).2 rfl (h₂ i).second
  -- bounds of the flows: the same calculus with `p₂` on both sides and no difference to control
  have np₂ : Near (fun _ => (1 : ℝ)) p₂ p₂ := Near.of_bounds (fun _ => zero_le_one) (B := B) (K := 0) hp₂ hp₂
    (by simp)
  have weak : ∀ {f g : ι → ℝ}, Near ε f g → Near (fun _ => (1 : ℝ)) g g := by
    rintro f g ⟨C, h0, h⟩
    exact ⟨C, h0, fun i => ⟨(h i).2.1, (h i).2.1, by simpa using h0⟩⟩
  have weak' : ∀ {f g : ι → ℝ}, Above f g → Above g g := by
    rintro f g ⟨C, h0, h⟩
    exact ⟨C, h0, fun i => ⟨(h i).2, (h i).2⟩⟩
  have drive := (weak nρ).sub ((weak nδ).mul np₂)
  have drive' := (weak nρ').add ((weak nδ').mul np₂)
  obtain ⟨M, hM, hmb⟩ := (((drive.posPart.div (weak na) (weak' ba)).add
    (drive.negPart.div (weak nb) (weak' bb))).congr hm₂ hm₂).bounds
  obtain ⟨N, hN, hnb⟩ := (((drive'.posPart.div (weak nd) (weak' bd)).add
    (drive'.negPart.div (weak ne) (weak' be))).congr hn₂ hn₂).bounds
  -- the difference of the rates
  have np : Near ε p p₂ := by
    obtain ⟨D1, hD1, b1⟩ := bδ
    obtain ⟨D2, hD2, b2⟩ := bδ'
    obtain ⟨Ca, ha0, na⟩ := na
    obtain ⟨Cb, hb0, nb⟩ := nb
    obtain ⟨Cd, hd0, nd⟩ := nd
    obtain ⟨Ce, he0, ne⟩ := ne
    obtain ⟨Cδ, hδ0, nδ⟩ := nδ
    obtain ⟨Cδ', hδ'0, nδ'⟩ := nδ'
    obtain ⟨Cρ, hρ0, nρ⟩ := nρ
    obtain ⟨Cρ', hρ'0, nρ'⟩ := nρ'
    obtain ⟨CK, hK0, nK⟩ := nK
    set D := min D1 D2 with hDdef
    have hD : 0 < D := lt_min hD1 hD2
    set E := max Ca Cb with hEdef
    have hE0 : 0 ≤ E := ha0.trans (le_max_left _ _)
    refine Near.of_bounds hε (B := B) (K := ((Cδ + Cδ') * B + Cρ + Cρ' + (Ca + Cb) * M + (Cd + Ce) * N
      + E * (CK * B)) / D) hp hp₂ fun i => ?_
    have key := (h i).diff (h₂ i) (pos ba i).1 (pos bb i).1 (pos bd i).1 (pos be i).1 (hK i) hD
      ((min_le_left _ _).trans (b1 i).1) ((min_le_right _ _).trans (b2 i).1)
      (E := E) (max_le_max ((le_abs_self _).trans (na i).1) ((le_abs_self _).trans (nb i).1))
    rw [div_mul_eq_mul_div, le_div_iff₀ hD, mul_comm]
    refine key.trans ?_
    have hεi := hε i
    have t1 : (|δ i - δ₂ i| + |δ' i - δ'₂ i|) * |p₂ i| ≤ (Cδ * ε i + Cδ' * ε i) * B :=
      mul_le_mul (add_le_add (nδ i).2.2 (nδ' i).2.2) (hp₂ i) (abs_nonneg _) (by positivity)
    have t2 : (|a i - a₂ i| + |b i - b₂ i|) * |m₂ i| ≤ (Ca * ε i + Cb * ε i) * M :=
      mul_le_mul (add_le_add (na i).2.2 (nb i).2.2) (hmb i).1 (abs_nonneg _) (by positivity)
    have t3 : (|d i - d₂ i| + |e i - e₂ i|) * |n₂ i| ≤ (Cd * ε i + Ce * ε i) * N :=
      mul_le_mul (add_le_add (nd i).2.2 (ne i).2.2) (hnb i).1 (abs_nonneg _) (by positivity)
    have t4 : E * (|K i - K₂ i| * |p₂ i|) ≤ E * (CK * ε i * B) :=
      mul_le_mul_of_nonneg_left (mul_le_mul (nK i).2.2 (hp₂ i) (abs_nonneg _) (by positivity)) hE0
    have t5 := (nρ i).2.2
    have t6 := (nρ' i).2.2
    calc _ ≤ (Cδ * ε i + Cδ' * ε i) * B + Cρ * ε i + Cρ' * ε i + (Ca * ε i + Cb * ε i) * M
          + (Cd * ε i + Ce * ε i) * N + E * (CK * ε i * B) := by linarith
      _ = _ := by ring
  have dr := nρ.sub (nδ.mul np)
  have dr' := nρ'.add (nδ'.mul np)
  exact ⟨np, ((dr.posPart.div na ba).add (dr.negPart.div nb bb)).congr hm hm₂,
    ((dr'.posPart.div nd bd).add (dr'.negPart.div ne be)).congr hn hn₂⟩

end Sett
