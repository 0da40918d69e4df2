import Verif.Proofs.Float64
import Mathlib.Tactic.Linarith
import Mathlib.Tactic.NormNum

/-! # Error bounds of single binary64 operations -/

namespace Sett.Float64

/-- Half the distance from 1 to the next larger number. -/
noncomputable def ulp : ℝ := 1 / 2 ^ 53

/-- Half the smallest positive number. -/
noncomputable def tiny : ℝ := 2 ^ (-1075 : ℤ)

theorem ulp_pos : 0 < ulp := by unfold ulp; positivity

theorem tiny_pos : 0 < tiny := by unfold tiny; positivity

theorem tiny_le_ulp : tiny ≤ ulp := by
  have : ulp = 2 ^ (-53 : ℤ) := by unfold ulp; norm_num [zpow_neg]
  rw [this]
  exact zpow_le_zpow_right₀ (by norm_num) (by norm_num)

/-- Rounding, relative to the exact value and to the rounded one. -/
theorem rne_error (x : ℝ) : |rne x - x| ≤ ulp * |x| + tiny ∧ |rne x - x| ≤ ulp * |rne x| + tiny := by
  have hn := rne_near x
  have hu := ulp_pos
  have ht := tiny_pos
  have hU : ulp = 2 ^ (-53 : ℤ) := by unfold ulp; norm_num [zpow_neg]
  by_cases hx : x = 0
  · simp [hx, rne_zero, ht.le]
  rcases (place_ge x).eq_or_lt with h | h
  · rw [← h] at hn
    have e : (2 : ℝ) ^ (-1074 - 1 : ℤ) = tiny := by unfold tiny; norm_num
    rw [e] at hn
    exact ⟨by nlinarith [abs_nonneg x], by nlinarith [abs_nonneg (rne x)]⟩
  · have h1 := place_le x hx h
    have e : (2 : ℝ) ^ (place x - 1) = ulp * 2 ^ (place x + 52) := by
      rw [hU, ← zpow_add₀ (by norm_num)]; congr 1; ring
    have h2 : (2 : ℝ) ^ (place x + 52) ≤ |rne x| := by
      rw [abs_rne]
      have := rne_mono h1
      rwa [rne_fits ⟨1, place x + 52, by norm_num, by omega, by norm_num⟩] at this
    rw [e] at hn
    exact ⟨by nlinarith, by nlinarith⟩

theorem pack_inv {s : Bool} {x : ℝ} (h : (Raw.pack s x).Finite) : (Raw.pack s x).real = rne x := by
  by_cases hb : |rne x| < 2 ^ 1024
  · exact (pack_finite s hb).2
  · exfalso
    have h0 : rne x ≠ 0 := by intro h0; apply hb; rw [h0]; norm_num
    simp only [Raw.pack, h0, hb, dite_false] at h
    exact h

theorem Raw.add_inv {a b : Raw} (h : (Raw.add a b).Finite) :
    a.Finite ∧ b.Finite ∧ (Raw.add a b).real = rne (a.real + b.real) := by
  rcases a with _ | s | s | ⟨x, hx⟩ <;> rcases b with _ | t | t | ⟨y, hy⟩ <;>
    first
    | exact h.elim
    | exact ⟨trivial, trivial, pack_inv h⟩
    | skip
  · exfalso; simp only [Raw.add] at h; split at h <;> exact h
  · refine ⟨trivial, trivial, ?_⟩
    show (0 : ℝ) = rne (0 + 0)
    rw [add_zero, rne_zero]

theorem Raw.mul_inv {a b : Raw} (h : (Raw.mul a b).Finite) :
    a.Finite ∧ b.Finite ∧ (Raw.mul a b).real = rne (a.real * b.real) := by
  rcases a with _ | s | s | ⟨x, hx⟩ <;> rcases b with _ | t | t | ⟨y, hy⟩ <;>
    first
    | exact h.elim
    | exact ⟨trivial, trivial, pack_inv h⟩

theorem Raw.neg_inv {a : Raw} (h : a.neg.Finite) : a.Finite := by cases a <;> exact h

theorem Raw.sub_inv {a b : Raw} (h : (Raw.sub a b).Finite) :
    a.Finite ∧ b.Finite ∧ (Raw.sub a b).real = rne (a.real - b.real) := by
  obtain ⟨h1, h2, h3⟩ := Raw.add_inv h
  refine ⟨h1, Raw.neg_inv h2, ?_⟩
  rw [Raw.neg_real, ← sub_eq_add_neg] at h3
  exact h3

/-- A finite quotient: the dividend is finite; the divisor may be infinite. -/
theorem Raw.div_inv {a b : Raw} (h : (Raw.div a b).Finite) : a.Finite ∧ b ≠ Raw.nan := by
  rcases a with _ | s | s | ⟨x, hx⟩ <;> rcases b with _ | t | t | ⟨y, hy⟩ <;>
    first
    | exact h.elim
    | exact ⟨trivial, by intro e; cases e⟩

theorem Raw.div_inv_finite {a b : Raw} (h : (Raw.div a b).Finite) (hb : b.Finite) :
    b.real ≠ 0 ∧ (Raw.div a b).real = rne (a.real / b.real) := by
  rcases a with _ | s | s | ⟨x, hx⟩ <;> rcases b with _ | t | t | ⟨y, hy⟩ <;>
    first
    | exact h.elim
    | exact hb.elim
    | exact ⟨hy.2, pack_inv h⟩

theorem Raw.abs_real_lt (a : Raw) : |a.real| < 2 ^ 1024 := (Raw.rep_real a).2

/-- No overflow below 2^1023. -/
theorem rne_bound {x : ℝ} (h : |x| ≤ 2 ^ 1023) : |rne x| < 2 ^ 1024 := by
  refine rne_lt_of_le (r := 2 ^ 1023) ⟨⟨1, 1023, by norm_num, by norm_num, by norm_num⟩, ?_⟩ h
  rw [abs_of_pos (by positivity)]
  exact pow_lt_pow_right₀ (by norm_num) (by norm_num)

/-! ## The same for `F64` -/

variable {L : Libm}

/-- Real value. -/
noncomputable def re (x : F64 L) : ℝ := x.raw.real

/-- Finite. -/
def ok (x : F64 L) : Prop := x.raw.Finite

theorem re_neg (x : F64 L) : re (-x) = -re x := Raw.neg_real _

theorem ok_neg {x : F64 L} : ok (-x) ↔ ok x := ⟨Raw.neg_inv, Raw.neg_finite⟩

theorem add_inv {a b : F64 L} (h : ok (a + b)) : ok a ∧ ok b ∧ re (a + b) = rne (re a + re b) := Raw.add_inv h

theorem sub_inv {a b : F64 L} (h : ok (a - b)) : ok a ∧ ok b ∧ re (a - b) = rne (re a - re b) := Raw.sub_inv h

theorem mul_inv {a b : F64 L} (h : ok (a * b)) : ok a ∧ ok b ∧ re (a * b) = rne (re a * re b) := Raw.mul_inv h

theorem div_inv {a b : F64 L} (h : ok (a / b)) : ok a := (Raw.div_inv h).1

theorem div_inv_finite {a b : F64 L} (h : ok (a / b)) (hb : ok b) :
    re b ≠ 0 ∧ re (a / b) = rne (re a / re b) := Raw.div_inv_finite h hb

theorem add_ok {a b : F64 L} (ha : ok a) (hb : ok b) (h : |re a + re b| ≤ 2 ^ 1023) : ok (a + b) :=
  (Raw.add_finite ha hb (rne_bound h)).1

theorem mul_ok {a b : F64 L} (ha : ok a) (hb : ok b) (h : |re a * re b| ≤ 2 ^ 1023) : ok (a * b) :=
  (Raw.mul_finite ha hb (rne_bound h)).1

theorem re_lt (a : F64 L) : |re a| < 2 ^ 1024 := Raw.abs_real_lt _

end Sett.Float64
