import Verif.Proofs.LuError
import Verif.Proofs.Approx
import Verif.Proofs.Solver
import Verif.Spec.FloatBalances

/-! # C91: in floating point the accepted solution satisfies the ten balances up to rounding -/

namespace Sett

open state_equations Spec Float64 lu

variable {L : Libm}

/-! ## The matrix and the right-hand side -/

/-- The machine matrix is near the exact one, column by column. -/
def NearM (a : Mat10 (F64 L)) (A : Mat10 ℝ) (K : Fin 10 → ℝ) : Prop :=
  ∀ r c, Ap 12 410 320 (a r c) (A r c) (K c)

theorem NearM.set {a : Mat10 (F64 L)} {A : Mat10 ℝ} {K : Fin 10 → ℝ} (h : NearM a A K) (i j : Fin 10)
    {v : F64 L} {w : ℝ} (hv : Ap 12 410 320 v w (K j)) : NearM (a.set i j v) (A.set i j w) K := by
  intro r c
  unfold Mat10.set
  by_cases hrc : r = i ∧ c = j
  · rw [if_pos hrc, if_pos hrc, hrc.2]; exact hv
  · rw [if_neg hrc, if_neg hrc]; exact h r c

theorem ap_usual {x : F64 L} (h : Usual x) : Ap 0 100 0 x x.raw.real |x.raw.real| := Ap.exact h.1 h.2

theorem ap_zero : Ap 0 0 0 (0.0 : F64 L) 0.0 0 := by
  have h := Ap.exact (p := 0) (lit_zero_ok (L := L)).1 (by rw [lit_zero_ok.2]; norm_num)
  rw [lit_zero_ok.2, abs_zero] at h
  convert h using 1; norm_num

theorem ap_one : Ap 0 0 0 (1.0 : F64 L) 1.0 1 := by
  have h := Ap.exact (p := 0) (lit_one_ok (L := L)).1 (by rw [lit_one_ok.2]; norm_num)
  rw [lit_one_ok.2, abs_one] at h
  convert h using 1; norm_num

/-- `vol * d` -/
theorem ap_product {x y : F64 L} (hx : Usual x) (hy : Usual y) :
    Ap 3 200 104 (x * y) (x.raw.real * y.raw.real) (|x.raw.real| * |y.raw.real|) :=
  (ap_usual hx).mul (ap_usual hy) (by omega) (by omega) (by omega) (by omega) (by omega)

/-- `vol * (dens * du + inte * dd) / enth_norm` -/
theorem ap_energy {V ρ u d z n : F64 L} (hV : Usual V) (hρ : Usual ρ) (hu : Usual u) (hd : Usual d)
    (hz : Usual z) (hn : Usual n) (hn1 : 1 / 2 ^ 100 ≤ |n.raw.real|) :
    Ap 10 401 320 (V * (ρ * d + u * z) / n)
      (V.raw.real * (ρ.raw.real * d.raw.real + u.raw.real * z.raw.real) / n.raw.real)
      (|V.raw.real| * (|ρ.raw.real| * |d.raw.real| + |u.raw.real| * |z.raw.real|) / |n.raw.real|) := by
  have h1 := (ap_product hρ hd).add (ap_product hu hz) (K := 3) (P := 201) (Q := 107) le_rfl le_rfl (by omega) (by omega)
    (by omega) (by omega) (by omega) (by omega) (by omega)
  have h2 := (ap_usual hV).mul h1 (Q := 217) (by omega) (by omega) (by omega) (by omega) (by omega)
  exact h2.div (e := 100) hn.1 hn1 (by omega) (by omega) (by omega) (by omega)

theorem ap_quot {x n : F64 L} (hx : Usual x) (hn : Usual n) (hn1 : 1 / 2 ^ 100 ≤ |n.raw.real|) :
    Ap 2 200 103 (x / n) (x.raw.real / n.raw.real) (|x.raw.real| / |n.raw.real|) :=
  (ap_usual hx).div (e := 100) hn.1 hn1 (by omega) (by omega) (by omega) (by omega)

/-- `(-(pres + dens * inte) * dV_dt - Q_dot) / enth_norm` -/
theorem ap_drive {P ρ u d z n : F64 L} (hP : Usual P) (hρ : Usual ρ) (hu : Usual u) (hd : Usual d)
    (hz : Usual z) (hn : Usual n) (hn1 : 1 / 2 ^ 100 ≤ |n.raw.real|) :
    Ap 12 402 320 ((-(P + ρ * u) * d - z) / n)
      ((-(P.raw.real + ρ.raw.real * u.raw.real) * d.raw.real - z.raw.real) / n.raw.real)
      (((|P.raw.real| + |ρ.raw.real| * |u.raw.real|) * |d.raw.real| + |z.raw.real|) / |n.raw.real|) := by
  have h1 := (ap_usual hP).add (ap_product hρ hu) (K := 3) (P := 201) (Q := 107) (by omega) le_rfl (by omega) (by omega)
    (by omega) (by omega) (by omega) (by omega) (by omega)
  have h2 := h1.neg.mul (ap_usual hd) (Q := 211) (by omega) (by omega) (by omega) (by omega) (by omega)
  have h3 := h2.sub (ap_usual hz) (K := 8) (P := 302) (Q := 214) (by omega) (by omega) (by omega) (by omega)
    (by omega) (by omega) (by omega) (by omega) (by omega)
  exact h3.div (e := 100) hn.1 hn1 (by omega) (by omega) (by omega) (by omega)

/-- Size of the coefficients of each unknown. -/
noncomputable def columns (i : Inputs ℝ) (h : Faces) : Fin 10 → ℝ :=
  let n := |i.enth_norm|
  ![1 + |h.ck| / n, 1 + |h.kr| / n, 1 + |h.rl| / n, 1 + |h.le| / n, 1 / n, 1 / n, 1 / n,
    |i.comp.vol| * |i.comp.dd_dT_P|
      + |i.comp.vol| * (|i.comp.dens| * |i.comp.du_dT_P| + |i.comp.inte| * |i.comp.dd_dT_P|) / n,
    |i.exp.vol| * |i.exp.dd_dT_P|
      + |i.exp.vol| * (|i.exp.dens| * |i.exp.du_dT_P| + |i.exp.inte| * |i.exp.dd_dT_P|) / n,
    |i.comp.vol| * |i.comp.dd_dP_T|
      + |i.comp.vol| * (|i.comp.dens| * |i.comp.du_dP_T| + |i.comp.inte| * |i.comp.dd_dP_T|) / n
    + (|i.chx.vol| * |i.chx.dd_dP_T|
      + |i.chx.vol| * (|i.chx.dens| * |i.chx.du_dP_T| + |i.chx.inte| * |i.chx.dd_dP_T|) / n)
    + (|i.regen.vol| * |i.regen.dd_dP_T|
      + |i.regen.vol| * (|i.regen.dens| * |i.regen.du_dP_T| + |i.regen.inte| * |i.regen.dd_dP_T|) / n)
    + (|i.hhx.vol| * |i.hhx.dd_dP_T|
      + |i.hhx.vol| * (|i.hhx.dens| * |i.hhx.du_dP_T| + |i.hhx.inte| * |i.hhx.dd_dP_T|) / n)
    + (|i.exp.vol| * |i.exp.dd_dP_T|
      + |i.exp.vol| * (|i.exp.dens| * |i.exp.du_dP_T| + |i.exp.inte| * |i.exp.dd_dP_T|) / n)]

theorem columns_le {i : Inputs (F64 L)} (hi : UsualInputs i) {h : Faces}
    (hf : |h.ck| ≤ 2 ^ 100 ∧ |h.kr| ≤ 2 ^ 100 ∧ |h.rl| ≤ 2 ^ 100 ∧ |h.le| ≤ 2 ^ 100) (c : Fin 10) :
    0 ≤ columns (exactInputs i) h c ∧ columns (exactInputs i) h c ≤ 2 ^ 410 := by
  have hn : 0 < |(exactInputs i).enth_norm| := lt_of_lt_of_le (by positivity) hi.norm_ge
  have hj0 : ∀ z : ℝ, 0 ≤ z → z / |(exactInputs i).enth_norm| ≤ z * 2 ^ 100 := by
    intro z hz
    rw [div_le_iff₀ hn, mul_assoc]
    have := mul_le_mul_of_nonneg_left hi.norm_ge (by positivity : (0 : ℝ) ≤ 2 ^ 100)
    rw [mul_one_div_cancel (by positivity)] at this
    exact le_mul_of_one_le_right hz this
  have hU0 : ∀ {x : F64 L}, Usual x → |x.raw.real| ≤ 2 ^ 100 := fun h => h.2
  have e410 : (2 : ℝ) ^ 410 = 1024 * (2 ^ 100 * 2 ^ 100 * 2 ^ 100 * 2 ^ 100) := by
    rw [← pow_add, ← pow_add, ← pow_add, show (1024 : ℝ) = 2 ^ 10 by norm_num, ← pow_add]
  rw [e410]
  have hC : ∃ C : ℝ, 1 ≤ C ∧ (2 : ℝ) ^ 100 = C := ⟨_, one_le_pow₀ (by norm_num), rfl⟩
  obtain ⟨C, hC1, hC⟩ := hC
  rw [hC] at hf ⊢
  have hj : ∀ z : ℝ, 0 ≤ z → z / |(exactInputs i).enth_norm| ≤ z * C := by rw [← hC]; exact hj0
  have hU : ∀ {x : F64 L}, Usual x → |x.raw.real| ≤ C := by rw [← hC]; exact hU0
  clear hU0 hj0 e410 hC
  have hC0 : 0 ≤ C := by linarith
  have hC2 : C ≤ C * C := by nlinarith
  have hC3 : C * C ≤ C * C * C := by nlinarith
  have hC4 : C * C * C ≤ C * C * C * C := by nlinarith [mul_nonneg hC0 hC0]
  have hpp : ∀ {x y : F64 L}, Usual x → Usual y → |x.raw.real| * |y.raw.real| ≤ C * C :=
    fun hx hy => mul_le_mul (hU hx) (hU hy) (abs_nonneg _) hC0
  have hpair : ∀ {V ρ u d z : F64 L}, Usual V → Usual ρ → Usual u → Usual d → Usual z →
      |V.raw.real| * |z.raw.real| + |V.raw.real| * (|ρ.raw.real| * |d.raw.real| + |u.raw.real| * |z.raw.real|)
        / |(exactInputs i).enth_norm| ≤ 4 * (C * C * C * C) := by
    intro V ρ u d z hV hρ hu hd hz
    have a1 := hpp hV hz
    have a2 := hpp hρ hd
    have a3 := hpp hu hz
    have a4 : |V.raw.real| * (|ρ.raw.real| * |d.raw.real| + |u.raw.real| * |z.raw.real|) ≤ 2 * (C * C * C) := by
      have := mul_le_mul (hU hV) (add_le_add a2 a3) (by positivity) hC0
      linarith
    have a5 := hj _ (by positivity : 0 ≤ |V.raw.real| * (|ρ.raw.real| * |d.raw.real| + |u.raw.real| * |z.raw.real|))
    have a6 := mul_le_mul_of_nonneg_right a4 hC0
    linarith
  have hface : ∀ z : ℝ, |z| ≤ C → 1 + |z| / |(exactInputs i).enth_norm| ≤ 1024 * (C * C * C * C) := by
    intro z hz
    have a1 := hj _ (abs_nonneg z)
    have a2 := mul_le_mul_of_nonneg_right hz hC0
    linarith
  have hone : 1 / |(exactInputs i).enth_norm| ≤ 1024 * (C * C * C * C) := by
    have a1 := hj 1 (by norm_num)
    linarith
  have c7 := hpair hi.comp.vol hi.comp.dens hi.comp.inte hi.comp.du_dT_P hi.comp.dd_dT_P
  have c8 := hpair hi.exp.vol hi.exp.dens hi.exp.inte hi.exp.du_dT_P hi.exp.dd_dT_P
  have d1 := hpair hi.comp.vol hi.comp.dens hi.comp.inte hi.comp.du_dP_T hi.comp.dd_dP_T
  have d2 := hpair hi.chx.vol hi.chx.dens hi.chx.inte hi.chx.du_dP_T hi.chx.dd_dP_T
  have d3 := hpair hi.regen.vol hi.regen.dens hi.regen.inte hi.regen.du_dP_T hi.regen.dd_dP_T
  have d4 := hpair hi.hhx.vol hi.hhx.dens hi.hhx.inte hi.hhx.du_dP_T hi.hhx.dd_dP_T
  have d5 := hpair hi.exp.vol hi.exp.dens hi.exp.inte hi.exp.du_dP_T hi.exp.dd_dP_T
  have hB : 0 ≤ C * C * C * C := by positivity
  generalize C * C * C * C = B at *
  fin_cases c
  · exact ⟨by show 0 ≤ 1 + _ / _; positivity, hface _ hf.1⟩
  · exact ⟨by show 0 ≤ 1 + _ / _; positivity, hface _ hf.2.1⟩
  · exact ⟨by show 0 ≤ 1 + _ / _; positivity, hface _ hf.2.2.1⟩
  · exact ⟨by show 0 ≤ 1 + _ / _; positivity, hface _ hf.2.2.2⟩
  · exact ⟨by show 0 ≤ 1 / _; positivity, hone⟩
  · exact ⟨by show 0 ≤ 1 / _; positivity, hone⟩
  · exact ⟨by show 0 ≤ 1 / _; positivity, hone⟩
  · refine ⟨?_, le_trans (b := 4 * B) c7 (by linarith)⟩
    show 0 ≤ |_| * |_| + |_| * (|_| * |_| + |_| * |_|) / |_|
    positivity
  · refine ⟨?_, le_trans (b := 4 * B) c8 (by linarith)⟩
    show 0 ≤ |_| * |_| + |_| * (|_| * |_| + |_| * |_|) / |_|
    positivity
  · refine ⟨?_, le_trans (b := 4 * B + 4 * B + 4 * B + 4 * B + 4 * B)
      (add_le_add (add_le_add (add_le_add (add_le_add d1 d2) d3) d4) d5) (by linarith)⟩
    show 0 ≤ |_| * |_| + |_| * (|_| * |_| + |_| * |_|) / |_| + (|_| * |_| + |_| * (|_| * |_| + |_| * |_|) / |_|)
      + (|_| * |_| + |_| * (|_| * |_| + |_| * |_|) / |_|) + (|_| * |_| + |_| * (|_| * |_| + |_| * |_|) / |_|)
      + (|_| * |_| + |_| * (|_| * |_| + |_| * |_|) / |_|)
    positivity

theorem ap_select {d : Direction} (hd : d ≠ .Unknown) {x y n : F64 L} (hx : Usual x) (hy : Usual y) (hn : Usual n)
    (hn1 : 1 / 2 ^ 100 ≤ |n.raw.real|) :
    Ap 2 200 103 (d.select (x / n) (y / n)) (d.select (x.raw.real / n.raw.real) (y.raw.real / n.raw.real))
      (|faceFor d x.raw.real y.raw.real| / |n.raw.real|) := by
  cases d with
  | Positive => exact ap_quot hx hn hn1
  | Negative => exact ap_quot hy hn hn1
  | Unknown => exact absurd rfl hd

theorem faceFor_usual {d : Direction} (hd : d ≠ .Unknown) {x y : F64 L} (hx : Usual x) (hy : Usual y) :
    |faceFor d x.raw.real y.raw.real| ≤ 2 ^ 100 := by
  cases d with
  | Positive => exact hx.2
  | Negative => exact hy.2
  | Unknown => exact absurd rfl hd

/-- No direction is unknown. -/
def Known (d : FlowDirection) : Prop :=
  d.ck ≠ .Unknown ∧ d.kr ≠ .Unknown ∧ d.rl ≠ .Unknown ∧ d.le ≠ .Unknown

theorem faces_usual {i : Inputs (F64 L)} (hi : UsualInputs i) {d : FlowDirection} (hd : Known d) :
    |(facesFor (exactInputs i) d).ck| ≤ 2 ^ 100 ∧ |(facesFor (exactInputs i) d).kr| ≤ 2 ^ 100
      ∧ |(facesFor (exactInputs i) d).rl| ≤ 2 ^ 100 ∧ |(facesFor (exactInputs i) d).le| ≤ 2 ^ 100 :=
  ⟨faceFor_usual hd.1 hi.comp.enth hi.chx.enth, faceFor_usual hd.2.1 hi.chx.enth hi.regen.enth_cold,
    faceFor_usual hd.2.2.1 hi.regen.enth_hot hi.hhx.enth, faceFor_usual hd.2.2.2 hi.hhx.enth hi.exp.enth⟩

theorem near_matrix {i : Inputs (F64 L)} (hi : UsualInputs i) {d : FlowDirection} (hd : Known d) :
    NearM ((System.new i).stencil.create_matrix d) ((System.new (exactInputs i)).stencil.create_matrix d)
      (columns (exactInputs i) (facesFor (exactInputs i) d)) := by
  have hK := columns_le hi (faces_usual hi hd)
  set K := columns (exactInputs i) (facesFor (exactInputs i) d) with hKdef
  have hn := hi.enth_norm
  have hn1 := hi.norm_ge
  have hn0 : 0 < |i.enth_norm.raw.real| := lt_of_lt_of_le (by positivity) hn1
  have zero : NearM (fun _ _ => (0.0 : F64 L)) (fun _ _ => (0.0 : ℝ)) K := fun r c =>
    ap_zero.weaken (by omega) (by omega) (hK c).1 (hK c).2
  have put : ∀ {a : Mat10 (F64 L)} {A : Mat10 ℝ} {k p q : ℕ} {v : F64 L} {w s : ℝ} (r c : Fin 10), Ap k p q v w s →
      k ≤ 12 → q ≤ 320 → s ≤ K c → NearM a A K → NearM (a.set r c v) (A.set r c w) K :=
    fun r c hv hk hq hs ha => ha.set r c (hv.weaken hk hq hs (hK c).2)
  have inv : Ap 2 100 103 (1.0 / i.enth_norm) (1.0 / (exactInputs i).enth_norm) (1 / |i.enth_norm.raw.real|) :=
    ap_one.div (e := 100) hn.1 hn1 (by omega) (by omega) (by omega) (by omega)
  have minv : Ap 2 100 103 (-1.0 / i.enth_norm) (-1.0 / (exactInputs i).enth_norm) (1 / |i.enth_norm.raw.real|) :=
    ap_one.neg.div (e := 100) hn.1 hn1 (by omega) (by omega) (by omega) (by omega)
  have k0 : K 0 = 1 + |(facesFor (exactInputs i) d).ck| / |i.enth_norm.raw.real| := rfl
  have k1 : K 1 = 1 + |(facesFor (exactInputs i) d).kr| / |i.enth_norm.raw.real| := rfl
  have k2 : K 2 = 1 + |(facesFor (exactInputs i) d).rl| / |i.enth_norm.raw.real| := rfl
  have k3 : K 3 = 1 + |(facesFor (exactInputs i) d).le| / |i.enth_norm.raw.real| := rfl
  have one : ∀ z : ℝ, 0 ≤ z → 1 ≤ 1 + z := fun z hz => by linarith
  have fst : ∀ z : ℝ, z ≤ 1 + z := fun z => by linarith
  have f0 : 1 ≤ K 0 := by rw [k0]; exact one _ (by positivity)
  have f1 : 1 ≤ K 1 := by rw [k1]; exact one _ (by positivity)
  have f2 : 1 ≤ K 2 := by rw [k2]; exact one _ (by positivity)
  have f3 : 1 ≤ K 3 := by rw [k3]; exact one _ (by positivity)
  have left : ∀ {x y : ℝ}, 0 ≤ y → x ≤ x + y := fun h => by linarith
  have right : ∀ {x y : ℝ}, 0 ≤ x → y ≤ x + y := fun h => by linarith
  refine put 9 3 (ap_select hd.2.2.2 hi.hhx.enth hi.exp.enth hn hn1).neg (by omega) (by omega) (by rw [k3]; exact fst _) ?_
  refine put 7 3 (ap_select hd.2.2.2 hi.hhx.enth hi.exp.enth hn hn1) (by omega) (by omega) (by rw [k3]; exact fst _) ?_
  refine put 7 2 (ap_select hd.2.2.1 hi.regen.enth_hot hi.hhx.enth hn hn1).neg (by omega) (by omega) (by rw [k2]; exact fst _) ?_
  refine put 5 2 (ap_select hd.2.2.1 hi.regen.enth_hot hi.hhx.enth hn hn1) (by omega) (by omega) (by rw [k2]; exact fst _) ?_
  refine put 5 1 (ap_select hd.2.1 hi.chx.enth hi.regen.enth_cold hn hn1).neg (by omega) (by omega) (by rw [k1]; exact fst _) ?_
  refine put 3 1 (ap_select hd.2.1 hi.chx.enth hi.regen.enth_cold hn hn1) (by omega) (by omega) (by rw [k1]; exact fst _) ?_
  refine put 3 0 (ap_select hd.1 hi.comp.enth hi.chx.enth hn hn1).neg (by omega) (by omega) (by rw [k0]; exact fst _) ?_
  refine put 1 0 (ap_select hd.1 hi.comp.enth hi.chx.enth hn hn1) (by omega) (by omega) (by rw [k0]; exact fst _) ?_
  show NearM (System.matrix i) (System.matrix (exactInputs i)) K
  have c7 : K 7 = |i.comp.vol.raw.real| * |i.comp.dd_dT_P.raw.real|
      + |i.comp.vol.raw.real| * (|i.comp.dens.raw.real| * |i.comp.du_dT_P.raw.real|
        + |i.comp.inte.raw.real| * |i.comp.dd_dT_P.raw.real|) / |i.enth_norm.raw.real| := rfl
  have c8 : K 8 = |i.exp.vol.raw.real| * |i.exp.dd_dT_P.raw.real|
      + |i.exp.vol.raw.real| * (|i.exp.dens.raw.real| * |i.exp.du_dT_P.raw.real|
        + |i.exp.inte.raw.real| * |i.exp.dd_dT_P.raw.real|) / |i.enth_norm.raw.real| := rfl
  obtain ⟨m1, hm1⟩ : ∃ z, z = |i.comp.vol.raw.real| * |i.comp.dd_dP_T.raw.real| := ⟨_, rfl⟩
  obtain ⟨m2, hm2⟩ : ∃ z, z = |i.chx.vol.raw.real| * |i.chx.dd_dP_T.raw.real| := ⟨_, rfl⟩
  obtain ⟨m3, hm3⟩ : ∃ z, z = |i.regen.vol.raw.real| * |i.regen.dd_dP_T.raw.real| := ⟨_, rfl⟩
  obtain ⟨m4, hm4⟩ : ∃ z, z = |i.hhx.vol.raw.real| * |i.hhx.dd_dP_T.raw.real| := ⟨_, rfl⟩
  obtain ⟨m5, hm5⟩ : ∃ z, z = |i.exp.vol.raw.real| * |i.exp.dd_dP_T.raw.real| := ⟨_, rfl⟩
  obtain ⟨e1, he1⟩ : ∃ z, z = |i.comp.vol.raw.real| * (|i.comp.dens.raw.real| * |i.comp.du_dP_T.raw.real|
        + |i.comp.inte.raw.real| * |i.comp.dd_dP_T.raw.real|) / |i.enth_norm.raw.real| := ⟨_, rfl⟩
  obtain ⟨e2, he2⟩ : ∃ z, z = |i.chx.vol.raw.real| * (|i.chx.dens.raw.real| * |i.chx.du_dP_T.raw.real|
        + |i.chx.inte.raw.real| * |i.chx.dd_dP_T.raw.real|) / |i.enth_norm.raw.real| := ⟨_, rfl⟩
  obtain ⟨e3, he3⟩ : ∃ z, z = |i.regen.vol.raw.real| * (|i.regen.dens.raw.real| * |i.regen.du_dP_T.raw.real|
        + |i.regen.inte.raw.real| * |i.regen.dd_dP_T.raw.real|) / |i.enth_norm.raw.real| := ⟨_, rfl⟩
  obtain ⟨e4, he4⟩ : ∃ z, z = |i.hhx.vol.raw.real| * (|i.hhx.dens.raw.real| * |i.hhx.du_dP_T.raw.real|
        + |i.hhx.inte.raw.real| * |i.hhx.dd_dP_T.raw.real|) / |i.enth_norm.raw.real| := ⟨_, rfl⟩
  obtain ⟨e5, he5⟩ : ∃ z, z = |i.exp.vol.raw.real| * (|i.exp.dens.raw.real| * |i.exp.du_dP_T.raw.real|
        + |i.exp.inte.raw.real| * |i.exp.dd_dP_T.raw.real|) / |i.enth_norm.raw.real| := ⟨_, rfl⟩
  have c9 : K 9 = m1 + e1 + (m2 + e2) + (m3 + e3) + (m4 + e4) + (m5 + e5) := by
    rw [hm1, hm2, hm3, hm4, hm5, he1, he2, he3, he4, he5]; rfl
  have p1 : 0 ≤ m1 ∧ 0 ≤ m2 ∧ 0 ≤ m3 ∧ 0 ≤ m4 ∧ 0 ≤ m5 ∧ 0 ≤ e1 ∧ 0 ≤ e2 ∧ 0 ≤ e3 ∧ 0 ≤ e4 ∧ 0 ≤ e5 := by
    rw [hm1, hm2, hm3, hm4, hm5, he1, he2, he3, he4, he5]
    refine ⟨?_, ?_, ?_, ?_, ?_, ?_, ?_, ?_, ?_, ?_⟩ <;> positivity
  obtain ⟨p1, p2, p3, p4, p5, q1, q2, q3, q4, q5⟩ := p1
  refine put 9 9 (ap_energy hi.exp.vol hi.exp.dens hi.exp.inte hi.exp.du_dP_T hi.exp.dd_dP_T hn hn1) (by omega) (by omega)
    (by rw [c9, ← he5]; linarith) ?_
  refine put 9 8 (ap_energy hi.exp.vol hi.exp.dens hi.exp.inte hi.exp.du_dT_P hi.exp.dd_dT_P hn hn1) (by omega) (by omega)
    (by rw [c8]; exact right (by positivity)) ?_
  refine put 8 9 (ap_product hi.exp.vol hi.exp.dd_dP_T) (by omega) (by omega) (by rw [c9, ← hm5]; linarith) ?_
  refine put 8 8 (ap_product hi.exp.vol hi.exp.dd_dT_P) (by omega) (by omega) (by rw [c8]; exact left (by positivity)) ?_
  refine put 8 3 ap_one.neg (by omega) (by omega) f3 ?_
  refine put 7 9 (ap_energy hi.hhx.vol hi.hhx.dens hi.hhx.inte hi.hhx.du_dP_T hi.hhx.dd_dP_T hn hn1) (by omega) (by omega)
    (by rw [c9, ← he4]; linarith) ?_
  refine put 7 6 minv (by omega) (by omega) le_rfl ?_
  refine put 6 9 (ap_product hi.hhx.vol hi.hhx.dd_dP_T) (by omega) (by omega) (by rw [c9, ← hm4]; linarith) ?_
  refine put 6 3 ap_one (by omega) (by omega) f3 ?_
  refine put 6 2 ap_one.neg (by omega) (by omega) f2 ?_
  refine put 5 9 (ap_energy hi.regen.vol hi.regen.dens hi.regen.inte hi.regen.du_dP_T hi.regen.dd_dP_T hn hn1) (by omega)
    (by omega) (by rw [c9, ← he3]; linarith) ?_
  refine put 5 5 inv (by omega) (by omega) le_rfl ?_
  refine put 4 9 (ap_product hi.regen.vol hi.regen.dd_dP_T) (by omega) (by omega) (by rw [c9, ← hm3]; linarith) ?_
  refine put 4 2 ap_one (by omega) (by omega) f2 ?_
  refine put 4 1 ap_one.neg (by omega) (by omega) f1 ?_
  refine put 3 9 (ap_energy hi.chx.vol hi.chx.dens hi.chx.inte hi.chx.du_dP_T hi.chx.dd_dP_T hn hn1) (by omega) (by omega)
    (by rw [c9, ← he2]; linarith) ?_
  refine put 3 4 inv (by omega) (by omega) le_rfl ?_
  refine put 2 9 (ap_product hi.chx.vol hi.chx.dd_dP_T) (by omega) (by omega) (by rw [c9, ← hm2]; linarith) ?_
  refine put 2 1 ap_one (by omega) (by omega) f1 ?_
  refine put 2 0 ap_one.neg (by omega) (by omega) f0 ?_
  refine put 1 9 (ap_energy hi.comp.vol hi.comp.dens hi.comp.inte hi.comp.du_dP_T hi.comp.dd_dP_T hn hn1) (by omega)
    (by omega) (by rw [c9, ← he1]; linarith) ?_
  refine put 1 7 (ap_energy hi.comp.vol hi.comp.dens hi.comp.inte hi.comp.du_dT_P hi.comp.dd_dT_P hn hn1) (by omega)
    (by omega) (by rw [c7]; exact right (by positivity)) ?_
  refine put 0 9 (ap_product hi.comp.vol hi.comp.dd_dP_T) (by omega) (by omega) (by rw [c9, ← hm1]; linarith) ?_
  refine put 0 7 (ap_product hi.comp.vol hi.comp.dd_dT_P) (by omega) (by omega) (by rw [c7]; exact left (by positivity)) ?_
  exact put 0 0 ap_one (by omega) (by omega) f0 zero

/-- Size of the right-hand sides. -/
noncomputable def drives (i : Inputs ℝ) : Fin 10 → ℝ :=
  let n := |i.enth_norm|
  ![|i.comp.dens| * |i.comp.dV_dt|,
    ((|i.pres| + |i.comp.dens| * |i.comp.inte|) * |i.comp.dV_dt| + |i.comp.Q_dot|) / n, 0, 0, 0, 0, 0, 0,
    |i.exp.dens| * |i.exp.dV_dt|,
    ((|i.pres| + |i.exp.dens| * |i.exp.inte|) * |i.exp.dV_dt| + |i.exp.Q_dot|) / n]

theorem near_rhs {i : Inputs (F64 L)} (hi : UsualInputs i) (r : Fin 10) :
    ∃ p, Ap 12 p 320 ((System.new i).b r) ((System.new (exactInputs i)).b r) (drives (exactInputs i) r) := by
  have hn := hi.enth_norm
  have hn1 := hi.norm_ge
  have prod : ∀ {x y : F64 L}, Usual x → Usual y →
      ∃ p, Ap 12 p 320 (-x * y) (-x.raw.real * y.raw.real) (|x.raw.real| * |y.raw.real|) := fun hx hy =>
    ⟨200, ((ap_usual hx).neg.mul (ap_usual hy) (Q := 104) (by omega) (by omega) (by omega) (by omega) (by omega)).weaken
      (by omega) (by omega) le_rfl ((ap_product hx hy).size)⟩
  have zero : ∃ p, Ap 12 p 320 (0.0 : F64 L) (0.0 : ℝ) 0 :=
    ⟨0, ap_zero.weaken (by omega) (by omega) le_rfl (by norm_num)⟩
  fin_cases r
  · exact prod hi.comp.dens hi.comp.dV_dt
  · exact ⟨_, ap_drive hi.pres hi.comp.dens hi.comp.inte hi.comp.dV_dt hi.comp.Q_dot hn hn1⟩
  · exact zero
  · exact zero
  · exact zero
  · exact zero
  · exact zero
  · exact zero
  · exact prod hi.exp.dens hi.exp.dV_dt
  · exact ⟨_, ap_drive hi.pres hi.exp.dens hi.exp.inte hi.exp.dV_dt hi.exp.Q_dot hn hn1⟩

/-- What is left of the ten balances, the energies divided by the normalising enthalpy. -/
noncomputable def leftover (i : Inputs ℝ) (h : Faces) (s : Solution ℝ) : Fin 10 → ℝ :=
  let n := i.enth_norm
  ![compMass i s - -s.m_dot_ck,
    (compEnergy i s - (-h.ck * s.m_dot_ck - i.pres * i.comp.dV_dt - i.comp.Q_dot)) / n,
    chxMass i s - (s.m_dot_ck - s.m_dot_kr),
    (chxEnergy i s - (h.ck * s.m_dot_ck - h.kr * s.m_dot_kr - s.Q_dot_k)) / n,
    regenMass i s - (s.m_dot_kr - s.m_dot_rl),
    (regenEnergy i s - (h.kr * s.m_dot_kr - h.rl * s.m_dot_rl - s.Q_dot_r)) / n,
    hhxMass i s - (s.m_dot_rl - s.m_dot_le),
    (hhxEnergy i s - (h.rl * s.m_dot_rl - h.le * s.m_dot_le + s.Q_dot_l)) / n,
    expMass i s - s.m_dot_le,
    (expEnergy i s - (h.le * s.m_dot_le - i.pres * i.exp.dV_dt - i.exp.Q_dot)) / n]

theorem sum_ten (f : Fin 10 → ℝ) :
    ∑ c, f c = f 0 + f 1 + f 2 + f 3 + f 4 + f 5 + f 6 + f 7 + f 8 + f 9 := by
  rw [Fin.sum_univ_succ, Fin.sum_univ_succ, Fin.sum_univ_eight]
  simp [add_assoc]

theorem residual_eq (i : Inputs ℝ) (d : FlowDirection) (x : Vec10 ℝ) (r : Fin 10) :
    (∑ c, (System.new i).stencil.create_matrix d r c * x c) - (System.new i).b r
      = leftover i (facesFor i d) (Solution.ofVec x) r := by
  rw [sum_ten]
  fin_cases r <;>
    simp [System.new, MatrixStencil.create_matrix, select_div, System.matrix, System.rhs, Mat10.set, Vec10.set,
      leftover, compMass, compEnergy, chxMass, chxEnergy, regenMass, regenEnergy, hhxMass,
        hhxEnergy, expMass, expEnergy, massRate, energyRate, facesFor, Solution.ofVec] <;>
    norm_num <;> ring

/-- All terms of the assembled system together are the terms of the balances. -/
theorem scale_le (i : Inputs ℝ) (h : Faces) (x : Vec10 ℝ) (r : Fin 10) :
    (∑ c, columns i h c * |x c|) + drives i r ≤ balanceScale i h (Solution.ofVec x) := by
  have hn : (0 : ℝ) ≤ |i.enth_norm| := abs_nonneg _
  have e : balanceScale i h (Solution.ofVec x)
      = (∑ c, columns i h c * |x c|) + (drives i 0 + drives i 1 + drives i 8 + drives i 9) := by
    rw [sum_ten]
    simp only [balanceScale, massScale, energyScale, massTerms, energyTerms, columns, drives, Solution.ofVec,
      Matrix.cons_val, abs_zero]
    ring
  rw [e]
  have d0 : 0 ≤ drives i 0 := by show 0 ≤ |_| * |_|; positivity
  have d1 : 0 ≤ drives i 1 := by show 0 ≤ ((|_| + |_| * |_|) * |_| + |_|) / |_|; positivity
  have d8 : 0 ≤ drives i 8 := by show 0 ≤ |_| * |_|; positivity
  have d9 : 0 ≤ drives i 9 := by show 0 ≤ ((|_| + |_| * |_|) * |_| + |_|) / |_|; positivity
  have : drives i r ≤ drives i 0 + drives i 1 + drives i 8 + drives i 9 := by
    fin_cases r
    · show drives i 0 ≤ _; linarith
    · show drives i 1 ≤ _; linarith
    iterate 6 (show (0 : ℝ) ≤ _; linarith)
    · show drives i 8 ≤ _; linarith
    · show drives i 9 ≤ _; linarith
  linarith

theorem lu_row {i : Inputs (F64 L)} (hi : UsualInputs i) {d : FlowDirection} (hd : Known d) {x : Vec10 (F64 L)}
    (hx : lu.solve ((System.new i).stencil.create_matrix d) (System.new i).b = some x) (hok : ∀ c, ok (x c))
    (r : Fin 10) :
    |(∑ c, (System.new (exactInputs i)).stencil.create_matrix d r c * re (x c)) - (System.new (exactInputs i)).b r|
      ≤ 2 ^ (-32 : ℤ) * balanceScale (exactInputs i) (facesFor (exactInputs i) d) (Solution.ofVec fun c => re (x c))
        + 2 ^ (-600 : ℤ) * (1 + ∑ c, |re (x c)|) := by
  have hK := columns_le hi (faces_usual hi hd)
  have hA := near_matrix hi hd
  obtain ⟨p, hB⟩ := near_rhs hi r
  have hsc := scale_le (exactInputs i) (facesFor (exactInputs i) d) (fun c => re (x c)) r
  set K := columns (exactInputs i) (facesFor (exactInputs i) d) with hKdef
  set a := (System.new i).stencil.create_matrix d with ha
  set A := (System.new (exactInputs i)).stencil.create_matrix d with hAdef
  set S := ∑ c, |re (x c)| with hS
  set Z := ∑ c, K c * |re (x c)| with hZ
  have hu := ulp_pos
  have ht := tiny_pos
  obtain ⟨τ, hτ⟩ : ∃ τ, τ = tiny * 2 ^ 320 := ⟨_, rfl⟩
  have hτ0 : 0 < τ := by rw [hτ]; positivity
  have hS0 : 0 ≤ S := Finset.sum_nonneg fun _ _ => abs_nonneg _
  have hZ0 : 0 ≤ Z := Finset.sum_nonneg fun c _ => mul_nonneg (hK c).1 (abs_nonneg _)
  have hD0 := hB.nonneg
  have hτ75 : τ ≤ 1 / 2 ^ 75 := by rw [hτ]; exact tiny_pow_le (by omega)
  have hM : ∀ c, 2 * K c + τ ≤ 2 ^ 412 := by
    intro c
    have h1 := (hK c).2
    have e : (2 : ℝ) ^ 412 = 4 * 2 ^ 410 := by rw [show (4 : ℝ) = 2 ^ 2 by norm_num, ← pow_add]
    rw [e]
    have h2 : (1 : ℝ) ≤ 2 ^ 410 := one_le_pow₀ (by norm_num)
    have h3 : (1 : ℝ) / 2 ^ 75 ≤ 1 := by norm_num
    clear e hτ
    generalize (2 : ℝ) ^ 410 = B at *
    linarith
  have h2 := solve_error (n := 10) (M := fun c => (1 + 12 * ulp) * K c + τ) le_rfl (a := a) (b := (System.new i).b) (x := x)
    (fun c => ?_) (fun r c => ⟨(hA r c).fin, ?_⟩) hx hok r
  rotate_left
  · have h3 := hM c
    have h4 : (2 : ℝ) ^ 412 ≤ 2 ^ 1000 := pow_le_pow_right₀ (by norm_num) (by norm_num)
    refine le_trans ?_ (h3.trans h4)
    have h5 : 12 * ulp ≤ 1 := by unfold ulp; norm_num
    have := mul_le_mul_of_nonneg_right h5 (hK c).1
    linarith
  · have := (hA r c).abs_le
    rw [← hτ] at this
    refine this.trans (le_of_eq ?_)
    push_cast; ring
  have h3 : |∑ c, (A r c - re (a r c)) * re (x c)| ≤ 12 * ulp * Z + τ * S := by
    refine (Finset.abs_sum_le_sum_abs _ _).trans ?_
    have : 12 * ulp * Z + τ * S = ∑ c, (12 * ulp * K c + τ) * |re (x c)| := by
      simp only [add_mul, Finset.sum_add_distrib, hZ, hS, Finset.mul_sum, mul_assoc]
    rw [this]
    refine Finset.sum_le_sum fun c _ => ?_
    rw [abs_mul]
    refine mul_le_mul_of_nonneg_right ?_ (abs_nonneg _)
    rw [abs_sub_comm]
    have := (hA r c).err
    rw [← hτ] at this
    exact_mod_cast this
  have h4 : |re ((System.new i).b r) - (System.new (exactInputs i)).b r| ≤ 12 * ulp * drives (exactInputs i) r + τ := by
    have := hB.err
    rw [← hτ] at this
    exact_mod_cast this
  have e1 : ∑ c, ((1 + 12 * ulp) * K c + τ) * |re (x c)| = (1 + 12 * ulp) * Z + τ * S := by
    simp only [add_mul, Finset.sum_add_distrib, hZ, hS, Finset.mul_sum, mul_assoc]
  have e2 : ∑ c, ((1 + 12 * ulp) * K c + τ) ≤ 10 * 2 ^ 412 := by
    have : ∑ c : Fin 10, ((1 + 12 * ulp) * K c + τ) ≤ ∑ _c : Fin 10, (2 : ℝ) ^ 412 := by
      refine Finset.sum_le_sum fun c _ => le_trans ?_ (hM c)
      have h5 : 12 * ulp ≤ 1 := by unfold ulp; norm_num
      have := mul_le_mul_of_nonneg_right h5 (hK c).1
      linarith
    refine this.trans (le_of_eq ?_)
    rw [Finset.sum_const, Finset.card_univ, Fintype.card_fin, nsmul_eq_mul]; norm_num
  rw [e1] at h2
  have e : (∑ c, A r c * re (x c)) - (System.new (exactInputs i)).b r
      = (∑ c, (A r c - re (a r c)) * re (x c)) + ((∑ c, re (a r c) * re (x c)) - re ((System.new i).b r))
        + (re ((System.new i).b r) - (System.new (exactInputs i)).b r) := by
    simp only [sub_mul, Finset.sum_sub_distrib]; ring
  have tri := (abs_add_le ((∑ c, (A r c - re (a r c)) * re (x c)) + ((∑ c, re (a r c) * re (x c)) - re ((System.new i).b r)))
    (re ((System.new i).b r) - (System.new (exactInputs i)).b r)).trans
    (add_le_add (abs_add_le (∑ c, (A r c - re (a r c)) * re (x c)) ((∑ c, re (a r c) * re (x c)) - re ((System.new i).b r))) le_rfl)
  rw [← e] at tri
  have g1 : (2 : ℝ) ^ (-600 : ℤ) = 2 ^ 155 * τ := by
    rw [hτ]; unfold tiny
    rw [show (2 : ℝ) ^ 155 = 2 ^ (155 : ℤ) from (zpow_natCast 2 155).symm,
      show (2 : ℝ) ^ 320 = 2 ^ (320 : ℤ) from (zpow_natCast 2 320).symm, ← zpow_add₀ (by norm_num), ← zpow_add₀ (by norm_num)]
    norm_num
  have g2 : (2 : ℝ) ^ (-1050 : ℤ) * (10 * 2 ^ 412) ≤ 2 ^ 150 * τ := by
    have : (2 : ℝ) ^ (-1050 : ℤ) * (16 * 2 ^ 412) ≤ 2 ^ 150 * τ := by
      rw [hτ]; unfold tiny
      rw [show (16 : ℝ) = 2 ^ (4 : ℤ) by norm_num, show (2 : ℝ) ^ 150 = 2 ^ (150 : ℤ) from (zpow_natCast 2 150).symm,
        show (2 : ℝ) ^ 412 = 2 ^ (412 : ℤ) from (zpow_natCast 2 412).symm,
        show (2 : ℝ) ^ 320 = 2 ^ (320 : ℤ) from (zpow_natCast 2 320).symm, ← zpow_add₀ (by norm_num), ← zpow_add₀ (by norm_num),
        ← zpow_add₀ (by norm_num), ← zpow_add₀ (by norm_num)]
      exact zpow_le_zpow_right₀ (by norm_num) (by norm_num)
    have h0 : (0 : ℝ) < 2 ^ (-1050 : ℤ) * 2 ^ 412 := by positivity
    clear g1 hτ
    generalize (2 : ℝ) ^ 150 = u' at *
    generalize (2 : ℝ) ^ (-1050 : ℤ) = u at *
    generalize (2 : ℝ) ^ 412 = v at *
    nlinarith
  have g3 : (2 : ℝ) ^ (-1050 : ℤ) ≤ τ := by
    rw [hτ]; unfold tiny
    rw [show (2 : ℝ) ^ 320 = 2 ^ (320 : ℤ) from (zpow_natCast 2 320).symm, ← zpow_add₀ (by norm_num)]
    exact zpow_le_zpow_right₀ (by norm_num) (by norm_num)
  have g4 : (2 : ℝ) ^ (-1050 : ℤ) * (1 + (∑ c, ((1 + 12 * ulp) * K c + τ)) + S) ≤ τ * (1 + 2 ^ 150 + S) := by
    have h0 : (0 : ℝ) < 2 ^ (-1050 : ℤ) := by positivity
    clear g1 hτ
    generalize (2 : ℝ) ^ 150 = u' at *
    have k1 := mul_le_mul_of_nonneg_left e2 h0.le
    have k2 := mul_le_mul_of_nonneg_right g3 hS0
    generalize (2 : ℝ) ^ (-1050 : ℤ) = u at *
    generalize (2 : ℝ) ^ 412 = v at *
    generalize ∑ c, ((1 + 12 * ulp) * K c + τ) = w at *
    have : u * (1 + w + S) = u + u * w + u * S := by ring
    rw [this]
    have : τ * (1 + u' + S) = τ + u' * τ + τ * S := by ring
    rw [this]
    linarith
  have q33 : (2 : ℝ) ^ (-33 : ℤ) = 1048576 * ulp := by unfold ulp; norm_num [zpow_neg]
  have q32 : (2 : ℝ) ^ (-32 : ℤ) = 2097152 * ulp := by unfold ulp; norm_num [zpow_neg]
  have hsc' := mul_le_mul_of_nonneg_left hsc (by positivity : 0 ≤ 2097152 * ulp)
  rw [g1, q32]
  rw [q33] at h2
  have hu9 : ulp ≤ 1 / 10 ^ 9 := by unfold ulp; norm_num
  have l1 : ulp * (ulp * Z) ≤ 1 / 10 ^ 9 * (ulp * Z) := mul_le_mul_of_nonneg_right hu9 (by positivity)
  have l2 : ulp * (τ * S) ≤ 1 / 10 ^ 9 * (τ * S) := mul_le_mul_of_nonneg_right hu9 (by positivity)
  have l3 : 0 ≤ ulp * Z := by positivity
  have l4 : 0 ≤ ulp * drives (exactInputs i) r := by positivity
  have l5 : 0 ≤ τ * S := by positivity
  have n1 : 1048576 * ulp * ((1 + 12 * ulp) * Z + τ * S)
      = 1048576 * (ulp * Z) + 12582912 * (ulp * (ulp * Z)) + 1048576 * (ulp * (τ * S)) := by ring
  have n2 : τ * (1 + 2 ^ 150 + S) = (1 + 2 ^ 150) * τ + τ * S := by ring
  have n3 : 2 ^ 155 * τ * (1 + S) = 2 ^ 155 * τ + 2 ^ 155 * (τ * S) := by ring
  have n4 : 2097152 * ulp * (Z + drives (exactInputs i) r) = 2097152 * (ulp * Z) + 2097152 * (ulp * drives (exactInputs i) r) := by ring
  rw [n4] at hsc'
  rw [n3]
  rw [n2] at g4
  rw [n1] at h2
  have m1 : (1 + 2 ^ 150 + 1) * τ ≤ 2 ^ 155 * τ := mul_le_mul_of_nonneg_right (by norm_num) hτ0.le
  have m2 : 10 * (τ * S) ≤ 2 ^ 155 * (τ * S) := mul_le_mul_of_nonneg_right (by norm_num) l5
  have m3 : (1 + 2 ^ 150 + 1) * τ = (1 + 2 ^ 150) * τ + τ := by ring
  rw [m3] at m1
  generalize (2 : ℝ) ^ 155 * τ = y1 at *
  generalize (2 : ℝ) ^ 155 * (τ * S) = y2 at *
  generalize (1 + (2 : ℝ) ^ 150) * τ = y3 at *
  have j3 : 12 * ulp * Z = 12 * (ulp * Z) := by ring
  have j4 : 12 * ulp * drives (exactInputs i) r = 12 * (ulp * drives (exactInputs i) r) := by ring
  rw [j3] at h3
  rw [j4] at h4
  linarith

theorem from_value_exact {v : F64 L} (hv : ok v) : Direction.from_value v = Direction.from_value (re v) := by
  have e2 : Scalar.le 0.0 v = Scalar.le (0.0 : ℝ) (re v) := by
    rw [Bool.eq_iff_iff]
    refine (Raw.le_finite lit_zero_ok.1 hv).trans ?_
    rw [real_le]
    show re (0.0 : F64 L) ≤ re v ↔ _
    rw [lit_zero_ok.2]; norm_num
  unfold Direction.from_value
  rw [e2]

theorem from_solution_known {α : Type} [Scalar α] (s : Solution α) : Known (FlowDirection.from_solution s) :=
  ⟨from_value_ne_unknown _, from_value_ne_unknown _, from_value_ne_unknown _, from_value_ne_unknown _⟩

theorem from_solution_exact {s : Solution (F64 L)} (hs : FiniteSolution s) :
    FlowDirection.from_solution s = FlowDirection.from_solution (exactSolution s) := by
  unfold FlowDirection.from_solution
  rw [from_value_exact hs.m_dot_ck, from_value_exact hs.m_dot_kr, from_value_exact hs.m_dot_rl, from_value_exact hs.m_dot_le]
  rfl

/-- **C91** (the returned solution in floating point): for inputs of reasonable size, every finite solution that
the solver accepts in binary64 satisfies the ten exact mass and energy balances of the inputs, with the upwind
enthalpies of its own flows, up to rounding: 2^-32 (2.4e-10) of the sum of the absolute values of all the terms. -/
theorem C91_balances_up_to_rounding {i : Inputs (F64 L)} (hi : UsualInputs i) {hint : FlowDirection}
    {s : Solution (F64 L)} (h : Sett.solve lu.LU i hint = .ok s) (hs : FiniteSolution s) :
    let ε := 2 ^ (-32 : ℤ) * balanceScale (exactInputs i) (upwind (exactInputs i) (exactSolution s)) (exactSolution s)
      + 2 ^ (-600 : ℤ) * (1 + solutionSum (exactSolution s))
    BalancesWithin (exactInputs i) (upwind (exactInputs i) (exactSolution s)) (exactSolution s)
      ε (|i.enth_norm.raw.real| * ε) := by
  intro ε
  have hs1 := solveLoop_ok lu.LU (System.new i) _ _ s h
  simp only [System.solve, Option.map_eq_some_iff] at hs1
  obtain ⟨x, hx, rfl⟩ := hs1
  have hok : ∀ c, ok (x c) := by
    intro c
    fin_cases c
    exacts [hs.m_dot_ck, hs.m_dot_kr, hs.m_dot_rl, hs.m_dot_le, hs.Q_dot_k, hs.Q_dot_r, hs.Q_dot_l, hs.dTc_dt, hs.dTe_dt,
      hs.dP_dt]
  have hn0 : 0 < |i.enth_norm.raw.real| := lt_of_lt_of_le (by positivity) hi.norm_ge
  have hrow := lu_row hi (from_solution_known _) hx hok
  have hfaces : facesFor (exactInputs i) (FlowDirection.from_solution (Solution.ofVec x))
      = upwind (exactInputs i) (exactSolution (Solution.ofVec x)) := by
    rw [from_solution_exact hs, facesFor_from_solution]
  have key : ∀ r, |leftover (exactInputs i) (upwind (exactInputs i) (exactSolution (Solution.ofVec x)))
      (exactSolution (Solution.ofVec x)) r| ≤ ε := by
    intro r
    have h1 := hrow r
    rw [residual_eq, hfaces] at h1
    have h2 : ∑ c, |re (x c)| = solutionSum (exactSolution (Solution.ofVec x)) := by
      rw [sum_ten]; rfl
    rw [h2] at h1
    exact h1
  have scaled : ∀ z : ℝ, |z / (exactInputs i).enth_norm| ≤ ε → |z| ≤ |i.enth_norm.raw.real| * ε := by
    intro z hz
    rw [abs_div] at hz
    have := (div_le_iff₀ (show 0 < |(exactInputs i).enth_norm| from hn0)).1 hz
    rw [mul_comm] at this
    exact this
  exact ⟨key 0, scaled _ (key 1), key 2, scaled _ (key 3), key 4, scaled _ (key 5), key 6, scaled _ (key 7), key 8,
    scaled _ (key 9)⟩

/-- **C91** (conservation of mass in floating point): the change of the total gas mass implied by an accepted
solution is rounding noise. -/
theorem C91_mass_conserved_up_to_rounding {i : Inputs (F64 L)} (hi : UsualInputs i) {hint : FlowDirection}
    {s : Solution (F64 L)} (h : Sett.solve lu.LU i hint = .ok s) (hs : FiniteSolution s) :
    |totalMassRate (exactInputs i) (exactSolution s)|
      ≤ 5 * (2 ^ (-32 : ℤ) * balanceScale (exactInputs i) (upwind (exactInputs i) (exactSolution s)) (exactSolution s)
        + 2 ^ (-600 : ℤ) * (1 + solutionSum (exactSolution s))) := by
  have hb := C91_balances_up_to_rounding hi h hs
  set ε := 2 ^ (-32 : ℤ) * balanceScale (exactInputs i) (upwind (exactInputs i) (exactSolution s)) (exactSolution s)
      + 2 ^ (-600 : ℤ) * (1 + solutionSum (exactSolution s))
  obtain ⟨b1, b2⟩ := abs_le.1 hb.comp_mass
  obtain ⟨c1, c2⟩ := abs_le.1 hb.chx_mass
  obtain ⟨d1, d2⟩ := abs_le.1 hb.regen_mass
  obtain ⟨e1, e2⟩ := abs_le.1 hb.hhx_mass
  obtain ⟨f1, f2⟩ := abs_le.1 hb.exp_mass
  unfold totalMassRate
  rw [abs_le]
  constructor <;> linarith

/-- **C91** (the first law in floating point): the change of the total internal energy implied by an accepted
solution is the heat added less the heat rejected and the work, up to rounding. -/
theorem C91_energy_conserved_up_to_rounding {i : Inputs (F64 L)} (hi : UsualInputs i) {hint : FlowDirection}
    {s : Solution (F64 L)} (h : Sett.solve lu.LU i hint = .ok s) (hs : FiniteSolution s) :
    let e := exactInputs i
    let x := exactSolution s
    |totalEnergyRate e x - (x.Q_dot_l - x.Q_dot_k - x.Q_dot_r - e.comp.Q_dot - e.exp.Q_dot
        - e.pres * (e.comp.dV_dt + e.exp.dV_dt))|
      ≤ 5 * |e.enth_norm| * (2 ^ (-32 : ℤ) * balanceScale e (upwind e x) x + 2 ^ (-600 : ℤ) * (1 + solutionSum x)) := by
  intro e x
  have hb := C91_balances_up_to_rounding hi h hs
  have hmul : ∀ a b : ℝ, 5 * a * b = 5 * (a * b) := fun a b => by ring
  rw [hmul]
  obtain ⟨b1, b2⟩ := abs_le.1 hb.comp_energy
  obtain ⟨c1, c2⟩ := abs_le.1 hb.chx_energy
  obtain ⟨d1, d2⟩ := abs_le.1 hb.regen_energy
  obtain ⟨e1, e2⟩ := abs_le.1 hb.hhx_energy
  obtain ⟨f1, f2⟩ := abs_le.1 hb.exp_energy
  have hne : |e.enth_norm| = |i.enth_norm.raw.real| := rfl
  rw [hne]
  generalize |i.enth_norm.raw.real| * _ = ε at *
  unfold totalEnergyRate
  rw [abs_le]
  constructor <;> linarith

/-- **C91** (elimination): what the model's elimination with partial pivoting returns in binary64 solves the given
system, of up to ten equations, up to 2^-33 of the largest coefficients of each unknown times that unknown. -/
theorem C91_lu_residual {n : ℕ} (hn : n ≤ 10) {a : Fin n → Fin n → F64 L} {b x : Fin n → F64 L} {M : Fin n → ℝ}
    (hM : ∀ c, M c ≤ 2 ^ 1000) (ha : ∀ r c, (a r c).raw.Finite ∧ |(a r c).raw.real| ≤ M c)
    (h : lu.solve a b = some x) (hx : ∀ r, (x r).raw.Finite) (r : Fin n) :
    |(∑ c, (a r c).raw.real * (x c).raw.real) - (b r).raw.real|
      ≤ 2 ^ (-33 : ℤ) * (∑ c, M c * |(x c).raw.real|)
        + 2 ^ (-1050 : ℤ) * (1 + (∑ c, M c) + ∑ c, |(x c).raw.real|) :=
  solve_error hn hM ha h hx r

end Sett
