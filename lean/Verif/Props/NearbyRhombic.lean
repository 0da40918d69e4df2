import Verif.Props.Nearby
import Verif.Props.Drives

/-! # C106: rhombic drives of nearly the same dimensions move the pistons nearly alike -/

namespace Sett

open Spec state_equations Set

section
variable {ι : Type} {ε : ι → ℝ} {f g : ι → ℝ}

theorem Near.sin (hε : ∀ i, 0 ≤ ε i) (h : Near ε f g) : Near ε (fun i => Real.sin (f i)) (fun i => Real.sin (g i)) := by
  obtain ⟨C, h0, h⟩ := h
  exact of_bounds hε (fun i => Real.abs_sin_le_one _) (fun i => Real.abs_sin_le_one _)
    (fun i => (Real.abs_sin_sub_sin_le _ _).trans (h i).2.2)

theorem Near.cos (hε : ∀ i, 0 ≤ ε i) (h : Near ε f g) : Near ε (fun i => Real.cos (f i)) (fun i => Real.cos (g i)) := by
  obtain ⟨C, h0, h⟩ := h
  exact of_bounds hε (fun i => Real.abs_cos_le_one _) (fun i => Real.abs_cos_le_one _)
    (fun i => (Real.abs_cos_sub_cos_le _ _).trans (h i).2.2)

theorem Above.sqrt (h : Above f g) : Above (fun i => √(f i)) (fun i => √(g i)) := by
  obtain ⟨c, hc, h⟩ := h
  exact ⟨√c, Real.sqrt_pos.2 hc, fun i => ⟨Real.sqrt_le_sqrt (h i).1, Real.sqrt_le_sqrt (h i).2⟩⟩

theorem Near.sqrt (hε : ∀ i, 0 ≤ ε i) (h : Near ε f g) (ha : Above f g) :
    Near ε (fun i => √(f i)) (fun i => √(g i)) := by
  obtain ⟨c, hc, hs⟩ := ha.sqrt
  obtain ⟨c', hc', hp⟩ := ha
  obtain ⟨C, h0, h⟩ := h
  refine of_bounds hε (B := √C) (K := C / c) (fun i => ?_) (fun i => ?_) (fun i => ?_)
  · rw [abs_of_nonneg (Real.sqrt_nonneg _)]; exact Real.sqrt_le_sqrt ((le_abs_self _).trans (h i).1)
  · rw [abs_of_nonneg (Real.sqrt_nonneg _)]; exact Real.sqrt_le_sqrt ((le_abs_self _).trans (h i).2.1)
  · have e : (√(f i) - √(g i)) * (√(f i) + √(g i)) = f i - g i := by
      have h1 := Real.mul_self_sqrt (hc'.le.trans (hp i).1)
      have h2 := Real.mul_self_sqrt (hc'.le.trans (hp i).2)
      linarith
    have hsum : c ≤ √(f i) + √(g i) := by linarith [(hs i).1, Real.sqrt_nonneg (g i)]
    have h3 : |√(f i) - √(g i)| * c ≤ C * ε i := by
      refine le_trans ?_ (h i).2.2
      rw [← e, abs_mul, abs_of_nonneg (hc.le.trans hsum)]
      exact mul_le_mul_of_nonneg_left hsum (abs_nonneg _)
    rw [div_mul_eq_mul_div, le_div_iff₀ hc]
    exact h3

end

/-- Two rhombic drives at the same time. -/
structure RhombicPair (m B : ℝ) where
  d : ws.RhombicDrive ℝ
  d' : ws.RhombicDrive ℝ
  t : ℝ
  w : RhombicWithin m B d
  w' : RhombicWithin m B d'
  ht : t ∈ Icc 0 B

theorem rhombicGap_nonneg (d d' : ws.RhombicDrive ℝ) : 0 ≤ rhombicGap d d' := by unfold rhombicGap; positivity

/-- **C106**, drives: over a stretch of time rhombic drives of nearly the same speed and dimensions move the pistons nearly
alike. -/
theorem C106_rhombic {m B : ℝ} (hm : 0 < m) : ∃ K, 0 ≤ K ∧
    ∀ (r r' : Run ℝ) (d d' : ws.RhombicDrive ℝ), r.ws_vol_fn = d.volumes → r'.ws_vol_fn = d'.volumes →
      RhombicWithin m B d → RhombicWithin m B d' →
      ∀ t ∈ Icc 0 B, pistonGap r t r' t ≤ K * rhombicGap d d' := by
  let ε : RhombicPair m B → ℝ := fun i => rhombicGap i.d i.d'
  have hε : ∀ i, 0 ≤ ε i := fun i => rhombicGap_nonneg _ _
  have dim : ∀ (p : ws.RhombicDrive ℝ → ℝ), (∀ d, RhombicWithin m B d → |p d| ≤ B) →
      (∀ d d', |p d - p d'| ≤ rhombicGap d d') → Near ε (fun i => p i.d) (fun i => p i.d') := fun p hp hp' =>
    Near.of_bounds hε (K := 1) (fun i => hp _ i.w) (fun i => hp _ i.w') (fun i => by rw [one_mul]; exact hp' _ _)
  have gaps : ∀ d d' : ws.RhombicDrive ℝ, |d.frequency - d'.frequency| ≤ rhombicGap d d' ∧
      |d.geometry.eccentricity - d'.geometry.eccentricity| ≤ rhombicGap d d' ∧
      |d.geometry.r_crank - d'.geometry.r_crank| ≤ rhombicGap d d' ∧ |d.geometry.L_conn - d'.geometry.L_conn| ≤ rhombicGap d d' ∧
      |d.geometry.D_p - d'.geometry.D_p| ≤ rhombicGap d d' ∧ |d.geometry.D_d - d'.geometry.D_d| ≤ rhombicGap d d' ∧
      |d.V_clearance_c - d'.V_clearance_c| ≤ rhombicGap d d' ∧ |d.V_clearance_e - d'.V_clearance_e| ≤ rhombicGap d d' := by
    intro d d'
    have h1 := abs_nonneg (d.frequency - d'.frequency)
    have h2 := abs_nonneg (d.geometry.eccentricity - d'.geometry.eccentricity)
    have h3 := abs_nonneg (d.geometry.r_crank - d'.geometry.r_crank)
    have h4 := abs_nonneg (d.geometry.L_conn - d'.geometry.L_conn)
    have h5 := abs_nonneg (d.geometry.D_p - d'.geometry.D_p)
    have h6 := abs_nonneg (d.geometry.D_d - d'.geometry.D_d)
    have h7 := abs_nonneg (d.V_clearance_c - d'.V_clearance_c)
    have h8 := abs_nonneg (d.V_clearance_e - d'.V_clearance_e)
    unfold rhombicGap
    refine ⟨?_, ?_, ?_, ?_, ?_, ?_, ?_, ?_⟩ <;> linarith
  have nF := dim (fun d => d.frequency) (fun d h => h.frequency) (fun d d' => (gaps d d').1)
  have nE := dim (fun d => d.geometry.eccentricity) (fun d h => by
    rw [abs_of_nonneg h.ecc]; linarith [h.crank, h.rod, h.rod_le]) (fun d d' => (gaps d d').2.1)
  have nR := dim (fun d => d.geometry.r_crank) (fun d h => by
    rw [abs_of_nonneg h.crank]; linarith [h.ecc, h.rod, h.rod_le]) (fun d d' => (gaps d d').2.2.1)
  have nL := dim (fun d => d.geometry.L_conn) (fun d h => by
    rw [abs_of_nonneg (by linarith [h.ecc, h.crank, h.rod])]; exact h.rod_le) (fun d d' => (gaps d d').2.2.2.1)
  have nP := dim (fun d => d.geometry.D_p) (fun d h => by
    rw [abs_of_nonneg (hm.le.trans h.piston.1)]; exact h.piston.2) (fun d d' => (gaps d d').2.2.2.2.1)
  have nD := dim (fun d => d.geometry.D_d) (fun d h => h.displacer) (fun d d' => (gaps d d').2.2.2.2.2.1)
  have nC := dim (fun d => d.V_clearance_c) (fun d h => h.comp) (fun d d' => (gaps d d').2.2.2.2.2.2.1)
  have nX := dim (fun d => d.V_clearance_e) (fun d h => h.exp) (fun d d' => (gaps d d').2.2.2.2.2.2.2)
  have nT : Near ε (fun i => i.t) (fun i => i.t) := Near.of_bounds hε (B := B) (K := 0)
    (fun i => by rw [abs_of_nonneg i.ht.1]; exact i.ht.2) (fun i => by rw [abs_of_nonneg i.ht.1]; exact i.ht.2)
    (fun i => by simp)
  have c := Near.const hε
  have nW := (c (2 * Real.pi)).mul nF
  have nS := (nW.mul nT).sin hε
  have nCos := (nW.mul nT).cos hε
  have nU := nE.add (nR.mul nCos)
  have two : ∀ a b : ℝ, m ≤ a - b → m ≤ a + b → m ^ 2 ≤ a ^ 2 - b ^ 2 := by
    intro a b h1 h2
    have := mul_le_mul h1 h2 hm.le (hm.le.trans h1)
    linarith [this, sq_nonneg m, show (a - b) * (a + b) = a ^ 2 - b ^ 2 by ring, pow_two m]
  have turn : ∀ (d : ws.RhombicDrive ℝ) (x : ℝ), RhombicWithin m B d →
      m ^ 2 ≤ d.geometry.L_conn ^ 2 - (d.geometry.eccentricity + d.geometry.r_crank * Real.cos x) ^ 2 := by
    intro d x h
    have h1 := mul_le_mul_of_nonneg_left (Real.cos_le_one x) h.crank
    have h2 := mul_le_mul_of_nonneg_left (Real.neg_one_le_cos x) h.crank
    exact two _ _ (by linarith [h.rod]) (by linarith [h.rod, h.ecc])
  have a1 : Above (fun i : RhombicPair m B => i.d.geometry.L_conn ^ 2
        - (i.d.geometry.eccentricity + i.d.geometry.r_crank * Real.cos (2 * Real.pi * i.d.frequency * i.t)) ^ 2)
      (fun i => i.d'.geometry.L_conn ^ 2
        - (i.d'.geometry.eccentricity + i.d'.geometry.r_crank * Real.cos (2 * Real.pi * i.d'.frequency * i.t)) ^ 2) :=
    ⟨m ^ 2, by positivity, fun i => ⟨turn _ _ i.w, turn _ _ i.w'⟩⟩
  have nb := ((nL.pow hε 2).sub (nU.pow hε 2)).sqrt hε a1
  have nb1 := ((nL.pow hε 2).sub ((nE.sub nR).pow hε 2)).sqrt hε
    ⟨m ^ 2, by positivity, fun i => ⟨two _ _ (by linarith [i.w.rod, i.w.crank]) (by linarith [i.w.rod, i.w.ecc]),
      two _ _ (by linarith [i.w'.rod, i.w'.crank]) (by linarith [i.w'.rod, i.w'.ecc])⟩⟩
  have nb2 := (((nL.sub nR).pow hε 2).sub (nE.pow hε 2)).sqrt hε
    ⟨m ^ 2, by positivity, fun i => ⟨two _ _ (by linarith [i.w.rod]) (by linarith [i.w.rod, i.w.ecc]),
      two _ _ (by linarith [i.w'.rod]) (by linarith [i.w'.rod, i.w'.ecc])⟩⟩
  have four : Above (fun _ : RhombicPair m B => (4 : ℝ)) (fun _ => 4) := Above.const (by norm_num)
  have nAp := ((c Real.pi).mul (nP.pow hε 2)).div (c 4) four
  have nAd := ((c Real.pi).mul (nD.pow hε 2)).div (c 4) four
  have aP : Above (fun i : RhombicPair m B => i.d.geometry.D_p) (fun i => i.d'.geometry.D_p) :=
    ⟨m, hm, fun i => ⟨i.w.piston.1, i.w'.piston.1⟩⟩
  have aAp := (Above.const (ι := RhombicPair m B) (by norm_num : (0 : ℝ) < 2)).mul
    (((Above.const (ι := RhombicPair m B) Real.pi_pos).mul (aP.pow 2)).div four (c 4))
  have ndVc := (((((c (-2)).mul nAp).mul nR).mul nS).mul nU).div nb a1.sqrt
  have v1 := nC.add (((c 2).mul nAp).mul (nb1.sub nb))
  have r1 := ndVc.mul nW
  have v2 := nX.add (nAd.mul ((nb.sub nb2).sub (nR.mul nS)))
  have r2 := (((ndVc.mul nAd).div ((c 2).mul nAp) aAp).neg.sub ((nAd.mul nR).mul nCos)).mul nW
  obtain ⟨C1, h1, v1⟩ := v1
  obtain ⟨C2, h2, v2⟩ := v2
  obtain ⟨C3, h3, r1⟩ := r1
  obtain ⟨C4, h4, r2⟩ := r2
  refine ⟨C1 + C2 + C3 + C4, by positivity, ?_⟩
  intro r r' d d' hr hr' hd hd' t ht
  have e := ws.rhombic_volumes d t
  have e' := ws.rhombic_volumes d' t
  simp only at e e'
  let i : RhombicPair m B := ⟨d, d', t, hd, hd', ht⟩
  rw [pistonGap, hr, hr', e.1, e.2.1, e.2.2.1, e.2.2.2, e'.1, e'.2.1, e'.2.2.1, e'.2.2.2]
  have q1 := (v1 i).2.2
  have q2 := (v2 i).2.2
  have q3 := (r1 i).2.2
  have q4 := (r2 i).2.2
  simp only [i, ε] at q1 q2 q3 q4
  linarith

namespace NearbyRhombicExample

/-- The default mechanism of the crate with some displacer and rod. -/
noncomputable def drive (D L : ℝ) : ws.RhombicDrive ℝ where
  geometry := { (ws.RhombicDrive.Geometry.default : ws.RhombicDrive.Geometry ℝ) with D_d := D, L_conn := L }
  frequency := 50
  parasitics := ⟨⟨0, 0, 0⟩, ⟨0, 0, 0⟩⟩
  R_comp := 0
  R_exp := 0
  V_clearance_c := 5.785e-6
  V_clearance_e := 4.13e-6

theorem within {D L : ℝ} (hD : |D - 0.0696| ≤ 0.001) (hL : |L - 0.04602| ≤ 0.001) : RhombicWithin 0.01 50 (drive D L) := by
  rw [abs_le] at hD hL
  constructor <;> simp only [drive, ws.RhombicDrive.Geometry.default] <;>
    norm_num [abs_le] at hD hL ⊢ <;> first | linarith | constructor <;> linarith

/-- C106 applies to the default mechanism and a displacer and rod of slightly different dimensions. -/
example : ∃ K, 0 ≤ K ∧ ∀ (r r' : Run ℝ) (D L : ℝ), r.ws_vol_fn = (drive 0.0696 0.04602).volumes →
    r'.ws_vol_fn = (drive D L).volumes → |D - 0.0696| ≤ 0.001 → |L - 0.04602| ≤ 0.001 →
    ∀ t ∈ Icc 0 50, pistonGap r t r' t ≤ K * (|0.0696 - D| + |0.04602 - L|) := by
  obtain ⟨K, hK, h⟩ := C106_rhombic (m := 0.01) (B := 50) (by norm_num)
  refine ⟨K, hK, fun r r' D L hr hr' hD hL t ht => ?_⟩
  have := h r r' _ _ hr hr' (within (by norm_num) (by norm_num)) (within hD hL) t ht
  have e : rhombicGap (drive 0.0696 0.04602) (drive D L) = |0.0696 - D| + |0.04602 - L| := by
    simp [rhombicGap, drive, add_comm]
  rwa [e] at this

end NearbyRhombicExample

end Sett
