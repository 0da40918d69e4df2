import Verif.Props.Grid
import Verif.Props.SameCycle
import Verif.Spec.DormandPrince

/-! # C82: a successful integration is a chain of Dormand-Prince steps that pass their error test -/

namespace Sett

open Spec state_equations dopri5

theorem V3.ext3 {a b : V3 ℝ} (h0 : a.y0 = b.y0) (h1 : a.y1 = b.y1) (h2 : a.y2 = b.y2) : a = b := by
  cases a; cases b; cases h0; cases h1; cases h2; rfl

/-- The step a pass tries, as the method's. -/
def asStep (k : Ks ℝ) (x : ℝ) (y : V3 ℝ) (h : ℝ) : Step :=
  ⟨x, h, y, k.k0, k.k1, k.k2, k.k3, k.k4, k.k5, k.k6⟩

theorem asStep_finish (k : Ks ℝ) (x : ℝ) (y : V3 ℝ) (h : ℝ) : (asStep k x y h).finish = k.next y h := by
  simp only [Ks.next, stage, a7, List.zip_cons_cons, List.zip_nil_left, List.foldl_cons,
    List.foldl_nil, add3, zip3, scale3, Step.finish, Step.go, Step.slope, asStep]
  apply V3.ext3 <;>
  · norm_num
    ring

theorem asStep_slopes {A : ℝ → V3 ℝ → V3 ℝ → Prop} {k : Ks ℝ} {x h : ℝ} {y : V3 ℝ} (h0 : A x y k.k0)
    (hk : k.Answer A x y h) : (asStep k x y h).Slopes A := by
  have cast : ∀ {t t' : ℝ} {v v' dy : V3 ℝ}, A t v dy → t' = t → v' = v → A t' v' dy := by
    rintro t t' v v' dy ha rfl rfl; exact ha
  refine ⟨h0, cast hk.s1 ?_ ?_, cast hk.s2 ?_ ?_, cast hk.s3 ?_ ?_, cast hk.s4 ?_ ?_, cast hk.s5 ?_ ?_,
    cast hk.s6 ?_ (asStep_finish k x y h)⟩
  all_goals first
    | (show x + _ = x + _; simp only [c2, c3, c4, c5, c6, c7, asStep]; norm_num <;> ring)
    | (simp only [stage, a2, a3, a4, a5, a6, List.zip_cons_cons, List.zip_nil_left, List.foldl_cons,
        List.foldl_nil, add3, zip3, scale3, Step.go, Step.slope, asStep]
       apply V3.ext3 <;>
       · norm_num
         ring)

theorem fmax_eq (a b : ℝ) : fmax a b = max a b := by
  unfold fmax
  by_cases h : a < b
  · rw [if_pos ((real_lt _ _).2 h), max_eq_right h.le]
  · rw [if_neg (fun c => h ((real_lt _ _).1 c)), if_pos ((real_le _ _).2 le_rfl), max_eq_left (not_lt.1 h)]

theorem asStep_err (k : Ks ℝ) (p : Problem ℝ) (x : ℝ) (y : V3 ℝ) (h : ℝ) :
    (asStep k x y h).Passes p.rtol p.atol ↔ k.err p y h ≤ 1 := by
  have hd : ∀ g : V3 ℝ → ℝ, (g = V3.y0 ∨ g = V3.y1 ∨ g = V3.y2) →
      g (asStep k x y h).finish - g (asStep k x y h).embedded
        = g (scale3 (weighted [k.k0, k.k2, k.k3, k.k4, k.k5, k.k6] dopri5.e) h) := by
    rintro g (rfl | rfl | rfl) <;>
    · simp only [weighted, dopri5.e, List.zip_cons_cons, List.zip_nil_left, List.foldl_cons,
        List.foldl_nil, add3, zip3, scale3, Step.finish, Step.embedded, Step.go, Step.slope, asStep]
      norm_num
      ring
  simp only [Step.Passes, hd V3.y0 (by simp), hd V3.y1 (by simp), hd V3.y2 (by simp)]
  simp only [asStep_finish]
  unfold Ks.err errorNorm scaled
  simp only [fmax_eq, real_abs]
  have e3 : (3.0 : ℝ) = 3 := by norm_num
  simp only [real_powi2, lit_0, e3, zero_add]
  rfl

theorem asStep_dense (k : Ks ℝ) (p : Problem ℝ) (s : dopri5.State ℝ) (h θ : ℝ) (st : Nat × Nat) :
    interpolate (k.advance p s h st) θ = (asStep k s.x s.y h).dense θ := by
  simp only [interpolate, Ks.advance, advance, ← asStep_finish k s.x s.y h, Step.dense]
  generalize (asStep k s.x s.y h).finish = v
  simp only [asStep, Step.slope, weighted, dopri5.d, List.zip_cons_cons, List.zip_nil_left, List.foldl_cons,
    List.foldl_nil, add3, sub3, zip3, scale3]
  apply V3.ext3 <;>
  · norm_num
    ring

theorem leads_append {t t1 t2 : ℝ} {y y1 y2 : V3 ℝ} {l m : List Step} (h : Leads t y l t1 y1)
    (h' : Leads t1 y1 m t2 y2) : Leads t y (l ++ m) t2 y2 := by
  induction l generalizing t y with
  | nil => obtain ⟨rfl, rfl⟩ := h; exact h'
  | cons s l ih => exact ⟨h.1, h.2.1, ih h.2.2⟩

theorem onSteps_append {l m : List Step} {x : ℝ} {v : V3 ℝ} (h : OnSteps l x v) : OnSteps (l ++ m) x v := by
  obtain ⟨s, hs, h⟩ := h
  exact ⟨s, List.mem_append_left _ hs, h⟩

/-- Before a pass: the steps accepted so far. -/
structure Accepted (A : ℝ → V3 ℝ → V3 ℝ → Prop) (p : Problem ℝ) (y0 : V3 ℝ) (s : dopri5.State ℝ)
    (l : List Step) : Prop where
  joined : Leads 0 y0 l s.x s.y
  forward : ∀ s ∈ l, 0 < s.h
  slopes : ∀ s ∈ l, s.Slopes A
  passes : ∀ s ∈ l, s.Passes p.rtol p.atol
  len : s.xOut.length = s.yOut.length
  out : ∀ q ∈ s.xOut.zip s.yOut, OnSteps l q.1 q.2

/-- **C82**, the integrator.  Whatever derivatives it is answered, a successful integration from zero is a
chain of Dormand-Prince steps from the starting value to the end, each taken forward with the derivatives
answered at the seven points the method prescribes, each passing the error test at the requested tolerances;
and every value reported is what the chain's dense output gives for its time. -/
theorem C82_steps (outs : Nat) (xEnd dx rtol atol : ℝ) (y : V3 ℝ) (hx : 0 < xEnd) (hd : 0 < dx)
    (A : ℝ → V3 ℝ → V3 ℝ → Prop) (qs : List (ℝ × V3 ℝ × V3 ℝ)) (hA : ∀ q ∈ qs, A q.1 q.2.1 q.2.2)
    (xs : List ℝ) (ys : List (V3 ℝ))
    (h : Reaches (dopri5.solve outs 0.0 xEnd dx y rtol atol) qs (.done (some (xs, ys)))) :
    ∃ l, Integrates A rtol atol y xEnd l ∧ xs.length = ys.length ∧
      ∀ q ∈ xs.zip ys, OnSteps l q.1 q.2 := by
  unfold dopri5.solve at h
  set p : Problem ℝ := { xEnd, dx, rtol, atol, hMax := Scalar.abs (xEnd - 0.0)
                         posneg := dopri5.sign 1.0 (xEnd - 0.0) } with hp
  have hpos : p.posneg = 1 := by
    show dopri5.sign 1.0 (xEnd - 0.0) = 1
    unfold dopri5.sign
    rw [if_pos ((real_lt _ _).2 (by rw [lit_0]; linarith))]
    norm_num
  have hmax : 0 < p.hMax := by
    show 0 < |xEnd - 0.0|
    rw [lit_0, sub_zero]; exact abs_pos.2 hx.ne'
  replace hA : Answered A qs := hA
  obtain ⟨h0, qs', hh0, hA, h⟩ := hinit_pos hpos hmax hA h
  obtain ⟨k0, qs', h, hA, hk0⟩ := reaches_eval h hA
  have key := fun hI => reaches_loop p outs A
    (fun s k0 => A s.x s.y k0 ∧ 0 ≤ s.x ∧ s.x < xEnd ∧ 0 < s.h ∧ s.x ≤ s.xd ∧ ∃ l, Accepted A p y s l)
    (fun s => s.x = xEnd ∧ ∃ l, Accepted A p y s l)
    (by
      rintro s k st s' hNew ⟨hk, hx0, hxE, hh, hxd, l, hl⟩ hpr hans hacc hout
      have htr : 0 < tried p s := by
        unfold tried
        split
        · exact sub_pos.2 hxE
        · exact hh
      have hn := accept_pos hpos hmax htr hacc
      have herr : k.err p s.y (tried p s) ≤ 1 := by
        unfold accept at hacc
        by_contra hc
        have hc' : ¬Scalar.le (k.err p s.y (tried p s)) (1.0 : ℝ) = true := by
          rw [real_le, lit_1]; exact hc
        simp only [hc'] at hacc
        simp at hacc
      obtain ⟨ts, g1, g2, g3⟩ := output_points (p := p) hd outs (k.advance p s (tried p s) st) s'
        (by show 0 ≤ s.x + tried p s; linarith) (by show 0 ≤ s.xd; linarith) hout
      have e1 : s'.x = s.x + tried p s := by rw [g2]; rfl
      have e2 : s'.y = k.next s.y (tried p s) := by rw [g2]; rfl
      have e3 : s'.xOut = s.xOut ++ ts := by rw [g2]; rfl
      have e4 : s'.yOut = s.yOut ++ ts.map fun t =>
          (asStep k s.x s.y (tried p s)).dense ((t - s.x) / tried p s) := by
        rw [g2]
        show _ ++ ts.map _ = _ ++ ts.map _
        congr 1
        exact List.map_congr_left fun t _ => asStep_dense k p s _ _ st
      have hA' : Accepted A p y s' (l ++ [asStep k s.x s.y (tried p s)]) := by
        have mem : ∀ {P : Step → Prop}, (∀ a ∈ l, P a) → P (asStep k s.x s.y (tried p s)) →
            ∀ a ∈ l ++ [asStep k s.x s.y (tried p s)], P a := by
          intro P h1 h2 a ha
          rcases List.mem_append.1 ha with ha | ha
          · exact h1 a ha
          · rw [List.mem_singleton.1 ha]; exact h2
        refine ⟨?_, mem hl.forward htr, mem hl.slopes (asStep_slopes hk hans),
          mem hl.passes ((asStep_err k p s.x s.y _).2 herr), ?_, ?_⟩
        · refine leads_append hl.joined ⟨rfl, rfl, e1.symm, ?_⟩
          rw [e2, asStep_finish]
        · rw [e3, e4, List.length_append, List.length_append, List.length_map, hl.len]
        · intro q hq
          rw [e3, e4, List.zip_append hl.len, List.mem_append] at hq
          rcases hq with hq | hq
          · exact onSteps_append (hl.out q hq)
          · rw [List.mem_iff_getElem] at hq
            obtain ⟨i, hi, rfl⟩ := hq
            simp only [List.getElem_zip, List.getElem_map]
            obtain ⟨m1, m2⟩ := g1 _ (List.getElem_mem (l := ts) (by
              simp only [List.length_zip, List.length_map] at hi; omega : i < ts.length))
            exact ⟨_, List.mem_append_right _ (List.mem_singleton.2 rfl), hxd.trans m1, m2, rfl⟩
      split
      · rename_i hlast
        refine ⟨?_, _, hA'⟩
        rw [e1]
        unfold tried
        rw [if_pos hlast]
        show s.x + (xEnd - s.x) = xEnd
        ring
      · rename_i hlast
        have ht : tried p s = s.h := by unfold tried; rw [if_neg hlast]
        unfold isLast at hlast
        rw [real_lt, hpos, mul_one, lit_0, not_lt] at hlast
        change s.x + 1.01 * s.h - xEnd ≤ 0 at hlast
        norm_num at hlast
        refine ⟨?_, ?_, ?_, hn, ?_, _, ⟨hA'.joined, hA'.forward, hA'.slopes, hA'.passes, hA'.len, hA'.out⟩⟩
        · show A s'.x s'.y k.k6
          have := hans.s6
          rw [c7, lit_1, mul_one] at this
          rw [e1, e2]; exact this
        · show 0 ≤ s'.x
          rw [e1]; linarith
        · show s'.x < xEnd
          rw [e1, ht]; linarith
        · show s'.x ≤ s'.xd
          rw [e1]; exact g3.le)
    (by
      rintro s k hNew ⟨hk, hx0, hxE, hh, hxd, l, hl⟩ hpr _ hacc
      have htr : 0 < tried p s := by
        unfold tried
        split
        · exact sub_pos.2 hxE
        · exact hh
      exact ⟨hk, hx0, hxE, accept_pos hpos hmax htr hacc, hxd, l, hl.joined, hl.forward, hl.slopes,
        hl.passes, hl.len, hl.out⟩)
    _ _ _ _ _ _ hI hA h
  obtain ⟨s', ⟨hE, l, hl⟩, rfl, rfl⟩ := key ⟨hk0, lit_0.ge, by show (0.0 : ℝ) < xEnd; rw [lit_0]; exact hx,
    hh0, le_rfl, [], ⟨⟨lit_0.symm, rfl⟩, by simp, by simp, by simp, rfl, by simp⟩⟩
  exact ⟨l, ⟨⟨s'.y, hE ▸ hl.joined⟩, hl.forward, hl.slopes, hl.passes⟩, hl.len, hl.out⟩

end Sett
