import Verif.Props.Succeeds
import Verif.Spec.GivesUp

/-! # C87: the integrator gives up for one of three reasons -/

namespace Sett

open Spec dopri5

/-! ## The watch for stiffness -/

/-- What the two counters stand for. -/
structure Watch (f : List Bool) (i n : Nat) : Prop where
  small : i < 15
  some_of : 0 < i → ∃ pre w, f = pre ++ w ∧ Watching pre w ∧ w.count true = i
  all_of : ∀ pre w, f = pre ++ w → Watching pre w → w.count true ≤ i ∧ ∃ u, w = u ++ true :: List.replicate n false

theorem Watch.calm {f : List Bool} {i n : Nat} (h : Watch f i n) : ¬Alarm f := by
  rintro ⟨pre, w, e, hw, -, hc⟩
  have := (h.all_of pre w e hw).1
  have := h.small
  omega

theorem watch_nil : Watch [] 0 0 := by
  refine ⟨by norm_num, fun h => absurd h (lt_irrefl 0), fun pre w e hw => ?_⟩
  have := hw.first
  rw [(List.append_eq_nil_iff.1 e.symm).2] at this
  cases this

theorem not_six {w : List Bool} {u : List Bool} {n : Nat} (h : w = u ++ true :: List.replicate n false) (hn : n < 6) :
    ¬List.replicate 6 false <:+ w := by
  intro hs
  have h2 : (true :: List.replicate n false) <:+ w := ⟨u, h.symm⟩
  have h3 := List.suffix_of_suffix_length_le h2 hs (by simp; omega)
  have h4 : true ∈ List.replicate 6 false := h3.subset List.mem_cons_self
  simp at h4

/-- What a period of watching was before its last step. -/
theorem watching_init {f pre w : List Bool} {b : Bool} (e : f ++ [b] = pre ++ w) (hw : Watching pre w) :
    (b = true ∧ f = pre ∧ w = [true]) ∨ ∃ w0, w = w0 ++ [b] ∧ f = pre ++ w0 ∧ Watching pre w0 := by
  rcases List.eq_nil_or_concat w with rfl | ⟨w0, c, rfl⟩
  · cases hw.first
  · have e' : f ++ [b] = (pre ++ w0) ++ [c] := by simpa using e
    obtain ⟨e1, e2⟩ := List.append_inj' e' rfl
    obtain rfl : b = c := by simpa using e2
    rcases w0 with - | ⟨a, w0⟩
    · left
      have := hw.first
      simp at this
      subst this
      exact ⟨rfl, by simpa using e1, rfl⟩
    · right
      refine ⟨a :: w0, by simp, e1, hw.thousandth, ?_, fun h => hw.goes_on (h.trans ?_)⟩
      · have := hw.first
        simpa using this
      · exact ⟨[], [b], by simp⟩

theorem count_pos {w u : List Bool} {n : Nat} (h : w = u ++ true :: List.replicate n false) : 0 < w.count true := by
  rw [List.count_pos_iff, h]
  simp

/-- The counters after another step. -/
def count (i n : Nat) (active b : Bool) : Option (Nat × Nat) :=
  if active then if b then if i + 1 = 15 then none else some (i + 1, 0)
    else some (if n + 1 = 6 then 0 else i, n + 1) else some (i, n)

theorem watch_step {f : List Bool} {i n : Nat} (h : Watch f i n) (b : Bool) :
    match count i n (decide ((f.length + 1) % 1000 = 0 ∨ 0 < i)) b with
    | none => Alarm (f ++ [b])
    | some (i', n') => Watch (f ++ [b]) i' n' := by
  have one : (f.length + 1) % 1000 = 0 → Watching f [true] := fun hm => ⟨hm, rfl, fun hc => by
    have := hc.length_le
    simp at this⟩
  have longer : ∀ {pre w : List Bool}, Watching pre w → Watching pre (w ++ [true]) := by
    intro pre w hw
    refine ⟨hw.thousandth, ?_, ?_⟩
    · have := hw.first
      cases w <;> simp_all
    · rw [List.infix_concat_iff, not_or]
      exact ⟨not_six (n := 0) rfl (by norm_num), hw.goes_on⟩
  unfold count
  by_cases ha : (f.length + 1) % 1000 = 0 ∨ 0 < i
  · rw [if_pos (decide_eq_true ha)]
    cases b with
    | true =>
      rw [if_pos rfl]
      -- the window that goes with the counter
      have ex : ∃ pre w, f ++ [true] = pre ++ w ∧ Watching pre w ∧ w.count true = i + 1 ∧ w.getLast? = some true := by
        by_cases hi : 0 < i
        · obtain ⟨pre, w, e, hw, hc⟩ := h.some_of hi
          exact ⟨pre, w ++ [true], by rw [e, List.append_assoc], longer hw, by simp [hc], by simp⟩
        · have hi0 : i = 0 := by omega
          exact ⟨f, [true], rfl, one (ha.resolve_right hi), by simp [hi0], rfl⟩
      obtain ⟨pre, w, e, hw, hc, hl⟩ := ex
      by_cases h15 : i + 1 = 15
      · rw [if_pos h15]
        exact ⟨pre, w, e, hw, hl, hc.trans h15⟩
      · rw [if_neg h15]
        refine ⟨by have := h.small; omega, fun _ => ⟨pre, w, e, hw, hc⟩, fun pre w e hw => ?_⟩
        rcases watching_init e hw with ⟨-, -, rfl⟩ | ⟨w0, rfl, e0, hw0⟩
        · exact ⟨by simp, [], rfl⟩
        · exact ⟨by simpa using (h.all_of pre w0 e0 hw0).1, w0, rfl⟩
    | false =>
      rw [if_neg Bool.false_ne_true]
      have grow : ∀ {w u : List Bool}, w = u ++ true :: List.replicate n false →
          w ++ [false] = u ++ true :: List.replicate (n + 1) false := by
        rintro w u rfl
        simp [List.replicate_succ']
      refine ⟨?_, ?_, fun pre w e hw => ?_⟩
      · have := h.small
        split <;> omega
      · intro hi
        split at hi
        · omega
        · rename_i h6
          rw [if_neg h6]
          obtain ⟨pre, w, e, hw, hc⟩ := h.some_of hi
          obtain ⟨-, u, hu⟩ := h.all_of pre w e hw
          have hn : n < 6 := by
            by_contra hcon
            refine hw.goes_on ?_
            rw [hu]
            refine ⟨u ++ true :: List.replicate (n - 6) false, [], ?_⟩
            have : List.replicate n false = List.replicate (n - 6) false ++ List.replicate 6 false := by
              rw [List.replicate_append_replicate]; congr 1; omega
            rw [this]
            simp
          refine ⟨pre, w ++ [false], by rw [e, List.append_assoc], ⟨hw.thousandth, ?_, ?_⟩, by simp [hc]⟩
          · have := hw.first
            cases w <;> simp_all
          · rw [List.infix_concat_iff, not_or]
            exact ⟨not_six (grow hu) (by omega), hw.goes_on⟩
      · rcases watching_init e hw with ⟨hb, -, -⟩ | ⟨w0, rfl, e0, hw0⟩
        · cases hb
        · obtain ⟨hc, u, hu⟩ := h.all_of pre w0 e0 hw0
          have h6 : n + 1 ≠ 6 := by
            intro h6
            refine hw.goes_on ?_
            rw [grow hu, h6]
            exact ⟨u ++ [true], [], by simp⟩
          rw [if_neg h6]
          exact ⟨by simpa using hc, u, grow hu⟩
  · rw [if_neg (by simpa using ha)]
    rw [not_or] at ha
    refine ⟨h.small, fun hi => absurd hi ha.2, fun pre w e hw => ?_⟩
    rcases watching_init e hw with ⟨-, rfl, -⟩ | ⟨w0, rfl, e0, hw0⟩
    · exact absurd hw.thousandth ha.1
    · obtain ⟨hc, u, hu⟩ := h.all_of pre w0 e0 hw0
      have := count_pos hu
      exact absurd (by omega) ha.2

/-! ## The main loop -/

theorem asStep_sixth (k : Ks ℝ) (x : ℝ) (y : V3 ℝ) (h : ℝ) :
    (asStep k x y h).sixth = stage y h [k.k0, k.k1, k.k2, k.k3, k.k4] a6 := by
  simp only [stage, a6, List.zip_cons_cons, List.zip_nil_left, List.foldl_cons,
    List.foldl_nil, add3, zip3, scale3, Step.sixth, Step.go, Step.slope, asStep]
  apply V3.ext3 <;>
  · norm_num
    ring

theorem asStep_stiff (k : Ks ℝ) (s : dopri5.State ℝ) (h : ℝ) :
    stiffness { s with accepted := s.accepted + 1 } h k.k6 k.k5 (k.next s.y h) (stage s.y h [k.k0, k.k1, k.k2, k.k3, k.k4] a6)
      = count s.iasti s.nonStiff (decide ((s.accepted + 1) % 1000 = 0 ∨ 0 < s.iasti)) (asStep k s.x s.y h).stiff := by
  have e : (asStep k s.x s.y h).stiff = true ↔ Scalar.lt (3.25 : ℝ) (if Scalar.lt 0.0 (dot3 (sub3 (k.next s.y h)
      (stage s.y h [k.k0, k.k1, k.k2, k.k3, k.k4] a6)) (sub3 (k.next s.y h)
      (stage s.y h [k.k0, k.k1, k.k2, k.k3, k.k4] a6))) = true then h * Scalar.sqrt (dot3 (sub3 k.k6 k.k5) (sub3 k.k6 k.k5)
      / dot3 (sub3 (k.next s.y h) (stage s.y h [k.k0, k.k1, k.k2, k.k3, k.k4] a6)) (sub3 (k.next s.y h)
      (stage s.y h [k.k0, k.k1, k.k2, k.k3, k.k4] a6))) else 0.0) = true := by
    unfold Step.stiff
    rw [asStep_finish, asStep_sixth, decide_eq_true_iff, real_lt]
    generalize stage s.y h [k.k0, k.k1, k.k2, k.k3, k.k4] a6 = v
    generalize k.next s.y h = u
    simp only [asStep, dot3, sub3, zip3, ← sq]
    split
    · exact Iff.rfl
    · rename_i hn
      rw [real_lt, lit_0] at hn
      have h0 : (u.y0 - v.y0) ^ 2 + (u.y1 - v.y1) ^ 2 + (u.y2 - v.y2) ^ 2 = 0 :=
        le_antisymm (not_lt.1 hn) (by positivity)
      rw [h0, div_zero, Real.sqrt_zero, mul_zero, lit_0]
  unfold stiffness count
  by_cases ha : (s.accepted + 1) % 1000 = 0 ∨ 0 < s.iasti
  · rw [if_pos ha, if_pos (decide_eq_true ha)]
    cases hb : (asStep k s.x s.y h).stiff with
    | true =>
      rw [hb] at e
      simp only [if_pos (e.1 rfl), if_true]
    | false =>
      rw [hb] at e
      have hn := fun c => Bool.false_ne_true (e.2 c)
      simp only [if_neg hn, if_neg Bool.false_ne_true]
  · rw [if_neg ha, if_neg (by simpa using ha)]

theorem reaches_ask {α : Type} {A : α → V3 α → V3 α → Prop} {t : α} {y : V3 α}
    {k : V3 α → Stepper α} {qs : List (α × V3 α × V3 α)} {out : Option (List α × List (V3 α))}
    (h : Reaches (.eval t y k) qs (.done out)) (hA : Answered A qs) :
    ∃ dy qs', Reaches (k dy) qs' (.done out) ∧ Answered A qs' ∧ A t y dy ∧ qs.length = qs'.length + 1 := by
  cases h with
  | step h =>
    exact ⟨_, _, h, fun q hq => hA q (List.mem_cons_of_mem _ hq), hA _ List.mem_cons_self, rfl⟩

/-- The controller cuts a step to no less than a fifth, unless the whole is shorter. -/
theorem accept_lower {p : Problem ℝ} (hp : p.posneg = 1) {facOld err h hNew : ℝ} {reject ok : Bool} (hh : 0 < h)
    (hm : h ≤ p.hMax) (ha : accept p facOld reject err h = (ok, hNew)) : h / 5 ≤ hNew := by
  have h5 : ∀ x : ℝ, h / 5 ≤ h / max (1.0 / 10.0) (min (1.0 / 0.2) x) ∧ 0 < h / max (1.0 / 10.0) (min (1.0 / 0.2) x) := by
    intro x
    have h0 : (0 : ℝ) < max (1.0 / 10.0) (min (1.0 / 0.2) x) := lt_of_lt_of_le (by norm_num) (le_max_left _ _)
    have h1 : max (1.0 / 10.0) (min (1.0 / 0.2) x) ≤ (5 : ℝ) :=
      max_le (by norm_num) ((min_le_left _ _).trans (by norm_num))
    exact ⟨div_le_div_of_nonneg_left hh.le h0 h1, div_pos hh h0⟩
  unfold accept at ha
  simp only [fmax_real, fmin_real, hp, one_mul] at ha
  split at ha
  · obtain ⟨-, rfl⟩ := Prod.mk.inj ha
    obtain ⟨g1, g2⟩ := h5 (HasPowf.powf err (0.2 - 0.04 * 0.75) * HasPowf.powf facOld (-0.04) / 0.9)
    generalize h / max (1.0 / 10.0) (min (1.0 / 0.2) (HasPowf.powf err (0.2 - 0.04 * 0.75)
      * HasPowf.powf facOld (-0.04) / 0.9)) = g at g1 g2
    have hc : h / 5 ≤ (if Scalar.lt p.hMax (Scalar.abs g) = true then p.hMax else g) := by
      split
      · linarith
      · exact g1
    split
    · refine le_min (hc.trans (le_abs_self _)) ?_
      rw [real_abs, abs_of_pos hh]
      linarith
    · exact hc
  · rename_i hn
    obtain ⟨-, rfl⟩ := Prod.mk.inj ha
    rw [real_le, not_le, lit_1] at hn
    have h1 : 1 ≤ HasPowf.powf err (0.2 - 0.04 * 0.75 : ℝ) := Real.one_le_rpow hn.le (by norm_num)
    have h2 : (1 : ℝ) / 0.9 ≤ min (1.0 / 0.2 : ℝ) (HasPowf.powf err (0.2 - 0.04 * 0.75) / 0.9) :=
      le_min (by norm_num) (div_le_div_of_nonneg_right h1 (by norm_num))
    exact div_le_div_of_nonneg_left hh.le (lt_of_lt_of_le (by norm_num) h2) ((min_le_left _ _).trans (by norm_num))

/-- The second half of a pass that reports stiffness. -/
theorem conclude_stiff {p : Problem ℝ} {outs : Nat} {next : dopri5.State ℝ → V3 ℝ → Stepper ℝ}
    {s : dopri5.State ℝ} {last : Bool} {h : ℝ} {k : Ks ℝ} {yStiff : V3 ℝ} {hNew : ℝ}
    (h1 : accept p s.facOld s.reject (k.err p s.y h) h = (true, hNew))
    (h2 : stiffness { s with accepted := s.accepted + 1 } h k.k6 k.k5 (k.next s.y h) yStiff = none) :
    conclude p outs next s last h k.k0 k.k2 k.k3 k.k4 k.k5 k.k6 yStiff (k.next s.y h) = .done none := by
  unfold Ks.err at h1
  simp only [conclude, h1, h2]

/-- Before a pass: the steps accepted so far, and the step tried before. -/
structure Before (A : ℝ → V3 ℝ → V3 ℝ → Prop) (p : Problem ℝ) (y0 : V3 ℝ) (s : dopri5.State ℝ) (k0 : V3 ℝ)
    (l : List Step) : Prop where
  nonneg : 0 ≤ s.x
  before : s.x < p.xEnd
  step : 0 < s.h
  rate : A s.x s.y k0
  due : s.x ≤ s.xd
  joined : Leads 0 y0 l s.x s.y
  forward : ∀ s ∈ l, 0 < s.h
  slopes : ∀ s ∈ l, s.Slopes A
  passes : ∀ s ∈ l, s.Passes p.rtol p.atol
  watch : Watch (l.map Step.stiff) s.iasti s.nonStiff
  number : s.accepted = l.length
  calm : ∀ m, m <+: l.map Step.stiff → ¬Alarm m
  prev : s.x = 0 ∨ ∃ q : Step, q.Slopes A ∧ 0 < q.h ∧ q.h ≤ 5 * s.h ∧ s.x ≤ q.t + q.h

theorem loop_ends {A : ℝ → V3 ℝ → V3 ℝ → Prop} {p : Problem ℝ} {y0 : V3 ℝ} (hp : p.posneg = 1) (hm : p.hMax = p.xEnd)
    (hd : 0 < p.dx) (outs : Nat) (ho : p.xEnd < outs * p.dx) (N passes : Nat) :
    ∀ (s : dopri5.State ℝ) (k0 : V3 ℝ) (l : List Step) (qs : List (ℝ × V3 ℝ × V3 ℝ)) out, Before A p y0 s k0 l →
      Answered A qs → N + 6 * passes = 3 + 6 * 100001 → Reaches (loop p (outs + 1) passes s k0) qs (.done out) →
      ∃ l, Ended A p.rtol p.atol y0 p.xEnd l (N + qs.length) out.isSome := by
  induction passes generalizing N with
  | zero =>
    intro s k0 l qs out hI hA hN h
    obtain rfl := reaches_done h
    cases h
    exact ⟨l, ⟨_, _, hI.joined, .inr rfl⟩, hI.forward, hI.slopes, hI.passes, fun m h1 h2 => absurd h2 (hI.calm m h1),
      .inr (.inr (.inr (by simpa using hN)))⟩
  | succ passes ih =>
    intro s k0 l qs out hI hA hN h
    have hE : 0 < p.xEnd := lt_of_le_of_lt hI.nonneg hI.before
    have hlast : isLast p s = true ↔ 0 < s.x + 1.01 * s.h - p.xEnd := by
      unfold isLast
      rw [real_lt, hp, mul_one, lit_0]
    have htr : 0 < tried p s := by
      unfold tried
      split
      · exact sub_pos.2 hI.before
      · exact hI.step
    have hend : s.x + tried p s ≤ p.xEnd := by
      unfold tried
      split
      · linarith
      · rename_i hl
        rw [hlast, not_lt] at hl
        norm_num at hl
        linarith [hI.step]
    unfold loop at h
    split at h
    · rename_i hpr
      obtain rfl := reaches_done h
      rw [real_le, real_abs, real_abs, abs_of_nonneg hI.nonneg, abs_of_pos hI.step] at hpr
      refine ⟨l, ⟨_, _, hI.joined, .inr rfl⟩, hI.forward, hI.slopes, hI.passes, fun m h1 h2 => absurd h2 (hI.calm m h1),
        .inr (.inr (.inl ?_))⟩
      rcases hI.prev with h0 | ⟨q, q1, q2, q3, q4⟩
      · rw [h0] at hpr
        linarith [hI.step]
      · refine ⟨q, q1, q2, ?_⟩
        norm_num at hpr ⊢
        linarith
    · simp only [stages] at h
      obtain ⟨k1, _, h, hA, q1, l1⟩ := reaches_ask h hA
      obtain ⟨k2, _, h, hA, q2, l2⟩ := reaches_ask h hA
      obtain ⟨k3, _, h, hA, q3, l3⟩ := reaches_ask h hA
      obtain ⟨k4, _, h, hA, q4, l4⟩ := reaches_ask h hA
      obtain ⟨k5, _, h, hA, q5, l5⟩ := reaches_ask h hA
      obtain ⟨k6, qs', h, hA, q6, l6⟩ := reaches_ask h hA
      have hlen : N + qs.length = (N + 6) + qs'.length := by omega
      rw [hlen]
      set k : Ks ℝ := ⟨k0, k1, k2, k3, k4, k5, k6⟩ with hk
      have hans : k.Answer A s.x s.y (tried p s) := ⟨q1, q2, q3, q4, q5, q6⟩
      set st := asStep k s.x s.y (tried p s) with hst
      have hsl : st.Slopes A := asStep_slopes hI.rate hans
      obtain ⟨ok, hNew, hacc⟩ : ∃ ok hNew, accept p s.facOld s.reject (k.err p s.y (tried p s)) (tried p s) = (ok, hNew) :=
        ⟨_, _, rfl⟩
      have hmax : tried p s ≤ p.hMax := by rw [hm]; linarith [hI.nonneg]
      have hlow := accept_lower hp htr hmax hacc
      have hn0 : 0 < hNew := by linarith
      cases ok with
      | false =>
        have hc := conclude_rejected (outs := outs + 1) (next := loop p (outs + 1) passes) (last := isLast p s)
          (yStiff := stage s.y (tried p s) [k0, k1, k2, k3, k4] a6) hacc
        replace h := (Eq.subst (motive := fun st => Reaches st _ (.done out)) hc h)
        refine ih (N + 6) { s with h := hNew, reject := true } k0 l _ _ ?_ hA (by omega) h
        refine ⟨hI.nonneg, hI.before, hn0, hI.rate, hI.due, hI.joined, hI.forward, hI.slopes, hI.passes, hI.watch, hI.number,
          hI.calm, .inr ⟨st, hsl, htr, ?_, ?_⟩⟩
        · show tried p s ≤ 5 * hNew
          linarith
        · show s.x ≤ s.x + tried p s
          linarith
      | true =>
        have herr : k.err p s.y (tried p s) ≤ 1 := by
          unfold accept at hacc
          by_contra hc
          have hc' : ¬Scalar.le (k.err p s.y (tried p s)) (1.0 : ℝ) = true := by
            rw [real_le, lit_1]; exact hc
          simp only [hc'] at hacc
          simp at hacc
        have mem : ∀ {P : Step → Prop}, (∀ a ∈ l, P a) → P st → ∀ a ∈ l ++ [st], P a := by
          intro P h1 h2 a ha
          rcases List.mem_append.1 ha with ha | ha
          · exact h1 a ha
          · rw [List.mem_singleton.1 ha]; exact h2
        have hjoin : Leads 0 y0 (l ++ [st]) (s.x + tried p s) (k.next s.y (tried p s)) :=
          leads_append hI.joined ⟨rfl, rfl, rfl, asStep_finish _ _ _ _⟩
        have hfw := mem hI.forward htr
        have hsl' := mem hI.slopes hsl
        have hps := mem hI.passes ((asStep_err k p s.x s.y _).2 herr)
        have emap : (l ++ [st]).map Step.stiff = l.map Step.stiff ++ [st.stiff] := by simp
        have hws := watch_step hI.watch st.stiff
        rw [List.length_map] at hws
        have hsf := asStep_stiff k s (tried p s)
        rw [hI.number] at hsf
        have hcalm : ∀ m, m <+: (l ++ [st]).map Step.stiff → Alarm m → m = (l ++ [st]).map Step.stiff := by
          intro m h1 h2
          rw [emap] at h1 ⊢
          rcases List.prefix_concat_iff.1 h1 with h1 | h1
          · exact h1
          · exact absurd h2 (hI.calm m h1)
        cases hcnt : count s.iasti s.nonStiff (decide ((l.length + 1) % 1000 = 0 ∨ 0 < s.iasti)) st.stiff with
        | none =>
          rw [hcnt] at hws hsf
          rw [← hI.number] at hsf
          have hc := conclude_stiff (outs := outs + 1) (next := loop p (outs + 1) passes) (last := isLast p s) hacc hsf
          replace h := (Eq.subst (motive := fun st => Reaches st _ (.done out)) hc h)
          obtain rfl := reaches_done h
          exact ⟨l ++ [st], ⟨_, _, hjoin, .inr rfl⟩, hfw, hsl', hps, fun m h1 h2 => ⟨rfl, hcalm m h1 h2⟩,
            .inr (.inl (emap ▸ hws))⟩
        | some v =>
          obtain ⟨i', n'⟩ := v
          rw [hcnt] at hws hsf
          rw [← hI.number] at hsf
          have hcalm' : ∀ m, m <+: (l ++ [st]).map Step.stiff → ¬Alarm m := by
            intro m h1 h2
            have := hcalm m h1 h2
            rw [this, emap] at h2
            exact hws.calm h2
          obtain ⟨s', hs'⟩ := output_succeeds p hd outs (k.advance p s (tried p s) (i', n')) hI.nonneg
            (by show 0 ≤ s.x + tried p s; linarith [hI.nonneg]) hI.due
            (by
              show s.x + tried p s < s.xd + outs * p.dx
              linarith [hI.due, hI.nonneg])
          obtain ⟨ts, -, g2, g3⟩ := output_points (p := p) hd (outs + 1) (k.advance p s (tried p s) (i', n')) s'
            (by show 0 ≤ s.x + tried p s; linarith [hI.nonneg]) (by show 0 ≤ s.xd; linarith [hI.due, hI.nonneg]) hs'
          have hc := conclude_accepted (p := p) (outs := outs + 1) (next := loop p (outs + 1) passes) (last := isLast p s)
            (k := k) hacc hsf hs'
          replace h := (Eq.subst (motive := fun st => Reaches st _ (.done out)) hc h)
          cases hl : isLast p s with
          | true =>
            rw [hl, if_pos rfl] at h
            obtain rfl := reaches_done h
            refine ⟨l ++ [st], ⟨_, _, hjoin, .inl ?_⟩, hfw, hsl', hps, fun m h1 h2 => absurd h2 (hcalm' m h1), .inl rfl⟩
            unfold tried
            rw [if_pos hl]
            ring
          | false =>
            rw [hl, if_neg Bool.false_ne_true] at h
            have ht : tried p s = s.h := by unfold tried; rw [hl]; rfl
            have e1 : s'.x = s.x + tried p s := by rw [g2]; rfl
            have e2 : s'.y = k.next s.y (tried p s) := by rw [g2]; rfl
            have e4 : s'.iasti = i' := by rw [g2]; rfl
            have e5 : s'.nonStiff = n' := by rw [g2]; rfl
            have e6 : s'.accepted = s.accepted + 1 := by rw [g2]; rfl
            rw [← Bool.not_eq_true, hlast, not_lt] at hl
            norm_num at hl
            refine ih (N + 6) { s' with h := hNew } k6 (l ++ [st]) _ _ ?_ hA (by omega) h
            refine ⟨?_, ?_, hn0, ?_, ?_, ?_, hfw, hsl', hps, ?_, ?_, hcalm', .inr ⟨st, hsl, htr, ?_, ?_⟩⟩
            · show 0 ≤ s'.x
              rw [e1]; linarith [hI.nonneg]
            · show s'.x < p.xEnd
              rw [e1, ht]; linarith [hI.step]
            · show A s'.x s'.y k6
              rw [e1, e2]
              have := hans.s6
              rw [c7, lit_1, mul_one] at this
              exact this
            · show s'.x ≤ s'.xd
              rw [e1]; exact g3.le
            · show Leads 0 y0 (l ++ [st]) s'.x s'.y
              rw [e1, e2]; exact hjoin
            · show Watch ((l ++ [st]).map Step.stiff) s'.iasti s'.nonStiff
              rw [e4, e5, emap]; exact hws
            · show s'.accepted = _
              rw [e6, hI.number]; simp
            · show tried p s ≤ 5 * hNew
              linarith
            · show s'.x ≤ s.x + tried p s
              rw [e1]

/-- **C87.** However its questions are answered, an integration from zero either succeeds, having reached the end, or
gives up after an alarm of stiffness on the steps accepted so far, after trying a step of hardly more than the spacing
of the numbers around the time it is at, or after 100001 tries.  An alarm always ends it. -/
theorem C87_ends (outs : Nat) (xEnd dx rtol atol : ℝ) (y : V3 ℝ) (hx : 0 < xEnd) (hd : 0 < dx) (ho : xEnd < outs * dx)
    (A : ℝ → V3 ℝ → V3 ℝ → Prop) (qs : List (ℝ × V3 ℝ × V3 ℝ)) (hA : ∀ q ∈ qs, A q.1 q.2.1 q.2.2)
    (out : Option (List ℝ × List (V3 ℝ)))
    (h : Reaches (dopri5.solve (outs + 1) 0.0 xEnd dx y rtol atol) qs (.done out)) :
    ∃ l, Ended A rtol atol y xEnd l qs.length out.isSome := by
  unfold dopri5.solve at h
  set p : Problem ℝ := { xEnd, dx, rtol, atol, hMax := Scalar.abs (xEnd - 0.0)
                         posneg := dopri5.sign 1.0 (xEnd - 0.0) } with hp
  have hpos : p.posneg = 1 := by
    show dopri5.sign 1.0 (xEnd - 0.0) = 1
    rw [sign_abs (by rw [lit_0]; linarith)]
    norm_num
  have hmax : p.hMax = xEnd := by
    show |xEnd - 0.0| = xEnd
    rw [lit_0, sub_zero]; exact abs_of_pos hx
  replace hA : Answered A qs := hA
  simp only [hinit] at h
  obtain ⟨f0, _, h, hA, -, l1⟩ := reaches_ask h hA
  obtain ⟨f1, _, h, hA, -, l2⟩ := reaches_ask h hA
  obtain ⟨k0, qs', h, hA, ak, l3⟩ := reaches_ask h hA
  have hlen : qs.length = 3 + qs'.length := by omega
  rw [hlen]
  have g0 := firstGuess_pos hpos (hmax ▸ hx) y f0
  refine loop_ends hpos hmax hd outs ho 3 100001 _ k0 [] _ _ ?_ hA rfl h
  refine ⟨?_, ?_, secondGuess_pos hpos (hmax ▸ hx) _ _ _ g0, ak, le_rfl, ⟨lit_0.symm, rfl⟩, by simp, by simp, by simp, ?_,
    rfl, ?_, .inl lit_0⟩
  · show (0 : ℝ) ≤ 0.0
    norm_num
  · show (0.0 : ℝ) < xEnd
    rw [lit_0]; exact hx
  · exact watch_nil
  · intro m hm
    have : m = [] := List.prefix_nil.1 hm
    rw [this]
    exact watch_nil.calm

end Sett
