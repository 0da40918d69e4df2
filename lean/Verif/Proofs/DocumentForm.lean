import Verif.Proofs.Document

/-! # Writing documents, and changing the order of their keys -/

namespace Sett

open Spec

variable {α : Type}

/-- The keys of the entries. -/
def Spec.Form.keys : Form α → List String
  | .entry k _ rest => k :: rest.keys
  | _ => []

/-- Entries down to a table. -/
def Spec.Form.chain : Form α → Prop
  | .entry _ _ rest => rest.chain
  | .table => True
  | _ => False

/-- Keys are distinct, and `rest` describes the same table. -/
def Spec.Form.ok : Form α → Prop
  | .entry k φ rest => k ∉ rest.keys ∧ φ.ok ∧ rest.chain ∧ rest.ok
  | .variant _ φ => φ.ok
  | .adjacent _ φ => φ.ok
  | _ => True

/-- The entries of the written table. -/
def Spec.Form.rows (φ : Form α) : List (String × Doc α) :=
  match φ.doc with
  | .table es => es
  | _ => []

theorem chain_doc {φ : Form α} (h : φ.chain) : φ.doc = .table φ.rows := by
  cases φ <;> simp_all [Form.chain, Form.rows, Form.doc]

theorem rows_keys {φ : Form α} (h : φ.chain) : φ.rows.map Prod.fst = φ.keys := by
  induction φ with
  | entry k φ rest _ ih =>
    have := ih h
    simp only [Form.rows, Form.doc, Form.keys, List.map_cons, List.cons.injEq, true_and] at this ⊢
    exact this
  | table => rfl
  | _ => exact h.elim

theorem at_keys {es : List (String × Doc α)} {k : String} (h : k ∉ es.map Prod.fst) : at_ es k = [] := by
  simp only [at_, List.filter_eq_nil_iff, decide_eq_true_eq]
  rintro e he rfl
  exact h (List.mem_map.2 ⟨e, he, rfl⟩)

theorem fits_rows (buf s : Scalars α) {φ : Form α} (hc : φ.chain) (ho : φ.ok)
    (hi : ∀ ψ : Form α, ψ.ok → sizeOf ψ < sizeOf φ → Fits buf s ψ ψ.doc)
    (pre : List (String × Doc α)) (hp : ∀ k ∈ φ.keys, k ∉ pre.map Prod.fst) :
    Fits buf s φ (.table (pre ++ φ.rows)) := by
  induction φ generalizing pre with
  | entry k φ rest _ ih =>
    obtain ⟨h1, h2, h3, h4⟩ := ho
    have hrow : (Form.entry k φ rest).rows = (k, φ.doc) :: rest.rows := rfl
    refine ⟨⟨_, φ.doc, rfl, ?_, hi φ h2 (by simp only [Form.entry.sizeOf_spec]; omega)⟩, ?_⟩
    · have a1 := at_keys (hp k (by simp [Form.keys]))
      have a2 : at_ rest.rows k = [] := at_keys (by rw [rows_keys h3]; exact h1)
      simp only [at_] at a1 a2
      rw [hrow, List.filter_append, a1, List.filter_cons_of_pos (by simp), a2]
      rfl
    · rw [hrow, List.append_cons]
      refine ih h3 h4 (fun ψ hψ hs => hi ψ hψ (by simp only [Form.entry.sizeOf_spec]; omega)) _ fun k' hk' => ?_
      simp only [List.map_append, List.map_cons, List.map_nil, List.mem_append, List.mem_singleton, not_or]
      exact ⟨hp k' (by simp [Form.keys, hk']), fun hc => h1 (hc ▸ hk')⟩
  | table => exact ⟨_, rfl⟩
  | _ => exact hc.elim

theorem fits_doc (buf s : Scalars α) (h : ReadsNumbers s) (φ : Form α) (ho : φ.ok) : Fits buf s φ φ.doc := by
  generalize hn : sizeOf φ = n
  induction n using Nat.strong_induction_on generalizing φ with
  | _ n ih =>
    have hi : ∀ ψ : Form α, ψ.ok → sizeOf ψ < sizeOf φ → Fits buf s ψ ψ.doc := fun ψ hψ hs => ih _ (hn ▸ hs) ψ hψ rfl
    cases φ with
    | num x => exact h.real x
    | nat n => exact h.nat n
    | tag t => exact ⟨t, rfl, Or.inl rfl⟩
    | table => exact ⟨_, rfl⟩
    | entry k φ rest =>
      have := fits_rows buf s (φ := .entry k φ rest) ho.2.2.1 ho hi [] (by simp)
      simpa [chain_doc (φ := .entry k φ rest) ho.2.2.1] using this
    | variant t φ => exact ⟨t, _, rfl, Or.inl rfl, hi φ ho (by simp only [Form.variant.sizeOf_spec]; omega)⟩
    | model t => exact ⟨_, _, rfl, rfl, rfl⟩
    | adjacent t φ =>
      exact ⟨_, φ.doc, rfl, Or.inl ⟨rfl, hi φ ho (by simp only [Form.adjacent.sizeOf_spec]; omega)⟩⟩
    | alone t => exact ⟨_, rfl, Or.inl rfl⟩

theorem fits_weaken {buf s : Scalars α} (hb : Weaker buf s) (φ : Form α) :
    ∀ (t : Scalars α) (d : Doc α), Weaker t s → Fits buf t φ d → Fits s s φ d := by
  have name : ∀ t : Scalars α, Weaker t s → ∀ a b, SameName t a b → SameName s a b := fun t ht a b h =>
    h.imp id fun h => ⟨ht.caseless h.1, h.2⟩
  induction φ with
  | num x => exact fun t d ht h => ht.float _ _ h
  | nat n => exact fun t d ht h => ht.uint _ _ h
  | tag n => exact fun t d ht ⟨u, hu, h⟩ => ⟨u, hu, name t ht _ _ h⟩
  | table => exact fun t d ht h => h
  | entry k φ rest ih1 ih2 => exact fun t d ht ⟨h1, h2⟩ => ⟨h1.mono fun v => ih1 t v ht, ih2 t d ht h2⟩
  | variant n φ ih => exact fun t d ht ⟨k, v, hd, hn, h⟩ => ⟨k, v, hd, name t ht _ _ hn, ih t v ht h⟩
  | model n => exact fun t d ht h => h
  | adjacent n φ ih =>
    exact fun t d ht ⟨es, v, hd, h⟩ => ⟨es, v, hd, h.imp (fun h => ⟨h.1, ih t v ht h.2⟩) fun h => ⟨h.1, ih buf v hb h.2⟩⟩
  | alone n => exact fun t d ht h => h

theorem perm_two {β : Type} {l : List β} {a b : β} (h : l.Perm [a, b]) : l = [a, b] ∨ l = [b, a] := by
  obtain ⟨x, l, rfl⟩ : ∃ x l', l = x :: l' := by
    cases l with
    | nil => simpa using h.length_eq
    | cons x l => exact ⟨x, l, rfl⟩
  have hx : x ∈ [a, b] := h.subset (by simp)
  simp only [List.mem_cons, List.not_mem_nil, or_false] at hx
  rcases hx with rfl | rfl
  · have := List.perm_singleton.1 ((List.perm_cons x).1 h)
    exact Or.inl (by rw [this])
  · have := List.perm_singleton.1 ((List.perm_cons x).1 (h.trans (List.Perm.swap _ _ _)))
    exact Or.inr (by rw [this])

theorem Spec.Reordered.symm {d e : Doc α} (h : Reordered d e) : Reordered e d := by
  induction h with
  | refl => exact .refl _
  | perm h => exact .perm h.symm
  | inside a b k _ ih => exact .inside a b k ih
  | trans _ _ h1 h2 => exact h2.trans h1

theorem Spec.Reordered.scalar {d e : Doc α} (h : Reordered d e) (hd : ∀ es, d ≠ .table es) : e = d := by
  induction h with
  | refl => rfl
  | perm => exact absurd rfl (hd _)
  | inside => exact absurd rfl (hd _)
  | trans _ _ h1 h2 =>
    have := h1 hd
    subst this
    exact h2 hd

theorem fits_perm {s : Scalars α} (hs : NoTables s) {es es' : List (String × Doc α)} (hp : es.Perm es') (φ : Form α)
    (h : Fits s s φ (.table es)) : Fits s s φ (.table es') := by
  have hhas : ∀ k p, Has (.table es) k p → Has (.table es') k p := by
    rintro k p ⟨es₀, v, he, hv, hpv⟩
    cases he
    exact ⟨es', v, rfl, List.perm_singleton.1 ((hp.filter _).symm.trans (hv ▸ List.Perm.refl _)), hpv⟩
  have hpair : (pair es').Perm (pair es) := (hp.filter _).symm
  induction φ with
  | num x => simp [Fits, hs.float] at h
  | nat n => simp [Fits, hs.uint] at h
  | tag t => simp [Fits] at h
  | table => exact ⟨_, rfl⟩
  | entry k φ rest _ ih => exact ⟨hhas k _ h.1, ih h.2⟩
  | variant t φ =>
    obtain ⟨k, v, he, h⟩ := h
    cases he
    exact ⟨k, v, by rw [List.perm_singleton.1 hp.symm], h⟩
  | model t => exact hhas _ _ h
  | adjacent t φ =>
    obtain ⟨es₀, v, he, ⟨h1, h2⟩ | ⟨h1, h2⟩⟩ := h <;> cases he <;> rw [h1] at hpair <;>
      rcases perm_two hpair with hc | hc
    · exact ⟨_, v, rfl, Or.inl ⟨hc, h2⟩⟩
    · exact ⟨_, v, rfl, Or.inr ⟨hc, h2⟩⟩
    · exact ⟨_, v, rfl, Or.inr ⟨hc, h2⟩⟩
    · exact ⟨_, v, rfl, Or.inl ⟨hc, h2⟩⟩
  | alone t =>
    obtain ⟨es₀, he, h | h | h⟩ := h <;> cases he <;> rw [h] at hpair
    · exact ⟨_, rfl, Or.inl (List.perm_singleton.1 hpair)⟩
    · exact ⟨_, rfl, Or.inr (perm_two hpair)⟩
    · exact ⟨_, rfl, Or.inr (perm_two hpair).symm⟩

theorem filter_inside (p : String → Bool) (a b : List (String × Doc α)) (k : String) (v : Doc α) :
    (a ++ (k, v) :: b).filter (fun e => p e.1) =
      a.filter (fun e => p e.1) ++ if p k then (k, v) :: b.filter (fun e => p e.1) else b.filter fun e => p e.1 := by
  rw [List.filter_append, List.filter_cons]

theorem append_one {β : Type} {a b : List β} {x y : β} (h : a ++ x :: b = [y]) : a = [] ∧ x = y ∧ b = [] := by
  cases a with
  | nil => simp_all
  | cons c a => simp at h

theorem append_two {β : Type} {a b : List β} {x y z : β} (h : a ++ x :: b = [y, z]) :
    (a = [] ∧ x = y ∧ b = [z]) ∨ (a = [y] ∧ x = z ∧ b = []) := by
  cases a with
  | nil => simp_all
  | cons c a =>
    simp only [List.cons_append, List.cons.injEq] at h
    obtain ⟨rfl, h⟩ := h
    obtain ⟨rfl, rfl, rfl⟩ := append_one h
    simp

theorem fits_inside {s : Scalars α} (hs : NoTables s) (a b : List (String × Doc α)) (k : String) {v w : Doc α}
    (hr : Reordered v w) (hi : ∀ φ : Form α, Fits s s φ v → Fits s s φ w) (φ : Form α)
    (h : Fits s s φ (.table (a ++ (k, v) :: b))) : Fits s s φ (.table (a ++ (k, w) :: b)) := by
  have hhas : ∀ k' (p : Doc α → Prop), (p v → p w) → Has (.table (a ++ (k, v) :: b)) k' p →
      Has (.table (a ++ (k, w) :: b)) k' p := by
    rintro k' p hpp ⟨es₀, u, he, hv, hpv⟩
    cases he
    rw [filter_inside (fun x => decide (x = k'))] at hv
    split at hv
    · rename_i hk
      obtain ⟨h1, h2, h3⟩ := append_one hv
      cases h2
      exact ⟨_, w, rfl, by rw [filter_inside (fun x => decide (x = k)), h1, h3]; simp, hpp hpv⟩
    · rename_i hk
      exact ⟨_, u, rfl, by rw [filter_inside (fun x => decide (x = k')), if_neg hk, hv], hpv⟩
  have hpv : pair (a ++ (k, v) :: b) = pair a ++ if k = "model" ∨ k = "params" then (k, v) :: pair b else pair b := by
    simpa only [pair, decide_eq_true_eq] using filter_inside (fun x => decide (x = "model" ∨ x = "params")) a b k v
  have hpw : pair (a ++ (k, w) :: b) = pair a ++ if k = "model" ∨ k = "params" then (k, w) :: pair b else pair b := by
    simpa only [pair, decide_eq_true_eq] using filter_inside (fun x => decide (x = "model" ∨ x = "params")) a b k w
  have htext : ∀ t, v = .text t → w = .text t := fun t ht => by
    subst ht
    exact hr.scalar (by simp)
  have hnull : v = .null → w = .null := fun ht => by
    subst ht
    exact hr.scalar (by simp)
  induction φ with
  | num x => simp [Fits, hs.float] at h
  | nat n => simp [Fits, hs.uint] at h
  | tag t => simp [Fits] at h
  | table => exact ⟨_, rfl⟩
  | entry k' φ rest _ ih => exact ⟨hhas k' _ (hi φ) h.1, ih h.2⟩
  | variant t φ =>
    obtain ⟨k', u, he, h1, h2⟩ := h
    simp only [Doc.table.injEq] at he
    obtain ⟨rfl, h3, rfl⟩ := append_one he
    cases h3
    exact ⟨k, w, rfl, h1, hi φ h2⟩
  | model t => exact hhas _ _ (htext t) h
  | adjacent t φ =>
    obtain ⟨es₀, u, he, h⟩ := h
    cases he
    rw [hpv] at h
    by_cases hk : k = "model" ∨ k = "params"
    · simp only [if_pos hk] at h hpw
      rcases h with ⟨h1, h2⟩ | ⟨h1, h2⟩
      · rcases append_two h1 with ⟨e1, e2, e3⟩ | ⟨e1, e2, e3⟩ <;> cases e2
        · exact ⟨_, u, rfl, Or.inl ⟨by rw [hpw, e1, e3, htext t rfl]; rfl, h2⟩⟩
        · exact ⟨_, w, rfl, Or.inl ⟨by rw [hpw, e1, e3]; rfl, hi φ h2⟩⟩
      · rcases append_two h1 with ⟨e1, e2, e3⟩ | ⟨e1, e2, e3⟩ <;> cases e2
        · exact ⟨_, w, rfl, Or.inr ⟨by rw [hpw, e1, e3]; rfl, hi φ h2⟩⟩
        · exact ⟨_, u, rfl, Or.inr ⟨by rw [hpw, e1, e3, htext t rfl]; rfl, h2⟩⟩
    · simp only [if_neg hk] at h hpw
      exact ⟨_, u, rfl, by rw [hpw]; exact h⟩
  | alone t =>
    obtain ⟨es₀, he, h⟩ := h
    cases he
    refine ⟨_, rfl, ?_⟩
    rw [hpv] at h
    rw [hpw]
    by_cases hk : k = "model" ∨ k = "params"
    · simp only [if_pos hk] at h ⊢
      rcases h with h | h | h
      · obtain ⟨e1, e2, e3⟩ := append_one h
        cases e2
        rw [e1, e3, htext t rfl]
        exact Or.inl rfl
      · rcases append_two h with ⟨e1, e2, e3⟩ | ⟨e1, e2, e3⟩ <;> cases e2
        · rw [e1, e3, htext t rfl]
          exact Or.inr (Or.inl rfl)
        · rw [e1, e3, hnull rfl]
          exact Or.inr (Or.inl rfl)
      · rcases append_two h with ⟨e1, e2, e3⟩ | ⟨e1, e2, e3⟩ <;> cases e2
        · rw [e1, e3, hnull rfl]
          exact Or.inr (Or.inr rfl)
        · rw [e1, e3, htext t rfl]
          exact Or.inr (Or.inr rfl)
    · simp only [if_neg hk] at h ⊢
      exact h

theorem fits_reordered {s : Scalars α} (hs : NoTables s) {d e : Doc α} (h : Reordered d e) (φ : Form α) :
    Fits s s φ d → Fits s s φ e := by
  induction h generalizing φ with
  | refl => exact id
  | perm h => exact fits_perm hs h φ
  | inside a b k hr ih => exact fits_inside hs a b k hr ih φ
  | trans _ _ h1 h2 => exact fun h => h2 φ (h1 φ h)

theorem ok_Material (c : Material) : (form_Material (α := α) c).ok := by cases c <;> trivial

theorem ok_ToleranceConfig (c : ToleranceConfig α) : (form_ToleranceConfig c).ok := by
  simp [form_ToleranceConfig, Form.ok, Form.keys, Form.chain]

theorem ok_InnerLoopConfig (c : InnerLoopConfig α) : (form_InnerLoopConfig c).ok := by
  simp [form_InnerLoopConfig, Form.ok, Form.keys, Form.chain, ok_ToleranceConfig]

theorem ok_OuterLoopConfig (c : OuterLoopConfig α) : (form_OuterLoopConfig c).ok := by
  simp [form_OuterLoopConfig, Form.ok, Form.keys, Form.chain, ok_ToleranceConfig]

theorem ok_OdeConfig (c : OdeConfig α) : (form_OdeConfig c).ok := by
  simp [form_OdeConfig, Form.ok, Form.keys, Form.chain, ok_ToleranceConfig]

theorem ok_SolverConfig (c : SolverConfig α) : (form_SolverConfig c).ok := by
  simp [form_SolverConfig, Form.ok, Form.keys, Form.chain, ok_InnerLoopConfig, ok_OdeConfig, ok_OuterLoopConfig]

theorem ok_LegacyOdeSolver (c : LegacyOdeSolver) : (form_LegacyOdeSolver (α := α) c).ok := by cases c; trivial

theorem ok_LegacySolverConfig (c : LegacySolverConfig α) : (form_LegacySolverConfig c).ok := by
  simp [form_LegacySolverConfig, Form.ok, Form.keys, Form.chain, ok_LegacyOdeSolver, ok_ToleranceConfig]

theorem ok_ConditionsConfig (c : ConditionsConfig α) : (form_ConditionsConfig c).ok := by
  simp [form_ConditionsConfig, Form.ok, Form.keys, Form.chain]

theorem ok_LegacyConditionsConfig (c : LegacyConditionsConfig α) : (form_LegacyConditionsConfig c).ok := by
  simp [form_LegacyConditionsConfig, Form.ok, Form.keys, Form.chain]

theorem ok_ws_SinusoidalDrive_Config (c : ws.SinusoidalDrive.Config α) : (form_ws_SinusoidalDrive_Config c).ok := by
  simp [form_ws_SinusoidalDrive_Config, Form.ok, Form.keys, Form.chain]

theorem ok_ws_RhombicDrive_Config (c : ws.RhombicDrive.Config α) : (form_ws_RhombicDrive_Config c).ok := by
  simp [form_ws_RhombicDrive_Config, Form.ok, Form.keys, Form.chain]

theorem ok_ws_GPU3_Config (c : ws.GPU3.Config α) : (form_ws_GPU3_Config c).ok := by
  simp [form_ws_GPU3_Config, Form.ok, Form.keys, Form.chain]

theorem ok_ws_Mod2_Config (c : ws.Mod2.Config α) : (form_ws_Mod2_Config c).ok := by
  simp [form_ws_Mod2_Config, Form.ok, Form.keys, Form.chain, ok_Material]

theorem ok_chx_FixedApproach_Config (c : chx.FixedApproach.Config α) : (form_chx_FixedApproach_Config c).ok := by
  simp [form_chx_FixedApproach_Config, Form.ok, Form.keys, Form.chain]

theorem ok_chx_FixedConductance_Config (c : chx.FixedConductance.Config α) : (form_chx_FixedConductance_Config c).ok := by
  simp [form_chx_FixedConductance_Config, Form.ok, Form.keys, Form.chain]

theorem ok_chx_GPU3_Coolant (c : chx.GPU3.Coolant) : (form_chx_GPU3_Coolant (α := α) c).ok := by cases c; trivial

theorem ok_chx_GPU3_Config (c : chx.GPU3.Config α) : (form_chx_GPU3_Config c).ok := by
  simp [form_chx_GPU3_Config, Form.ok, Form.keys, Form.chain, ok_chx_GPU3_Coolant]

theorem ok_chx_Mod2_Fluid (c : chx.Mod2.Fluid) : (form_chx_Mod2_Fluid (α := α) c).ok := by cases c; trivial

theorem ok_chx_Mod2_Correlation (c : chx.Mod2.Correlation) : (form_chx_Mod2_Correlation (α := α) c).ok := by cases c <;> trivial

theorem ok_chx_Mod2_Tubes (c : chx.Mod2.Tubes α) : (form_chx_Mod2_Tubes c).ok := by
  simp [form_chx_Mod2_Tubes, Form.ok, Form.keys, Form.chain, ok_Material]

theorem ok_chx_Mod2_Shell (c : chx.Mod2.Shell α) : (form_chx_Mod2_Shell c).ok := by
  simp [form_chx_Mod2_Shell, Form.ok, Form.keys, Form.chain]

theorem ok_chx_Mod2_Geometry (c : chx.Mod2.Geometry α) : (form_chx_Mod2_Geometry c).ok := by
  simp [form_chx_Mod2_Geometry, Form.ok, Form.keys, Form.chain, ok_chx_Mod2_Shell, ok_chx_Mod2_Tubes]

theorem ok_chx_Mod2_Config (c : chx.Mod2.Config α) : (form_chx_Mod2_Config c).ok := by
  simp [form_chx_Mod2_Config, Form.ok, Form.keys, Form.chain, ok_chx_Mod2_Correlation, ok_chx_Mod2_Fluid, ok_chx_Mod2_Geometry]

theorem ok_regen_FrictionFactorCorrelation (c : regen.FrictionFactorCorrelation) : (form_regen_FrictionFactorCorrelation (α := α) c).ok := by cases c; trivial

theorem ok_regen_JFactorCorrelation (c : regen.JFactorCorrelation) : (form_regen_JFactorCorrelation (α := α) c).ok := by cases c; trivial

theorem ok_regen_FixedApproach_Config (c : regen.FixedApproach.Config α) : (form_regen_FixedApproach_Config c).ok := by
  simp [form_regen_FixedApproach_Config, Form.ok, Form.keys, Form.chain]

theorem ok_regen_FixedConductance_Config (c : regen.FixedConductance.Config α) : (form_regen_FixedConductance_Config c).ok := by
  simp [form_regen_FixedConductance_Config, Form.ok, Form.keys, Form.chain]

theorem ok_regen_GPU3_Mesh (c : regen.GPU3.Mesh α) : (form_regen_GPU3_Mesh c).ok := by
  simp [form_regen_GPU3_Mesh, Form.ok, Form.keys, Form.chain, ok_Material]

theorem ok_regen_GPU3_Shell (c : regen.GPU3.Shell α) : (form_regen_GPU3_Shell c).ok := by
  simp [form_regen_GPU3_Shell, Form.ok, Form.keys, Form.chain]

theorem ok_regen_GPU3_Geometry (c : regen.GPU3.Geometry α) : (form_regen_GPU3_Geometry c).ok := by
  simp [form_regen_GPU3_Geometry, Form.ok, Form.keys, Form.chain, ok_regen_GPU3_Mesh, ok_regen_GPU3_Shell]

theorem ok_regen_GPU3_Config (c : regen.GPU3.Config α) : (form_regen_GPU3_Config c).ok := by
  simp [form_regen_GPU3_Config, Form.ok, Form.keys, Form.chain, ok_regen_FrictionFactorCorrelation, ok_regen_GPU3_Geometry, ok_regen_JFactorCorrelation]

theorem ok_regen_Mod2_Correlation (c : regen.Mod2.Correlation) : (form_regen_Mod2_Correlation (α := α) c).ok := by cases c <;> trivial

theorem ok_regen_Mod2_Mesh (c : regen.Mod2.Mesh α) : (form_regen_Mod2_Mesh c).ok := by
  simp [form_regen_Mod2_Mesh, Form.ok, Form.keys, Form.chain, ok_Material]

theorem ok_regen_Mod2_Shell (c : regen.Mod2.Shell α) : (form_regen_Mod2_Shell c).ok := by
  simp [form_regen_Mod2_Shell, Form.ok, Form.keys, Form.chain, ok_Material]

theorem ok_regen_Mod2_Geometry (c : regen.Mod2.Geometry α) : (form_regen_Mod2_Geometry c).ok := by
  simp [form_regen_Mod2_Geometry, Form.ok, Form.keys, Form.chain, ok_regen_Mod2_Mesh, ok_regen_Mod2_Shell]

theorem ok_regen_Mod2_Config (c : regen.Mod2.Config α) : (form_regen_Mod2_Config c).ok := by
  simp [form_regen_Mod2_Config, Form.ok, Form.keys, Form.chain, ok_regen_FrictionFactorCorrelation, ok_regen_JFactorCorrelation, ok_regen_Mod2_Correlation, ok_regen_Mod2_Geometry]

theorem ok_hhx_FixedApproach_Config (c : hhx.FixedApproach.Config α) : (form_hhx_FixedApproach_Config c).ok := by
  simp [form_hhx_FixedApproach_Config, Form.ok, Form.keys, Form.chain]

theorem ok_hhx_FixedConductance_Config (c : hhx.FixedConductance.Config α) : (form_hhx_FixedConductance_Config c).ok := by
  simp [form_hhx_FixedConductance_Config, Form.ok, Form.keys, Form.chain]

theorem ok_hhx_GPU3_Config (c : hhx.GPU3.Config α) : (form_hhx_GPU3_Config c).ok := by
  simp [form_hhx_GPU3_Config, Form.ok, Form.keys, Form.chain]

theorem ok_hhx_Mod2_Correlation (c : hhx.Mod2.Correlation) : (form_hhx_Mod2_Correlation (α := α) c).ok := by cases c <;> trivial

theorem ok_hhx_Mod2_Tubes (c : hhx.Mod2.Tubes α) : (form_hhx_Mod2_Tubes c).ok := by
  simp [form_hhx_Mod2_Tubes, Form.ok, Form.keys, Form.chain, ok_Material]

theorem ok_hhx_Mod2_Shell (c : hhx.Mod2.Shell α) : (form_hhx_Mod2_Shell c).ok := by
  simp [form_hhx_Mod2_Shell, Form.ok, Form.keys, Form.chain]

theorem ok_hhx_Mod2_Fins (c : hhx.Mod2.Fins α) : (form_hhx_Mod2_Fins c).ok := by
  simp [form_hhx_Mod2_Fins, Form.ok, Form.keys, Form.chain]

theorem ok_hhx_Mod2_Geometry (c : hhx.Mod2.Geometry α) : (form_hhx_Mod2_Geometry c).ok := by
  simp [form_hhx_Mod2_Geometry, Form.ok, Form.keys, Form.chain, ok_hhx_Mod2_Fins, ok_hhx_Mod2_Shell, ok_hhx_Mod2_Tubes]

theorem ok_hhx_Mod2_Config (c : hhx.Mod2.Config α) : (form_hhx_Mod2_Config c).ok := by
  simp [form_hhx_Mod2_Config, Form.ok, Form.keys, Form.chain, ok_hhx_Mod2_Correlation, ok_hhx_Mod2_Geometry]

theorem ok_hhx_NuclearIsomerGPU3_Config (c : hhx.NuclearIsomerGPU3.Config α) : (form_hhx_NuclearIsomerGPU3_Config c).ok := by
  simp [form_hhx_NuclearIsomerGPU3_Config, Form.ok, Form.keys, Form.chain]

theorem ok_hhx_NuclearIsomerMod2_Config (c : hhx.NuclearIsomerMod2.Config α) : (form_hhx_NuclearIsomerMod2_Config c).ok := by
  simp [form_hhx_NuclearIsomerMod2_Config, Form.ok, Form.keys, Form.chain]

theorem ok_fluid_LegacyFluidOption (c : fluid.LegacyFluidOption) : (form_fluid_LegacyFluidOption (α := α) c).ok := by cases c <;> trivial

theorem ok_fluid_ModelConfig (c : fluid.ModelConfig) : (form_fluid_ModelConfig (α := α) c).ok := by cases c <;> trivial
theorem ok_fluid_Config (c : fluid.Config) : (form_fluid_Config (α := α) c).ok := by
  cases c <;> simp [form_fluid_Config, Form.ok, ok_fluid_ModelConfig]
theorem ok_fluid_LegacyConfig (c : fluid.LegacyConfig) : (form_fluid_LegacyConfig (α := α) c).ok := by
  cases c <;> simp [form_fluid_LegacyConfig, Form.ok, Form.keys, Form.chain, ok_fluid_LegacyFluidOption]

theorem ok_ws_Config (c : ws.Config α) : (form_ws_Config c).ok := by
  cases c <;>
    simp [form_ws_Config, Form.ok, ok_ws_SinusoidalDrive_Config, ok_ws_RhombicDrive_Config, ok_ws_GPU3_Config, ok_ws_Mod2_Config]

theorem ok_ws_LegacyConfig (c : ws.LegacyConfig α) : (form_ws_LegacyConfig c).ok := by
  cases c <;>
    simp [form_ws_LegacyConfig, Form.ok, ok_ws_SinusoidalDrive_Config, ok_ws_RhombicDrive_Config, ok_ws_GPU3_Config, ok_ws_Mod2_Config]

theorem ok_chx_Config (c : chx.Config α) : (form_chx_Config c).ok := by
  cases c <;>
    simp [form_chx_Config, Form.ok, ok_chx_FixedApproach_Config, ok_chx_FixedConductance_Config, ok_chx_GPU3_Config, ok_chx_Mod2_Config]

theorem ok_chx_LegacyConfig (c : chx.LegacyConfig α) : (form_chx_LegacyConfig c).ok := by
  cases c <;>
    simp [form_chx_LegacyConfig, Form.ok, ok_chx_FixedApproach_Config, ok_chx_FixedConductance_Config, ok_chx_GPU3_Config, ok_chx_Mod2_Config]

theorem ok_regen_Config (c : regen.Config α) : (form_regen_Config c).ok := by
  cases c <;>
    simp [form_regen_Config, Form.ok, ok_regen_FixedApproach_Config, ok_regen_FixedConductance_Config, ok_regen_GPU3_Config, ok_regen_Mod2_Config]

theorem ok_regen_LegacyConfig (c : regen.LegacyConfig α) : (form_regen_LegacyConfig c).ok := by
  cases c <;>
    simp [form_regen_LegacyConfig, Form.ok, ok_regen_FixedApproach_Config, ok_regen_FixedConductance_Config, ok_regen_GPU3_Config, ok_regen_Mod2_Config]

theorem ok_hhx_Config (c : hhx.Config α) : (form_hhx_Config c).ok := by
  cases c <;>
    simp [form_hhx_Config, Form.ok, ok_hhx_FixedApproach_Config, ok_hhx_FixedConductance_Config, ok_hhx_GPU3_Config, ok_hhx_Mod2_Config, ok_hhx_NuclearIsomerGPU3_Config, ok_hhx_NuclearIsomerMod2_Config]

theorem ok_hhx_LegacyConfig (c : hhx.LegacyConfig α) : (form_hhx_LegacyConfig c).ok := by
  cases c <;>
    simp [form_hhx_LegacyConfig, Form.ok, ok_hhx_FixedApproach_Config, ok_hhx_FixedConductance_Config, ok_hhx_GPU3_Config, ok_hhx_Mod2_Config, ok_hhx_NuclearIsomerGPU3_Config, ok_hhx_NuclearIsomerMod2_Config]

theorem ok_ComponentsConfig (c : ComponentsConfig α) : (form_ComponentsConfig c).ok := by
  simp [form_ComponentsConfig, Form.ok, Form.keys, Form.chain, ok_chx_Config, ok_hhx_Config, ok_regen_Config, ok_ws_Config]
theorem ok_EngineConfig (c : EngineConfig α) : (form_EngineConfig c).ok := by
  simp [form_EngineConfig, Form.ok, Form.keys, Form.chain, ok_ComponentsConfig, ok_fluid_Config]
theorem ok_Config (c : Config α) : (form_Config c).ok := by
  simp [form_Config, Form.ok, Form.keys, Form.chain, ok_EngineConfig, ok_SolverConfig, ok_ConditionsConfig]
theorem ok_Legacy (c : Legacy α) : (form_Legacy c).ok := by
  simp [form_Legacy, Form.ok, Form.keys, Form.chain, ok_fluid_LegacyConfig, ok_ws_LegacyConfig, ok_chx_LegacyConfig,
    ok_regen_LegacyConfig, ok_hhx_LegacyConfig, ok_LegacySolverConfig, ok_LegacyConditionsConfig]

end Sett
