import Verif.Spec.Document
import Mathlib.Data.List.Nodup

/-! # Every reader accepts exactly the documents of its form -/

namespace Sett

open Spec

variable {α V : Type}

theorem snake_custom : snakeTag "Custom" = "custom" := by rfl
theorem snake_fit : snakeTag "Fit" = "fit" := by rfl
theorem snake_ideal : snakeTag "IdealGas" = "ideal_gas" := by rfl
theorem snake_refprop : snakeTag "RefProp" = "ref_prop" := by rfl
theorem snake_h : snakeTag "Hydrogen" = "hydrogen" := by rfl
theorem snake_he : snakeTag "Helium" = "helium" := by rfl
theorem snake_sin : snakeTag "Sinusoidal" = "sinusoidal" := by rfl
theorem snake_rho : snakeTag "Rhombic" = "rhombic" := by rfl
theorem snake_gpu : snakeTag "GPU3" = "g_p_u3" := by rfl
theorem snake_mod : snakeTag "Mod2" = "mod2" := by rfl
theorem snake_fa : snakeTag "FixedApproach" = "fixed_approach" := by rfl
theorem snake_fc : snakeTag "FixedConductance" = "fixed_conductance" := by rfl
theorem snake_gpuni : snakeTag "GPU3NI" = "g_p_u3_n_i" := by rfl
theorem snake_modni : snakeTag "Mod2NI" = "mod2_n_i" := by rfl
theorem camel_0 : camelTag "Ode45" = "ode45" := by rfl
theorem camel_1 : camelKey "inner_loop_tolerance" = "innerLoopTolerance" := by rfl
theorem camel_2 : camelKey "outer_loop_tolerance" = "outerLoopTolerance" := by rfl
theorem camel_3 : camelKey "ode_tolerance" = "odeTolerance" := by rfl
theorem camel_4 : camelKey "ode_solver" = "odeSolver" := by rfl
theorem camel_5 : camelKey "time_resolution" = "timeResolution" := by rfl

/-- The entries under `k`. -/
abbrev at_ (es : List (String × Doc α)) (k : String) : List (String × Doc α) := es.filter fun e => e.1 = k

theorem any_iff (acc : List (String × Doc α)) (k : String) :
    (acc.any fun e => e.1 == k) = true ↔ at_ acc k ≠ [] := by
  simp [List.filter_eq_nil_iff]

theorem collect_at {fields : List String} {es acc l : List (String × Doc α)} (h : collect fields es acc = some l)
    {k : String} (hk : k ∈ fields) (hacc : (at_ acc k).length ≤ 1) :
    at_ l k = at_ acc k ++ at_ es k ∧ (at_ l k).length ≤ 1 := by
  induction es generalizing acc with
  | nil =>
    simp only [collect, Option.some.injEq] at h
    subst h
    simp [at_] at hacc ⊢
    exact hacc
  | cons e es ih =>
    obtain ⟨a, v⟩ := e
    simp only [collect] at h
    split at h
    · split at h
      · simp at h
      · rename_i h1 h2
        by_cases hak : a = k
        · subst hak
          have h0 : at_ acc a = [] := by
            by_contra hc
            exact h2 ((any_iff acc a).2 hc)
          obtain ⟨g1, g2⟩ := ih h (by rw [at_, List.filter_append, show List.filter _ acc = [] from h0]; simp)
          refine ⟨?_, g2⟩
          rw [g1]
          simp [at_]
        · obtain ⟨g1, g2⟩ := ih h (by simpa [at_, hak] using hacc)
          refine ⟨?_, g2⟩
          rw [g1]
          simp [at_, hak]
    · rename_i h1
      have hak : a ≠ k := fun hc => h1 (hc ▸ hk)
      obtain ⟨g1, g2⟩ := ih h hacc
      refine ⟨?_, g2⟩
      rw [g1]
      simp [at_, hak]

theorem exists_collect {fields : List String} {es acc : List (String × Doc α)}
    (h : ∀ k ∈ fields, (at_ acc k ++ at_ es k).length ≤ 1) : ∃ l, collect fields es acc = some l := by
  induction es generalizing acc with
  | nil => exact ⟨acc, rfl⟩
  | cons e es ih =>
    obtain ⟨a, v⟩ := e
    simp only [collect]
    split
    · rename_i ha
      have h0 := h a ha
      rw [if_neg]
      · refine ih fun k hk => ?_
        have := h k hk
        by_cases hak : a = k
        · subst hak
          simpa [at_] using this
        · simpa [at_, hak] using this
      · rw [any_iff]
        simp only [not_not]
        rw [← List.length_eq_zero_iff]
        simp only [at_, decide_true, List.filter_cons_of_pos, List.length_append, List.length_cons] at h0 ⊢
        omega
    · rename_i ha
      refine ih fun k hk => ?_
      have hak : a ≠ k := fun hc => ha (hc ▸ hk)
      simpa [at_, hak] using h k hk

theorem slots_table {fields : List String} {d : Doc α} {m : Slots α} (h : slots fields d = some m) :
    ∃ es, d = .table es := by
  cases d with
  | table es => exact ⟨es, rfl⟩
  | _ => simp [slots] at h

theorem find_at (l : List (String × Doc α)) (k : String) :
    (l.find? fun e => e.1 == k) = (at_ l k).head? := by
  rw [List.head?_filter]
  rfl

theorem req_has {β : Type} {fields : List String} {d : Doc α} {m : Slots α} (h : slots fields d = some m) {k : String}
    (hk : k ∈ fields) {r : Doc α → Option β} {x : β} (hr : m.req k r = some x) : Has d k fun v => r v = some x := by
  obtain ⟨es, rfl⟩ := slots_table h
  simp only [slots, Option.map_eq_some_iff] at h
  obtain ⟨l, hl, rfl⟩ := h
  obtain ⟨g1, g2⟩ := collect_at hl hk (by simp [at_])
  simp only [at_, List.filter_nil, List.nil_append] at g1
  simp only [Slots.req, find_at] at hr
  cases hc : at_ l k with
  | nil => simp [hc] at hr
  | cons e t =>
    rw [hc] at g2 hr
    have ht : t = [] := by simpa using g2
    subst ht
    simp only [List.head?_cons, Option.map_some, Option.bind_some] at hr
    have he : e.1 = k := by
      have : e ∈ at_ l k := by simp [hc]
      simpa [at_] using (List.mem_filter.1 this).2
    refine ⟨es, e.2, rfl, ?_, hr⟩
    rw [← g1]
    show at_ l k = _
    rw [hc, ← he]

theorem has_req {β : Type} {fields : List String} {d : Doc α} {m : Slots α} (h : slots fields d = some m) {k : String}
    (hk : k ∈ fields) {r : Doc α → Option β} {x : β} (hr : Has d k fun v => r v = some x) : m.req k r = some x := by
  obtain ⟨es, v, rfl, hv, hx⟩ := hr
  simp only [slots, Option.map_eq_some_iff] at h
  obtain ⟨l, hl, rfl⟩ := h
  obtain ⟨g1, g2⟩ := collect_at hl hk (by simp [at_])
  simp only [at_, List.filter_nil, List.nil_append] at g1
  simp [Slots.req, find_at, at_, g1, hv, hx]

theorem Spec.Has.mono {d : Doc α} {k : String} {p q : Doc α → Prop} (h : Has d k p) (hpq : ∀ v, p v → q v) :
    Has d k q := by
  obtain ⟨es, v, rfl, hv, hp⟩ := h
  exact ⟨es, v, rfl, hv, hpq v hp⟩

theorem Spec.Has.any {es : List (String × Doc α)} {k : String} {p : Doc α → Prop} (h : Has (.table es) k p) :
    (at_ es k).length ≤ 1 := by
  obtain ⟨es', v, he, hv, -⟩ := h
  cases he
  simp [at_, hv]

theorem slots_of {fields : List String} {es : List (String × Doc α)} (h : ∀ k ∈ fields, (at_ es k).length ≤ 1) :
    ∃ m, slots fields (.table es) = some m := by
  obtain ⟨l, hl⟩ := exists_collect (fields := fields) (es := es) (acc := []) (by simpa [at_] using h)
  exact ⟨⟨l⟩, by simp [slots, hl]⟩

theorem same_iff (s : Scalars α) (n t : String) : s.same n t = true ↔ SameName s n t := by
  unfold Scalars.same SameName
  split
  · rename_i h
    simp only [h, true_and, beq_iff_eq]
    exact ⟨Or.inr, fun hc => hc.elim (congrArg lower) id⟩
  · rename_i h
    simp [h]

/-- In a list of distinct names, the first that matches is the only one. -/
theorem find_name {W : Type} (s : Scalars α) {names : List (String × W)} (hd : (names.map fun p => lower p.1).Nodup)
    {n : String} {w : W} (hm : (n, w) ∈ names) {t : String} (h : s.same n t = true) :
    (names.find? fun p => s.same p.1 t) = some (n, w) := by
  induction names with
  | nil => simp at hm
  | cons p ps ih =>
    simp only [List.map_cons, List.nodup_cons] at hd
    rcases List.mem_cons.1 hm with rfl | hm
    · simp [h]
    · rw [List.find?_cons_of_neg]
      · exact ih hd.2 hm
      · intro hc
        apply hd.1
        have e1 : lower p.1 = lower t := by
          rcases (same_iff s _ _).1 hc with hc | hc
          · rw [hc]
          · exact hc.2
        have e2 : lower n = lower t := by
          rcases (same_iff s _ _).1 h with hc | hc
          · rw [hc]
          · exact hc.2
        rw [e1, ← e2]
        exact List.mem_map.2 ⟨_, hm, rfl⟩

theorem same_exact (n t : String) : (n == t) = (⟨false, fun _ => none, fun _ => none⟩ : Scalars α).same n t := by
  simp [Scalars.same]

/-- The same for exact comparison. -/
theorem find_exact {W : Type} {names : List (String × W)} (hd : (names.map fun p => lower p.1).Nodup)
    {n : String} {w : W} (hm : (n, w) ∈ names) : (names.find? fun p => p.1 == n) = some (n, w) := by
  have := find_name (α := ℕ) ⟨false, fun _ => none, fun _ => none⟩ hd hm (t := n) (by simp [Scalars.same])
  simpa [Scalars.same] using this

theorem unit_iff (s : Scalars α) (names : List (String × V)) (hd : (names.map fun p => lower p.1).Nodup)
    {n : String} {w : V} (hm : (n, w) ∈ names ∧ ∀ p ∈ names, p.2 = w → p.1 = n) (d : Doc α) :
    unitEnum s names d = some w ↔ ∃ u, d = .text u ∧ SameName s n u := by
  constructor
  · intro h
    cases d with
    | text t =>
      simp only [unitEnum, Option.map_eq_some_iff] at h
      obtain ⟨p, hp, hw⟩ := h
      have he := hm.2 p (List.mem_of_find?_eq_some hp) hw
      have hs := List.find?_some hp
      exact ⟨t, rfl, he ▸ (same_iff s _ _).1 hs⟩
    | _ => simp [unitEnum] at h
  · rintro ⟨u, rfl, h⟩
    simp [unitEnum, find_name s hd hm.1 ((same_iff s _ _).2 h)]

theorem internal_iff (names : List (String × V)) (hd : (names.map fun p => lower p.1).Nodup)
    {n : String} {w : V} (hm : (n, w) ∈ names ∧ ∀ p ∈ names, p.2 = w → p.1 = n) (d : Doc α) :
    internal names d = some w ↔ Has d "model" (· = .text n) := by
  constructor
  · intro h
    obtain ⟨m, hs, h⟩ := Option.bind_eq_some_iff.1 h
    refine (req_has hs (by simp) h).mono fun v hv => ?_
    cases v with
    | text t =>
      simp only [Option.map_eq_some_iff] at hv
      obtain ⟨p, hp, hw⟩ := hv
      rw [← hm.2 p (List.mem_of_find?_eq_some hp) hw]
      have := List.find?_some hp
      simp only [beq_iff_eq] at this
      rw [this]
    | _ => simp at hv
  · intro h
    obtain ⟨es, v, rfl, hv, rfl⟩ := h
    obtain ⟨m, hs⟩ := slots_of (fields := ["model"]) (es := es) (by simp [at_, hv])
    refine Option.bind_eq_some_iff.2 ⟨m, hs, has_req hs (by simp) ⟨es, .text n, rfl, hv, ?_⟩⟩
    simp [find_exact hd hm.1]

theorem map_some_iff {β : Type} {f : β → V} (hf : ∀ x y, f x = f y → x = y) {o : Option β} {x : β} :
    o.map f = some (f x) ↔ o = some x := by
  constructor
  · intro h
    obtain ⟨y, hy, h⟩ := Option.map_eq_some_iff.1 h
    rw [hy, hf y x h]
  · rintro rfl
    rfl

theorem map_ne {β : Type} {f : β → V} {w : V} (hf : ∀ x, f x ≠ w) {o : Option β} : o.map f ≠ some w := by
  intro h
  obtain ⟨y, -, h⟩ := Option.map_eq_some_iff.1 h
  exact hf y h

theorem external_iff (s : Scalars α) (names : List (String × (Doc α → Option V)))
    (hd : (names.map fun p => lower p.1).Nodup) {n : String} {r : Doc α → Option V} {w : V} {p : Doc α → Prop}
    (hm : (n, r) ∈ names) (hr : ∀ v, r v = some w ↔ p v)
    (hne : ∀ q ∈ names, q.1 ≠ n → ∀ v, q.2 v ≠ some w) (d : Doc α) :
    external s names d = some w ↔ ∃ k v, d = .table [(k, v)] ∧ SameName s n k ∧ p v := by
  constructor
  · intro h
    unfold external at h
    split at h
    · rename_i k v
      obtain ⟨q, hq, h⟩ := Option.bind_eq_some_iff.1 h
      have hqn := List.mem_of_find?_eq_some hq
      have hs := List.find?_some hq
      have hn : q.1 = n := by
        by_contra hc
        exact hne q hqn hc v h
      have hqe : q = (n, r) := by
        have h1 := find_name s hd (n := q.1) (w := q.2) hqn hs
        rw [find_name s hd hm (hn ▸ hs)] at h1
        exact (Option.some.inj h1).symm
      subst hqe
      exact ⟨k, v, rfl, (same_iff s _ _).1 hs, (hr v).1 h⟩
    · simp at h
  · rintro ⟨k, v, rfl, hs, hv⟩
    simp [external, find_name s hd hm ((same_iff s _ _).2 hs), (hr v).2 hv]

theorem pair_eq (es : List (String × Doc α)) : (es.filter fun e => e.1 == "model" || e.1 == "params") = pair es := by
  unfold pair
  congr 1
  funext e
  simp [beq_eq_decide]

theorem byTag_iff {names : List (String × Content α V)} (hd : (names.map fun p => lower p.1).Nodup) {n : String}
    {r : Content α V} {w : V} (hm : (n, r) ∈ names) (hne : ∀ q ∈ names, q.1 ≠ n → ∀ c, q.2 c ≠ some w)
    (v : Doc α) (c : Option (Scalars α × Doc α)) :
    byTag names v c = some w ↔ v = .text n ∧ r c = some w := by
  constructor
  · intro h
    unfold byTag at h
    split at h
    · rename_i t
      obtain ⟨q, hq, h⟩ := Option.bind_eq_some_iff.1 h
      have hqn := List.mem_of_find?_eq_some hq
      have hs := List.find?_some hq
      have hn : q.1 = n := by
        by_contra hc
        exact hne q hqn hc c h
      have ht : q.1 = t := by simpa using hs
      have hqe : q = (n, r) := by
        have h1 := find_exact hd (n := q.1) (w := q.2) hqn
        rw [hn, find_exact hd hm] at h1
        have := Option.some.inj h1
        obtain ⟨a, b⟩ := q
        simp only [Prod.mk.injEq, true_and] at this hn ⊢
        exact ⟨hn, this.symm⟩
      subst hqe
      exact ⟨by rw [← ht], h⟩
    · simp at h
  · rintro ⟨rfl, h⟩
    simp [byTag, find_exact hd hm, h]

theorem adjacent_cases (buf s : Scalars α) (names : List (String × Content α V)) (w : V) (d : Doc α) :
    adjacent buf s names d = some w ↔ ∃ es, d = .table es ∧
      ((∃ t, pair es = [("model", t)] ∧ byTag names t none = some w) ∨
       (∃ t v, pair es = [("model", t), ("params", v)] ∧ byTag names t (some (s, v)) = some w) ∨
       (∃ t v, pair es = [("params", v), ("model", t)] ∧ byTag names t (some (buf, v)) = some w)) := by
  constructor
  · intro h
    unfold adjacent at h
    split at h
    · rename_i es
      rw [pair_eq] at h
      refine ⟨es, rfl, ?_⟩
      split at h
      · rename_i k v hp
        split at h
        · rename_i hk
          simp only [beq_iff_eq] at hk
          subst hk
          exact Or.inl ⟨v, hp, h⟩
        · simp at h
      · rename_i k1 v1 k2 v2 hp
        split at h
        · rename_i hk
          simp only [Bool.and_eq_true, beq_iff_eq] at hk
          obtain ⟨rfl, rfl⟩ := hk
          exact Or.inr (Or.inl ⟨v1, v2, hp, h⟩)
        · split at h
          · rename_i hk
            simp only [Bool.and_eq_true, beq_iff_eq] at hk
            obtain ⟨rfl, rfl⟩ := hk
            exact Or.inr (Or.inr ⟨v2, v1, hp, h⟩)
          · simp at h
      · simp at h
    · simp at h
  · rintro ⟨es, rfl, ⟨t, hp, h⟩ | ⟨t, v, hp, h⟩ | ⟨t, v, hp, h⟩⟩ <;> simp only [adjacent, pair_eq, hp]
    · simpa using h
    · simpa using h
    · simpa using h

theorem adjacent_iff (buf s : Scalars α) (names : List (String × Content α V))
    (hd : (names.map fun p => lower p.1).Nodup) {t : String} {n : Content α V} {w : V} {p : Scalars α → Doc α → Prop}
    (hm : (t, n) ∈ names) (hr : ∀ s v, n (some (s, v)) = some w ↔ p s v) (hn : n none = none)
    (hne : ∀ q ∈ names, q.1 ≠ t → ∀ c, q.2 c ≠ some w) (d : Doc α) :
    adjacent buf s names d = some w ↔ ∃ es v, d = .table es ∧
      ((pair es = [("model", .text t), ("params", v)] ∧ p s v) ∨
       (pair es = [("params", v), ("model", .text t)] ∧ p buf v)) := by
  rw [adjacent_cases]
  simp only [byTag_iff hd hm hne]
  constructor
  · rintro ⟨es, rfl, ⟨u, hp, rfl, h⟩ | ⟨u, v, hp, rfl, h⟩ | ⟨u, v, hp, rfl, h⟩⟩
    · simp [hn] at h
    · exact ⟨es, v, rfl, Or.inl ⟨hp, (hr _ _).1 h⟩⟩
    · exact ⟨es, v, rfl, Or.inr ⟨hp, (hr _ _).1 h⟩⟩
  · rintro ⟨es, v, rfl, ⟨hp, h⟩ | ⟨hp, h⟩⟩
    · exact ⟨es, rfl, Or.inr (Or.inl ⟨_, v, hp, rfl, (hr _ _).2 h⟩)⟩
    · exact ⟨es, rfl, Or.inr (Or.inr ⟨_, v, hp, rfl, (hr _ _).2 h⟩)⟩

theorem alone_iff (buf s : Scalars α) (names : List (String × Content α V))
    (hd : (names.map fun p => lower p.1).Nodup) {t : String} {w : V} (hm : (t, unitContent w) ∈ names)
    (hne : ∀ q ∈ names, q.1 ≠ t → ∀ c, q.2 c ≠ some w) (d : Doc α) :
    adjacent buf s names d = some w ↔ ∃ es, d = .table es ∧ (pair es = [("model", .text t)] ∨
      pair es = [("model", .text t), ("params", .null)] ∨ pair es = [("params", .null), ("model", .text t)]) := by
  rw [adjacent_cases]
  simp only [byTag_iff hd hm hne]
  have hu : ∀ s v, unitContent (α := α) w (some (s, v)) = some w → v = .null := by
    intro s v h
    cases v <;> simp [unitContent] at h ⊢
  constructor
  · rintro ⟨es, rfl, ⟨u, hp, rfl, h⟩ | ⟨u, v, hp, rfl, h⟩ | ⟨u, v, hp, rfl, h⟩⟩
    · exact ⟨es, rfl, Or.inl hp⟩
    · cases hu _ _ h
      exact ⟨es, rfl, Or.inr (Or.inl hp)⟩
    · cases hu _ _ h
      exact ⟨es, rfl, Or.inr (Or.inr hp)⟩
  · rintro ⟨es, rfl, hp | hp | hp⟩
    · exact ⟨es, rfl, Or.inl ⟨_, hp, rfl, rfl⟩⟩
    · exact ⟨es, rfl, Or.inr (Or.inl ⟨_, _, hp, rfl, rfl⟩)⟩
    · exact ⟨es, rfl, Or.inr (Or.inr ⟨_, _, hp, rfl, rfl⟩)⟩

theorem content_ne {β : Type} {f : β → V} {r : Scalars α → Doc α → Option β} {w : V} (hf : ∀ x, f x ≠ w)
    (c : Option (Scalars α × Doc α)) : newtype f r c ≠ some w := by
  rcases c with _ | ⟨s, d⟩
  · simp [newtype]
  · exact map_ne hf

theorem unit_ne {v w : V} (h : v ≠ w) (c : Option (Scalars α × Doc α)) : unitContent v c ≠ some w := by
  intro hc
  unfold unitContent at hc
  split at hc <;> simp_all

/-- Names listed with readers are distinct. -/
macro "distinct" : tactic => `(tactic| (simp only [List.map_cons, List.map_nil]; decide))
/-- Membership in a list written out. -/
macro "listed" : tactic => `(tactic| (repeat (first | exact .head _ | apply List.Mem.tail)))

theorem read_Material (buf s : Scalars α) (d : Doc α) (c : Material) :
    Material.read s d = some c ↔ Fits buf s (form_Material c) d := by
  cases c <;> exact unit_iff s _ (by decide) (by simp) d

theorem read_ToleranceConfig (buf s : Scalars α) (d : Doc α) (c : ToleranceConfig α) :
    ToleranceConfig.read s d = some c ↔ Fits buf s (form_ToleranceConfig c) d := by
  constructor
  · intro h
    obtain ⟨m, hm, h⟩ := Option.bind_eq_some_iff.1 h
    obtain ⟨x0, h0, h⟩ := Option.bind_eq_some_iff.1 h
    obtain ⟨x1, h1, h⟩ := Option.bind_eq_some_iff.1 h
    cases h
    exact ⟨req_has hm (by simp) h0,
      req_has hm (by simp) h1,
      slots_table hm⟩
  · rintro ⟨h0, h1, ⟨es, rfl⟩⟩
    obtain ⟨m, hm⟩ := slots_of (fields := ["abs", "rel"]) (es := es) (by
      simp only [List.forall_mem_cons, List.not_mem_nil, false_imp_iff, implies_true, and_true]
      exact ⟨h0.any, h1.any⟩)
    have g0 := has_req hm (by simp) h0
    have g1 := has_req hm (by simp) h1
    refine Option.bind_eq_some_iff.2 ⟨m, hm, ?_⟩
    refine Option.bind_eq_some_iff.2 ⟨_, g0, ?_⟩
    refine Option.bind_eq_some_iff.2 ⟨_, g1, ?_⟩
    rfl

theorem read_InnerLoopConfig (buf s : Scalars α) (d : Doc α) (c : InnerLoopConfig α) :
    InnerLoopConfig.read s d = some c ↔ Fits buf s (form_InnerLoopConfig c) d := by
  constructor
  · intro h
    obtain ⟨m, hm, h⟩ := Option.bind_eq_some_iff.1 h
    obtain ⟨x0, h0, h⟩ := Option.bind_eq_some_iff.1 h
    obtain ⟨x1, h1, h⟩ := Option.bind_eq_some_iff.1 h
    cases h
    exact ⟨(req_has hm (by simp) h0).mono fun v => (read_ToleranceConfig buf s v _).1,
      req_has hm (by simp) h1,
      slots_table hm⟩
  · rintro ⟨h0, h1, ⟨es, rfl⟩⟩
    obtain ⟨m, hm⟩ := slots_of (fields := ["tolerance", "max_iterations"]) (es := es) (by
      simp only [List.forall_mem_cons, List.not_mem_nil, false_imp_iff, implies_true, and_true]
      exact ⟨h0.any, h1.any⟩)
    have g0 := has_req hm (by simp) (h0.mono fun v => (read_ToleranceConfig buf s v _).2)
    have g1 := has_req hm (by simp) h1
    refine Option.bind_eq_some_iff.2 ⟨m, hm, ?_⟩
    refine Option.bind_eq_some_iff.2 ⟨_, g0, ?_⟩
    refine Option.bind_eq_some_iff.2 ⟨_, g1, ?_⟩
    rfl

theorem read_OuterLoopConfig (buf s : Scalars α) (d : Doc α) (c : OuterLoopConfig α) :
    OuterLoopConfig.read s d = some c ↔ Fits buf s (form_OuterLoopConfig c) d := by
  constructor
  · intro h
    obtain ⟨m, hm, h⟩ := Option.bind_eq_some_iff.1 h
    obtain ⟨x0, h0, h⟩ := Option.bind_eq_some_iff.1 h
    obtain ⟨x1, h1, h⟩ := Option.bind_eq_some_iff.1 h
    cases h
    exact ⟨(req_has hm (by simp) h0).mono fun v => (read_ToleranceConfig buf s v _).1,
      req_has hm (by simp) h1,
      slots_table hm⟩
  · rintro ⟨h0, h1, ⟨es, rfl⟩⟩
    obtain ⟨m, hm⟩ := slots_of (fields := ["tolerance", "max_iterations"]) (es := es) (by
      simp only [List.forall_mem_cons, List.not_mem_nil, false_imp_iff, implies_true, and_true]
      exact ⟨h0.any, h1.any⟩)
    have g0 := has_req hm (by simp) (h0.mono fun v => (read_ToleranceConfig buf s v _).2)
    have g1 := has_req hm (by simp) h1
    refine Option.bind_eq_some_iff.2 ⟨m, hm, ?_⟩
    refine Option.bind_eq_some_iff.2 ⟨_, g0, ?_⟩
    refine Option.bind_eq_some_iff.2 ⟨_, g1, ?_⟩
    rfl

theorem read_OdeConfig (buf s : Scalars α) (d : Doc α) (c : OdeConfig α) :
    OdeConfig.read s d = some c ↔ Fits buf s (form_OdeConfig c) d := by
  constructor
  · intro h
    obtain ⟨m, hm, h⟩ := Option.bind_eq_some_iff.1 h
    obtain ⟨x0, h0, h⟩ := Option.bind_eq_some_iff.1 h
    obtain ⟨x1, h1, h⟩ := Option.bind_eq_some_iff.1 h
    cases h
    exact ⟨(req_has hm (by simp) h0).mono fun v => (read_ToleranceConfig buf s v _).1,
      req_has hm (by simp) h1,
      slots_table hm⟩
  · rintro ⟨h0, h1, ⟨es, rfl⟩⟩
    obtain ⟨m, hm⟩ := slots_of (fields := ["tolerance", "num_timesteps"]) (es := es) (by
      simp only [List.forall_mem_cons, List.not_mem_nil, false_imp_iff, implies_true, and_true]
      exact ⟨h0.any, h1.any⟩)
    have g0 := has_req hm (by simp) (h0.mono fun v => (read_ToleranceConfig buf s v _).2)
    have g1 := has_req hm (by simp) h1
    refine Option.bind_eq_some_iff.2 ⟨m, hm, ?_⟩
    refine Option.bind_eq_some_iff.2 ⟨_, g0, ?_⟩
    refine Option.bind_eq_some_iff.2 ⟨_, g1, ?_⟩
    rfl

theorem read_SolverConfig (buf s : Scalars α) (d : Doc α) (c : SolverConfig α) :
    SolverConfig.read s d = some c ↔ Fits buf s (form_SolverConfig c) d := by
  constructor
  · intro h
    obtain ⟨m, hm, h⟩ := Option.bind_eq_some_iff.1 h
    obtain ⟨x0, h0, h⟩ := Option.bind_eq_some_iff.1 h
    obtain ⟨x1, h1, h⟩ := Option.bind_eq_some_iff.1 h
    obtain ⟨x2, h2, h⟩ := Option.bind_eq_some_iff.1 h
    cases h
    exact ⟨(req_has hm (by simp) h0).mono fun v => (read_InnerLoopConfig buf s v _).1,
      (req_has hm (by simp) h1).mono fun v => (read_OuterLoopConfig buf s v _).1,
      (req_has hm (by simp) h2).mono fun v => (read_OdeConfig buf s v _).1,
      slots_table hm⟩
  · rintro ⟨h0, h1, h2, ⟨es, rfl⟩⟩
    obtain ⟨m, hm⟩ := slots_of (fields := ["inner_loop", "outer_loop", "ode"]) (es := es) (by
      simp only [List.forall_mem_cons, List.not_mem_nil, false_imp_iff, implies_true, and_true]
      exact ⟨h0.any, h1.any, h2.any⟩)
    have g0 := has_req hm (by simp) (h0.mono fun v => (read_InnerLoopConfig buf s v _).2)
    have g1 := has_req hm (by simp) (h1.mono fun v => (read_OuterLoopConfig buf s v _).2)
    have g2 := has_req hm (by simp) (h2.mono fun v => (read_OdeConfig buf s v _).2)
    refine Option.bind_eq_some_iff.2 ⟨m, hm, ?_⟩
    refine Option.bind_eq_some_iff.2 ⟨_, g0, ?_⟩
    refine Option.bind_eq_some_iff.2 ⟨_, g1, ?_⟩
    refine Option.bind_eq_some_iff.2 ⟨_, g2, ?_⟩
    rfl

theorem read_LegacyOdeSolver (buf s : Scalars α) (d : Doc α) (c : LegacyOdeSolver) :
    LegacyOdeSolver.read s d = some c ↔ Fits buf s (form_LegacyOdeSolver c) d := by
  unfold LegacyOdeSolver.read
  rw [camel_0]
  cases c
  exact unit_iff s _ (by decide) (by simp) d

theorem read_LegacySolverConfig (buf s : Scalars α) (d : Doc α) (c : LegacySolverConfig α) :
    LegacySolverConfig.read s d = some c ↔ Fits buf s (form_LegacySolverConfig c) d := by
  unfold LegacySolverConfig.read
  rw [camel_1, camel_2, camel_3, camel_4, camel_5]
  constructor
  · intro h
    obtain ⟨m, hm, h⟩ := Option.bind_eq_some_iff.1 h
    obtain ⟨x0, h0, h⟩ := Option.bind_eq_some_iff.1 h
    obtain ⟨x1, h1, h⟩ := Option.bind_eq_some_iff.1 h
    obtain ⟨x2, h2, h⟩ := Option.bind_eq_some_iff.1 h
    obtain ⟨x3, h3, h⟩ := Option.bind_eq_some_iff.1 h
    obtain ⟨x4, h4, h⟩ := Option.bind_eq_some_iff.1 h
    cases h
    exact ⟨(req_has hm (by simp) h0).mono fun v => (read_ToleranceConfig buf s v _).1,
      (req_has hm (by simp) h1).mono fun v => (read_ToleranceConfig buf s v _).1,
      (req_has hm (by simp) h2).mono fun v => (read_ToleranceConfig buf s v _).1,
      (req_has hm (by simp) h3).mono fun v => (read_LegacyOdeSolver buf s v _).1,
      req_has hm (by simp) h4,
      slots_table hm⟩
  · rintro ⟨h0, h1, h2, h3, h4, ⟨es, rfl⟩⟩
    obtain ⟨m, hm⟩ := slots_of (fields := ["innerLoopTolerance", "outerLoopTolerance", "odeTolerance", "odeSolver", "timeResolution"]) (es := es) (by
      simp only [List.forall_mem_cons, List.not_mem_nil, false_imp_iff, implies_true, and_true]
      exact ⟨h0.any, h1.any, h2.any, h3.any, h4.any⟩)
    have g0 := has_req hm (by simp) (h0.mono fun v => (read_ToleranceConfig buf s v _).2)
    have g1 := has_req hm (by simp) (h1.mono fun v => (read_ToleranceConfig buf s v _).2)
    have g2 := has_req hm (by simp) (h2.mono fun v => (read_ToleranceConfig buf s v _).2)
    have g3 := has_req hm (by simp) (h3.mono fun v => (read_LegacyOdeSolver buf s v _).2)
    have g4 := has_req hm (by simp) h4
    refine Option.bind_eq_some_iff.2 ⟨m, hm, ?_⟩
    refine Option.bind_eq_some_iff.2 ⟨_, g0, ?_⟩
    refine Option.bind_eq_some_iff.2 ⟨_, g1, ?_⟩
    refine Option.bind_eq_some_iff.2 ⟨_, g2, ?_⟩
    refine Option.bind_eq_some_iff.2 ⟨_, g3, ?_⟩
    refine Option.bind_eq_some_iff.2 ⟨_, g4, ?_⟩
    rfl

theorem read_ConditionsConfig (buf s : Scalars α) (d : Doc α) (c : ConditionsConfig α) :
    ConditionsConfig.read s d = some c ↔ Fits buf s (form_ConditionsConfig c) d := by
  constructor
  · intro h
    obtain ⟨m, hm, h⟩ := Option.bind_eq_some_iff.1 h
    obtain ⟨x0, h0, h⟩ := Option.bind_eq_some_iff.1 h
    obtain ⟨x1, h1, h⟩ := Option.bind_eq_some_iff.1 h
    obtain ⟨x2, h2, h⟩ := Option.bind_eq_some_iff.1 h
    cases h
    exact ⟨req_has hm (by simp) h0,
      req_has hm (by simp) h1,
      req_has hm (by simp) h2,
      slots_table hm⟩
  · rintro ⟨h0, h1, h2, ⟨es, rfl⟩⟩
    obtain ⟨m, hm⟩ := slots_of (fields := ["temp_sink", "temp_source", "pres_zero"]) (es := es) (by
      simp only [List.forall_mem_cons, List.not_mem_nil, false_imp_iff, implies_true, and_true]
      exact ⟨h0.any, h1.any, h2.any⟩)
    have g0 := has_req hm (by simp) h0
    have g1 := has_req hm (by simp) h1
    have g2 := has_req hm (by simp) h2
    refine Option.bind_eq_some_iff.2 ⟨m, hm, ?_⟩
    refine Option.bind_eq_some_iff.2 ⟨_, g0, ?_⟩
    refine Option.bind_eq_some_iff.2 ⟨_, g1, ?_⟩
    refine Option.bind_eq_some_iff.2 ⟨_, g2, ?_⟩
    rfl

theorem read_LegacyConditionsConfig (buf s : Scalars α) (d : Doc α) (c : LegacyConditionsConfig α) :
    LegacyConditionsConfig.read s d = some c ↔ Fits buf s (form_LegacyConditionsConfig c) d := by
  constructor
  · intro h
    obtain ⟨m, hm, h⟩ := Option.bind_eq_some_iff.1 h
    obtain ⟨x0, h0, h⟩ := Option.bind_eq_some_iff.1 h
    obtain ⟨x1, h1, h⟩ := Option.bind_eq_some_iff.1 h
    obtain ⟨x2, h2, h⟩ := Option.bind_eq_some_iff.1 h
    cases h
    exact ⟨req_has hm (by simp) h0,
      req_has hm (by simp) h1,
      req_has hm (by simp) h2,
      slots_table hm⟩
  · rintro ⟨h0, h1, h2, ⟨es, rfl⟩⟩
    obtain ⟨m, hm⟩ := slots_of (fields := ["T_cold", "T_hot", "P_0"]) (es := es) (by
      simp only [List.forall_mem_cons, List.not_mem_nil, false_imp_iff, implies_true, and_true]
      exact ⟨h0.any, h1.any, h2.any⟩)
    have g0 := has_req hm (by simp) h0
    have g1 := has_req hm (by simp) h1
    have g2 := has_req hm (by simp) h2
    refine Option.bind_eq_some_iff.2 ⟨m, hm, ?_⟩
    refine Option.bind_eq_some_iff.2 ⟨_, g0, ?_⟩
    refine Option.bind_eq_some_iff.2 ⟨_, g1, ?_⟩
    refine Option.bind_eq_some_iff.2 ⟨_, g2, ?_⟩
    rfl

theorem read_ws_SinusoidalDrive_Config (buf s : Scalars α) (d : Doc α) (c : ws.SinusoidalDrive.Config α) :
    ws.SinusoidalDrive.Config.read s d = some c ↔ Fits buf s (form_ws_SinusoidalDrive_Config c) d := by
  constructor
  · intro h
    obtain ⟨m, hm, h⟩ := Option.bind_eq_some_iff.1 h
    obtain ⟨x0, h0, h⟩ := Option.bind_eq_some_iff.1 h
    obtain ⟨x1, h1, h⟩ := Option.bind_eq_some_iff.1 h
    obtain ⟨x2, h2, h⟩ := Option.bind_eq_some_iff.1 h
    obtain ⟨x3, h3, h⟩ := Option.bind_eq_some_iff.1 h
    obtain ⟨x4, h4, h⟩ := Option.bind_eq_some_iff.1 h
    obtain ⟨x5, h5, h⟩ := Option.bind_eq_some_iff.1 h
    obtain ⟨x6, h6, h⟩ := Option.bind_eq_some_iff.1 h
    obtain ⟨x7, h7, h⟩ := Option.bind_eq_some_iff.1 h
    obtain ⟨x8, h8, h⟩ := Option.bind_eq_some_iff.1 h
    obtain ⟨x9, h9, h⟩ := Option.bind_eq_some_iff.1 h
    obtain ⟨x10, h10, h⟩ := Option.bind_eq_some_iff.1 h
    cases h
    exact ⟨req_has hm (by simp) h0,
      req_has hm (by simp) h1,
      req_has hm (by simp) h2,
      req_has hm (by simp) h3,
      req_has hm (by simp) h4,
      req_has hm (by simp) h5,
      req_has hm (by simp) h6,
      req_has hm (by simp) h7,
      req_has hm (by simp) h8,
      req_has hm (by simp) h9,
      req_has hm (by simp) h10,
      slots_table hm⟩
  · rintro ⟨h0, h1, h2, h3, h4, h5, h6, h7, h8, h9, h10, ⟨es, rfl⟩⟩
    obtain ⟨m, hm⟩ := slots_of (fields := ["frequency", "phase_angle", "V_swept_c", "V_clearance_c", "R_c", "W_parasitic_c", "V_swept_e", "V_clearance_e", "R_e", "W_parasitic_e", "Q_parasitic_e"]) (es := es) (by
      simp only [List.forall_mem_cons, List.not_mem_nil, false_imp_iff, implies_true, and_true]
      exact ⟨h0.any, h1.any, h2.any, h3.any, h4.any, h5.any, h6.any, h7.any, h8.any, h9.any, h10.any⟩)
    have g0 := has_req hm (by simp) h0
    have g1 := has_req hm (by simp) h1
    have g2 := has_req hm (by simp) h2
    have g3 := has_req hm (by simp) h3
    have g4 := has_req hm (by simp) h4
    have g5 := has_req hm (by simp) h5
    have g6 := has_req hm (by simp) h6
    have g7 := has_req hm (by simp) h7
    have g8 := has_req hm (by simp) h8
    have g9 := has_req hm (by simp) h9
    have g10 := has_req hm (by simp) h10
    refine Option.bind_eq_some_iff.2 ⟨m, hm, ?_⟩
    refine Option.bind_eq_some_iff.2 ⟨_, g0, ?_⟩
    refine Option.bind_eq_some_iff.2 ⟨_, g1, ?_⟩
    refine Option.bind_eq_some_iff.2 ⟨_, g2, ?_⟩
    refine Option.bind_eq_some_iff.2 ⟨_, g3, ?_⟩
    refine Option.bind_eq_some_iff.2 ⟨_, g4, ?_⟩
    refine Option.bind_eq_some_iff.2 ⟨_, g5, ?_⟩
    refine Option.bind_eq_some_iff.2 ⟨_, g6, ?_⟩
    refine Option.bind_eq_some_iff.2 ⟨_, g7, ?_⟩
    refine Option.bind_eq_some_iff.2 ⟨_, g8, ?_⟩
    refine Option.bind_eq_some_iff.2 ⟨_, g9, ?_⟩
    refine Option.bind_eq_some_iff.2 ⟨_, g10, ?_⟩
    rfl

theorem read_ws_RhombicDrive_Config (buf s : Scalars α) (d : Doc α) (c : ws.RhombicDrive.Config α) :
    ws.RhombicDrive.Config.read s d = some c ↔ Fits buf s (form_ws_RhombicDrive_Config c) d := by
  constructor
  · intro h
    obtain ⟨m, hm, h⟩ := Option.bind_eq_some_iff.1 h
    obtain ⟨x0, h0, h⟩ := Option.bind_eq_some_iff.1 h
    obtain ⟨x1, h1, h⟩ := Option.bind_eq_some_iff.1 h
    obtain ⟨x2, h2, h⟩ := Option.bind_eq_some_iff.1 h
    obtain ⟨x3, h3, h⟩ := Option.bind_eq_some_iff.1 h
    obtain ⟨x4, h4, h⟩ := Option.bind_eq_some_iff.1 h
    obtain ⟨x5, h5, h⟩ := Option.bind_eq_some_iff.1 h
    obtain ⟨x6, h6, h⟩ := Option.bind_eq_some_iff.1 h
    obtain ⟨x7, h7, h⟩ := Option.bind_eq_some_iff.1 h
    obtain ⟨x8, h8, h⟩ := Option.bind_eq_some_iff.1 h
    obtain ⟨x9, h9, h⟩ := Option.bind_eq_some_iff.1 h
    obtain ⟨x10, h10, h⟩ := Option.bind_eq_some_iff.1 h
    obtain ⟨x11, h11, h⟩ := Option.bind_eq_some_iff.1 h
    obtain ⟨x12, h12, h⟩ := Option.bind_eq_some_iff.1 h
    cases h
    exact ⟨req_has hm (by simp) h0,
      req_has hm (by simp) h1,
      req_has hm (by simp) h2,
      req_has hm (by simp) h3,
      req_has hm (by simp) h4,
      req_has hm (by simp) h5,
      req_has hm (by simp) h6,
      req_has hm (by simp) h7,
      req_has hm (by simp) h8,
      req_has hm (by simp) h9,
      req_has hm (by simp) h10,
      req_has hm (by simp) h11,
      req_has hm (by simp) h12,
      slots_table hm⟩
  · rintro ⟨h0, h1, h2, h3, h4, h5, h6, h7, h8, h9, h10, h11, h12, ⟨es, rfl⟩⟩
    obtain ⟨m, hm⟩ := slots_of (fields := ["frequency", "V_clearance_c", "R_c", "W_parasitic_c", "V_clearance_e", "R_e", "W_parasitic_e", "Q_parasitic_e", "r_crank", "L_conn", "eccentricity", "D_p", "D_d"]) (es := es) (by
      simp only [List.forall_mem_cons, List.not_mem_nil, false_imp_iff, implies_true, and_true]
      exact ⟨h0.any, h1.any, h2.any, h3.any, h4.any, h5.any, h6.any, h7.any, h8.any, h9.any, h10.any, h11.any, h12.any⟩)
    have g0 := has_req hm (by simp) h0
    have g1 := has_req hm (by simp) h1
    have g2 := has_req hm (by simp) h2
    have g3 := has_req hm (by simp) h3
    have g4 := has_req hm (by simp) h4
    have g5 := has_req hm (by simp) h5
    have g6 := has_req hm (by simp) h6
    have g7 := has_req hm (by simp) h7
    have g8 := has_req hm (by simp) h8
    have g9 := has_req hm (by simp) h9
    have g10 := has_req hm (by simp) h10
    have g11 := has_req hm (by simp) h11
    have g12 := has_req hm (by simp) h12
    refine Option.bind_eq_some_iff.2 ⟨m, hm, ?_⟩
    refine Option.bind_eq_some_iff.2 ⟨_, g0, ?_⟩
    refine Option.bind_eq_some_iff.2 ⟨_, g1, ?_⟩
    refine Option.bind_eq_some_iff.2 ⟨_, g2, ?_⟩
    refine Option.bind_eq_some_iff.2 ⟨_, g3, ?_⟩
    refine Option.bind_eq_some_iff.2 ⟨_, g4, ?_⟩
    refine Option.bind_eq_some_iff.2 ⟨_, g5, ?_⟩
    refine Option.bind_eq_some_iff.2 ⟨_, g6, ?_⟩
    refine Option.bind_eq_some_iff.2 ⟨_, g7, ?_⟩
    refine Option.bind_eq_some_iff.2 ⟨_, g8, ?_⟩
    refine Option.bind_eq_some_iff.2 ⟨_, g9, ?_⟩
    refine Option.bind_eq_some_iff.2 ⟨_, g10, ?_⟩
    refine Option.bind_eq_some_iff.2 ⟨_, g11, ?_⟩
    refine Option.bind_eq_some_iff.2 ⟨_, g12, ?_⟩
    rfl

theorem read_ws_GPU3_Config (buf s : Scalars α) (d : Doc α) (c : ws.GPU3.Config α) :
    ws.GPU3.Config.read s d = some c ↔ Fits buf s (form_ws_GPU3_Config c) d := by
  constructor
  · intro h
    obtain ⟨m, hm, h⟩ := Option.bind_eq_some_iff.1 h
    obtain ⟨x0, h0, h⟩ := Option.bind_eq_some_iff.1 h
    obtain ⟨x1, h1, h⟩ := Option.bind_eq_some_iff.1 h
    obtain ⟨x2, h2, h⟩ := Option.bind_eq_some_iff.1 h
    obtain ⟨x3, h3, h⟩ := Option.bind_eq_some_iff.1 h
    obtain ⟨x4, h4, h⟩ := Option.bind_eq_some_iff.1 h
    obtain ⟨x5, h5, h⟩ := Option.bind_eq_some_iff.1 h
    obtain ⟨x6, h6, h⟩ := Option.bind_eq_some_iff.1 h
    obtain ⟨x7, h7, h⟩ := Option.bind_eq_some_iff.1 h
    obtain ⟨x8, h8, h⟩ := Option.bind_eq_some_iff.1 h
    obtain ⟨x9, h9, h⟩ := Option.bind_eq_some_iff.1 h
    obtain ⟨x10, h10, h⟩ := Option.bind_eq_some_iff.1 h
    obtain ⟨x11, h11, h⟩ := Option.bind_eq_some_iff.1 h
    cases h
    exact ⟨req_has hm (by simp) h0,
      req_has hm (by simp) h1,
      req_has hm (by simp) h2,
      req_has hm (by simp) h3,
      req_has hm (by simp) h4,
      req_has hm (by simp) h5,
      req_has hm (by simp) h6,
      req_has hm (by simp) h7,
      req_has hm (by simp) h8,
      req_has hm (by simp) h9,
      req_has hm (by simp) h10,
      req_has hm (by simp) h11,
      slots_table hm⟩
  · rintro ⟨h0, h1, h2, h3, h4, h5, h6, h7, h8, h9, h10, h11, ⟨es, rfl⟩⟩
    obtain ⟨m, hm⟩ := slots_of (fields := ["frequency", "V_clearance_c", "R_c", "V_clearance_e", "R_e", "r_crank", "L_conn", "eccentricity", "D", "D_dr", "L", "h"]) (es := es) (by
      simp only [List.forall_mem_cons, List.not_mem_nil, false_imp_iff, implies_true, and_true]
      exact ⟨h0.any, h1.any, h2.any, h3.any, h4.any, h5.any, h6.any, h7.any, h8.any, h9.any, h10.any, h11.any⟩)
    have g0 := has_req hm (by simp) h0
    have g1 := has_req hm (by simp) h1
    have g2 := has_req hm (by simp) h2
    have g3 := has_req hm (by simp) h3
    have g4 := has_req hm (by simp) h4
    have g5 := has_req hm (by simp) h5
    have g6 := has_req hm (by simp) h6
    have g7 := has_req hm (by simp) h7
    have g8 := has_req hm (by simp) h8
    have g9 := has_req hm (by simp) h9
    have g10 := has_req hm (by simp) h10
    have g11 := has_req hm (by simp) h11
    refine Option.bind_eq_some_iff.2 ⟨m, hm, ?_⟩
    refine Option.bind_eq_some_iff.2 ⟨_, g0, ?_⟩
    refine Option.bind_eq_some_iff.2 ⟨_, g1, ?_⟩
    refine Option.bind_eq_some_iff.2 ⟨_, g2, ?_⟩
    refine Option.bind_eq_some_iff.2 ⟨_, g3, ?_⟩
    refine Option.bind_eq_some_iff.2 ⟨_, g4, ?_⟩
    refine Option.bind_eq_some_iff.2 ⟨_, g5, ?_⟩
    refine Option.bind_eq_some_iff.2 ⟨_, g6, ?_⟩
    refine Option.bind_eq_some_iff.2 ⟨_, g7, ?_⟩
    refine Option.bind_eq_some_iff.2 ⟨_, g8, ?_⟩
    refine Option.bind_eq_some_iff.2 ⟨_, g9, ?_⟩
    refine Option.bind_eq_some_iff.2 ⟨_, g10, ?_⟩
    refine Option.bind_eq_some_iff.2 ⟨_, g11, ?_⟩
    rfl

theorem read_ws_Mod2_Config (buf s : Scalars α) (d : Doc α) (c : ws.Mod2.Config α) :
    ws.Mod2.Config.read s d = some c ↔ Fits buf s (form_ws_Mod2_Config c) d := by
  constructor
  · intro h
    obtain ⟨m, hm, h⟩ := Option.bind_eq_some_iff.1 h
    obtain ⟨x0, h0, h⟩ := Option.bind_eq_some_iff.1 h
    obtain ⟨x1, h1, h⟩ := Option.bind_eq_some_iff.1 h
    obtain ⟨x2, h2, h⟩ := Option.bind_eq_some_iff.1 h
    obtain ⟨x3, h3, h⟩ := Option.bind_eq_some_iff.1 h
    obtain ⟨x4, h4, h⟩ := Option.bind_eq_some_iff.1 h
    obtain ⟨x5, h5, h⟩ := Option.bind_eq_some_iff.1 h
    obtain ⟨x6, h6, h⟩ := Option.bind_eq_some_iff.1 h
    obtain ⟨x7, h7, h⟩ := Option.bind_eq_some_iff.1 h
    obtain ⟨x8, h8, h⟩ := Option.bind_eq_some_iff.1 h
    obtain ⟨x9, h9, h⟩ := Option.bind_eq_some_iff.1 h
    obtain ⟨x10, h10, h⟩ := Option.bind_eq_some_iff.1 h
    obtain ⟨x11, h11, h⟩ := Option.bind_eq_some_iff.1 h
    obtain ⟨x12, h12, h⟩ := Option.bind_eq_some_iff.1 h
    obtain ⟨x13, h13, h⟩ := Option.bind_eq_some_iff.1 h
    obtain ⟨x14, h14, h⟩ := Option.bind_eq_some_iff.1 h
    obtain ⟨x15, h15, h⟩ := Option.bind_eq_some_iff.1 h
    cases h
    exact ⟨req_has hm (by simp) h0,
      req_has hm (by simp) h1,
      req_has hm (by simp) h2,
      req_has hm (by simp) h3,
      req_has hm (by simp) h4,
      req_has hm (by simp) h5,
      req_has hm (by simp) h6,
      req_has hm (by simp) h7,
      req_has hm (by simp) h8,
      req_has hm (by simp) h9,
      (req_has hm (by simp) h10).mono fun v => (read_Material buf s v _).1,
      (req_has hm (by simp) h11).mono fun v => (read_Material buf s v _).1,
      req_has hm (by simp) h12,
      req_has hm (by simp) h13,
      req_has hm (by simp) h14,
      req_has hm (by simp) h15,
      slots_table hm⟩
  · rintro ⟨h0, h1, h2, h3, h4, h5, h6, h7, h8, h9, h10, h11, h12, h13, h14, h15, ⟨es, rfl⟩⟩
    obtain ⟨m, hm⟩ := slots_of (fields := ["frequency", "phaseAngle", "D", "h", "L", "stroke", "V_clearance_c", "R_c", "V_clearance_e", "R_e", "material_p", "material_c", "th_pw", "th_cw", "L_cond", "e"]) (es := es) (by
      simp only [List.forall_mem_cons, List.not_mem_nil, false_imp_iff, implies_true, and_true]
      exact ⟨h0.any, h1.any, h2.any, h3.any, h4.any, h5.any, h6.any, h7.any, h8.any, h9.any, h10.any, h11.any, h12.any, h13.any, h14.any, h15.any⟩)
    have g0 := has_req hm (by simp) h0
    have g1 := has_req hm (by simp) h1
    have g2 := has_req hm (by simp) h2
    have g3 := has_req hm (by simp) h3
    have g4 := has_req hm (by simp) h4
    have g5 := has_req hm (by simp) h5
    have g6 := has_req hm (by simp) h6
    have g7 := has_req hm (by simp) h7
    have g8 := has_req hm (by simp) h8
    have g9 := has_req hm (by simp) h9
    have g10 := has_req hm (by simp) (h10.mono fun v => (read_Material buf s v _).2)
    have g11 := has_req hm (by simp) (h11.mono fun v => (read_Material buf s v _).2)
    have g12 := has_req hm (by simp) h12
    have g13 := has_req hm (by simp) h13
    have g14 := has_req hm (by simp) h14
    have g15 := has_req hm (by simp) h15
    refine Option.bind_eq_some_iff.2 ⟨m, hm, ?_⟩
    refine Option.bind_eq_some_iff.2 ⟨_, g0, ?_⟩
    refine Option.bind_eq_some_iff.2 ⟨_, g1, ?_⟩
    refine Option.bind_eq_some_iff.2 ⟨_, g2, ?_⟩
    refine Option.bind_eq_some_iff.2 ⟨_, g3, ?_⟩
    refine Option.bind_eq_some_iff.2 ⟨_, g4, ?_⟩
    refine Option.bind_eq_some_iff.2 ⟨_, g5, ?_⟩
    refine Option.bind_eq_some_iff.2 ⟨_, g6, ?_⟩
    refine Option.bind_eq_some_iff.2 ⟨_, g7, ?_⟩
    refine Option.bind_eq_some_iff.2 ⟨_, g8, ?_⟩
    refine Option.bind_eq_some_iff.2 ⟨_, g9, ?_⟩
    refine Option.bind_eq_some_iff.2 ⟨_, g10, ?_⟩
    refine Option.bind_eq_some_iff.2 ⟨_, g11, ?_⟩
    refine Option.bind_eq_some_iff.2 ⟨_, g12, ?_⟩
    refine Option.bind_eq_some_iff.2 ⟨_, g13, ?_⟩
    refine Option.bind_eq_some_iff.2 ⟨_, g14, ?_⟩
    refine Option.bind_eq_some_iff.2 ⟨_, g15, ?_⟩
    rfl

theorem read_chx_FixedApproach_Config (buf s : Scalars α) (d : Doc α) (c : chx.FixedApproach.Config α) :
    chx.FixedApproach.Config.read s d = some c ↔ Fits buf s (form_chx_FixedApproach_Config c) d := by
  constructor
  · intro h
    obtain ⟨m, hm, h⟩ := Option.bind_eq_some_iff.1 h
    obtain ⟨x0, h0, h⟩ := Option.bind_eq_some_iff.1 h
    obtain ⟨x1, h1, h⟩ := Option.bind_eq_some_iff.1 h
    obtain ⟨x2, h2, h⟩ := Option.bind_eq_some_iff.1 h
    obtain ⟨x3, h3, h⟩ := Option.bind_eq_some_iff.1 h
    cases h
    exact ⟨req_has hm (by simp) h0,
      req_has hm (by simp) h1,
      req_has hm (by simp) h2,
      req_has hm (by simp) h3,
      slots_table hm⟩
  · rintro ⟨h0, h1, h2, h3, ⟨es, rfl⟩⟩
    obtain ⟨m, hm⟩ := slots_of (fields := ["vol", "DT", "R_hyd", "W_parasitic"]) (es := es) (by
      simp only [List.forall_mem_cons, List.not_mem_nil, false_imp_iff, implies_true, and_true]
      exact ⟨h0.any, h1.any, h2.any, h3.any⟩)
    have g0 := has_req hm (by simp) h0
    have g1 := has_req hm (by simp) h1
    have g2 := has_req hm (by simp) h2
    have g3 := has_req hm (by simp) h3
    refine Option.bind_eq_some_iff.2 ⟨m, hm, ?_⟩
    refine Option.bind_eq_some_iff.2 ⟨_, g0, ?_⟩
    refine Option.bind_eq_some_iff.2 ⟨_, g1, ?_⟩
    refine Option.bind_eq_some_iff.2 ⟨_, g2, ?_⟩
    refine Option.bind_eq_some_iff.2 ⟨_, g3, ?_⟩
    rfl

theorem read_chx_FixedConductance_Config (buf s : Scalars α) (d : Doc α) (c : chx.FixedConductance.Config α) :
    chx.FixedConductance.Config.read s d = some c ↔ Fits buf s (form_chx_FixedConductance_Config c) d := by
  constructor
  · intro h
    obtain ⟨m, hm, h⟩ := Option.bind_eq_some_iff.1 h
    obtain ⟨x0, h0, h⟩ := Option.bind_eq_some_iff.1 h
    obtain ⟨x1, h1, h⟩ := Option.bind_eq_some_iff.1 h
    obtain ⟨x2, h2, h⟩ := Option.bind_eq_some_iff.1 h
    obtain ⟨x3, h3, h⟩ := Option.bind_eq_some_iff.1 h
    cases h
    exact ⟨req_has hm (by simp) h0,
      req_has hm (by simp) h1,
      req_has hm (by simp) h2,
      req_has hm (by simp) h3,
      slots_table hm⟩
  · rintro ⟨h0, h1, h2, h3, ⟨es, rfl⟩⟩
    obtain ⟨m, hm⟩ := slots_of (fields := ["vol", "UA", "R_hyd", "W_parasitic"]) (es := es) (by
      simp only [List.forall_mem_cons, List.not_mem_nil, false_imp_iff, implies_true, and_true]
      exact ⟨h0.any, h1.any, h2.any, h3.any⟩)
    have g0 := has_req hm (by simp) h0
    have g1 := has_req hm (by simp) h1
    have g2 := has_req hm (by simp) h2
    have g3 := has_req hm (by simp) h3
    refine Option.bind_eq_some_iff.2 ⟨m, hm, ?_⟩
    refine Option.bind_eq_some_iff.2 ⟨_, g0, ?_⟩
    refine Option.bind_eq_some_iff.2 ⟨_, g1, ?_⟩
    refine Option.bind_eq_some_iff.2 ⟨_, g2, ?_⟩
    refine Option.bind_eq_some_iff.2 ⟨_, g3, ?_⟩
    rfl

theorem read_chx_GPU3_Coolant (buf s : Scalars α) (d : Doc α) (c : chx.GPU3.Coolant) :
    chx.GPU3.Coolant.read s d = some c ↔ Fits buf s (form_chx_GPU3_Coolant c) d := by
  cases c
  exact unit_iff s _ (by decide) (by simp) d

theorem read_chx_GPU3_Config (buf s : Scalars α) (d : Doc α) (c : chx.GPU3.Config α) :
    chx.GPU3.Config.read s d = some c ↔ Fits buf s (form_chx_GPU3_Config c) d := by
  constructor
  · intro h
    obtain ⟨m, hm, h⟩ := Option.bind_eq_some_iff.1 h
    obtain ⟨x0, h0, h⟩ := Option.bind_eq_some_iff.1 h
    obtain ⟨x1, h1, h⟩ := Option.bind_eq_some_iff.1 h
    obtain ⟨x2, h2, h⟩ := Option.bind_eq_some_iff.1 h
    obtain ⟨x3, h3, h⟩ := Option.bind_eq_some_iff.1 h
    obtain ⟨x4, h4, h⟩ := Option.bind_eq_some_iff.1 h
    obtain ⟨x5, h5, h⟩ := Option.bind_eq_some_iff.1 h
    obtain ⟨x6, h6, h⟩ := Option.bind_eq_some_iff.1 h
    obtain ⟨x7, h7, h⟩ := Option.bind_eq_some_iff.1 h
    obtain ⟨x8, h8, h⟩ := Option.bind_eq_some_iff.1 h
    obtain ⟨x9, h9, h⟩ := Option.bind_eq_some_iff.1 h
    obtain ⟨x10, h10, h⟩ := Option.bind_eq_some_iff.1 h
    obtain ⟨x11, h11, h⟩ := Option.bind_eq_some_iff.1 h
    obtain ⟨x12, h12, h⟩ := Option.bind_eq_some_iff.1 h
    obtain ⟨x13, h13, h⟩ := Option.bind_eq_some_iff.1 h
    obtain ⟨x14, h14, h⟩ := Option.bind_eq_some_iff.1 h
    cases h
    exact ⟨req_has hm (by simp) h0,
      req_has hm (by simp) h1,
      req_has hm (by simp) h2,
      req_has hm (by simp) h3,
      req_has hm (by simp) h4,
      req_has hm (by simp) h5,
      req_has hm (by simp) h6,
      req_has hm (by simp) h7,
      req_has hm (by simp) h8,
      req_has hm (by simp) h9,
      req_has hm (by simp) h10,
      (req_has hm (by simp) h11).mono fun v => (read_chx_GPU3_Coolant buf s v _).1,
      req_has hm (by simp) h12,
      req_has hm (by simp) h13,
      req_has hm (by simp) h14,
      slots_table hm⟩
  · rintro ⟨h0, h1, h2, h3, h4, h5, h6, h7, h8, h9, h10, h11, h12, h13, h14, ⟨es, rfl⟩⟩
    obtain ⟨m, hm⟩ := slots_of (fields := ["length_total", "length_ht", "D_inner", "D_outer", "N_total", "N_shell", "D_sh", "Ac_d", "roughness", "vol_h", "m_dot_w", "coolant", "m_dot_a", "UA_a", "W_parasitic"]) (es := es) (by
      simp only [List.forall_mem_cons, List.not_mem_nil, false_imp_iff, implies_true, and_true]
      exact ⟨h0.any, h1.any, h2.any, h3.any, h4.any, h5.any, h6.any, h7.any, h8.any, h9.any, h10.any, h11.any, h12.any, h13.any, h14.any⟩)
    have g0 := has_req hm (by simp) h0
    have g1 := has_req hm (by simp) h1
    have g2 := has_req hm (by simp) h2
    have g3 := has_req hm (by simp) h3
    have g4 := has_req hm (by simp) h4
    have g5 := has_req hm (by simp) h5
    have g6 := has_req hm (by simp) h6
    have g7 := has_req hm (by simp) h7
    have g8 := has_req hm (by simp) h8
    have g9 := has_req hm (by simp) h9
    have g10 := has_req hm (by simp) h10
    have g11 := has_req hm (by simp) (h11.mono fun v => (read_chx_GPU3_Coolant buf s v _).2)
    have g12 := has_req hm (by simp) h12
    have g13 := has_req hm (by simp) h13
    have g14 := has_req hm (by simp) h14
    refine Option.bind_eq_some_iff.2 ⟨m, hm, ?_⟩
    refine Option.bind_eq_some_iff.2 ⟨_, g0, ?_⟩
    refine Option.bind_eq_some_iff.2 ⟨_, g1, ?_⟩
    refine Option.bind_eq_some_iff.2 ⟨_, g2, ?_⟩
    refine Option.bind_eq_some_iff.2 ⟨_, g3, ?_⟩
    refine Option.bind_eq_some_iff.2 ⟨_, g4, ?_⟩
    refine Option.bind_eq_some_iff.2 ⟨_, g5, ?_⟩
    refine Option.bind_eq_some_iff.2 ⟨_, g6, ?_⟩
    refine Option.bind_eq_some_iff.2 ⟨_, g7, ?_⟩
    refine Option.bind_eq_some_iff.2 ⟨_, g8, ?_⟩
    refine Option.bind_eq_some_iff.2 ⟨_, g9, ?_⟩
    refine Option.bind_eq_some_iff.2 ⟨_, g10, ?_⟩
    refine Option.bind_eq_some_iff.2 ⟨_, g11, ?_⟩
    refine Option.bind_eq_some_iff.2 ⟨_, g12, ?_⟩
    refine Option.bind_eq_some_iff.2 ⟨_, g13, ?_⟩
    refine Option.bind_eq_some_iff.2 ⟨_, g14, ?_⟩
    rfl

theorem read_chx_Mod2_Fluid (buf s : Scalars α) (d : Doc α) (c : chx.Mod2.Fluid) :
    chx.Mod2.Fluid.read s d = some c ↔ Fits buf s (form_chx_Mod2_Fluid c) d := by
  cases c
  exact unit_iff s _ (by decide) (by simp) d

theorem read_chx_Mod2_Correlation (buf s : Scalars α) (d : Doc α) (c : chx.Mod2.Correlation) :
    chx.Mod2.Correlation.read s d = some c ↔ Fits buf s (form_chx_Mod2_Correlation c) d := by
  cases c <;> exact unit_iff s _ (by decide) (by simp) d

theorem read_chx_Mod2_Tubes (buf s : Scalars α) (d : Doc α) (c : chx.Mod2.Tubes α) :
    chx.Mod2.Tubes.read s d = some c ↔ Fits buf s (form_chx_Mod2_Tubes c) d := by
  constructor
  · intro h
    obtain ⟨m, hm, h⟩ := Option.bind_eq_some_iff.1 h
    obtain ⟨x0, h0, h⟩ := Option.bind_eq_some_iff.1 h
    obtain ⟨x1, h1, h⟩ := Option.bind_eq_some_iff.1 h
    obtain ⟨x2, h2, h⟩ := Option.bind_eq_some_iff.1 h
    obtain ⟨x3, h3, h⟩ := Option.bind_eq_some_iff.1 h
    obtain ⟨x4, h4, h⟩ := Option.bind_eq_some_iff.1 h
    obtain ⟨x5, h5, h⟩ := Option.bind_eq_some_iff.1 h
    obtain ⟨x6, h6, h⟩ := Option.bind_eq_some_iff.1 h
    cases h
    exact ⟨req_has hm (by simp) h0,
      req_has hm (by simp) h1,
      req_has hm (by simp) h2,
      req_has hm (by simp) h3,
      req_has hm (by simp) h4,
      req_has hm (by simp) h5,
      (req_has hm (by simp) h6).mono fun v => (read_Material buf s v _).1,
      slots_table hm⟩
  · rintro ⟨h0, h1, h2, h3, h4, h5, h6, ⟨es, rfl⟩⟩
    obtain ⟨m, hm⟩ := slots_of (fields := ["length", "length_ht", "D_outer", "D_inner", "N_total", "roughness", "material"]) (es := es) (by
      simp only [List.forall_mem_cons, List.not_mem_nil, false_imp_iff, implies_true, and_true]
      exact ⟨h0.any, h1.any, h2.any, h3.any, h4.any, h5.any, h6.any⟩)
    have g0 := has_req hm (by simp) h0
    have g1 := has_req hm (by simp) h1
    have g2 := has_req hm (by simp) h2
    have g3 := has_req hm (by simp) h3
    have g4 := has_req hm (by simp) h4
    have g5 := has_req hm (by simp) h5
    have g6 := has_req hm (by simp) (h6.mono fun v => (read_Material buf s v _).2)
    refine Option.bind_eq_some_iff.2 ⟨m, hm, ?_⟩
    refine Option.bind_eq_some_iff.2 ⟨_, g0, ?_⟩
    refine Option.bind_eq_some_iff.2 ⟨_, g1, ?_⟩
    refine Option.bind_eq_some_iff.2 ⟨_, g2, ?_⟩
    refine Option.bind_eq_some_iff.2 ⟨_, g3, ?_⟩
    refine Option.bind_eq_some_iff.2 ⟨_, g4, ?_⟩
    refine Option.bind_eq_some_iff.2 ⟨_, g5, ?_⟩
    refine Option.bind_eq_some_iff.2 ⟨_, g6, ?_⟩
    rfl

theorem read_chx_Mod2_Shell (buf s : Scalars α) (d : Doc α) (c : chx.Mod2.Shell α) :
    chx.Mod2.Shell.read s d = some c ↔ Fits buf s (form_chx_Mod2_Shell c) d := by
  constructor
  · intro h
    obtain ⟨m, hm, h⟩ := Option.bind_eq_some_iff.1 h
    obtain ⟨x0, h0, h⟩ := Option.bind_eq_some_iff.1 h
    obtain ⟨x1, h1, h⟩ := Option.bind_eq_some_iff.1 h
    obtain ⟨x2, h2, h⟩ := Option.bind_eq_some_iff.1 h
    cases h
    exact ⟨req_has hm (by simp) h0,
      req_has hm (by simp) h1,
      req_has hm (by simp) h2,
      slots_table hm⟩
  · rintro ⟨h0, h1, h2, ⟨es, rfl⟩⟩
    obtain ⟨m, hm⟩ := slots_of (fields := ["R_inner", "V_header", "Ac_header"]) (es := es) (by
      simp only [List.forall_mem_cons, List.not_mem_nil, false_imp_iff, implies_true, and_true]
      exact ⟨h0.any, h1.any, h2.any⟩)
    have g0 := has_req hm (by simp) h0
    have g1 := has_req hm (by simp) h1
    have g2 := has_req hm (by simp) h2
    refine Option.bind_eq_some_iff.2 ⟨m, hm, ?_⟩
    refine Option.bind_eq_some_iff.2 ⟨_, g0, ?_⟩
    refine Option.bind_eq_some_iff.2 ⟨_, g1, ?_⟩
    refine Option.bind_eq_some_iff.2 ⟨_, g2, ?_⟩
    rfl

theorem read_chx_Mod2_Geometry (buf s : Scalars α) (d : Doc α) (c : chx.Mod2.Geometry α) :
    chx.Mod2.Geometry.read s d = some c ↔ Fits buf s (form_chx_Mod2_Geometry c) d := by
  constructor
  · intro h
    obtain ⟨m, hm, h⟩ := Option.bind_eq_some_iff.1 h
    obtain ⟨x0, h0, h⟩ := Option.bind_eq_some_iff.1 h
    obtain ⟨x1, h1, h⟩ := Option.bind_eq_some_iff.1 h
    cases h
    exact ⟨(req_has hm (by simp) h0).mono fun v => (read_chx_Mod2_Tubes buf s v _).1,
      (req_has hm (by simp) h1).mono fun v => (read_chx_Mod2_Shell buf s v _).1,
      slots_table hm⟩
  · rintro ⟨h0, h1, ⟨es, rfl⟩⟩
    obtain ⟨m, hm⟩ := slots_of (fields := ["tubes", "shell"]) (es := es) (by
      simp only [List.forall_mem_cons, List.not_mem_nil, false_imp_iff, implies_true, and_true]
      exact ⟨h0.any, h1.any⟩)
    have g0 := has_req hm (by simp) (h0.mono fun v => (read_chx_Mod2_Tubes buf s v _).2)
    have g1 := has_req hm (by simp) (h1.mono fun v => (read_chx_Mod2_Shell buf s v _).2)
    refine Option.bind_eq_some_iff.2 ⟨m, hm, ?_⟩
    refine Option.bind_eq_some_iff.2 ⟨_, g0, ?_⟩
    refine Option.bind_eq_some_iff.2 ⟨_, g1, ?_⟩
    rfl

theorem read_chx_Mod2_Config (buf s : Scalars α) (d : Doc α) (c : chx.Mod2.Config α) :
    chx.Mod2.Config.read s d = some c ↔ Fits buf s (form_chx_Mod2_Config c) d := by
  constructor
  · intro h
    obtain ⟨m, hm, h⟩ := Option.bind_eq_some_iff.1 h
    obtain ⟨x0, h0, h⟩ := Option.bind_eq_some_iff.1 h
    obtain ⟨x1, h1, h⟩ := Option.bind_eq_some_iff.1 h
    obtain ⟨x2, h2, h⟩ := Option.bind_eq_some_iff.1 h
    obtain ⟨x3, h3, h⟩ := Option.bind_eq_some_iff.1 h
    obtain ⟨x4, h4, h⟩ := Option.bind_eq_some_iff.1 h
    obtain ⟨x5, h5, h⟩ := Option.bind_eq_some_iff.1 h
    cases h
    exact ⟨(req_has hm (by simp) h0).mono fun v => (read_chx_Mod2_Geometry buf s v _).1,
      req_has hm (by simp) h1,
      req_has hm (by simp) h2,
      req_has hm (by simp) h3,
      (req_has hm (by simp) h4).mono fun v => (read_chx_Mod2_Fluid buf s v _).1,
      (req_has hm (by simp) h5).mono fun v => (read_chx_Mod2_Correlation buf s v _).1,
      slots_table hm⟩
  · rintro ⟨h0, h1, h2, h3, h4, h5, ⟨es, rfl⟩⟩
    obtain ⟨m, hm⟩ := slots_of (fields := ["geometry", "m_dot_p_fs", "W_dot_p_fs", "n_fs", "fluid", "correlation"]) (es := es) (by
      simp only [List.forall_mem_cons, List.not_mem_nil, false_imp_iff, implies_true, and_true]
      exact ⟨h0.any, h1.any, h2.any, h3.any, h4.any, h5.any⟩)
    have g0 := has_req hm (by simp) (h0.mono fun v => (read_chx_Mod2_Geometry buf s v _).2)
    have g1 := has_req hm (by simp) h1
    have g2 := has_req hm (by simp) h2
    have g3 := has_req hm (by simp) h3
    have g4 := has_req hm (by simp) (h4.mono fun v => (read_chx_Mod2_Fluid buf s v _).2)
    have g5 := has_req hm (by simp) (h5.mono fun v => (read_chx_Mod2_Correlation buf s v _).2)
    refine Option.bind_eq_some_iff.2 ⟨m, hm, ?_⟩
    refine Option.bind_eq_some_iff.2 ⟨_, g0, ?_⟩
    refine Option.bind_eq_some_iff.2 ⟨_, g1, ?_⟩
    refine Option.bind_eq_some_iff.2 ⟨_, g2, ?_⟩
    refine Option.bind_eq_some_iff.2 ⟨_, g3, ?_⟩
    refine Option.bind_eq_some_iff.2 ⟨_, g4, ?_⟩
    refine Option.bind_eq_some_iff.2 ⟨_, g5, ?_⟩
    rfl

theorem read_regen_FrictionFactorCorrelation (buf s : Scalars α) (d : Doc α) (c : regen.FrictionFactorCorrelation) :
    regen.FrictionFactorCorrelation.read s d = some c ↔ Fits buf s (form_regen_FrictionFactorCorrelation c) d := by
  cases c
  exact unit_iff s _ (by decide) (by simp) d

theorem read_regen_JFactorCorrelation (buf s : Scalars α) (d : Doc α) (c : regen.JFactorCorrelation) :
    regen.JFactorCorrelation.read s d = some c ↔ Fits buf s (form_regen_JFactorCorrelation c) d := by
  cases c
  exact unit_iff s _ (by decide) (by simp) d

theorem read_regen_FixedApproach_Config (buf s : Scalars α) (d : Doc α) (c : regen.FixedApproach.Config α) :
    regen.FixedApproach.Config.read s d = some c ↔ Fits buf s (form_regen_FixedApproach_Config c) d := by
  constructor
  · intro h
    obtain ⟨m, hm, h⟩ := Option.bind_eq_some_iff.1 h
    obtain ⟨x0, h0, h⟩ := Option.bind_eq_some_iff.1 h
    obtain ⟨x1, h1, h⟩ := Option.bind_eq_some_iff.1 h
    obtain ⟨x2, h2, h⟩ := Option.bind_eq_some_iff.1 h
    obtain ⟨x3, h3, h⟩ := Option.bind_eq_some_iff.1 h
    cases h
    exact ⟨req_has hm (by simp) h0,
      req_has hm (by simp) h1,
      req_has hm (by simp) h2,
      req_has hm (by simp) h3,
      slots_table hm⟩
  · rintro ⟨h0, h1, h2, h3, ⟨es, rfl⟩⟩
    obtain ⟨m, hm⟩ := slots_of (fields := ["vol", "DT", "R_hyd", "Q_parasitic"]) (es := es) (by
      simp only [List.forall_mem_cons, List.not_mem_nil, false_imp_iff, implies_true, and_true]
      exact ⟨h0.any, h1.any, h2.any, h3.any⟩)
    have g0 := has_req hm (by simp) h0
    have g1 := has_req hm (by simp) h1
    have g2 := has_req hm (by simp) h2
    have g3 := has_req hm (by simp) h3
    refine Option.bind_eq_some_iff.2 ⟨m, hm, ?_⟩
    refine Option.bind_eq_some_iff.2 ⟨_, g0, ?_⟩
    refine Option.bind_eq_some_iff.2 ⟨_, g1, ?_⟩
    refine Option.bind_eq_some_iff.2 ⟨_, g2, ?_⟩
    refine Option.bind_eq_some_iff.2 ⟨_, g3, ?_⟩
    rfl

theorem read_regen_FixedConductance_Config (buf s : Scalars α) (d : Doc α) (c : regen.FixedConductance.Config α) :
    regen.FixedConductance.Config.read s d = some c ↔ Fits buf s (form_regen_FixedConductance_Config c) d := by
  constructor
  · intro h
    obtain ⟨m, hm, h⟩ := Option.bind_eq_some_iff.1 h
    obtain ⟨x0, h0, h⟩ := Option.bind_eq_some_iff.1 h
    obtain ⟨x1, h1, h⟩ := Option.bind_eq_some_iff.1 h
    obtain ⟨x2, h2, h⟩ := Option.bind_eq_some_iff.1 h
    obtain ⟨x3, h3, h⟩ := Option.bind_eq_some_iff.1 h
    cases h
    exact ⟨req_has hm (by simp) h0,
      req_has hm (by simp) h1,
      req_has hm (by simp) h2,
      req_has hm (by simp) h3,
      slots_table hm⟩
  · rintro ⟨h0, h1, h2, h3, ⟨es, rfl⟩⟩
    obtain ⟨m, hm⟩ := slots_of (fields := ["vol", "UA", "R_hyd", "Q_parasitic"]) (es := es) (by
      simp only [List.forall_mem_cons, List.not_mem_nil, false_imp_iff, implies_true, and_true]
      exact ⟨h0.any, h1.any, h2.any, h3.any⟩)
    have g0 := has_req hm (by simp) h0
    have g1 := has_req hm (by simp) h1
    have g2 := has_req hm (by simp) h2
    have g3 := has_req hm (by simp) h3
    refine Option.bind_eq_some_iff.2 ⟨m, hm, ?_⟩
    refine Option.bind_eq_some_iff.2 ⟨_, g0, ?_⟩
    refine Option.bind_eq_some_iff.2 ⟨_, g1, ?_⟩
    refine Option.bind_eq_some_iff.2 ⟨_, g2, ?_⟩
    refine Option.bind_eq_some_iff.2 ⟨_, g3, ?_⟩
    rfl

theorem read_regen_GPU3_Mesh (buf s : Scalars α) (d : Doc α) (c : regen.GPU3.Mesh α) :
    regen.GPU3.Mesh.read s d = some c ↔ Fits buf s (form_regen_GPU3_Mesh c) d := by
  constructor
  · intro h
    obtain ⟨m, hm, h⟩ := Option.bind_eq_some_iff.1 h
    obtain ⟨x0, h0, h⟩ := Option.bind_eq_some_iff.1 h
    obtain ⟨x1, h1, h⟩ := Option.bind_eq_some_iff.1 h
    obtain ⟨x2, h2, h⟩ := Option.bind_eq_some_iff.1 h
    cases h
    exact ⟨(req_has hm (by simp) h0).mono fun v => (read_Material buf s v _).1,
      req_has hm (by simp) h1,
      req_has hm (by simp) h2,
      slots_table hm⟩
  · rintro ⟨h0, h1, h2, ⟨es, rfl⟩⟩
    obtain ⟨m, hm⟩ := slots_of (fields := ["material", "D_wire", "pitch"]) (es := es) (by
      simp only [List.forall_mem_cons, List.not_mem_nil, false_imp_iff, implies_true, and_true]
      exact ⟨h0.any, h1.any, h2.any⟩)
    have g0 := has_req hm (by simp) (h0.mono fun v => (read_Material buf s v _).2)
    have g1 := has_req hm (by simp) h1
    have g2 := has_req hm (by simp) h2
    refine Option.bind_eq_some_iff.2 ⟨m, hm, ?_⟩
    refine Option.bind_eq_some_iff.2 ⟨_, g0, ?_⟩
    refine Option.bind_eq_some_iff.2 ⟨_, g1, ?_⟩
    refine Option.bind_eq_some_iff.2 ⟨_, g2, ?_⟩
    rfl

theorem read_regen_GPU3_Shell (buf s : Scalars α) (d : Doc α) (c : regen.GPU3.Shell α) :
    regen.GPU3.Shell.read s d = some c ↔ Fits buf s (form_regen_GPU3_Shell c) d := by
  constructor
  · intro h
    obtain ⟨m, hm, h⟩ := Option.bind_eq_some_iff.1 h
    obtain ⟨x0, h0, h⟩ := Option.bind_eq_some_iff.1 h
    obtain ⟨x1, h1, h⟩ := Option.bind_eq_some_iff.1 h
    obtain ⟨x2, h2, h⟩ := Option.bind_eq_some_iff.1 h
    cases h
    exact ⟨req_has hm (by simp) h0,
      req_has hm (by simp) h1,
      req_has hm (by simp) h2,
      slots_table hm⟩
  · rintro ⟨h0, h1, h2, ⟨es, rfl⟩⟩
    obtain ⟨m, hm⟩ := slots_of (fields := ["diameter", "length", "number"]) (es := es) (by
      simp only [List.forall_mem_cons, List.not_mem_nil, false_imp_iff, implies_true, and_true]
      exact ⟨h0.any, h1.any, h2.any⟩)
    have g0 := has_req hm (by simp) h0
    have g1 := has_req hm (by simp) h1
    have g2 := has_req hm (by simp) h2
    refine Option.bind_eq_some_iff.2 ⟨m, hm, ?_⟩
    refine Option.bind_eq_some_iff.2 ⟨_, g0, ?_⟩
    refine Option.bind_eq_some_iff.2 ⟨_, g1, ?_⟩
    refine Option.bind_eq_some_iff.2 ⟨_, g2, ?_⟩
    rfl

theorem read_regen_GPU3_Geometry (buf s : Scalars α) (d : Doc α) (c : regen.GPU3.Geometry α) :
    regen.GPU3.Geometry.read s d = some c ↔ Fits buf s (form_regen_GPU3_Geometry c) d := by
  constructor
  · intro h
    obtain ⟨m, hm, h⟩ := Option.bind_eq_some_iff.1 h
    obtain ⟨x0, h0, h⟩ := Option.bind_eq_some_iff.1 h
    obtain ⟨x1, h1, h⟩ := Option.bind_eq_some_iff.1 h
    obtain ⟨x2, h2, h⟩ := Option.bind_eq_some_iff.1 h
    cases h
    exact ⟨req_has hm (by simp) h0,
      (req_has hm (by simp) h1).mono fun v => (read_regen_GPU3_Mesh buf s v _).1,
      (req_has hm (by simp) h2).mono fun v => (read_regen_GPU3_Shell buf s v _).1,
      slots_table hm⟩
  · rintro ⟨h0, h1, h2, ⟨es, rfl⟩⟩
    obtain ⟨m, hm⟩ := slots_of (fields := ["vol_h", "mesh", "shell"]) (es := es) (by
      simp only [List.forall_mem_cons, List.not_mem_nil, false_imp_iff, implies_true, and_true]
      exact ⟨h0.any, h1.any, h2.any⟩)
    have g0 := has_req hm (by simp) h0
    have g1 := has_req hm (by simp) (h1.mono fun v => (read_regen_GPU3_Mesh buf s v _).2)
    have g2 := has_req hm (by simp) (h2.mono fun v => (read_regen_GPU3_Shell buf s v _).2)
    refine Option.bind_eq_some_iff.2 ⟨m, hm, ?_⟩
    refine Option.bind_eq_some_iff.2 ⟨_, g0, ?_⟩
    refine Option.bind_eq_some_iff.2 ⟨_, g1, ?_⟩
    refine Option.bind_eq_some_iff.2 ⟨_, g2, ?_⟩
    rfl

theorem read_regen_GPU3_Config (buf s : Scalars α) (d : Doc α) (c : regen.GPU3.Config α) :
    regen.GPU3.Config.read s d = some c ↔ Fits buf s (form_regen_GPU3_Config c) d := by
  constructor
  · intro h
    obtain ⟨m, hm, h⟩ := Option.bind_eq_some_iff.1 h
    obtain ⟨x0, h0, h⟩ := Option.bind_eq_some_iff.1 h
    obtain ⟨x1, h1, h⟩ := Option.bind_eq_some_iff.1 h
    obtain ⟨x2, h2, h⟩ := Option.bind_eq_some_iff.1 h
    obtain ⟨x3, h3, h⟩ := Option.bind_eq_some_iff.1 h
    obtain ⟨x4, h4, h⟩ := Option.bind_eq_some_iff.1 h
    cases h
    exact ⟨(req_has hm (by simp) h0).mono fun v => (read_regen_GPU3_Geometry buf s v _).1,
      req_has hm (by simp) h1,
      req_has hm (by simp) h2,
      (req_has hm (by simp) h3).mono fun v => (read_regen_FrictionFactorCorrelation buf s v _).1,
      (req_has hm (by simp) h4).mono fun v => (read_regen_JFactorCorrelation buf s v _).1,
      slots_table hm⟩
  · rintro ⟨h0, h1, h2, h3, h4, ⟨es, rfl⟩⟩
    obtain ⟨m, hm⟩ := slots_of (fields := ["geometry", "Q_parasitic", "bypass", "correlationf", "correlationj"]) (es := es) (by
      simp only [List.forall_mem_cons, List.not_mem_nil, false_imp_iff, implies_true, and_true]
      exact ⟨h0.any, h1.any, h2.any, h3.any, h4.any⟩)
    have g0 := has_req hm (by simp) (h0.mono fun v => (read_regen_GPU3_Geometry buf s v _).2)
    have g1 := has_req hm (by simp) h1
    have g2 := has_req hm (by simp) h2
    have g3 := has_req hm (by simp) (h3.mono fun v => (read_regen_FrictionFactorCorrelation buf s v _).2)
    have g4 := has_req hm (by simp) (h4.mono fun v => (read_regen_JFactorCorrelation buf s v _).2)
    refine Option.bind_eq_some_iff.2 ⟨m, hm, ?_⟩
    refine Option.bind_eq_some_iff.2 ⟨_, g0, ?_⟩
    refine Option.bind_eq_some_iff.2 ⟨_, g1, ?_⟩
    refine Option.bind_eq_some_iff.2 ⟨_, g2, ?_⟩
    refine Option.bind_eq_some_iff.2 ⟨_, g3, ?_⟩
    refine Option.bind_eq_some_iff.2 ⟨_, g4, ?_⟩
    rfl

theorem read_regen_Mod2_Correlation (buf s : Scalars α) (d : Doc α) (c : regen.Mod2.Correlation) :
    regen.Mod2.Correlation.read s d = some c ↔ Fits buf s (form_regen_Mod2_Correlation c) d := by
  cases c <;> exact unit_iff s _ (by decide) (by simp) d

theorem read_regen_Mod2_Mesh (buf s : Scalars α) (d : Doc α) (c : regen.Mod2.Mesh α) :
    regen.Mod2.Mesh.read s d = some c ↔ Fits buf s (form_regen_Mod2_Mesh c) d := by
  constructor
  · intro h
    obtain ⟨m, hm, h⟩ := Option.bind_eq_some_iff.1 h
    obtain ⟨x0, h0, h⟩ := Option.bind_eq_some_iff.1 h
    obtain ⟨x1, h1, h⟩ := Option.bind_eq_some_iff.1 h
    obtain ⟨x2, h2, h⟩ := Option.bind_eq_some_iff.1 h
    cases h
    exact ⟨(req_has hm (by simp) h0).mono fun v => (read_Material buf s v _).1,
      req_has hm (by simp) h1,
      req_has hm (by simp) h2,
      slots_table hm⟩
  · rintro ⟨h0, h1, h2, ⟨es, rfl⟩⟩
    obtain ⟨m, hm⟩ := slots_of (fields := ["material", "D_wire", "pitch"]) (es := es) (by
      simp only [List.forall_mem_cons, List.not_mem_nil, false_imp_iff, implies_true, and_true]
      exact ⟨h0.any, h1.any, h2.any⟩)
    have g0 := has_req hm (by simp) (h0.mono fun v => (read_Material buf s v _).2)
    have g1 := has_req hm (by simp) h1
    have g2 := has_req hm (by simp) h2
    refine Option.bind_eq_some_iff.2 ⟨m, hm, ?_⟩
    refine Option.bind_eq_some_iff.2 ⟨_, g0, ?_⟩
    refine Option.bind_eq_some_iff.2 ⟨_, g1, ?_⟩
    refine Option.bind_eq_some_iff.2 ⟨_, g2, ?_⟩
    rfl

theorem read_regen_Mod2_Shell (buf s : Scalars α) (d : Doc α) (c : regen.Mod2.Shell α) :
    regen.Mod2.Shell.read s d = some c ↔ Fits buf s (form_regen_Mod2_Shell c) d := by
  constructor
  · intro h
    obtain ⟨m, hm, h⟩ := Option.bind_eq_some_iff.1 h
    obtain ⟨x0, h0, h⟩ := Option.bind_eq_some_iff.1 h
    obtain ⟨x1, h1, h⟩ := Option.bind_eq_some_iff.1 h
    obtain ⟨x2, h2, h⟩ := Option.bind_eq_some_iff.1 h
    obtain ⟨x3, h3, h⟩ := Option.bind_eq_some_iff.1 h
    obtain ⟨x4, h4, h⟩ := Option.bind_eq_some_iff.1 h
    cases h
    exact ⟨(req_has hm (by simp) h0).mono fun v => (read_Material buf s v _).1,
      req_has hm (by simp) h1,
      req_has hm (by simp) h2,
      req_has hm (by simp) h3,
      req_has hm (by simp) h4,
      slots_table hm⟩
  · rintro ⟨h0, h1, h2, h3, h4, ⟨es, rfl⟩⟩
    obtain ⟨m, hm⟩ := slots_of (fields := ["material", "R_sh", "th_sh_cold", "th_sh_hot", "length"]) (es := es) (by
      simp only [List.forall_mem_cons, List.not_mem_nil, false_imp_iff, implies_true, and_true]
      exact ⟨h0.any, h1.any, h2.any, h3.any, h4.any⟩)
    have g0 := has_req hm (by simp) (h0.mono fun v => (read_Material buf s v _).2)
    have g1 := has_req hm (by simp) h1
    have g2 := has_req hm (by simp) h2
    have g3 := has_req hm (by simp) h3
    have g4 := has_req hm (by simp) h4
    refine Option.bind_eq_some_iff.2 ⟨m, hm, ?_⟩
    refine Option.bind_eq_some_iff.2 ⟨_, g0, ?_⟩
    refine Option.bind_eq_some_iff.2 ⟨_, g1, ?_⟩
    refine Option.bind_eq_some_iff.2 ⟨_, g2, ?_⟩
    refine Option.bind_eq_some_iff.2 ⟨_, g3, ?_⟩
    refine Option.bind_eq_some_iff.2 ⟨_, g4, ?_⟩
    rfl

theorem read_regen_Mod2_Geometry (buf s : Scalars α) (d : Doc α) (c : regen.Mod2.Geometry α) :
    regen.Mod2.Geometry.read s d = some c ↔ Fits buf s (form_regen_Mod2_Geometry c) d := by
  constructor
  · intro h
    obtain ⟨m, hm, h⟩ := Option.bind_eq_some_iff.1 h
    obtain ⟨x0, h0, h⟩ := Option.bind_eq_some_iff.1 h
    obtain ⟨x1, h1, h⟩ := Option.bind_eq_some_iff.1 h
    cases h
    exact ⟨(req_has hm (by simp) h0).mono fun v => (read_regen_Mod2_Mesh buf s v _).1,
      (req_has hm (by simp) h1).mono fun v => (read_regen_Mod2_Shell buf s v _).1,
      slots_table hm⟩
  · rintro ⟨h0, h1, ⟨es, rfl⟩⟩
    obtain ⟨m, hm⟩ := slots_of (fields := ["mesh", "shell"]) (es := es) (by
      simp only [List.forall_mem_cons, List.not_mem_nil, false_imp_iff, implies_true, and_true]
      exact ⟨h0.any, h1.any⟩)
    have g0 := has_req hm (by simp) (h0.mono fun v => (read_regen_Mod2_Mesh buf s v _).2)
    have g1 := has_req hm (by simp) (h1.mono fun v => (read_regen_Mod2_Shell buf s v _).2)
    refine Option.bind_eq_some_iff.2 ⟨m, hm, ?_⟩
    refine Option.bind_eq_some_iff.2 ⟨_, g0, ?_⟩
    refine Option.bind_eq_some_iff.2 ⟨_, g1, ?_⟩
    rfl

theorem read_regen_Mod2_Config (buf s : Scalars α) (d : Doc α) (c : regen.Mod2.Config α) :
    regen.Mod2.Config.read s d = some c ↔ Fits buf s (form_regen_Mod2_Config c) d := by
  constructor
  · intro h
    obtain ⟨m, hm, h⟩ := Option.bind_eq_some_iff.1 h
    obtain ⟨x0, h0, h⟩ := Option.bind_eq_some_iff.1 h
    obtain ⟨x1, h1, h⟩ := Option.bind_eq_some_iff.1 h
    obtain ⟨x2, h2, h⟩ := Option.bind_eq_some_iff.1 h
    obtain ⟨x3, h3, h⟩ := Option.bind_eq_some_iff.1 h
    cases h
    exact ⟨(req_has hm (by simp) h0).mono fun v => (read_regen_Mod2_Geometry buf s v _).1,
      (req_has hm (by simp) h1).mono fun v => (read_regen_Mod2_Correlation buf s v _).1,
      (req_has hm (by simp) h2).mono fun v => (read_regen_FrictionFactorCorrelation buf s v _).1,
      (req_has hm (by simp) h3).mono fun v => (read_regen_JFactorCorrelation buf s v _).1,
      slots_table hm⟩
  · rintro ⟨h0, h1, h2, h3, ⟨es, rfl⟩⟩
    obtain ⟨m, hm⟩ := slots_of (fields := ["geometry", "correlationtype", "correlationf", "correlationj"]) (es := es) (by
      simp only [List.forall_mem_cons, List.not_mem_nil, false_imp_iff, implies_true, and_true]
      exact ⟨h0.any, h1.any, h2.any, h3.any⟩)
    have g0 := has_req hm (by simp) (h0.mono fun v => (read_regen_Mod2_Geometry buf s v _).2)
    have g1 := has_req hm (by simp) (h1.mono fun v => (read_regen_Mod2_Correlation buf s v _).2)
    have g2 := has_req hm (by simp) (h2.mono fun v => (read_regen_FrictionFactorCorrelation buf s v _).2)
    have g3 := has_req hm (by simp) (h3.mono fun v => (read_regen_JFactorCorrelation buf s v _).2)
    refine Option.bind_eq_some_iff.2 ⟨m, hm, ?_⟩
    refine Option.bind_eq_some_iff.2 ⟨_, g0, ?_⟩
    refine Option.bind_eq_some_iff.2 ⟨_, g1, ?_⟩
    refine Option.bind_eq_some_iff.2 ⟨_, g2, ?_⟩
    refine Option.bind_eq_some_iff.2 ⟨_, g3, ?_⟩
    rfl

theorem read_hhx_FixedApproach_Config (buf s : Scalars α) (d : Doc α) (c : hhx.FixedApproach.Config α) :
    hhx.FixedApproach.Config.read s d = some c ↔ Fits buf s (form_hhx_FixedApproach_Config c) d := by
  constructor
  · intro h
    obtain ⟨m, hm, h⟩ := Option.bind_eq_some_iff.1 h
    obtain ⟨x0, h0, h⟩ := Option.bind_eq_some_iff.1 h
    obtain ⟨x1, h1, h⟩ := Option.bind_eq_some_iff.1 h
    obtain ⟨x2, h2, h⟩ := Option.bind_eq_some_iff.1 h
    obtain ⟨x3, h3, h⟩ := Option.bind_eq_some_iff.1 h
    obtain ⟨x4, h4, h⟩ := Option.bind_eq_some_iff.1 h
    cases h
    exact ⟨req_has hm (by simp) h0,
      req_has hm (by simp) h1,
      req_has hm (by simp) h2,
      req_has hm (by simp) h3,
      req_has hm (by simp) h4,
      slots_table hm⟩
  · rintro ⟨h0, h1, h2, h3, h4, ⟨es, rfl⟩⟩
    obtain ⟨m, hm⟩ := slots_of (fields := ["vol", "DT", "R_hyd", "W_parasitic", "Q_parasitic"]) (es := es) (by
      simp only [List.forall_mem_cons, List.not_mem_nil, false_imp_iff, implies_true, and_true]
      exact ⟨h0.any, h1.any, h2.any, h3.any, h4.any⟩)
    have g0 := has_req hm (by simp) h0
    have g1 := has_req hm (by simp) h1
    have g2 := has_req hm (by simp) h2
    have g3 := has_req hm (by simp) h3
    have g4 := has_req hm (by simp) h4
    refine Option.bind_eq_some_iff.2 ⟨m, hm, ?_⟩
    refine Option.bind_eq_some_iff.2 ⟨_, g0, ?_⟩
    refine Option.bind_eq_some_iff.2 ⟨_, g1, ?_⟩
    refine Option.bind_eq_some_iff.2 ⟨_, g2, ?_⟩
    refine Option.bind_eq_some_iff.2 ⟨_, g3, ?_⟩
    refine Option.bind_eq_some_iff.2 ⟨_, g4, ?_⟩
    rfl

theorem read_hhx_FixedConductance_Config (buf s : Scalars α) (d : Doc α) (c : hhx.FixedConductance.Config α) :
    hhx.FixedConductance.Config.read s d = some c ↔ Fits buf s (form_hhx_FixedConductance_Config c) d := by
  constructor
  · intro h
    obtain ⟨m, hm, h⟩ := Option.bind_eq_some_iff.1 h
    obtain ⟨x0, h0, h⟩ := Option.bind_eq_some_iff.1 h
    obtain ⟨x1, h1, h⟩ := Option.bind_eq_some_iff.1 h
    obtain ⟨x2, h2, h⟩ := Option.bind_eq_some_iff.1 h
    obtain ⟨x3, h3, h⟩ := Option.bind_eq_some_iff.1 h
    obtain ⟨x4, h4, h⟩ := Option.bind_eq_some_iff.1 h
    cases h
    exact ⟨req_has hm (by simp) h0,
      req_has hm (by simp) h1,
      req_has hm (by simp) h2,
      req_has hm (by simp) h3,
      req_has hm (by simp) h4,
      slots_table hm⟩
  · rintro ⟨h0, h1, h2, h3, h4, ⟨es, rfl⟩⟩
    obtain ⟨m, hm⟩ := slots_of (fields := ["vol", "UA", "R_hyd", "W_parasitic", "Q_parasitic"]) (es := es) (by
      simp only [List.forall_mem_cons, List.not_mem_nil, false_imp_iff, implies_true, and_true]
      exact ⟨h0.any, h1.any, h2.any, h3.any, h4.any⟩)
    have g0 := has_req hm (by simp) h0
    have g1 := has_req hm (by simp) h1
    have g2 := has_req hm (by simp) h2
    have g3 := has_req hm (by simp) h3
    have g4 := has_req hm (by simp) h4
    refine Option.bind_eq_some_iff.2 ⟨m, hm, ?_⟩
    refine Option.bind_eq_some_iff.2 ⟨_, g0, ?_⟩
    refine Option.bind_eq_some_iff.2 ⟨_, g1, ?_⟩
    refine Option.bind_eq_some_iff.2 ⟨_, g2, ?_⟩
    refine Option.bind_eq_some_iff.2 ⟨_, g3, ?_⟩
    refine Option.bind_eq_some_iff.2 ⟨_, g4, ?_⟩
    rfl

theorem read_hhx_GPU3_Config (buf s : Scalars α) (d : Doc α) (c : hhx.GPU3.Config α) :
    hhx.GPU3.Config.read s d = some c ↔ Fits buf s (form_hhx_GPU3_Config c) d := by
  constructor
  · intro h
    obtain ⟨m, hm, h⟩ := Option.bind_eq_some_iff.1 h
    obtain ⟨x0, h0, h⟩ := Option.bind_eq_some_iff.1 h
    obtain ⟨x1, h1, h⟩ := Option.bind_eq_some_iff.1 h
    obtain ⟨x2, h2, h⟩ := Option.bind_eq_some_iff.1 h
    obtain ⟨x3, h3, h⟩ := Option.bind_eq_some_iff.1 h
    obtain ⟨x4, h4, h⟩ := Option.bind_eq_some_iff.1 h
    obtain ⟨x5, h5, h⟩ := Option.bind_eq_some_iff.1 h
    obtain ⟨x6, h6, h⟩ := Option.bind_eq_some_iff.1 h
    obtain ⟨x7, h7, h⟩ := Option.bind_eq_some_iff.1 h
    obtain ⟨x8, h8, h⟩ := Option.bind_eq_some_iff.1 h
    obtain ⟨x9, h9, h⟩ := Option.bind_eq_some_iff.1 h
    obtain ⟨x10, h10, h⟩ := Option.bind_eq_some_iff.1 h
    cases h
    exact ⟨req_has hm (by simp) h0,
      req_has hm (by simp) h1,
      req_has hm (by simp) h2,
      req_has hm (by simp) h3,
      req_has hm (by simp) h4,
      req_has hm (by simp) h5,
      req_has hm (by simp) h6,
      req_has hm (by simp) h7,
      req_has hm (by simp) h8,
      req_has hm (by simp) h9,
      req_has hm (by simp) h10,
      slots_table hm⟩
  · rintro ⟨h0, h1, h2, h3, h4, h5, h6, h7, h8, h9, h10, ⟨es, rfl⟩⟩
    obtain ⟨m, hm⟩ := slots_of (fields := ["L_total", "L_htr", "R_tc", "D_outer", "D_inner", "roughness", "N_total", "vol_h", "eta_comb", "R_c_loss", "W_parasitic"]) (es := es) (by
      simp only [List.forall_mem_cons, List.not_mem_nil, false_imp_iff, implies_true, and_true]
      exact ⟨h0.any, h1.any, h2.any, h3.any, h4.any, h5.any, h6.any, h7.any, h8.any, h9.any, h10.any⟩)
    have g0 := has_req hm (by simp) h0
    have g1 := has_req hm (by simp) h1
    have g2 := has_req hm (by simp) h2
    have g3 := has_req hm (by simp) h3
    have g4 := has_req hm (by simp) h4
    have g5 := has_req hm (by simp) h5
    have g6 := has_req hm (by simp) h6
    have g7 := has_req hm (by simp) h7
    have g8 := has_req hm (by simp) h8
    have g9 := has_req hm (by simp) h9
    have g10 := has_req hm (by simp) h10
    refine Option.bind_eq_some_iff.2 ⟨m, hm, ?_⟩
    refine Option.bind_eq_some_iff.2 ⟨_, g0, ?_⟩
    refine Option.bind_eq_some_iff.2 ⟨_, g1, ?_⟩
    refine Option.bind_eq_some_iff.2 ⟨_, g2, ?_⟩
    refine Option.bind_eq_some_iff.2 ⟨_, g3, ?_⟩
    refine Option.bind_eq_some_iff.2 ⟨_, g4, ?_⟩
    refine Option.bind_eq_some_iff.2 ⟨_, g5, ?_⟩
    refine Option.bind_eq_some_iff.2 ⟨_, g6, ?_⟩
    refine Option.bind_eq_some_iff.2 ⟨_, g7, ?_⟩
    refine Option.bind_eq_some_iff.2 ⟨_, g8, ?_⟩
    refine Option.bind_eq_some_iff.2 ⟨_, g9, ?_⟩
    refine Option.bind_eq_some_iff.2 ⟨_, g10, ?_⟩
    rfl

theorem read_hhx_Mod2_Correlation (buf s : Scalars α) (d : Doc α) (c : hhx.Mod2.Correlation) :
    hhx.Mod2.Correlation.read s d = some c ↔ Fits buf s (form_hhx_Mod2_Correlation c) d := by
  cases c <;> exact unit_iff s _ (by decide) (by simp) d

theorem read_hhx_Mod2_Tubes (buf s : Scalars α) (d : Doc α) (c : hhx.Mod2.Tubes α) :
    hhx.Mod2.Tubes.read s d = some c ↔ Fits buf s (form_hhx_Mod2_Tubes c) d := by
  constructor
  · intro h
    obtain ⟨m, hm, h⟩ := Option.bind_eq_some_iff.1 h
    obtain ⟨x0, h0, h⟩ := Option.bind_eq_some_iff.1 h
    obtain ⟨x1, h1, h⟩ := Option.bind_eq_some_iff.1 h
    obtain ⟨x2, h2, h⟩ := Option.bind_eq_some_iff.1 h
    obtain ⟨x3, h3, h⟩ := Option.bind_eq_some_iff.1 h
    obtain ⟨x4, h4, h⟩ := Option.bind_eq_some_iff.1 h
    obtain ⟨x5, h5, h⟩ := Option.bind_eq_some_iff.1 h
    obtain ⟨x6, h6, h⟩ := Option.bind_eq_some_iff.1 h
    obtain ⟨x7, h7, h⟩ := Option.bind_eq_some_iff.1 h
    obtain ⟨x8, h8, h⟩ := Option.bind_eq_some_iff.1 h
    cases h
    exact ⟨req_has hm (by simp) h0,
      req_has hm (by simp) h1,
      req_has hm (by simp) h2,
      req_has hm (by simp) h3,
      req_has hm (by simp) h4,
      req_has hm (by simp) h5,
      req_has hm (by simp) h6,
      (req_has hm (by simp) h7).mono fun v => (read_Material buf s v _).1,
      (req_has hm (by simp) h8).mono fun v => (read_Material buf s v _).1,
      slots_table hm⟩
  · rintro ⟨h0, h1, h2, h3, h4, h5, h6, h7, h8, ⟨es, rfl⟩⟩
    obtain ⟨m, hm⟩ := slots_of (fields := ["L_front", "L_rear", "L_inactive", "D_outer", "D_inner", "roughness", "N_total", "materialtube", "materialfin"]) (es := es) (by
      simp only [List.forall_mem_cons, List.not_mem_nil, false_imp_iff, implies_true, and_true]
      exact ⟨h0.any, h1.any, h2.any, h3.any, h4.any, h5.any, h6.any, h7.any, h8.any⟩)
    have g0 := has_req hm (by simp) h0
    have g1 := has_req hm (by simp) h1
    have g2 := has_req hm (by simp) h2
    have g3 := has_req hm (by simp) h3
    have g4 := has_req hm (by simp) h4
    have g5 := has_req hm (by simp) h5
    have g6 := has_req hm (by simp) h6
    have g7 := has_req hm (by simp) (h7.mono fun v => (read_Material buf s v _).2)
    have g8 := has_req hm (by simp) (h8.mono fun v => (read_Material buf s v _).2)
    refine Option.bind_eq_some_iff.2 ⟨m, hm, ?_⟩
    refine Option.bind_eq_some_iff.2 ⟨_, g0, ?_⟩
    refine Option.bind_eq_some_iff.2 ⟨_, g1, ?_⟩
    refine Option.bind_eq_some_iff.2 ⟨_, g2, ?_⟩
    refine Option.bind_eq_some_iff.2 ⟨_, g3, ?_⟩
    refine Option.bind_eq_some_iff.2 ⟨_, g4, ?_⟩
    refine Option.bind_eq_some_iff.2 ⟨_, g5, ?_⟩
    refine Option.bind_eq_some_iff.2 ⟨_, g6, ?_⟩
    refine Option.bind_eq_some_iff.2 ⟨_, g7, ?_⟩
    refine Option.bind_eq_some_iff.2 ⟨_, g8, ?_⟩
    rfl

theorem read_hhx_Mod2_Shell (buf s : Scalars α) (d : Doc α) (c : hhx.Mod2.Shell α) :
    hhx.Mod2.Shell.read s d = some c ↔ Fits buf s (form_hhx_Mod2_Shell c) d := by
  constructor
  · intro h
    obtain ⟨m, hm, h⟩ := Option.bind_eq_some_iff.1 h
    obtain ⟨x0, h0, h⟩ := Option.bind_eq_some_iff.1 h
    obtain ⟨x1, h1, h⟩ := Option.bind_eq_some_iff.1 h
    obtain ⟨x2, h2, h⟩ := Option.bind_eq_some_iff.1 h
    cases h
    exact ⟨req_has hm (by simp) h0,
      req_has hm (by simp) h1,
      req_has hm (by simp) h2,
      slots_table hm⟩
  · rintro ⟨h0, h1, h2, ⟨es, rfl⟩⟩
    obtain ⟨m, hm⟩ := slots_of (fields := ["R_outer", "R_inner", "V_header"]) (es := es) (by
      simp only [List.forall_mem_cons, List.not_mem_nil, false_imp_iff, implies_true, and_true]
      exact ⟨h0.any, h1.any, h2.any⟩)
    have g0 := has_req hm (by simp) h0
    have g1 := has_req hm (by simp) h1
    have g2 := has_req hm (by simp) h2
    refine Option.bind_eq_some_iff.2 ⟨m, hm, ?_⟩
    refine Option.bind_eq_some_iff.2 ⟨_, g0, ?_⟩
    refine Option.bind_eq_some_iff.2 ⟨_, g1, ?_⟩
    refine Option.bind_eq_some_iff.2 ⟨_, g2, ?_⟩
    rfl

theorem read_hhx_Mod2_Fins (buf s : Scalars α) (d : Doc α) (c : hhx.Mod2.Fins α) :
    hhx.Mod2.Fins.read s d = some c ↔ Fits buf s (form_hhx_Mod2_Fins c) d := by
  constructor
  · intro h
    obtain ⟨m, hm, h⟩ := Option.bind_eq_some_iff.1 h
    obtain ⟨x0, h0, h⟩ := Option.bind_eq_some_iff.1 h
    obtain ⟨x1, h1, h⟩ := Option.bind_eq_some_iff.1 h
    obtain ⟨x2, h2, h⟩ := Option.bind_eq_some_iff.1 h
    cases h
    exact ⟨req_has hm (by simp) h0,
      req_has hm (by simp) h1,
      req_has hm (by simp) h2,
      slots_table hm⟩
  · rintro ⟨h0, h1, h2, ⟨es, rfl⟩⟩
    obtain ⟨m, hm⟩ := slots_of (fields := ["thickness", "pitch", "L_fin"]) (es := es) (by
      simp only [List.forall_mem_cons, List.not_mem_nil, false_imp_iff, implies_true, and_true]
      exact ⟨h0.any, h1.any, h2.any⟩)
    have g0 := has_req hm (by simp) h0
    have g1 := has_req hm (by simp) h1
    have g2 := has_req hm (by simp) h2
    refine Option.bind_eq_some_iff.2 ⟨m, hm, ?_⟩
    refine Option.bind_eq_some_iff.2 ⟨_, g0, ?_⟩
    refine Option.bind_eq_some_iff.2 ⟨_, g1, ?_⟩
    refine Option.bind_eq_some_iff.2 ⟨_, g2, ?_⟩
    rfl

theorem read_hhx_Mod2_Geometry (buf s : Scalars α) (d : Doc α) (c : hhx.Mod2.Geometry α) :
    hhx.Mod2.Geometry.read s d = some c ↔ Fits buf s (form_hhx_Mod2_Geometry c) d := by
  constructor
  · intro h
    obtain ⟨m, hm, h⟩ := Option.bind_eq_some_iff.1 h
    obtain ⟨x0, h0, h⟩ := Option.bind_eq_some_iff.1 h
    obtain ⟨x1, h1, h⟩ := Option.bind_eq_some_iff.1 h
    obtain ⟨x2, h2, h⟩ := Option.bind_eq_some_iff.1 h
    cases h
    exact ⟨(req_has hm (by simp) h0).mono fun v => (read_hhx_Mod2_Tubes buf s v _).1,
      (req_has hm (by simp) h1).mono fun v => (read_hhx_Mod2_Shell buf s v _).1,
      (req_has hm (by simp) h2).mono fun v => (read_hhx_Mod2_Fins buf s v _).1,
      slots_table hm⟩
  · rintro ⟨h0, h1, h2, ⟨es, rfl⟩⟩
    obtain ⟨m, hm⟩ := slots_of (fields := ["tubes", "shell", "fins"]) (es := es) (by
      simp only [List.forall_mem_cons, List.not_mem_nil, false_imp_iff, implies_true, and_true]
      exact ⟨h0.any, h1.any, h2.any⟩)
    have g0 := has_req hm (by simp) (h0.mono fun v => (read_hhx_Mod2_Tubes buf s v _).2)
    have g1 := has_req hm (by simp) (h1.mono fun v => (read_hhx_Mod2_Shell buf s v _).2)
    have g2 := has_req hm (by simp) (h2.mono fun v => (read_hhx_Mod2_Fins buf s v _).2)
    refine Option.bind_eq_some_iff.2 ⟨m, hm, ?_⟩
    refine Option.bind_eq_some_iff.2 ⟨_, g0, ?_⟩
    refine Option.bind_eq_some_iff.2 ⟨_, g1, ?_⟩
    refine Option.bind_eq_some_iff.2 ⟨_, g2, ?_⟩
    rfl

theorem read_hhx_Mod2_Config (buf s : Scalars α) (d : Doc α) (c : hhx.Mod2.Config α) :
    hhx.Mod2.Config.read s d = some c ↔ Fits buf s (form_hhx_Mod2_Config c) d := by
  constructor
  · intro h
    obtain ⟨m, hm, h⟩ := Option.bind_eq_some_iff.1 h
    obtain ⟨x0, h0, h⟩ := Option.bind_eq_some_iff.1 h
    obtain ⟨x1, h1, h⟩ := Option.bind_eq_some_iff.1 h
    cases h
    exact ⟨(req_has hm (by simp) h0).mono fun v => (read_hhx_Mod2_Geometry buf s v _).1,
      (req_has hm (by simp) h1).mono fun v => (read_hhx_Mod2_Correlation buf s v _).1,
      slots_table hm⟩
  · rintro ⟨h0, h1, ⟨es, rfl⟩⟩
    obtain ⟨m, hm⟩ := slots_of (fields := ["geometry", "correlation"]) (es := es) (by
      simp only [List.forall_mem_cons, List.not_mem_nil, false_imp_iff, implies_true, and_true]
      exact ⟨h0.any, h1.any⟩)
    have g0 := has_req hm (by simp) (h0.mono fun v => (read_hhx_Mod2_Geometry buf s v _).2)
    have g1 := has_req hm (by simp) (h1.mono fun v => (read_hhx_Mod2_Correlation buf s v _).2)
    refine Option.bind_eq_some_iff.2 ⟨m, hm, ?_⟩
    refine Option.bind_eq_some_iff.2 ⟨_, g0, ?_⟩
    refine Option.bind_eq_some_iff.2 ⟨_, g1, ?_⟩
    rfl

theorem read_hhx_NuclearIsomerGPU3_Config (buf s : Scalars α) (d : Doc α) (c : hhx.NuclearIsomerGPU3.Config α) :
    hhx.NuclearIsomerGPU3.Config.read s d = some c ↔ Fits buf s (form_hhx_NuclearIsomerGPU3_Config c) d := by
  constructor
  · intro h
    obtain ⟨m, hm, h⟩ := Option.bind_eq_some_iff.1 h
    obtain ⟨x0, h0, h⟩ := Option.bind_eq_some_iff.1 h
    obtain ⟨x1, h1, h⟩ := Option.bind_eq_some_iff.1 h
    obtain ⟨x2, h2, h⟩ := Option.bind_eq_some_iff.1 h
    obtain ⟨x3, h3, h⟩ := Option.bind_eq_some_iff.1 h
    obtain ⟨x4, h4, h⟩ := Option.bind_eq_some_iff.1 h
    obtain ⟨x5, h5, h⟩ := Option.bind_eq_some_iff.1 h
    obtain ⟨x6, h6, h⟩ := Option.bind_eq_some_iff.1 h
    obtain ⟨x7, h7, h⟩ := Option.bind_eq_some_iff.1 h
    obtain ⟨x8, h8, h⟩ := Option.bind_eq_some_iff.1 h
    obtain ⟨x9, h9, h⟩ := Option.bind_eq_some_iff.1 h
    obtain ⟨x10, h10, h⟩ := Option.bind_eq_some_iff.1 h
    cases h
    exact ⟨req_has hm (by simp) h0,
      req_has hm (by simp) h1,
      req_has hm (by simp) h2,
      req_has hm (by simp) h3,
      req_has hm (by simp) h4,
      req_has hm (by simp) h5,
      req_has hm (by simp) h6,
      req_has hm (by simp) h7,
      req_has hm (by simp) h8,
      req_has hm (by simp) h9,
      req_has hm (by simp) h10,
      slots_table hm⟩
  · rintro ⟨h0, h1, h2, h3, h4, h5, h6, h7, h8, h9, h10, ⟨es, rfl⟩⟩
    obtain ⟨m, hm⟩ := slots_of (fields := ["R_f", "L_f", "R_regen", "D_outer", "D_inner", "k_f", "roughness", "N_total", "vol_h", "R_ins", "W_parasitic"]) (es := es) (by
      simp only [List.forall_mem_cons, List.not_mem_nil, false_imp_iff, implies_true, and_true]
      exact ⟨h0.any, h1.any, h2.any, h3.any, h4.any, h5.any, h6.any, h7.any, h8.any, h9.any, h10.any⟩)
    have g0 := has_req hm (by simp) h0
    have g1 := has_req hm (by simp) h1
    have g2 := has_req hm (by simp) h2
    have g3 := has_req hm (by simp) h3
    have g4 := has_req hm (by simp) h4
    have g5 := has_req hm (by simp) h5
    have g6 := has_req hm (by simp) h6
    have g7 := has_req hm (by simp) h7
    have g8 := has_req hm (by simp) h8
    have g9 := has_req hm (by simp) h9
    have g10 := has_req hm (by simp) h10
    refine Option.bind_eq_some_iff.2 ⟨m, hm, ?_⟩
    refine Option.bind_eq_some_iff.2 ⟨_, g0, ?_⟩
    refine Option.bind_eq_some_iff.2 ⟨_, g1, ?_⟩
    refine Option.bind_eq_some_iff.2 ⟨_, g2, ?_⟩
    refine Option.bind_eq_some_iff.2 ⟨_, g3, ?_⟩
    refine Option.bind_eq_some_iff.2 ⟨_, g4, ?_⟩
    refine Option.bind_eq_some_iff.2 ⟨_, g5, ?_⟩
    refine Option.bind_eq_some_iff.2 ⟨_, g6, ?_⟩
    refine Option.bind_eq_some_iff.2 ⟨_, g7, ?_⟩
    refine Option.bind_eq_some_iff.2 ⟨_, g8, ?_⟩
    refine Option.bind_eq_some_iff.2 ⟨_, g9, ?_⟩
    refine Option.bind_eq_some_iff.2 ⟨_, g10, ?_⟩
    rfl

theorem read_hhx_NuclearIsomerMod2_Config (buf s : Scalars α) (d : Doc α) (c : hhx.NuclearIsomerMod2.Config α) :
    hhx.NuclearIsomerMod2.Config.read s d = some c ↔ Fits buf s (form_hhx_NuclearIsomerMod2_Config c) d := by
  constructor
  · intro h
    obtain ⟨m, hm, h⟩ := Option.bind_eq_some_iff.1 h
    obtain ⟨x0, h0, h⟩ := Option.bind_eq_some_iff.1 h
    obtain ⟨x1, h1, h⟩ := Option.bind_eq_some_iff.1 h
    obtain ⟨x2, h2, h⟩ := Option.bind_eq_some_iff.1 h
    obtain ⟨x3, h3, h⟩ := Option.bind_eq_some_iff.1 h
    obtain ⟨x4, h4, h⟩ := Option.bind_eq_some_iff.1 h
    obtain ⟨x5, h5, h⟩ := Option.bind_eq_some_iff.1 h
    obtain ⟨x6, h6, h⟩ := Option.bind_eq_some_iff.1 h
    obtain ⟨x7, h7, h⟩ := Option.bind_eq_some_iff.1 h
    obtain ⟨x8, h8, h⟩ := Option.bind_eq_some_iff.1 h
    obtain ⟨x9, h9, h⟩ := Option.bind_eq_some_iff.1 h
    obtain ⟨x10, h10, h⟩ := Option.bind_eq_some_iff.1 h
    cases h
    exact ⟨req_has hm (by simp) h0,
      req_has hm (by simp) h1,
      req_has hm (by simp) h2,
      req_has hm (by simp) h3,
      req_has hm (by simp) h4,
      req_has hm (by simp) h5,
      req_has hm (by simp) h6,
      req_has hm (by simp) h7,
      req_has hm (by simp) h8,
      req_has hm (by simp) h9,
      req_has hm (by simp) h10,
      slots_table hm⟩
  · rintro ⟨h0, h1, h2, h3, h4, h5, h6, h7, h8, h9, h10, ⟨es, rfl⟩⟩
    obtain ⟨m, hm⟩ := slots_of (fields := ["R_f", "L_f", "R_regen", "D_outer", "D_inner", "k_f", "roughness", "N_total", "vol_h", "R_ins", "W_parasitic"]) (es := es) (by
      simp only [List.forall_mem_cons, List.not_mem_nil, false_imp_iff, implies_true, and_true]
      exact ⟨h0.any, h1.any, h2.any, h3.any, h4.any, h5.any, h6.any, h7.any, h8.any, h9.any, h10.any⟩)
    have g0 := has_req hm (by simp) h0
    have g1 := has_req hm (by simp) h1
    have g2 := has_req hm (by simp) h2
    have g3 := has_req hm (by simp) h3
    have g4 := has_req hm (by simp) h4
    have g5 := has_req hm (by simp) h5
    have g6 := has_req hm (by simp) h6
    have g7 := has_req hm (by simp) h7
    have g8 := has_req hm (by simp) h8
    have g9 := has_req hm (by simp) h9
    have g10 := has_req hm (by simp) h10
    refine Option.bind_eq_some_iff.2 ⟨m, hm, ?_⟩
    refine Option.bind_eq_some_iff.2 ⟨_, g0, ?_⟩
    refine Option.bind_eq_some_iff.2 ⟨_, g1, ?_⟩
    refine Option.bind_eq_some_iff.2 ⟨_, g2, ?_⟩
    refine Option.bind_eq_some_iff.2 ⟨_, g3, ?_⟩
    refine Option.bind_eq_some_iff.2 ⟨_, g4, ?_⟩
    refine Option.bind_eq_some_iff.2 ⟨_, g5, ?_⟩
    refine Option.bind_eq_some_iff.2 ⟨_, g6, ?_⟩
    refine Option.bind_eq_some_iff.2 ⟨_, g7, ?_⟩
    refine Option.bind_eq_some_iff.2 ⟨_, g8, ?_⟩
    refine Option.bind_eq_some_iff.2 ⟨_, g9, ?_⟩
    refine Option.bind_eq_some_iff.2 ⟨_, g10, ?_⟩
    rfl

theorem read_fluid_LegacyFluidOption (buf s : Scalars α) (d : Doc α) (c : fluid.LegacyFluidOption) :
    fluid.LegacyFluidOption.read s d = some c ↔ Fits buf s (form_fluid_LegacyFluidOption c) d := by
  cases c <;> exact unit_iff s _ (by decide) (by simp) d

theorem read_fluid_ModelConfig (buf s : Scalars α) (d : Doc α) (c : fluid.ModelConfig) :
    fluid.ModelConfig.read d = some c ↔ Fits buf s (form_fluid_ModelConfig c) d := by
  unfold fluid.ModelConfig.read
  rw [snake_custom, snake_fit, snake_ideal, snake_refprop]
  cases c <;> exact internal_iff _ (by decide) (by simp) d

theorem read_fluid_Config (buf s : Scalars α) (d : Doc α) (c : fluid.Config) :
    fluid.Config.read s d = some c ↔ Fits buf s (form_fluid_Config c) d := by
  unfold fluid.Config.read
  rw [snake_h, snake_he]
  cases c with
  | Hydrogen c =>
    refine external_iff s _ (by distinct) (by listed) (fun v => ?_) (fun p hp hne v => ?_) d
    · rw [map_some_iff (by simp), read_fluid_ModelConfig buf s]
    · simp only [List.mem_cons, List.not_mem_nil, or_false] at hp
      rcases hp with rfl | rfl <;> first | exact absurd rfl hne | exact map_ne (by simp)
  | Helium c =>
    refine external_iff s _ (by distinct) (by listed) (fun v => ?_) (fun p hp hne v => ?_) d
    · rw [map_some_iff (by simp), read_fluid_ModelConfig buf s]
    · simp only [List.mem_cons, List.not_mem_nil, or_false] at hp
      rcases hp with rfl | rfl <;> first | exact absurd rfl hne | exact map_ne (by simp)

theorem read_legacyParams (buf s : Scalars α) (d : Doc α) (c : fluid.LegacyFluidOption) :
    fluid.legacyParams s d = some c ↔ Fits buf s (.entry "name" (form_fluid_LegacyFluidOption c) <| .table) d := by
  constructor
  · intro h
    obtain ⟨m, hm, h⟩ := Option.bind_eq_some_iff.1 h
    exact ⟨(req_has hm (by simp) h).mono fun v => (read_fluid_LegacyFluidOption buf s v _).1, slots_table hm⟩
  · rintro ⟨h0, ⟨es, rfl⟩⟩
    obtain ⟨m, hm⟩ := slots_of (fields := ["name"]) (es := es) (by simpa using h0.any)
    exact Option.bind_eq_some_iff.2 ⟨m, hm,
      has_req hm (by simp) (h0.mono fun v => (read_fluid_LegacyFluidOption buf s v _).2)⟩

theorem read_fluid_LegacyConfig (buf s : Scalars α) (d : Doc α) (c : fluid.LegacyConfig) :
    fluid.LegacyConfig.read buf s d = some c ↔ Fits buf s (form_fluid_LegacyConfig c) d := by
  unfold fluid.LegacyConfig.read
  cases c with
  | Hydrogen =>
    refine alone_iff buf s _ (by distinct) (by listed) (fun p hp hne c => ?_) d
    · simp only [List.mem_cons, List.not_mem_nil, or_false] at hp
      rcases hp with rfl | rfl | rfl <;> first | exact absurd rfl hne | exact content_ne (by simp) c
  | RealGasRefprop c =>
    refine adjacent_iff buf s _ (by distinct) (n := newtype _ fluid.legacyParams) (p := fun s v => Fits buf s (.entry "name" (form_fluid_LegacyFluidOption c) <| .table) v) (by listed) (fun t v => ?_) rfl (fun p hp hne c => ?_) d
    · rw [newtype, map_some_iff (by simp), read_legacyParams buf t]
    · simp only [List.mem_cons, List.not_mem_nil, or_false] at hp
      rcases hp with rfl | rfl | rfl <;> first | exact absurd rfl hne | exact content_ne (by simp) c | exact unit_ne (by simp) c
  | IdealGas c =>
    refine adjacent_iff buf s _ (by distinct) (n := newtype _ fluid.legacyParams) (p := fun s v => Fits buf s (.entry "name" (form_fluid_LegacyFluidOption c) <| .table) v) (by listed) (fun t v => ?_) rfl (fun p hp hne c => ?_) d
    · rw [newtype, map_some_iff (by simp), read_legacyParams buf t]
    · simp only [List.mem_cons, List.not_mem_nil, or_false] at hp
      rcases hp with rfl | rfl | rfl <;> first | exact absurd rfl hne | exact content_ne (by simp) c | exact unit_ne (by simp) c

theorem read_ws_Config (buf s : Scalars α) (d : Doc α) (c : ws.Config α) :
    ws.Config.read s d = some c ↔ Fits buf s (form_ws_Config c) d := by
  unfold ws.Config.read
  rw [snake_sin, snake_rho, snake_gpu, snake_mod]
  cases c with
  | Sinusoidal c =>
    refine external_iff s _ (by distinct) (by listed) (fun v => ?_) (fun p hp hne v => ?_) d
    · rw [map_some_iff (by simp), read_ws_SinusoidalDrive_Config buf s]
    · simp only [List.mem_cons, List.not_mem_nil, or_false] at hp
      rcases hp with rfl | rfl | rfl | rfl <;> first | exact absurd rfl hne | exact map_ne (by simp)
  | Rhombic c =>
    refine external_iff s _ (by distinct) (by listed) (fun v => ?_) (fun p hp hne v => ?_) d
    · rw [map_some_iff (by simp), read_ws_RhombicDrive_Config buf s]
    · simp only [List.mem_cons, List.not_mem_nil, or_false] at hp
      rcases hp with rfl | rfl | rfl | rfl <;> first | exact absurd rfl hne | exact map_ne (by simp)
  | GPU3 c =>
    refine external_iff s _ (by distinct) (by listed) (fun v => ?_) (fun p hp hne v => ?_) d
    · rw [map_some_iff (by simp), read_ws_GPU3_Config buf s]
    · simp only [List.mem_cons, List.not_mem_nil, or_false] at hp
      rcases hp with rfl | rfl | rfl | rfl <;> first | exact absurd rfl hne | exact map_ne (by simp)
  | Mod2 c =>
    refine external_iff s _ (by distinct) (by listed) (fun v => ?_) (fun p hp hne v => ?_) d
    · rw [map_some_iff (by simp), read_ws_Mod2_Config buf s]
    · simp only [List.mem_cons, List.not_mem_nil, or_false] at hp
      rcases hp with rfl | rfl | rfl | rfl <;> first | exact absurd rfl hne | exact map_ne (by simp)

theorem read_ws_LegacyConfig (buf s : Scalars α) (d : Doc α) (c : ws.LegacyConfig α) :
    ws.LegacyConfig.read buf s d = some c ↔ Fits buf s (form_ws_LegacyConfig c) d := by
  unfold ws.LegacyConfig.read
  cases c with
  | Sinusoidal c =>
    refine adjacent_iff buf s _ (by distinct) (n := newtype _ ws.SinusoidalDrive.Config.read) (p := fun s v => Fits buf s (form_ws_SinusoidalDrive_Config c) v) (by listed) (fun t v => ?_) rfl (fun p hp hne c => ?_) d
    · rw [newtype, map_some_iff (by simp), read_ws_SinusoidalDrive_Config buf t]
    · simp only [List.mem_cons, List.not_mem_nil, or_false] at hp
      rcases hp with rfl | rfl | rfl | rfl <;> first | exact absurd rfl hne | exact content_ne (by simp) c
  | Rhombic c =>
    refine adjacent_iff buf s _ (by distinct) (n := newtype _ ws.RhombicDrive.Config.read) (p := fun s v => Fits buf s (form_ws_RhombicDrive_Config c) v) (by listed) (fun t v => ?_) rfl (fun p hp hne c => ?_) d
    · rw [newtype, map_some_iff (by simp), read_ws_RhombicDrive_Config buf t]
    · simp only [List.mem_cons, List.not_mem_nil, or_false] at hp
      rcases hp with rfl | rfl | rfl | rfl <;> first | exact absurd rfl hne | exact content_ne (by simp) c
  | GPU3 c =>
    refine adjacent_iff buf s _ (by distinct) (n := newtype _ ws.GPU3.Config.read) (p := fun s v => Fits buf s (form_ws_GPU3_Config c) v) (by listed) (fun t v => ?_) rfl (fun p hp hne c => ?_) d
    · rw [newtype, map_some_iff (by simp), read_ws_GPU3_Config buf t]
    · simp only [List.mem_cons, List.not_mem_nil, or_false] at hp
      rcases hp with rfl | rfl | rfl | rfl <;> first | exact absurd rfl hne | exact content_ne (by simp) c
  | Mod2 c =>
    refine adjacent_iff buf s _ (by distinct) (n := newtype _ ws.Mod2.Config.read) (p := fun s v => Fits buf s (form_ws_Mod2_Config c) v) (by listed) (fun t v => ?_) rfl (fun p hp hne c => ?_) d
    · rw [newtype, map_some_iff (by simp), read_ws_Mod2_Config buf t]
    · simp only [List.mem_cons, List.not_mem_nil, or_false] at hp
      rcases hp with rfl | rfl | rfl | rfl <;> first | exact absurd rfl hne | exact content_ne (by simp) c

theorem read_chx_Config (buf s : Scalars α) (d : Doc α) (c : chx.Config α) :
    chx.Config.read s d = some c ↔ Fits buf s (form_chx_Config c) d := by
  unfold chx.Config.read
  rw [snake_fa, snake_fc, snake_gpu, snake_mod]
  cases c with
  | FixedApproach c =>
    refine external_iff s _ (by distinct) (by listed) (fun v => ?_) (fun p hp hne v => ?_) d
    · rw [map_some_iff (by simp), read_chx_FixedApproach_Config buf s]
    · simp only [List.mem_cons, List.not_mem_nil, or_false] at hp
      rcases hp with rfl | rfl | rfl | rfl <;> first | exact absurd rfl hne | exact map_ne (by simp)
  | FixedConductance c =>
    refine external_iff s _ (by distinct) (by listed) (fun v => ?_) (fun p hp hne v => ?_) d
    · rw [map_some_iff (by simp), read_chx_FixedConductance_Config buf s]
    · simp only [List.mem_cons, List.not_mem_nil, or_false] at hp
      rcases hp with rfl | rfl | rfl | rfl <;> first | exact absurd rfl hne | exact map_ne (by simp)
  | GPU3 c =>
    refine external_iff s _ (by distinct) (by listed) (fun v => ?_) (fun p hp hne v => ?_) d
    · rw [map_some_iff (by simp), read_chx_GPU3_Config buf s]
    · simp only [List.mem_cons, List.not_mem_nil, or_false] at hp
      rcases hp with rfl | rfl | rfl | rfl <;> first | exact absurd rfl hne | exact map_ne (by simp)
  | Mod2 c =>
    refine external_iff s _ (by distinct) (by listed) (fun v => ?_) (fun p hp hne v => ?_) d
    · rw [map_some_iff (by simp), read_chx_Mod2_Config buf s]
    · simp only [List.mem_cons, List.not_mem_nil, or_false] at hp
      rcases hp with rfl | rfl | rfl | rfl <;> first | exact absurd rfl hne | exact map_ne (by simp)

theorem read_chx_LegacyConfig (buf s : Scalars α) (d : Doc α) (c : chx.LegacyConfig α) :
    chx.LegacyConfig.read buf s d = some c ↔ Fits buf s (form_chx_LegacyConfig c) d := by
  unfold chx.LegacyConfig.read
  cases c with
  | FixedApproach c =>
    refine adjacent_iff buf s _ (by distinct) (n := newtype _ chx.FixedApproach.Config.read) (p := fun s v => Fits buf s (form_chx_FixedApproach_Config c) v) (by listed) (fun t v => ?_) rfl (fun p hp hne c => ?_) d
    · rw [newtype, map_some_iff (by simp), read_chx_FixedApproach_Config buf t]
    · simp only [List.mem_cons, List.not_mem_nil, or_false] at hp
      rcases hp with rfl | rfl | rfl | rfl <;> first | exact absurd rfl hne | exact content_ne (by simp) c
  | FixedConductance c =>
    refine adjacent_iff buf s _ (by distinct) (n := newtype _ chx.FixedConductance.Config.read) (p := fun s v => Fits buf s (form_chx_FixedConductance_Config c) v) (by listed) (fun t v => ?_) rfl (fun p hp hne c => ?_) d
    · rw [newtype, map_some_iff (by simp), read_chx_FixedConductance_Config buf t]
    · simp only [List.mem_cons, List.not_mem_nil, or_false] at hp
      rcases hp with rfl | rfl | rfl | rfl <;> first | exact absurd rfl hne | exact content_ne (by simp) c
  | GPU3 c =>
    refine adjacent_iff buf s _ (by distinct) (n := newtype _ chx.GPU3.Config.read) (p := fun s v => Fits buf s (form_chx_GPU3_Config c) v) (by listed) (fun t v => ?_) rfl (fun p hp hne c => ?_) d
    · rw [newtype, map_some_iff (by simp), read_chx_GPU3_Config buf t]
    · simp only [List.mem_cons, List.not_mem_nil, or_false] at hp
      rcases hp with rfl | rfl | rfl | rfl <;> first | exact absurd rfl hne | exact content_ne (by simp) c
  | Mod2 c =>
    refine adjacent_iff buf s _ (by distinct) (n := newtype _ chx.Mod2.Config.read) (p := fun s v => Fits buf s (form_chx_Mod2_Config c) v) (by listed) (fun t v => ?_) rfl (fun p hp hne c => ?_) d
    · rw [newtype, map_some_iff (by simp), read_chx_Mod2_Config buf t]
    · simp only [List.mem_cons, List.not_mem_nil, or_false] at hp
      rcases hp with rfl | rfl | rfl | rfl <;> first | exact absurd rfl hne | exact content_ne (by simp) c

theorem read_regen_Config (buf s : Scalars α) (d : Doc α) (c : regen.Config α) :
    regen.Config.read s d = some c ↔ Fits buf s (form_regen_Config c) d := by
  unfold regen.Config.read
  rw [snake_fa, snake_fc, snake_gpu, snake_mod]
  cases c with
  | FixedApproach c =>
    refine external_iff s _ (by distinct) (by listed) (fun v => ?_) (fun p hp hne v => ?_) d
    · rw [map_some_iff (by simp), read_regen_FixedApproach_Config buf s]
    · simp only [List.mem_cons, List.not_mem_nil, or_false] at hp
      rcases hp with rfl | rfl | rfl | rfl <;> first | exact absurd rfl hne | exact map_ne (by simp)
  | FixedConductance c =>
    refine external_iff s _ (by distinct) (by listed) (fun v => ?_) (fun p hp hne v => ?_) d
    · rw [map_some_iff (by simp), read_regen_FixedConductance_Config buf s]
    · simp only [List.mem_cons, List.not_mem_nil, or_false] at hp
      rcases hp with rfl | rfl | rfl | rfl <;> first | exact absurd rfl hne | exact map_ne (by simp)
  | GPU3 c =>
    refine external_iff s _ (by distinct) (by listed) (fun v => ?_) (fun p hp hne v => ?_) d
    · rw [map_some_iff (by simp), read_regen_GPU3_Config buf s]
    · simp only [List.mem_cons, List.not_mem_nil, or_false] at hp
      rcases hp with rfl | rfl | rfl | rfl <;> first | exact absurd rfl hne | exact map_ne (by simp)
  | Mod2 c =>
    refine external_iff s _ (by distinct) (by listed) (fun v => ?_) (fun p hp hne v => ?_) d
    · rw [map_some_iff (by simp), read_regen_Mod2_Config buf s]
    · simp only [List.mem_cons, List.not_mem_nil, or_false] at hp
      rcases hp with rfl | rfl | rfl | rfl <;> first | exact absurd rfl hne | exact map_ne (by simp)

theorem read_regen_LegacyConfig (buf s : Scalars α) (d : Doc α) (c : regen.LegacyConfig α) :
    regen.LegacyConfig.read buf s d = some c ↔ Fits buf s (form_regen_LegacyConfig c) d := by
  unfold regen.LegacyConfig.read
  cases c with
  | FixedApproach c =>
    refine adjacent_iff buf s _ (by distinct) (n := newtype _ regen.FixedApproach.Config.read) (p := fun s v => Fits buf s (form_regen_FixedApproach_Config c) v) (by listed) (fun t v => ?_) rfl (fun p hp hne c => ?_) d
    · rw [newtype, map_some_iff (by simp), read_regen_FixedApproach_Config buf t]
    · simp only [List.mem_cons, List.not_mem_nil, or_false] at hp
      rcases hp with rfl | rfl | rfl | rfl <;> first | exact absurd rfl hne | exact content_ne (by simp) c
  | FixedConductance c =>
    refine adjacent_iff buf s _ (by distinct) (n := newtype _ regen.FixedConductance.Config.read) (p := fun s v => Fits buf s (form_regen_FixedConductance_Config c) v) (by listed) (fun t v => ?_) rfl (fun p hp hne c => ?_) d
    · rw [newtype, map_some_iff (by simp), read_regen_FixedConductance_Config buf t]
    · simp only [List.mem_cons, List.not_mem_nil, or_false] at hp
      rcases hp with rfl | rfl | rfl | rfl <;> first | exact absurd rfl hne | exact content_ne (by simp) c
  | GPU3 c =>
    refine adjacent_iff buf s _ (by distinct) (n := newtype _ regen.GPU3.Config.read) (p := fun s v => Fits buf s (form_regen_GPU3_Config c) v) (by listed) (fun t v => ?_) rfl (fun p hp hne c => ?_) d
    · rw [newtype, map_some_iff (by simp), read_regen_GPU3_Config buf t]
    · simp only [List.mem_cons, List.not_mem_nil, or_false] at hp
      rcases hp with rfl | rfl | rfl | rfl <;> first | exact absurd rfl hne | exact content_ne (by simp) c
  | Mod2 c =>
    refine adjacent_iff buf s _ (by distinct) (n := newtype _ regen.Mod2.Config.read) (p := fun s v => Fits buf s (form_regen_Mod2_Config c) v) (by listed) (fun t v => ?_) rfl (fun p hp hne c => ?_) d
    · rw [newtype, map_some_iff (by simp), read_regen_Mod2_Config buf t]
    · simp only [List.mem_cons, List.not_mem_nil, or_false] at hp
      rcases hp with rfl | rfl | rfl | rfl <;> first | exact absurd rfl hne | exact content_ne (by simp) c

theorem read_hhx_Config (buf s : Scalars α) (d : Doc α) (c : hhx.Config α) :
    hhx.Config.read s d = some c ↔ Fits buf s (form_hhx_Config c) d := by
  unfold hhx.Config.read
  rw [snake_fa, snake_fc, snake_gpu, snake_mod, snake_gpuni, snake_modni]
  cases c with
  | FixedApproach c =>
    refine external_iff s _ (by distinct) (by listed) (fun v => ?_) (fun p hp hne v => ?_) d
    · rw [map_some_iff (by simp), read_hhx_FixedApproach_Config buf s]
    · simp only [List.mem_cons, List.not_mem_nil, or_false] at hp
      rcases hp with rfl | rfl | rfl | rfl | rfl | rfl <;> first | exact absurd rfl hne | exact map_ne (by simp)
  | FixedConductance c =>
    refine external_iff s _ (by distinct) (by listed) (fun v => ?_) (fun p hp hne v => ?_) d
    · rw [map_some_iff (by simp), read_hhx_FixedConductance_Config buf s]
    · simp only [List.mem_cons, List.not_mem_nil, or_false] at hp
      rcases hp with rfl | rfl | rfl | rfl | rfl | rfl <;> first | exact absurd rfl hne | exact map_ne (by simp)
  | GPU3 c =>
    refine external_iff s _ (by distinct) (by listed) (fun v => ?_) (fun p hp hne v => ?_) d
    · rw [map_some_iff (by simp), read_hhx_GPU3_Config buf s]
    · simp only [List.mem_cons, List.not_mem_nil, or_false] at hp
      rcases hp with rfl | rfl | rfl | rfl | rfl | rfl <;> first | exact absurd rfl hne | exact map_ne (by simp)
  | Mod2 c =>
    refine external_iff s _ (by distinct) (by listed) (fun v => ?_) (fun p hp hne v => ?_) d
    · rw [map_some_iff (by simp), read_hhx_Mod2_Config buf s]
    · simp only [List.mem_cons, List.not_mem_nil, or_false] at hp
      rcases hp with rfl | rfl | rfl | rfl | rfl | rfl <;> first | exact absurd rfl hne | exact map_ne (by simp)
  | GPU3NI c =>
    refine external_iff s _ (by distinct) (by listed) (fun v => ?_) (fun p hp hne v => ?_) d
    · rw [map_some_iff (by simp), read_hhx_NuclearIsomerGPU3_Config buf s]
    · simp only [List.mem_cons, List.not_mem_nil, or_false] at hp
      rcases hp with rfl | rfl | rfl | rfl | rfl | rfl <;> first | exact absurd rfl hne | exact map_ne (by simp)
  | Mod2NI c =>
    refine external_iff s _ (by distinct) (by listed) (fun v => ?_) (fun p hp hne v => ?_) d
    · rw [map_some_iff (by simp), read_hhx_NuclearIsomerMod2_Config buf s]
    · simp only [List.mem_cons, List.not_mem_nil, or_false] at hp
      rcases hp with rfl | rfl | rfl | rfl | rfl | rfl <;> first | exact absurd rfl hne | exact map_ne (by simp)

theorem read_hhx_LegacyConfig (buf s : Scalars α) (d : Doc α) (c : hhx.LegacyConfig α) :
    hhx.LegacyConfig.read buf s d = some c ↔ Fits buf s (form_hhx_LegacyConfig c) d := by
  unfold hhx.LegacyConfig.read
  cases c with
  | FixedApproach c =>
    refine adjacent_iff buf s _ (by distinct) (n := newtype _ hhx.FixedApproach.Config.read) (p := fun s v => Fits buf s (form_hhx_FixedApproach_Config c) v) (by listed) (fun t v => ?_) rfl (fun p hp hne c => ?_) d
    · rw [newtype, map_some_iff (by simp), read_hhx_FixedApproach_Config buf t]
    · simp only [List.mem_cons, List.not_mem_nil, or_false] at hp
      rcases hp with rfl | rfl | rfl | rfl | rfl | rfl <;> first | exact absurd rfl hne | exact content_ne (by simp) c
  | FixedConductance c =>
    refine adjacent_iff buf s _ (by distinct) (n := newtype _ hhx.FixedConductance.Config.read) (p := fun s v => Fits buf s (form_hhx_FixedConductance_Config c) v) (by listed) (fun t v => ?_) rfl (fun p hp hne c => ?_) d
    · rw [newtype, map_some_iff (by simp), read_hhx_FixedConductance_Config buf t]
    · simp only [List.mem_cons, List.not_mem_nil, or_false] at hp
      rcases hp with rfl | rfl | rfl | rfl | rfl | rfl <;> first | exact absurd rfl hne | exact content_ne (by simp) c
  | GPU3 c =>
    refine adjacent_iff buf s _ (by distinct) (n := newtype _ hhx.GPU3.Config.read) (p := fun s v => Fits buf s (form_hhx_GPU3_Config c) v) (by listed) (fun t v => ?_) rfl (fun p hp hne c => ?_) d
    · rw [newtype, map_some_iff (by simp), read_hhx_GPU3_Config buf t]
    · simp only [List.mem_cons, List.not_mem_nil, or_false] at hp
      rcases hp with rfl | rfl | rfl | rfl | rfl | rfl <;> first | exact absurd rfl hne | exact content_ne (by simp) c
  | Mod2 c =>
    refine adjacent_iff buf s _ (by distinct) (n := newtype _ hhx.Mod2.Config.read) (p := fun s v => Fits buf s (form_hhx_Mod2_Config c) v) (by listed) (fun t v => ?_) rfl (fun p hp hne c => ?_) d
    · rw [newtype, map_some_iff (by simp), read_hhx_Mod2_Config buf t]
    · simp only [List.mem_cons, List.not_mem_nil, or_false] at hp
      rcases hp with rfl | rfl | rfl | rfl | rfl | rfl <;> first | exact absurd rfl hne | exact content_ne (by simp) c
  | GPU3NI c =>
    refine adjacent_iff buf s _ (by distinct) (n := newtype _ hhx.NuclearIsomerGPU3.Config.read) (p := fun s v => Fits buf s (form_hhx_NuclearIsomerGPU3_Config c) v) (by listed) (fun t v => ?_) rfl (fun p hp hne c => ?_) d
    · rw [newtype, map_some_iff (by simp), read_hhx_NuclearIsomerGPU3_Config buf t]
    · simp only [List.mem_cons, List.not_mem_nil, or_false] at hp
      rcases hp with rfl | rfl | rfl | rfl | rfl | rfl <;> first | exact absurd rfl hne | exact content_ne (by simp) c
  | Mod2NI c =>
    refine adjacent_iff buf s _ (by distinct) (n := newtype _ hhx.NuclearIsomerMod2.Config.read) (p := fun s v => Fits buf s (form_hhx_NuclearIsomerMod2_Config c) v) (by listed) (fun t v => ?_) rfl (fun p hp hne c => ?_) d
    · rw [newtype, map_some_iff (by simp), read_hhx_NuclearIsomerMod2_Config buf t]
    · simp only [List.mem_cons, List.not_mem_nil, or_false] at hp
      rcases hp with rfl | rfl | rfl | rfl | rfl | rfl <;> first | exact absurd rfl hne | exact content_ne (by simp) c

theorem read_ComponentsConfig (buf s : Scalars α) (d : Doc α) (c : ComponentsConfig α) :
    ComponentsConfig.read s d = some c ↔ Fits buf s (form_ComponentsConfig c) d := by
  constructor
  · intro h
    obtain ⟨m, hm, h⟩ := Option.bind_eq_some_iff.1 h
    obtain ⟨x0, h0, h⟩ := Option.bind_eq_some_iff.1 h
    obtain ⟨x1, h1, h⟩ := Option.bind_eq_some_iff.1 h
    obtain ⟨x2, h2, h⟩ := Option.bind_eq_some_iff.1 h
    obtain ⟨x3, h3, h⟩ := Option.bind_eq_some_iff.1 h
    cases h
    exact ⟨(req_has hm (by simp) h0).mono fun v => (read_chx_Config buf s v _).1,
      (req_has hm (by simp) h1).mono fun v => (read_hhx_Config buf s v _).1,
      (req_has hm (by simp) h2).mono fun v => (read_regen_Config buf s v _).1,
      (req_has hm (by simp) h3).mono fun v => (read_ws_Config buf s v _).1,
      slots_table hm⟩
  · rintro ⟨h0, h1, h2, h3, ⟨es, rfl⟩⟩
    obtain ⟨m, hm⟩ := slots_of (fields := ["chx", "hhx", "regen", "ws"]) (es := es) (by
      simp only [List.forall_mem_cons, List.not_mem_nil, false_imp_iff, implies_true, and_true]
      exact ⟨h0.any, h1.any, h2.any, h3.any⟩)
    have g0 := has_req hm (by simp) (h0.mono fun v => (read_chx_Config buf s v _).2)
    have g1 := has_req hm (by simp) (h1.mono fun v => (read_hhx_Config buf s v _).2)
    have g2 := has_req hm (by simp) (h2.mono fun v => (read_regen_Config buf s v _).2)
    have g3 := has_req hm (by simp) (h3.mono fun v => (read_ws_Config buf s v _).2)
    refine Option.bind_eq_some_iff.2 ⟨m, hm, ?_⟩
    refine Option.bind_eq_some_iff.2 ⟨_, g0, ?_⟩
    refine Option.bind_eq_some_iff.2 ⟨_, g1, ?_⟩
    refine Option.bind_eq_some_iff.2 ⟨_, g2, ?_⟩
    refine Option.bind_eq_some_iff.2 ⟨_, g3, ?_⟩
    rfl

theorem read_EngineConfig (buf s : Scalars α) (d : Doc α) (c : EngineConfig α) :
    EngineConfig.read s d = some c ↔ Fits buf s (form_EngineConfig c) d := by
  constructor
  · intro h
    obtain ⟨m, hm, h⟩ := Option.bind_eq_some_iff.1 h
    obtain ⟨x0, h0, h⟩ := Option.bind_eq_some_iff.1 h
    obtain ⟨x1, h1, h⟩ := Option.bind_eq_some_iff.1 h
    cases h
    exact ⟨(req_has hm (by simp) h0).mono fun v => (read_fluid_Config buf s v _).1,
      (req_has hm (by simp) h1).mono fun v => (read_ComponentsConfig buf s v _).1,
      slots_table hm⟩
  · rintro ⟨h0, h1, ⟨es, rfl⟩⟩
    obtain ⟨m, hm⟩ := slots_of (fields := ["fluid", "components"]) (es := es) (by
      simp only [List.forall_mem_cons, List.not_mem_nil, false_imp_iff, implies_true, and_true]
      exact ⟨h0.any, h1.any⟩)
    have g0 := has_req hm (by simp) (h0.mono fun v => (read_fluid_Config buf s v _).2)
    have g1 := has_req hm (by simp) (h1.mono fun v => (read_ComponentsConfig buf s v _).2)
    refine Option.bind_eq_some_iff.2 ⟨m, hm, ?_⟩
    refine Option.bind_eq_some_iff.2 ⟨_, g0, ?_⟩
    refine Option.bind_eq_some_iff.2 ⟨_, g1, ?_⟩
    rfl

theorem read_Config (buf s : Scalars α) (d : Doc α) (c : Config α) :
    Config.read s d = some c ↔ Fits buf s (form_Config c) d := by
  constructor
  · intro h
    obtain ⟨m, hm, h⟩ := Option.bind_eq_some_iff.1 h
    obtain ⟨x0, h0, h⟩ := Option.bind_eq_some_iff.1 h
    obtain ⟨x1, h1, h⟩ := Option.bind_eq_some_iff.1 h
    obtain ⟨x2, h2, h⟩ := Option.bind_eq_some_iff.1 h
    cases h
    exact ⟨(req_has hm (by simp) h0).mono fun v => (read_EngineConfig buf s v _).1,
      (req_has hm (by simp) h1).mono fun v => (read_SolverConfig buf s v _).1,
      (req_has hm (by simp) h2).mono fun v => (read_ConditionsConfig buf s v _).1,
      slots_table hm⟩
  · rintro ⟨h0, h1, h2, ⟨es, rfl⟩⟩
    obtain ⟨m, hm⟩ := slots_of (fields := ["engine", "solver", "conditions"]) (es := es) (by
      simp only [List.forall_mem_cons, List.not_mem_nil, false_imp_iff, implies_true, and_true]
      exact ⟨h0.any, h1.any, h2.any⟩)
    have g0 := has_req hm (by simp) (h0.mono fun v => (read_EngineConfig buf s v _).2)
    have g1 := has_req hm (by simp) (h1.mono fun v => (read_SolverConfig buf s v _).2)
    have g2 := has_req hm (by simp) (h2.mono fun v => (read_ConditionsConfig buf s v _).2)
    refine Option.bind_eq_some_iff.2 ⟨m, hm, ?_⟩
    refine Option.bind_eq_some_iff.2 ⟨_, g0, ?_⟩
    refine Option.bind_eq_some_iff.2 ⟨_, g1, ?_⟩
    refine Option.bind_eq_some_iff.2 ⟨_, g2, ?_⟩
    rfl

theorem read_Legacy (buf s : Scalars α) (d : Doc α) (c : Legacy α) :
    Legacy.read buf s d = some c ↔ Fits buf s (form_Legacy c) d := by
  constructor
  · intro h
    obtain ⟨m, hm, h⟩ := Option.bind_eq_some_iff.1 h
    obtain ⟨x0, h0, h⟩ := Option.bind_eq_some_iff.1 h
    obtain ⟨x1, h1, h⟩ := Option.bind_eq_some_iff.1 h
    obtain ⟨x2, h2, h⟩ := Option.bind_eq_some_iff.1 h
    obtain ⟨x3, h3, h⟩ := Option.bind_eq_some_iff.1 h
    obtain ⟨x4, h4, h⟩ := Option.bind_eq_some_iff.1 h
    obtain ⟨x5, h5, h⟩ := Option.bind_eq_some_iff.1 h
    obtain ⟨x6, h6, h⟩ := Option.bind_eq_some_iff.1 h
    cases h
    exact ⟨(req_has hm (by simp) h0).mono fun v => (read_fluid_LegacyConfig buf s v _).1,
      (req_has hm (by simp) h1).mono fun v => (read_ws_LegacyConfig buf s v _).1,
      (req_has hm (by simp) h2).mono fun v => (read_chx_LegacyConfig buf s v _).1,
      (req_has hm (by simp) h3).mono fun v => (read_regen_LegacyConfig buf s v _).1,
      (req_has hm (by simp) h4).mono fun v => (read_hhx_LegacyConfig buf s v _).1,
      (req_has hm (by simp) h5).mono fun v => (read_LegacySolverConfig buf s v _).1,
      (req_has hm (by simp) h6).mono fun v => (read_LegacyConditionsConfig buf s v _).1,
      slots_table hm⟩
  · rintro ⟨h0, h1, h2, h3, h4, h5, h6, ⟨es, rfl⟩⟩
    obtain ⟨m, hm⟩ := slots_of (fields := ["fluid", "ws", "chx", "regen", "hhx", "solver", "conditions"]) (es := es) (by
      simp only [List.forall_mem_cons, List.not_mem_nil, false_imp_iff, implies_true, and_true]
      exact ⟨h0.any, h1.any, h2.any, h3.any, h4.any, h5.any, h6.any⟩)
    have g0 := has_req hm (by simp) (h0.mono fun v => (read_fluid_LegacyConfig buf s v _).2)
    have g1 := has_req hm (by simp) (h1.mono fun v => (read_ws_LegacyConfig buf s v _).2)
    have g2 := has_req hm (by simp) (h2.mono fun v => (read_chx_LegacyConfig buf s v _).2)
    have g3 := has_req hm (by simp) (h3.mono fun v => (read_regen_LegacyConfig buf s v _).2)
    have g4 := has_req hm (by simp) (h4.mono fun v => (read_hhx_LegacyConfig buf s v _).2)
    have g5 := has_req hm (by simp) (h5.mono fun v => (read_LegacySolverConfig buf s v _).2)
    have g6 := has_req hm (by simp) (h6.mono fun v => (read_LegacyConditionsConfig buf s v _).2)
    refine Option.bind_eq_some_iff.2 ⟨m, hm, ?_⟩
    refine Option.bind_eq_some_iff.2 ⟨_, g0, ?_⟩
    refine Option.bind_eq_some_iff.2 ⟨_, g1, ?_⟩
    refine Option.bind_eq_some_iff.2 ⟨_, g2, ?_⟩
    refine Option.bind_eq_some_iff.2 ⟨_, g3, ?_⟩
    refine Option.bind_eq_some_iff.2 ⟨_, g4, ?_⟩
    refine Option.bind_eq_some_iff.2 ⟨_, g5, ?_⟩
    refine Option.bind_eq_some_iff.2 ⟨_, g6, ?_⟩
    rfl

end Sett
