import Verif.Proofs.DocumentForm
import Verif.Model.Texts
import Verif.Proofs.Lits
import Mathlib.Tactic.NormNum

/-! # C78, C79: a configuration document says what is run -/

namespace Sett

open Spec

variable {α : Type}

/-- C78: a document is read as `c` if and only if it says `c` in the names and the shape of the specification. -/
theorem C78_document (s : Scalars α) (d : Doc α) (c : Config α) :
    Config.read s d = some c ↔ Fits s s (form_Config c) d := read_Config s s d c

/-- C78, legacy documents. -/
theorem C78_legacy_document (buf s : Scalars α) (d : Doc α) (c : Legacy α) :
    Legacy.read buf s d = some c ↔ Fits buf s (form_Legacy c) d := read_Legacy buf s d c

/-- C78: every configuration can be written, and is read back. -/
theorem C78_round_trip (s : Scalars α) (h : ReadsNumbers s) (c : Config α) :
    Config.read s (form_Config c).doc = some c :=
  (C78_document s _ c).2 (fits_doc s s h _ (ok_Config c))

/-- C78: every legacy configuration can be written, and is read back. -/
theorem C78_legacy_round_trip (buf s : Scalars α) (h : ReadsNumbers s) (c : Legacy α) :
    Legacy.read buf s (form_Legacy c).doc = some c :=
  (C78_legacy_document buf s _ c).2 (fits_doc buf s h _ (ok_Legacy c))

theorem option_ext {β : Type} {a b : Option β} (h : ∀ x, a = some x ↔ b = some x) : a = b := by
  cases a with
  | none => cases b with
    | none => rfl
    | some y => exact absurd ((h y).2 rfl) (by simp)
  | some x => exact ((h x).1 rfl).symm

theorem has_skip {a b : List (String × Doc α)} {k : String} {v : Doc α} {k' : String} (hk : k ≠ k')
    (p : Doc α → Prop) : Has (.table (a ++ (k, v) :: b)) k' p ↔ Has (.table (a ++ b)) k' p := by
  constructor
  · rintro ⟨es, u, he, hu, hp⟩
    cases he
    exact ⟨_, u, rfl, by simpa [hk] using hu, hp⟩
  · rintro ⟨es, u, he, hu, hp⟩
    cases he
    exact ⟨_, u, rfl, by simpa [hk] using hu, hp⟩

/-- C78: a key the configuration does not know changes nothing. -/
theorem C78_unknown_ignored (s : Scalars α) (a b : List (String × Doc α)) (k : String) (v : Doc α)
    (hk : k ∉ ["engine", "solver", "conditions"]) :
    Config.read s (.table (a ++ (k, v) :: b)) = Config.read s (.table (a ++ b)) := by
  simp only [List.mem_cons, List.not_mem_nil, or_false, not_or] at hk
  refine option_ext fun c => ?_
  rw [C78_document, C78_document]
  simp only [form_Config, Fits, has_skip hk.1, has_skip hk.2.1, has_skip hk.2.2, Doc.table.injEq, exists_eq']

/-- C78: without exactly one entry for each of its sections, a document is rejected. -/
theorem C78_sections (s : Scalars α) (es : List (String × Doc α)) (k : String)
    (hk : k ∈ ["engine", "solver", "conditions"]) (h : (es.filter fun e => e.1 = k).length ≠ 1) :
    Config.read s (.table es) = none := by
  cases hc : Config.read s (.table es) with
  | none => rfl
  | some c =>
    have hf := (C78_document s _ c).1 hc
    have key : ∀ p, ¬ Has (.table es) k p := by
      rintro p ⟨es', v, he, hv, -⟩
      cases he
      exact h (by rw [hv]; rfl)
    simp only [form_Config, Fits] at hf
    simp only [List.mem_cons, List.not_mem_nil, or_false] at hk
    rcases hk with rfl | rfl | rfl
    · exact absurd hf.1 (key _)
    · exact absurd hf.2.1 (key _)
    · exact absurd hf.2.2.1 (key _)

/-- C79: the order of the keys of a document does not matter. -/
theorem C79_order (s : Scalars α) (hs : NoTables s) {d e : Doc α} (h : Reordered d e) :
    Config.read s d = Config.read s e := by
  refine option_ext fun c => ?_
  rw [C78_document, C78_document]
  exact ⟨fits_reordered hs h _, fits_reordered hs h.symm _⟩

/-- C79: nor that of a legacy document, if serde's buffer reads scalars as the format does. -/
theorem C79_legacy_order (s : Scalars α) (hs : NoTables s) {d e : Doc α} (h : Reordered d e) :
    Legacy.read s s d = Legacy.read s s e := by
  refine option_ext fun c => ?_
  rw [C78_legacy_document, C78_legacy_document]
  exact ⟨fits_reordered hs h _, fits_reordered hs h.symm _⟩

/-- C79: if the buffer only reads less, the order decides at most whether a legacy document is accepted, not what it
means. -/
theorem C79_legacy_meaning (buf s : Scalars α) (hs : NoTables s) (hb : Weaker buf s) {d e : Doc α}
    (h : Reordered d e) {c c' : Legacy α} (hc : Legacy.read buf s d = some c) (hc' : Legacy.read buf s e = some c') :
    c = c' := by
  have lift : ∀ (d : Doc α) (c : Legacy α), Legacy.read buf s d = some c → Legacy.read s s d = some c := fun d c hc =>
    (C78_legacy_document s s d c).2
      (fits_weaken hb _ s d ⟨fun _ _ => id, fun _ _ => id, id⟩ ((C78_legacy_document buf s d c).1 hc))
  have h1 := lift d c hc
  have h2 := lift e c' hc'
  rw [C79_legacy_order s hs h, h2] at h1
  exact (Option.some.inj h1).symm

/-- What the documents in `examples/` rely on: numbers, whole numbers, and `"inf"` as text. -/
structure Spec.ReadsExamples [Scalar α] [HasInfinity α] (s : Scalars α) : Prop where
  real : ∀ x, s.float (.real x) = some x
  whole : ∀ n : ℕ, s.float (.int n) = some (OfScientific.ofScientific (10 * n) true 1)
  inf : s.float (.text "inf") = some HasInfinity.infinity
  nat : ∀ n : UInt32, s.uint (.int n.toNat) = some n

/-- C78: the document of `examples/run_from_config.rs` is read as the configuration it describes. -/
theorem C78_example [Scalar α] [HasInfinity α] (s : Scalars α) (h : ReadsExamples s) :
    Config.read s examples.configDoc = some examples.config := by
  rw [C78_document]
  have h0 : s.float (.int 0) = some 0.0 := h.whole 0
  have h10 : s.float (.int 10) = some 10.0 := h.whole 10
  have h40 : s.float (.int 40) = some 40.0 := h.whole 40
  have h70 : s.float (.int 70) = some 70.0 := h.whole 70
  have h90 : s.float (.int 90) = some 90.0 := h.whole 90
  have h100 : s.float (.int 100) = some 100.0 := h.whole 100
  have h300 : s.float (.int 300) = some 300.0 := h.whole 300
  have h500 : s.float (.int 500) = some 500.0 := h.whole 500
  have n20 : s.uint (.int 20) = some 20 := h.nat 20
  have n30 : s.uint (.int 30) = some 30 := h.nat 30
  simp [examples.configDoc, examples.config, form_Config, form_EngineConfig, form_ComponentsConfig, form_SolverConfig,
    form_ConditionsConfig, form_InnerLoopConfig, form_OuterLoopConfig, form_OdeConfig, form_ToleranceConfig,
    form_fluid_Config, form_fluid_ModelConfig, form_chx_Config, form_hhx_Config, form_regen_Config, form_ws_Config,
    form_chx_FixedApproach_Config, form_hhx_FixedApproach_Config, form_regen_FixedApproach_Config,
    form_ws_SinusoidalDrive_Config, Fits, Has, SameName, h.real, h0, h10, h40, h70, h90, h100, h300, h500, n20, n30]

/-- C78: the document of `examples/run_from_legacy_config.rs` is read as the configuration it describes, with its keys
in the order in which they are written. -/
theorem C78_legacy_example [Scalar α] [HasInfinity α] (buf s : Scalars α) (h : ReadsExamples s) :
    Legacy.read buf s examples.legacyDoc = some examples.legacy := by
  rw [C78_legacy_document]
  have h0 : s.float (.int 0) = some 0.0 := h.whole 0
  have h10 : s.float (.int 10) = some 10.0 := h.whole 10
  have h40 : s.float (.int 40) = some 40.0 := h.whole 40
  have h70 : s.float (.int 70) = some 70.0 := h.whole 70
  have h90 : s.float (.int 90) = some 90.0 := h.whole 90
  have h100 : s.float (.int 100) = some 100.0 := h.whole 100
  have h300 : s.float (.int 300) = some 300.0 := h.whole 300
  have h500 : s.float (.int 500) = some 500.0 := h.whole 500
  have n30 : s.uint (.int 30) = some 30 := h.nat 30
  simp [examples.legacyDoc, examples.legacyWith, examples.legacyWs, examples.legacy, form_Legacy,
    form_LegacySolverConfig, form_LegacyConditionsConfig, form_ToleranceConfig, form_LegacyOdeSolver,
    form_fluid_LegacyConfig, form_fluid_LegacyFluidOption, form_chx_LegacyConfig, form_hhx_LegacyConfig,
    form_regen_LegacyConfig, form_ws_LegacyConfig, form_chx_FixedApproach_Config, form_hhx_FixedApproach_Config,
    form_regen_FixedApproach_Config, form_ws_SinusoidalDrive_Config, Fits, Has, pair, SameName, h.real, h.inf, h0, h10,
    h40, h70, h90, h100, h300, h500, n30]

/-- C79, the counterexample: the same document with the two keys of `ws` exchanged is rejected, because serde's buffer
does not read a number from the text `"inf"`.  A parser that keeps tables in hash maps, as `config` 0.13 does without
its `preserve_order` feature, may present the keys in either order. -/
theorem C79_legacy_example [Scalar α] [HasInfinity α] (s : Scalars α) (h : ReadsExamples s) :
    Reordered (α := α) examples.legacyDoc examples.legacySwapped ∧
    Legacy.read (.buffer α) s examples.legacyDoc = some examples.legacy ∧
    Legacy.read (.buffer α) s examples.legacySwapped = none := by
  refine ⟨.inside [_] _ "ws" (.perm (List.Perm.swap _ _ _)), C78_legacy_example _ s h, ?_⟩
  cases hc : Legacy.read (.buffer α) s examples.legacySwapped with
  | none => rfl
  | some c =>
    rw [C78_legacy_document] at hc
    obtain ⟨-, ⟨es, v, he, hv, hf⟩, -⟩ := hc
    cases he
    have hv' : v = .table [("params", examples.legacyWs), ("model", .text "Sinusoidal")] := by
      simpa using hv.symm
    subst hv'
    cases hw : c.ws with
    | Sinusoidal w =>
      rw [hw] at hf
      obtain ⟨es, v, he, hf | hf⟩ := hf <;> cases he
      · simp [pair] at hf
      · obtain ⟨hp, hf⟩ := hf
        have hv' : v = examples.legacyWs := by simpa [pair] using hp.symm
        subst hv'
        obtain ⟨-, -, -, -, ⟨es, v, he, hv, hf⟩, -⟩ := hf
        cases he
        have hv' : v = .text "inf" := by simpa using hv.symm
        subst hv'
        simp [Fits, Scalars.buffer] at hf
    | _ =>
      rw [hw] at hf
      simp [form_ws_LegacyConfig, Fits, pair] at hf

section Cases

/-- A format to which the above applies. -/
noncomputable def DocumentExample.format [HasInfinity ℝ] : Scalars ℝ :=
  .lenient ℝ true (fun t => if t = "inf" then some HasInfinity.infinity else none) fun _ => none

open DocumentExample

theorem DocumentExample.reads [HasInfinity ℝ] : ReadsNumbers format :=
  ⟨fun _ => rfl, fun n => by
    have := n.toNat_lt
    simp only [format, Scalars.lenient, Scalars.buffer]
    rw [if_pos (by constructor <;> omega)]
    simp⟩

theorem DocumentExample.readsExamples [HasInfinity ℝ] : ReadsExamples format where
  real _ := rfl
  whole n := by
    simp only [format, Scalars.lenient, Scalars.buffer]
    rw [if_neg (by omega)]
    simp only [Int.natAbs_natCast, real_ofNat, Option.some.injEq]
    have h := NNRatCast.ofScientific_eq_ite (K := ℝ) (10 * n) true 1
    rw [if_pos rfl] at h
    refine Eq.trans ?_ h.symm
    rw [NNRat.cast_divNat_of_ne_zero] <;> norm_num
  inf := rfl
  nat := reads.nat

-- C78: the example configuration, written plainly, is read back; so is the legacy one
example [HasInfinity ℝ] : Config.read format (form_Config examples.config).doc = some examples.config :=
  C78_round_trip _ reads _
example [HasInfinity ℝ] : Legacy.read (.buffer ℝ) format (form_Legacy examples.legacy).doc = some examples.legacy :=
  C78_legacy_round_trip _ _ reads _
-- C78: a comment in the document is ignored; a misspelled section is not
example [HasInfinity ℝ] (es : List (String × Doc ℝ)) (he : examples.configDoc = .table es) :
    Config.read format (.table (("comment", .text "as built") :: es)) = some examples.config := by
  rw [← C78_example _ readsExamples, he]
  exact C78_unknown_ignored format [] es "comment" _ (by simp)
example (s : Scalars ℝ) : Config.read s (.table [("engine", .null), ("solvers", .null), ("conditions", .null)]) = none :=
  C78_sections s _ "solver" (by simp) (by simp)
-- C79: two tables in either order
example (s : Scalars ℝ) (hs : NoTables s) (a b : Doc ℝ) :
    Config.read s (.table [("solver", a), ("engine", b)]) = Config.read s (.table [("engine", b), ("solver", a)]) :=
  C79_order s hs (.perm (List.Perm.swap _ _ _))
-- C79: the shipped legacy example is accepted in one order only, and a format such as the above exists
example [HasInfinity ℝ] : Legacy.read (.buffer ℝ) format examples.legacySwapped = none :=
  (C79_legacy_example format readsExamples).2.2
example [HasInfinity ℝ] : NoTables format := ⟨fun _ => rfl, fun _ => rfl⟩

example [HasInfinity ℝ] : Weaker (.buffer ℝ) format :=
  ⟨fun d x h => by cases d <;> simp_all [format, Scalars.lenient, Scalars.buffer],
   fun d x h => by cases d <;> simp_all [format, Scalars.lenient, Scalars.buffer], by simp [Scalars.buffer]⟩

end Cases

end Sett
