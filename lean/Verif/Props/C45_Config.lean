import Verif.Props.C30_C33_Xml
import Verif.Props.C48_C49_Typed
import Verif.Run.ConfigData
/-
Property theorems C45: the configuration of stfx itself.  `configProg` is the code of
/repo/src/configuration/structs.cpp (`config_text`), generated from config_data.h (`config_generated`).
-/
set_option autoImplicit false
namespace Stfx.Run
open Stfx.Items Stfx.Parser Stfx.Gen Stfx.Lexer

/-- The configuration comes back: it can be written, and reading the file into a default `config` gives it.
(Specification notion, models no code.) -/
def ConfigKept (L : Lib) (delta : Bool) (c : Main.Config) : Prop :=
  ∃ root, writeFile configData.table L configProg delta c!"config" (configVal c) = .ok root ∧
    loadConfig L (loadSaved L root) = .loaded c

/-- C45 as stated: every configuration.  (Specification notion, models no code.) -/
def C45_AsStated (L : Lib) (delta : Bool) : Prop :=
  ∀ c : Main.Config, (∀ t ∈ configTypes c, inSigned 32 t) → ConfigKept L delta c

theorem configKept_of {L : Lib} {delta : Bool} {c : Main.Config}
    (h : FileGives configData.table L configProg delta c!"config" (configVal c) (configData.table.dflt c!"config") (configVal c)) :
    ConfigKept L delta c := by
  unfold FileGives writeRead at h
  rw [R.bind_eq_ok] at h
  obtain ⟨root, h1, h2⟩ := h
  refine ⟨root, h1, ?_⟩
  unfold loadConfig
  rw [show configVal emptyConfig = configData.table.dflt c!"config" from rfl, h2]
  dsimp only
  rw [configOf_back]

theorem configKept_fits (L : Lib) : OnStrings (fun ty _ v => Fits L ty v) (fun s => '\x00' ∉ s ∧ '\r' ∉ s) :=
  ⟨fun _ _ _ _ => Iff.rfl, fun _ _ => trivial, fun _ _ _ => trivial⟩

/-- C45 for full files, for strings without NUL and carriage return. -/
theorem C45_full_partial {L : Lib} (hL : 6 ≤ L.maxDepth) {c : Main.Config} (ht : ∀ t ∈ configTypes c, inSigned 32 t)
    (hs : ∀ s ∈ configStrings c, '\x00' ∉ s ∧ '\r' ∉ s) : ConfigKept L false c :=
  configKept_of (C30_attrib_full_default_partial config_generated rfl config_compiled config_top (config_wt ht)
    (Nat.le_trans (config_nesting c) hL)
    (((config_leaves (configKept_fits L) c (configData.table.dflt c!"config")).2 hs).leaves config_compiled.good))

theorem configKept_delta (L : Lib) : OnStrings (KeptDelta L .attrib) (fun s => '\x00' ∉ s ∧ '\r' ∉ s) := by
  refine ⟨fun d s h1 h2 => ⟨fun h => ?_, fun h => ⟨by simp, ?_, fun _ => ⟨h, fun h => by cases h⟩⟩⟩, fun a b => ⟨by simp, ?_, fun _ => ⟨trivial, trivial⟩⟩,
    fun n i j => ⟨by simp, ?_, fun _ => ⟨trivial, trivial⟩⟩⟩
  · by_cases he : s = d
    · exact he ▸ ⟨h1, h2⟩
    · exact (h.written (by simp [CppEqual, he])).1
  · intro he
    simp only [CppEqual] at he
    refine ⟨by rw [he], ?_⟩
    rintro ⟨_, h | h | h | h⟩ <;> cases h
  · intro he
    simp only [CppEqual] at he
    refine ⟨by rw [he], ?_⟩
    rintro ⟨_, h | h | h | h⟩ <;> cases h
  · intro he
    simp only [CppEqual] at he
    exact ⟨by rw [he], id⟩

/-- C45 for delta files, with the same restriction. -/
theorem C45_delta_partial {L : Lib} (hL : 6 ≤ L.maxDepth) {c : Main.Config} (ht : ∀ t ∈ configTypes c, inSigned 32 t)
    (hs : ∀ s ∈ configStrings c, '\x00' ∉ s ∧ '\r' ∉ s) : ConfigKept L true c :=
  configKept_of (C31_attrib_delta_partial config_generated rfl rfl config_compiled config_noInits config_top (config_wt ht)
    (Nat.le_trans (config_nesting c) hL)
    ((config_leaves (configKept_delta L) c _).2 hs))

/-- A configuration with two groups.  (Example, models no code.) -/
def someConfig : Main.Config where
  commonIn := [c!"common.h", c!"a b\n\"<&.h"]
  commonOut := { Main.OutSpec.default with dir := c!"out", structsFile := c!"common" }
  nonCommon := [([c!"x.h"], { Main.OutSpec.default with enumFile := c!"none", fileType := 3, onlyRead := true }),
    ([], { Main.OutSpec.default with readerClass := [], fileType := -7, noDelta := true })]

/-- Non-vacuity. -/
example : ConfigKept someLib false someConfig := C45_full_partial (by decide) (by decide +kernel) (by decide +kernel)
example : ConfigKept someLib true someConfig := C45_delta_partial (by decide) (by decide +kernel) (by decide +kernel)
/-- Part of the delta file of that example. -/
example : (writeFile configData.table someLib configProg true c!"config" (configVal someConfig) >>= fun r =>
    .ok (r.kids.take 2)) = .ok [
      .elem c!"common_in_files" [] [.elem c!"input" [] [.elem c!"input_file" [(c!"name", c!"common.h")] [],
        .elem c!"input_file" [(c!"name", c!"a b\n\"<&.h")] []]],
      .elem c!"common_out_files" [(c!"relative_directory", c!"out"), (c!"structs_file", c!"common")] []] := by decide +kernel

/-- What is missing from C45: a configuration with a file name containing a carriage return comes back with another
name. -/
theorem C45_refuted : ¬ C45_AsStated someLib false ∧ ¬ C45_AsStated someLib true := by
  have key : ∀ delta, ¬ ConfigKept someLib delta ⟨[c!"a\r.h"], Main.OutSpec.default, []⟩ := by
    rintro delta ⟨root, h1, h2⟩
    have e : (writeFile configData.table someLib configProg delta c!"config" (configVal ⟨[c!"a\r.h"], Main.OutSpec.default, []⟩) >>=
        fun r => R.ok (loadConfig someLib (loadSaved someLib r))) = .ok (.loaded ⟨[c!"a\n.h"], Main.OutSpec.default, []⟩) := by
      cases delta <;> decide +kernel
    rw [h1, R.ok_bind, h2] at e
    revert e
    decide
  exact ⟨fun h => key false (h _ (by decide)), fun h => key true (h _ (by decide))⟩

theorem Leaves.toD {T : CTable} (hg : T.Good) {P : MTy → Val → Prop} {ty : MTy} {v : Val} (h : Leaves T P ty v) (d : Val) :
    LeavesD T (fun ty _ v => P ty v) ty d v := by
  induction h generalizing d with
  | leaf hl hp => exact .leaf hl hp
  | struct hc _ ih => exact .struct hc (hg.dflt _ _ hc) fun m hm d' v' _ hv => ih m hm v' hv d'
  | vec _ ih => exact .vec fun v hv => ih v hv _

/-- What reading any file gives. -/
theorem config_read {L : Lib} (hL : L.Bits) (d : Doc) :
    readFile configData.table L configProg c!"config" d (configVal emptyConfig) = .ub ∨
      ∃ c, readFile configData.table L configProg c!"config" d (configVal emptyConfig) = .ok (d.loads, configVal c) ∧
        (∀ t ∈ configTypes c, inSigned 32 t) := by
  rcases C48_typed config_generated (Or.inr rfl) config_compiled (CData.enumInts (by decide +kernel)) hL
    (CData.defined (u := false) (by decide +kernel)) config_top (config_wt (c := emptyConfig) (by decide)) d with h | ⟨w, h, hw, _⟩
  · exact Or.inl h
  · obtain ⟨c, rfl, hc⟩ := config_inv hw
    exact Or.inr ⟨c, h, hc⟩

/-- Whatever the .stfx file contains: a file that is not well-formed is refused; any other one is a configuration, unless
it has no root element or contains a number that does not fit. -/
theorem C45_load {L : Lib} (hL : L.Bits) (d : Doc) :
    (d.loads = false → loadConfig L d = .failed) ∧
    (d.loads = true → loadConfig L d = .ub ∨ ∃ c, loadConfig L d = .loaded c ∧ ∀ t ∈ configTypes c, inSigned 32 t) ∧
    (d.loads = true → d.rootless = false → (∀ s ∈ d.texts, toInt s ≠ .ub ∧ toUnsigned s ≠ .ub) → ∃ c, loadConfig L d = .loaded c) := by
  have key : ∀ c, readFile configData.table L configProg c!"config" d (configVal emptyConfig) = .ok (true, configVal c) →
      loadConfig L d = .loaded c := by
    intro c h
    unfold loadConfig
    rw [h]
    dsimp only
    rw [configOf_back]
  refine ⟨?_, ?_, ?_⟩
  · intro h
    cases d with
    | ok ks => cases h
    | error =>
      unfold loadConfig readFile
      rw [if_pos (by decide +kernel)]
  · intro h
    rcases config_read hL d with h' | ⟨c, h', hc⟩
    · left
      unfold loadConfig
      rw [h']
    · rw [h] at h'
      exact Or.inr ⟨c, key c h', hc⟩
  · intro h hr hs
    have hS : ∀ n e val, configData.table.enm n = some (e, val) → ∀ s, sToE e val s ≠ .ub := by
      intro n e val he s hu
      have hcl : e.isClass = true := by
        have := List.all_eq_true.1 (show (configData.enm.all fun p => p.2.1.isClass) = true by decide)
        simp only [CData.table, Option.map_eq_some_iff] at he
        obtain ⟨q, hq, he⟩ := he
        injection he with h1 _
        subst h1
        exact this _ (mem_of_lookup hq)
      unfold sToE at hu
      split at hu
      · cases hu
      · split at hu
        · cases hu
        · rename_i i hi
          unfold holds at hu
          rw [if_pos hcl] at hu
          unfold stoSigned at hi
          split at hi
          · cases hi
          · rename_i neg m _
            dsimp only at hi
            generalize (if neg = true then -(m : Int) else m) = j at hi
            split at hi
            · rename_i hr
              injection hi with hi
              subst hi
              simp [hr] at hu
            · cases hi
    obtain ⟨w, h', hw, _⟩ := C49_defined_partial config_generated (Or.inr rfl) config_compiled (CData.enumInts (by decide +kernel)) hL
      (CData.noLocals (by decide +kernel)) (CData.defined (u := false) (by decide +kernel)) config_top
      (config_wt (c := emptyConfig) (by decide)) hr (fun s hm => ⟨(hs s hm).1, (hs s hm).2, fun n e val he => hS n e val he s⟩)
    obtain ⟨c, rfl, _⟩ := config_inv hw
    rw [h] at h'
    exact ⟨c, key c h'⟩

/-- Non-vacuity: a file that is not what the writer writes. -/
example : ∃ c, loadConfig someLib (.ok [.comment, .elem c!"stfx" [(c!"version", c!"2")] [
    .elem c!"non_common" [] [.text c!"zzz", .elem c!"group" [] [.elem c!"out" [(c!"file_type", c!"99"), (c!"only_read_code", c!"7")] []]]]]) =
    .loaded c := by
  refine (C45_load someLib_bits _).2.2 rfl rfl ?_
  intro s hs
  have : s ∈ [c!"2", c!"zzz", c!"99", c!"7"] := by simpa [Doc.texts, textsL, texts] using hs
  have h := List.all_eq_true.1 (show ([c!"2", c!"zzz", c!"99", c!"7"].all fun s =>
    decide (toInt s ≠ .ub) && decide (toUnsigned s ≠ .ub)) = true by decide +kernel) s this
  simpa using h
/-- What it is. -/
example : loadConfig someLib (.ok [.comment, .elem c!"stfx" [(c!"version", c!"2")] [
    .elem c!"non_common" [] [.text c!"zzz", .elem c!"group" [] [.elem c!"out" [(c!"file_type", c!"99"), (c!"only_read_code", c!"7")] []]]]]) =
    .loaded ⟨[], Main.OutSpec.default, [([], { Main.OutSpec.default with fileType := 99, onlyRead := true })]⟩ := by decide +kernel

/-- The restriction of the partial theorems is exactly what is needed. -/
theorem C45_exact_partial {L : Lib} (hs : L.Sane) (hb : L.Bits) (hL : 6 ≤ L.maxDepth) {c : Main.Config}
    (ht : ∀ t ∈ configTypes c, inSigned 32 t) (delta : Bool) :
    ConfigKept L delta c ↔ ∀ s ∈ configStrings c, '\x00' ∉ s ∧ '\r' ∉ s := by
  constructor
  · rintro ⟨root, h1, h2⟩
    have hg : FileGives configData.table L configProg delta c!"config" (configVal c) (configData.table.dflt c!"config") (configVal c) := by
      unfold FileGives writeRead
      rw [h1, R.ok_bind]
      unfold loadConfig at h2
      rw [show configData.table.dflt c!"config" = configVal emptyConfig from rfl]
      rcases config_read hb (loadSaved L root) with h | ⟨c', h, _⟩
      · rw [h] at h2; cases h2
      · rw [h] at h2 ⊢
        cases hl : (loadSaved L root).loads with
        | false => rw [hl] at h2; cases h2
        | true =>
          rw [hl] at h2
          dsimp only at h2
          rw [configOf_back] at h2
          rw [Main.LoadRes.loaded.inj h2]
    cases delta with
    | false =>
      have := (C30_exact_partial hs config_generated rfl config_compiled config_top (Or.inl rfl) (config_wt ht)
        (Nat.le_trans (config_nesting c) hL) (config_compiled.good.wt _ _ rfl)
        (config_compiled.freshDefaults _ _ rfl)).1 hg
      exact (config_leaves (configKept_fits L) c .undef).1 (this.toD config_compiled.good _)
    | true =>
      have := (C31_exact_partial hs config_generated rfl rfl config_compiled config_noInits config_top (config_wt ht)
        (Nat.le_trans (config_nesting c) hL)).1 hg
      exact (config_leaves (configKept_delta L) c _).1 this
  · intro h
    cases delta with
    | false => exact C45_full_partial hL ht h
    | true => exact C45_delta_partial hL ht h

end Stfx.Run
