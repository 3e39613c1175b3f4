import Verif.Cpp.HeaderText
import Verif.Props.C59_Syntax
import Verif.Cpp.UnitGen
/-
C71: what a compiler sees when it compiles a generated .cpp file.
-/
set_option autoImplicit false
set_option maxRecDepth 4000
namespace Stfx.Cpp
open Stfx.Gen Stfx.Parser Stfx.Items

/-! ### The files -/

theorem Plain.noNewline {a : Str} (h : Plain a) : '\n' ∉ a := fun hm => (h.2 _ hm).2.2.2 rfl

theorem FileNamed.oneLine {stamp nameCpp nameH : Str} {inputs : List Str} {enumFile : Str}
    (h : FileNamed stamp nameCpp nameH inputs enumFile) : OneLine stamp nameCpp nameH inputs enumFile :=
  ⟨h.stamp.noNewline, h.cpp.noNewline, h.h.noNewline, fun f hf => (h.inputs f hf).noNewline,
    h.enums.elim .inl fun h => .inr h.noNewline⟩

theorem Plain.quotedOk {a : Str} (h : Plain a) : (GDir.quoted a).ok = true := by
  simp only [GDir.ok, Bool.not_eq_true', List.contains_eq_mem, decide_eq_false_iff_not]
  exact fun hm => (h.2 _ hm).1 rfl

theorem StructNamed.nh {s : StructS} (h : StructNamed s) : StructNH s :=
  ⟨h.name.noHash, fun l hl => (h.simple l hl).noHash, fun co hco => ⟨(h.complex co hco).1.noHash, (h.complex co hco).2.noHash⟩⟩

theorem lex_of_parse {ext : Bool} {text : Str} {fs : List Fun} (h : parse ext text = some fs) : ∃ ts, lex text = some ts := by
  unfold parse at h
  cases hl : lex text with
  | none => rw [hl] at h; cases h
  | some ts => exact ⟨ts, rfl⟩

theorem lex_of_parseH {ext : Bool} {text : Str} {hs : List HDecl} (h : parseH ext text = some hs) : ∃ ts, lex text = some ts := by
  unfold parseH at h
  cases hl : lex text with
  | none => rw [hl] at h; cases h
  | some ts => exact ⟨ts, rfl⟩

/-- The generated files and the headers they were made from, as a compiler finds them.  `find` is the text of the file with the given
name in an `#include`.  (Specification notion, models no code.) -/
structure Placed (find : Str → Option Str) (k : Kind) (stamp nameCpp nameH : Str) (inputs : List (Str × Str)) (out : OutSpec)
    (E : SMap EnumS) (S : SMap StructS) : Prop where
  cpp : find nameCpp = some (fileText (structsCpp k stamp nameCpp nameH (inputs.map Prod.fst) out S))
  h : find nameH = some (fileText (structsH k stamp nameH (inputs.map Prod.fst) out S))
  enums : disabled out.enumFile = true ∨
    find (out.enumFile ++ c!".h") = some (fileText (enumsH stamp (out.enumFile ++ c!".h") (inputs.map Prod.fst) E))
  headers : ∀ p ∈ inputs, find p.1 = some p.2
  apart : nameH ∉ inputs.map Prod.fst ∧ out.enumFile ++ c!".h" ∉ inputs.map Prod.fst ∧ nameH ≠ out.enumFile ++ c!".h"

/-- The macros of the headers are not used in a generated file.  (Specification notion, models no code.) -/
def NoMacros (inputs : List (Str × Str)) (text : Str) : Prop :=
  ∀ m ∈ inputMacros inputs, ∀ ps, pptoks text = some ps → fresh m ps = true

section
variable {find : Str → Option Str} {k : Kind} {stamp nameCpp nameH : Str} {inputs : List (Str × Str)} {out : OutSpec}
  {E : SMap EnumS} {S : SMap StructS}

/-- The first inclusion of the structs .h file brings the input headers. -/
theorem incl_structsH {n : Nat} (hf : FileNamed stamp nameCpp nameH (inputs.map Prod.fst) out.enumFile) (hr : Ident out.readerClass)
    (hw : out.onlyRead = true ∨ Ident out.writerClass) (hs : ∀ p ∈ S, StructNamed p.2)
    (hp : Placed find k stamp nameCpp nameH inputs out E S) (hg : GoodInputs inputs)
    (hm : NoMacros inputs (fileText (structsH k stamp nameH (inputs.map Prod.fst) out S))) :
    ∃ s, incl find (n + 3) nameH ⟨[], []⟩ =
        some (inputToks inputs ++ code (fileText (structsH k stamp nameH (inputs.map Prod.fst) out S)), s) ∧
      (∀ p ∈ inputs, Done find p.1 s) ∧ nameH ∈ s.once ∧ s.once ⊆ inputs.map Prod.fst ++ [nameH] ∧
      s.macros ⊆ inputMacros inputs := by
  obtain ⟨ts, hl⟩ := lex_of_parseH (structsH_parse (ext := true) (k := k) hf hr hw hs)
  obtain ⟨s, h1, h2, h3, h4, h5⟩ := inclAll_inputs (n := n) (s := ⟨[], [nameH]⟩) hg hp.headers
    (fun p hp' => by
      simp only [List.mem_cons, List.not_mem_nil, or_false]
      exact fun e => hp.apart.1 (e ▸ List.mem_map_of_mem hp')) rfl
  refine ⟨s, ?_, h2, h3 List.mem_cons_self, h4, h5⟩
  rw [structsH_split, fileText_app] at hl ⊢
  refine incl_gen ?_ (by simp) (structsH_headIs hf.oneLine)
    (nh_structsH hr.noHash (hw.elim .inl fun h => .inr h.noHash) fun p hp => (hs p hp).name.noHash) hl ?_ ?_ ?_
  · rw [hp.h, structsH_split, fileText_app]
  · intro g hg
    simp only [structsHDirs, List.mem_append, List.mem_cons, List.not_mem_nil, or_false, List.mem_map] at hg
    rcases hg with (rfl | rfl | rfl) | ⟨f, ⟨p, hp, rfl⟩, rfl⟩
    · rfl
    · rfl
    · cases k <;> rfl
    · exact (hf.inputs _ (List.mem_map_of_mem hp)).quotedOk
  · show doHead (incl find (n + 2)) nameH ((inputs.map Prod.fst).map .quoted) ⟨[], [nameH]⟩ = _
    rw [doHead_inputs, h1]
  · intro m hm' ps hps
    rw [← fileText_app, ← structsH_split] at hps
    exact hm m (h5 hm') ps hps

/-- The enums .h file after the input headers. -/
theorem incl_enumsH {n : Nat} {s : PState} (hf : FileNamed stamp nameCpp nameH (inputs.map Prod.fst) out.enumFile)
    (hd : disabled out.enumFile = false) (he : ∀ p ∈ E, EnumNamed p.2)
    (hp : Placed find k stamp nameCpp nameH inputs out E S) (h2 : ∀ p ∈ inputs, Done find p.1 s)
    (h4 : s.once ⊆ inputs.map Prod.fst ++ [nameH]) (h5 : s.macros ⊆ inputMacros inputs)
    (hm : NoMacros inputs (fileText (enumsH stamp (out.enumFile ++ c!".h") (inputs.map Prod.fst) E))) :
    incl find (n + 2) (out.enumFile ++ c!".h") s =
        some (code (fileText (enumsH stamp (out.enumFile ++ c!".h") (inputs.map Prod.fst) E)),
          { s with once := (out.enumFile ++ c!".h") :: s.once }) := by
  have hen : Plain out.enumFile := hf.enums.resolve_left (by simp [hd])
  have hf' : FileNamed stamp nameCpp (out.enumFile ++ c!".h") (inputs.map Prod.fst) out.enumFile :=
    ⟨hf.stamp, hf.cpp, plain_append hen (by decide), hf.inputs, hf.enums⟩
  obtain ⟨ts, hl⟩ := lex_of_parseH (enumsH_parse (ext := true) hf' he)
  have ho : out.enumFile ++ c!".h" ∉ s.once := by
    intro hin
    have := h4 hin
    simp only [List.mem_append, List.mem_cons, List.not_mem_nil, or_false] at this
    rcases this with h | h
    · exact hp.apart.2.1 h
    · exact hp.apart.2.2 h.symm
  rw [enumsH_split, fileText_app] at hl ⊢
  refine incl_gen (a := []) ?_ ho (enumsH_headIs hf'.oneLine) (nh_enumsH fun p hp => (he p hp).1.noHash) hl ?_ ?_ ?_
  · rw [hp.enums.resolve_left (by simp [hd]), enumsH_split, fileText_app]
  · intro g hg
    simp only [enumsHDirs, List.mem_append, List.mem_cons, List.not_mem_nil, or_false, List.mem_map] at hg
    rcases hg with (rfl | rfl | rfl) | ⟨f, ⟨p, hp, rfl⟩, rfl⟩
    · rfl
    · rfl
    · rfl
    · exact (hf.inputs _ (List.mem_map_of_mem hp)).quotedOk
  · show doHead (incl find (n + 1)) (out.enumFile ++ c!".h") ((inputs.map Prod.fst).map .quoted) _ = _
    rw [doHead_inputs, inclAll_done]
    intro f hf
    obtain ⟨p, hp, rfl⟩ := List.mem_map.1 hf
    exact (h2 p hp).mono (fun x hx => List.mem_cons_of_mem _ hx) fun _ h => h
  · intro m hm' ps hps
    rw [← fileText_app, ← enumsH_split] at hps
    exact hm m (h5 hm') ps hps

theorem structsCpp_dirs_ok {k : Kind} {stamp nameCpp nameH : Str} {inputs : List Str} {out : OutSpec}
    (hf : FileNamed stamp nameCpp nameH inputs out.enumFile) : ∀ g ∈ structsCppDirs k nameH inputs out, g.ok = true := by
  intro g hg
  simp only [structsCppDirs, List.mem_append, List.mem_cons, List.mem_map] at hg
  rcases hg with (hg | hg) | ⟨f, hfm, rfl⟩
  · rcases hg with rfl | hg
    · exact hf.h.quotedOk
    · have : ∀ (b : Bool) (k : Kind), ∀ g ∈ libs k b, g.ok = true := by
        intro b k
        cases b <;> cases k <;> decide
      exact this _ _ g hg
  · split at hg
    · cases hg
    · next hd =>
      simp only [List.mem_cons, List.not_mem_nil, or_false] at hg
      subst hg
      exact (plain_append (hf.enums.resolve_left hd) (by decide)).quotedOk
  · exact (hf.inputs _ hfm).quotedOk

/-- **C71, structs .cpp file.**  What is compiled is: the input headers, each of them once and in the order they were given; the classes
of the structs .h file; the declarations of the enums .h file; the functions of the structs .cpp file.  Nothing else. -/
theorem C71_structs_partial {n : Nat} (hf : FileNamed stamp nameCpp nameH (inputs.map Prod.fst) out.enumFile) (hr : Ident out.readerClass)
    (hw : out.onlyRead = true ∨ Ident out.writerClass) (hs : ∀ p ∈ S, StructNamed p.2) (he : ∀ p ∈ E, EnumNamed p.2)
    (hp : Placed find k stamp nameCpp nameH inputs out E S) (hg : GoodInputs inputs)
    (hm1 : NoMacros inputs (fileText (structsH k stamp nameH (inputs.map Prod.fst) out S)))
    (hm2 : NoMacros inputs (fileText (enumsH stamp (out.enumFile ++ c!".h") (inputs.map Prod.fst) E)))
    (hm3 : NoMacros inputs (fileText (structsCpp k stamp nameCpp nameH (inputs.map Prod.fst) out S))) :
    unitToks find (n + 4) nameCpp = some (
      (inputs.flatMap fun p => (headerToks p.2).getD []) ++
      code (fileText (structsH k stamp nameH (inputs.map Prod.fst) out S)) ++
      (if disabled out.enumFile then []
       else code (fileText (enumsH stamp (out.enumFile ++ c!".h") (inputs.map Prod.fst) E))) ++
      code (fileText (structsCpp k stamp nameCpp nameH (inputs.map Prod.fst) out S))) := by
  obtain ⟨s, a1, a2, a3, a4, a5⟩ := incl_structsH (n := n) hf hr hw hs hp hg hm1
  obtain ⟨ts, hl⟩ := lex_of_parse (structsCpp_parse (ext := true) (k := k) hf hr hw hs (.inl rfl))
  -- the libraries give nothing
  have hlib : ∀ s, doHead (incl find (n + 3)) nameCpp (libs k out.onlyRead) s = some ([], s) := by
    intro s
    unfold libs
    split
    · rfl
    · split <;> rfl
  -- the enums
  obtain ⟨s2, b1, b2, b3⟩ : ∃ s2, doHead (incl find (n + 3)) nameCpp
      (if disabled out.enumFile then [] else [.quoted (out.enumFile ++ c!".h")]) s =
        some (if disabled out.enumFile then []
          else code (fileText (enumsH stamp (out.enumFile ++ c!".h") (inputs.map Prod.fst) E)), s2) ∧
      s.once ⊆ s2.once ∧ s2.macros = s.macros := by
    cases hd : disabled out.enumFile with
    | true => exact ⟨s, rfl, fun _ h => h, rfl⟩
    | false =>
      refine ⟨{ s with once := (out.enumFile ++ c!".h") :: s.once }, ?_, fun x hx => List.mem_cons_of_mem _ hx, rfl⟩
      simp only [Bool.false_eq_true, if_false, doHead, incl_enumsH (n := n + 1) hf hd he hp a2 a4 a5 hm2]
      simp
  have b4 : doHead (incl find (n + 3)) nameCpp ((inputs.map Prod.fst).map .quoted) s2 = some ([], s2) := by
    rw [doHead_inputs, inclAll_done]
    intro f hf
    obtain ⟨p, hp, rfl⟩ := List.mem_map.1 hf
    exact (a2 p hp).mono b2 fun x hx => b3 ▸ hx
  have hd : doHead (incl find (n + 3)) nameCpp (structsCppDirs k nameH (inputs.map Prod.fst) out) ⟨[], []⟩ =
      some (inputToks inputs ++ code (fileText (structsH k stamp nameH (inputs.map Prod.fst) out S)) ++
        (if disabled out.enumFile then []
         else code (fileText (enumsH stamp (out.enumFile ++ c!".h") (inputs.map Prod.fst) E))), s2) := by
    unfold structsCppDirs
    rw [List.cons_append, List.cons_append]
    simp only [doHead, a1]
    rw [List.append_assoc, doHead_append (hlib s), doHead_append b1, b4]
    simp
  unfold unitToks
  rw [structsCpp_split, fileText_app] at hl
  have := incl_gen (n := n + 3) (s := ⟨[], []⟩) (self := nameCpp) (by rw [hp.cpp, structsCpp_split, fileText_app]) (by simp)
    (structsCpp_head hf.oneLine) (nh_structsCpp hr.noHash (hw.elim .inl fun h => .inr h.noHash) fun p hp => (hs p hp).nh) hl
    (structsCpp_dirs_ok hf) hd ?_
  · rw [this, ← fileText_app, ← structsCpp_split]
    rfl
  · intro m hm' ps hps
    rw [← fileText_app, ← structsCpp_split] at hps
    exact hm3 m (a5 (b3 ▸ hm')) ps hps

end

/-! ### The enums .cpp file -/

/-- The enum files as a compiler finds them.  (Specification notion, models no code.) -/
structure PlacedEnums (find : Str → Option Str) (stamp nameCpp nameH : Str) (inputs : List (Str × Str)) (E : SMap EnumS) : Prop where
  cpp : find nameCpp = some (fileText (enumsCpp stamp nameCpp nameH (inputs.map Prod.fst) E))
  h : find nameH = some (fileText (enumsH stamp nameH (inputs.map Prod.fst) E))
  headers : ∀ p ∈ inputs, find p.1 = some p.2
  apart : nameH ∉ inputs.map Prod.fst

theorem EnumNamed.nh {e : EnumS} (h : EnumNamed e) : EnumNH e := ⟨h.1.noHash, fun l hl => (h.2 l hl).noHash⟩

theorem enumsCpp_dirs_ok {stamp nameCpp nameH e : Str} {inputs : List Str} (hf : FileNamed stamp nameCpp nameH inputs e) :
    ∀ g ∈ enumsCppDirs nameH inputs, g.ok = true := by
  intro g hg
  simp only [enumsCppDirs, List.mem_append, List.mem_cons, List.not_mem_nil, or_false, List.mem_map] at hg
  rcases hg with (rfl | rfl | rfl) | ⟨f, hfm, rfl⟩
  · exact hf.h.quotedOk
  · rfl
  · rfl
  · exact (hf.inputs _ hfm).quotedOk

theorem enumsH_dirs_ok {stamp nameCpp nameH e : Str} {inputs : List Str} (hf : FileNamed stamp nameCpp nameH inputs e) :
    ∀ g ∈ enumsHDirs inputs, g.ok = true := by
  intro g hg
  simp only [enumsHDirs, List.mem_append, List.mem_cons, List.not_mem_nil, or_false, List.mem_map] at hg
  rcases hg with (rfl | rfl | rfl) | ⟨f, hfm, rfl⟩
  · rfl
  · rfl
  · rfl
  · exact (hf.inputs _ hfm).quotedOk

/-- **C71, enums .cpp file.**  What is compiled is: the input headers, each of them once and in the order they were given; the
declarations of the enums .h file; the functions of the enums .cpp file.  Nothing else. -/
theorem C71_enums_partial {find : Str → Option Str} {stamp nameCpp nameH e : Str} {inputs : List (Str × Str)} {E : SMap EnumS} {n : Nat}
    (hf : FileNamed stamp nameCpp nameH (inputs.map Prod.fst) e) (he : ∀ p ∈ E, EnumNamed p.2)
    (hp : PlacedEnums find stamp nameCpp nameH inputs E) (hg : GoodInputs inputs)
    (hm1 : NoMacros inputs (fileText (enumsH stamp nameH (inputs.map Prod.fst) E)))
    (hm2 : NoMacros inputs (fileText (enumsCpp stamp nameCpp nameH (inputs.map Prod.fst) E))) :
    unitToks find (n + 4) nameCpp = some (
      (inputs.flatMap fun p => (headerToks p.2).getD []) ++
      code (fileText (enumsH stamp nameH (inputs.map Prod.fst) E)) ++
      code (fileText (enumsCpp stamp nameCpp nameH (inputs.map Prod.fst) E))) := by
  obtain ⟨ts, hl⟩ := lex_of_parseH (enumsH_parse (ext := true) hf he)
  obtain ⟨us, hl'⟩ := lex_of_parse (enumsCpp_parse (ext := true) hf he)
  obtain ⟨s, h1, h2, h3, h4, h5⟩ := inclAll_inputs (n := n) (s := ⟨[], [nameH]⟩) hg hp.headers
    (fun p hp' => by
      simp only [List.mem_cons, List.not_mem_nil, or_false]
      exact fun e => hp.apart (e ▸ List.mem_map_of_mem hp')) rfl
  have a1 : incl find (n + 3) nameH ⟨[], []⟩ =
      some (inputToks inputs ++ code (fileText (enumsH stamp nameH (inputs.map Prod.fst) E)), s) := by
    rw [enumsH_split, fileText_app] at hl ⊢
    refine incl_gen ?_ (by simp) (enumsH_headIs hf.oneLine) (nh_enumsH fun p hp => (he p hp).1.noHash) hl (enumsH_dirs_ok hf) ?_ ?_
    · rw [hp.h, enumsH_split, fileText_app]
    · show doHead (incl find (n + 2)) nameH ((inputs.map Prod.fst).map .quoted) ⟨[], [nameH]⟩ = _
      rw [doHead_inputs, h1]
    · intro m hm' ps hps
      rw [← fileText_app, ← enumsH_split] at hps
      exact hm1 m (h5 hm') ps hps
  have hd : doHead (incl find (n + 3)) nameCpp (enumsCppDirs nameH (inputs.map Prod.fst)) ⟨[], []⟩ =
      some (inputToks inputs ++ code (fileText (enumsH stamp nameH (inputs.map Prod.fst) E)), s) := by
    have b4 : doHead (incl find (n + 3)) nameCpp ((inputs.map Prod.fst).map .quoted) s = some ([], s) := by
      rw [doHead_inputs, inclAll_done]
      intro f hf
      obtain ⟨p, hp, rfl⟩ := List.mem_map.1 hf
      exact h2 p hp
    simp only [enumsCppDirs, List.cons_append, List.nil_append, doHead, a1, b4]
    simp
  unfold unitToks
  rw [enumsCpp_split, fileText_app] at hl'
  have := incl_gen (n := n + 3) (s := ⟨[], []⟩) (self := nameCpp) (by rw [hp.cpp, enumsCpp_split, fileText_app]) (by simp)
    (enumsCpp_headIs hf.oneLine) (nh_enumsCpp fun p hp => (he p hp).nh) hl' (enumsCpp_dirs_ok hf) hd ?_
  · rw [this, ← fileText_app, ← enumsCpp_split]
    rfl
  · intro m hm' ps hps
    rw [← fileText_app, ← enumsCpp_split] at hps
    exact hm2 m (h5 hm') ps hps

/-! ### Headers without guard -/

/-- The header has no directives.  (Specification notion, models no code.) -/
def Bare (text : Str) : Prop := ∃ ps, pptoks text = some ps ∧ ∀ p ∈ ps, ∀ u, p ≠ .dir u

theorem exec_bare {inc : Str → PState → Option (List Tok × PState)} {self : Str} {O : List Str} {ps : List PTok}
    (h : ∀ p ∈ ps, ∀ u, p ≠ .dir u) :
    ∃ ts, preprocess [] [] ps = some ts ∧ execDirs inc self [] ⟨[], O⟩ ps = some (ts, ⟨[], O⟩) := by
  obtain ⟨ks, h1, h2⟩ := preprocess_pre (M := []) (qs := []) h
  rw [List.append_nil] at h1
  refine ⟨ks, by rw [h1]; simp [preprocess], ?_⟩
  have := h2 inc self O
  rw [List.append_nil] at this
  rw [this]
  simp [execDirs]

theorem inclAll_bare {find : Str → Option Str} {n : Nat} {inputs : List (Str × Str)} {O : List Str} (hb : ∀ p ∈ inputs, Bare p.2)
    (hf : ∀ p ∈ inputs, find p.1 = some p.2) (ho : ∀ p ∈ inputs, p.1 ∉ O) :
    inclAll (incl find (n + 1)) (inputs.map Prod.fst) ⟨[], O⟩ = some (inputToks inputs, ⟨[], O⟩) := by
  induction inputs with
  | nil => rfl
  | cons p inputs ih =>
    obtain ⟨ps, h1, h2⟩ := hb p List.mem_cons_self
    obtain ⟨ts, h3, h4⟩ := exec_bare (inc := incl find n) (self := p.1) (O := O) h2
    have ho' := ho p List.mem_cons_self
    have e : incl find (n + 1) p.1 ⟨[], O⟩ = some (ts, ⟨[], O⟩) := by
      rw [incl.eq_def]
      simp only [List.contains_eq_mem, ho', decide_false, Bool.false_eq_true, if_false, hf p List.mem_cons_self, h1, h4]
    simp only [List.map_cons, inclAll, e, ih (fun q hq => hb q (List.mem_cons_of_mem _ hq))
      (fun q hq => hf q (List.mem_cons_of_mem _ hq)) (fun q hq => ho q (List.mem_cons_of_mem _ hq))]
    simp [inputToks, headerToks, h1, h3]

theorem inputMacros_bare {inputs : List (Str × Str)} (hb : ∀ p ∈ inputs, Bare p.2) : inputMacros inputs = [] := by
  rw [inputMacros, List.flatMap_eq_nil_iff]
  intro p hp
  obtain ⟨ps, h1, h2⟩ := hb p hp
  rw [h1, Option.getD_some, defines, List.filterMap_eq_nil_iff]
  intro q hq
  cases q with
  | dir u => exact absurd rfl (h2 _ hq u)
  | word w => rfl
  | tok t => rfl

/-- **Headers without include guard are compiled several times**: everything they define is defined again by the enums .h file and by
the structs .cpp file itself, which C++ does not allow ([basic.def.odr]). -/
theorem C71_unguarded {find : Str → Option Str} {k : Kind} {stamp nameCpp nameH : Str} {inputs : List (Str × Str)} {out : OutSpec}
    {E : SMap EnumS} {S : SMap StructS} {n : Nat}
    (hf : FileNamed stamp nameCpp nameH (inputs.map Prod.fst) out.enumFile) (hr : Ident out.readerClass)
    (hw : out.onlyRead = true ∨ Ident out.writerClass) (hs : ∀ p ∈ S, StructNamed p.2) (he : ∀ p ∈ E, EnumNamed p.2)
    (hp : Placed find k stamp nameCpp nameH inputs out E S) (hb : ∀ p ∈ inputs, Bare p.2) :
    unitToks find (n + 4) nameCpp = some (
      (inputs.flatMap fun p => (headerToks p.2).getD []) ++
      code (fileText (structsH k stamp nameH (inputs.map Prod.fst) out S)) ++
      (if disabled out.enumFile then []
       else (inputs.flatMap fun p => (headerToks p.2).getD []) ++
        code (fileText (enumsH stamp (out.enumFile ++ c!".h") (inputs.map Prod.fst) E))) ++
      (inputs.flatMap fun p => (headerToks p.2).getD []) ++
      code (fileText (structsCpp k stamp nameCpp nameH (inputs.map Prod.fst) out S))) := by
  have hin : ∀ (m : Nat) (O : List Str), O ⊆ [out.enumFile ++ c!".h", nameH] →
      inclAll (incl find (m + 1)) (inputs.map Prod.fst) ⟨[], O⟩ = some (inputToks inputs, ⟨[], O⟩) := by
    intro m O hO
    refine inclAll_bare hb hp.headers fun p hp' hpO => ?_
    have := hO hpO
    simp only [List.mem_cons, List.not_mem_nil, or_false] at this
    rcases this with h | h
    · exact hp.apart.2.1 (h ▸ List.mem_map_of_mem hp')
    · exact hp.apart.1 (h ▸ List.mem_map_of_mem hp')
  have hq : ∀ f ∈ inputs.map Prod.fst, (GDir.quoted f).ok = true := fun f h => (hf.inputs f h).quotedOk
  -- structs .h
  have a1 : incl find (n + 3) nameH ⟨[], []⟩ =
      some (inputToks inputs ++ code (fileText (structsH k stamp nameH (inputs.map Prod.fst) out S)), ⟨[], [nameH]⟩) := by
    obtain ⟨ts, hl⟩ := lex_of_parseH (structsH_parse (ext := true) (k := k) hf hr hw hs)
    rw [structsH_split, fileText_app] at hl ⊢
    refine incl_gen ?_ (by simp) (structsH_headIs hf.oneLine)
      (nh_structsH hr.noHash (hw.elim .inl fun h => .inr h.noHash) fun p hp => (hs p hp).name.noHash) hl ?_ ?_ (by simp)
    · rw [hp.h, structsH_split, fileText_app]
    · intro g hg
      simp only [structsHDirs, List.mem_append, List.mem_cons, List.not_mem_nil, or_false, List.mem_map] at hg
      rcases hg with (rfl | rfl | rfl) | ⟨f, ⟨p, hp, rfl⟩, rfl⟩
      · rfl
      · rfl
      · cases k <;> rfl
      · exact hq _ (List.mem_map_of_mem hp)
    · show doHead (incl find (n + 2)) nameH ((inputs.map Prod.fst).map .quoted) ⟨[], [nameH]⟩ = _
      rw [doHead_inputs, hin (n + 1) [nameH] (by simp)]
  -- enums .h
  obtain ⟨O, b1, b2⟩ : ∃ O, doHead (incl find (n + 3)) nameCpp
      (if disabled out.enumFile then [] else [.quoted (out.enumFile ++ c!".h")]) ⟨[], [nameH]⟩ =
        some (if disabled out.enumFile then []
          else inputToks inputs ++ code (fileText (enumsH stamp (out.enumFile ++ c!".h") (inputs.map Prod.fst) E)), ⟨[], O⟩) ∧
      O ⊆ [out.enumFile ++ c!".h", nameH] := by
    cases hd : disabled out.enumFile with
    | true => exact ⟨[nameH], rfl, by simp⟩
    | false =>
      refine ⟨[out.enumFile ++ c!".h", nameH], ?_, fun _ h => h⟩
      have hen : Plain out.enumFile := hf.enums.resolve_left (by simp [hd])
      have hf' : FileNamed stamp nameCpp (out.enumFile ++ c!".h") (inputs.map Prod.fst) out.enumFile :=
        ⟨hf.stamp, hf.cpp, plain_append hen (by decide), hf.inputs, hf.enums⟩
      obtain ⟨ts, hl⟩ := lex_of_parseH (enumsH_parse (ext := true) hf' he)
      have : incl find (n + 3) (out.enumFile ++ c!".h") ⟨[], [nameH]⟩ =
          some (inputToks inputs ++ code (fileText (enumsH stamp (out.enumFile ++ c!".h") (inputs.map Prod.fst) E)),
            ⟨[], [out.enumFile ++ c!".h", nameH]⟩) := by
        rw [enumsH_split, fileText_app] at hl ⊢
        refine incl_gen ?_ ?_ (enumsH_headIs hf'.oneLine) (nh_enumsH fun p hp => (he p hp).1.noHash) hl (enumsH_dirs_ok hf') ?_ (by simp)
        · rw [hp.enums.resolve_left (by simp [hd]), enumsH_split, fileText_app]
        · simp only [List.mem_cons, List.not_mem_nil, or_false]
          exact fun h => hp.apart.2.2 h.symm
        · show doHead (incl find (n + 2)) (out.enumFile ++ c!".h") ((inputs.map Prod.fst).map .quoted)
            ⟨[], [out.enumFile ++ c!".h", nameH]⟩ = _
          rw [doHead_inputs, hin (n + 1) _ fun _ h => h]
      simp only [Bool.false_eq_true, if_false, doHead, this]
      simp
  have hlib : ∀ s, doHead (incl find (n + 3)) nameCpp (libs k out.onlyRead) s = some ([], s) := by
    intro s
    unfold libs
    split
    · rfl
    · split <;> rfl
  have hd : doHead (incl find (n + 3)) nameCpp (structsCppDirs k nameH (inputs.map Prod.fst) out) ⟨[], []⟩ =
      some (inputToks inputs ++ code (fileText (structsH k stamp nameH (inputs.map Prod.fst) out S)) ++
        (if disabled out.enumFile then []
         else inputToks inputs ++ code (fileText (enumsH stamp (out.enumFile ++ c!".h") (inputs.map Prod.fst) E))) ++
        inputToks inputs, ⟨[], O⟩) := by
    unfold structsCppDirs
    rw [List.cons_append, List.cons_append]
    simp only [doHead, a1]
    rw [List.append_assoc, doHead_append (hlib _), doHead_append b1, doHead_inputs, hin (n + 2) O b2]
    simp
  obtain ⟨ts, hl⟩ := lex_of_parse (structsCpp_parse (ext := true) (k := k) hf hr hw hs (.inl rfl))
  unfold unitToks
  rw [structsCpp_split, fileText_app] at hl
  have := incl_gen (n := n + 3) (s := ⟨[], []⟩) (self := nameCpp) (by rw [hp.cpp, structsCpp_split, fileText_app]) (by simp)
    (structsCpp_head hf.oneLine) (nh_structsCpp hr.noHash (hw.elim .inl fun h => .inr h.noHash) fun p hp => (hs p hp).nh) hl
    (structsCpp_dirs_ok hf) hd (by simp)
  rw [this, ← fileText_app, ← structsCpp_split]
  rfl

/-! ### The full statement -/

/-- What is asked of the headers in the full statement: like `GoodInputs`, but they need not be guarded against being included again.
(Specification notion, models no code.) -/
structure OkInputs (inputs : List (Str × Str)) : Prop where
  nodup : (inputs.map Prod.fst).Nodup
  header : ∀ l f text r, inputs = l ++ (f, text) :: r → ∃ ps ts, pptoks text = some ps ∧ preprocess [] [] ps = some ts ∧
    IncludesOnly (l.map Prod.fst) ps
  macros : inputs.Pairwise fun a b => ∀ ps qs, pptoks a.2 = some ps → pptoks b.2 = some qs → ∀ m ∈ defines ps, fresh m qs = true

/-- **C71, full statement**: in the translation unit of a structs .cpp file everything the input headers declare is there once. -/
def C71_statement : Prop :=
  ∀ (find : Str → Option Str) (k : Kind) (stamp nameCpp nameH : Str) (inputs : List (Str × Str)) (out : OutSpec)
    (E : SMap EnumS) (S : SMap StructS) (n : Nat),
    FileNamed stamp nameCpp nameH (inputs.map Prod.fst) out.enumFile → Ident out.readerClass →
    (out.onlyRead = true ∨ Ident out.writerClass) → (∀ p ∈ S, StructNamed p.2) → (∀ p ∈ E, EnumNamed p.2) →
    Placed find k stamp nameCpp nameH inputs out E S → OkInputs inputs →
    NoMacros inputs (fileText (structsH k stamp nameH (inputs.map Prod.fst) out S)) →
    NoMacros inputs (fileText (enumsH stamp (out.enumFile ++ c!".h") (inputs.map Prod.fst) E)) →
    NoMacros inputs (fileText (structsCpp k stamp nameCpp nameH (inputs.map Prod.fst) out S)) →
    unitToks find (n + 4) nameCpp = some (
      (inputs.flatMap fun p => (headerToks p.2).getD []) ++
      code (fileText (structsH k stamp nameH (inputs.map Prod.fst) out S)) ++
      (if disabled out.enumFile then []
       else code (fileText (enumsH stamp (out.enumFile ++ c!".h") (inputs.map Prod.fst) E))) ++
      code (fileText (structsCpp k stamp nameCpp nameH (inputs.map Prod.fst) out S)))

/-- The files of a run with the structs of `exStructs`, as a compiler finds them.  (Example, models no code.) -/
def exFind (k : Kind) (inputs : List (Str × Str)) (E : SMap EnumS) (f : Str) : Option Str :=
  if f = c!"structs.cpp" then
    some (fileText (structsCpp k c!"stfx 1.0" c!"structs.cpp" c!"structs.h" (inputs.map Prod.fst) exOut (exStructs .int)))
  else if f = c!"structs.h" then
    some (fileText (structsH k c!"stfx 1.0" c!"structs.h" (inputs.map Prod.fst) exOut (exStructs .int)))
  else if f = c!"enums.cpp" then some (fileText (enumsCpp c!"stfx 1.0" c!"enums.cpp" c!"enums.h" (inputs.map Prod.fst) E))
  else if f = c!"enums.h" then some (fileText (enumsH c!"stfx 1.0" c!"enums.h" (inputs.map Prod.fst) E))
  else inputs.lookup f

/-- (Example, models no code.) -/
def unitEnums : SMap EnumS := [(c!"colour_E", ⟨c!"colour_E", true, [⟨c!"red_E", false, []⟩, ⟨c!"blue_E", false, []⟩]⟩)]

theorem unitEnums_named : ∀ p ∈ unitEnums, EnumNamed p.2 := by
  intro p hp
  simp only [unitEnums, List.mem_cons, List.not_mem_nil, or_false] at hp
  subst hp
  refine ⟨ident_of (by decide), ?_⟩
  intro l hl
  simp only [List.mem_cons, List.not_mem_nil, or_false] at hl
  rcases hl with rfl | rfl <;> exact ident_of (by decide)

theorem exPlaced (k : Kind) (text : Str) :
    Placed (exFind k [(c!"data.h", text)] unitEnums) k c!"stfx 1.0" c!"structs.cpp" c!"structs.h" [(c!"data.h", text)] exOut unitEnums
      (exStructs .int) where
  cpp := rfl
  h := rfl
  enums := .inr rfl
  headers := by
    intro p hp
    simp only [List.mem_cons, List.not_mem_nil, or_false] at hp
    subst hp
    rfl
  apart := by simp [exOut]

/-- A header without include guard, like /repo/src/test/test_extra1.h.  (Example, models no code.) -/
def bareText : Str := c!"struct inner_S\n{\n\tint n;\n};\n"

theorem bareText_toks : ∃ ps, pptoks bareText = some ps ∧ (ps.all fun | .dir _ => false | _ => true) = true :=
  ⟨_, rfl, by decide +kernel⟩

theorem bareText_bare : Bare bareText := by
  obtain ⟨ps, h1, h2⟩ := bareText_toks
  refine ⟨ps, h1, fun p hp u e => ?_⟩
  have := List.all_eq_true.1 h2 p hp
  subst e
  cases this

theorem bareText_len : ((headerToks bareText).getD []).length = 8 := by decide +kernel

/-- C71 refuted: the structs of a header without include guard are defined three times in the translation unit. -/
theorem C71_refuted : ¬C71_statement := by
  intro h
  have hn := exNames .int
  have hb : ∀ p ∈ [(c!"data.h", bareText)], Bare p.2 := by
    intro p hp
    simp only [List.mem_cons, List.not_mem_nil, or_false] at hp
    subst hp
    exact bareText_bare
  have hm : ∀ text, NoMacros [(c!"data.h", bareText)] text := by
    intro text m hm
    rw [inputMacros_bare hb] at hm
    cases hm
  have h1 := h _ .xml c!"stfx 1.0" c!"structs.cpp" c!"structs.h" [(c!"data.h", bareText)] exOut unitEnums (exStructs .int) 0 hn.files
    hn.reader hn.writer hn.structs unitEnums_named (exPlaced .xml bareText) ⟨by simp, ?_, by simp⟩ (hm _) (hm _) (hm _)
  · have h2 := C71_unguarded (n := 0) hn.files hn.reader hn.writer hn.structs unitEnums_named (exPlaced .xml bareText) hb
    rw [h1] at h2
    have h3 := congrArg List.length (Option.some.inj h2)
    have hd : disabled exOut.enumFile = false := by decide
    simp only [List.flatMap_cons, List.flatMap_nil, List.append_nil, hd, Bool.false_eq_true, if_false, List.length_append,
      bareText_len] at h3
    omega
  · intro l f text r e
    match l, e with
    | [], e =>
      simp only [List.nil_append, List.cons.injEq, Prod.mk.injEq] at e
      obtain ⟨⟨rfl, rfl⟩, rfl⟩ := e
      obtain ⟨ps, b1, b2⟩ := bareText_bare
      obtain ⟨ts, b3, _⟩ := exec_bare (inc := fun _ _ => none) (self := []) (O := []) b2
      exact ⟨ps, ts, b1, b3, fun u hu => absurd rfl (b2 _ hu u)⟩
    | [_], e => simp at e
    | _ :: _ :: _, e => simp at e

/-! ### Examples -/

/-- A header with `#pragma once` after a comment.  (Example, models no code.) -/
def onceText : Str := c!"// sizes\n#pragma once\n#include <string>\nstruct inner_S\n{\n\tint n{7};\n};\n"

/-- A header with an include guard which includes the other one.  (Example, models no code.) -/
def guardedText : Str :=
  c!"#ifndef TYPES_H\n#define TYPES_H\n#include \"data.h\" // inner_S\n#ifdef SMALL\nstruct none_S { int n; };\n#else\nstruct outer_S\n{\n\tinner_S first;\n};\n#endif\n#endif // TYPES_H\n"

/-- (Example, models no code.) -/
def exInputs : List (Str × Str) := [(c!"data.h", onceText), (c!"types.h", guardedText)]

/-- The preprocessing tokens of `onceText`.  (Example, models no code.) -/
def oncePs : List PTok := (pptoks onceText).getD []

/-- The preprocessing tokens of `guardedText`.  (Example, models no code.) -/
def guardedPs : List PTok := (pptoks guardedText).getD []

theorem oncePs_eq : pptoks onceText = some oncePs := by decide +kernel
theorem guardedPs_eq : pptoks guardedText = some guardedPs := by decide +kernel

theorem includesOnly_of {fs : List Str} {ps : List PTok}
    (h : (ps.all fun
      | .dir u => (dirName u).1 ≠ c!"include" || incOf (dirName u).2 = some .system || fs.any fun f => incOf (dirName u).2 = some (.quoted f)
      | _ => true) = true) : IncludesOnly fs ps := by
  intro u hu hn
  have := List.all_eq_true.1 h _ hu
  simp only [hn, ne_eq, not_true_eq_false, decide_false, Bool.false_or, Bool.or_eq_true, decide_eq_true_eq, List.any_eq_true] at this
  exact this

theorem guarded_once : Guarded oncePs := by
  have : oncePs = [] ++ .dir c!"pragma once" :: oncePs.drop 1 := by decide +kernel
  rw [this]
  exact .once _ _ _ (by simp) (by decide +kernel) (by decide +kernel)

theorem guarded_ifndef : Guarded guardedPs := by
  have : guardedPs = .dir c!"ifndef TYPES_H" :: .dir c!"define TYPES_H" :: ((guardedPs.drop 2).dropLast ++ [.dir c!"endif // TYPES_H"]) := by
    decide +kernel
  rw [this]
  exact .ifndef _ _ _ c!"TYPES_H" _ (by decide +kernel) (by decide +kernel) (by decide +kernel) (by decide +kernel)

theorem exInputs_good : GoodInputs exInputs where
  nodup := by decide
  header := by
    intro l f text r e
    match l, e with
    | [], e =>
      simp only [exInputs, List.nil_append, List.cons.injEq, Prod.mk.injEq] at e
      obtain ⟨⟨rfl, rfl⟩, rfl⟩ := e
      exact ⟨oncePs, (preprocess [] [] oncePs).getD [], oncePs_eq, by decide +kernel, guarded_once, includesOnly_of (by decide +kernel)⟩
    | [p], e =>
      simp only [exInputs, List.cons_append, List.nil_append, List.cons.injEq, Prod.mk.injEq] at e
      obtain ⟨rfl, ⟨rfl, rfl⟩, rfl⟩ := e
      exact ⟨guardedPs, (preprocess [] [] guardedPs).getD [], guardedPs_eq, by decide +kernel, guarded_ifndef,
        includesOnly_of (by decide +kernel)⟩
    | _ :: _ :: _, e => simp [exInputs] at e
  macros := by
    simp only [exInputs, List.pairwise_cons, List.mem_cons, List.not_mem_nil, or_false, List.Pairwise.nil, and_true]
    refine ⟨?_, by simp⟩
    rintro b rfl ps qs h1 h2
    have h1' : pptoks onceText = some ps := h1
    rw [oncePs_eq] at h1'
    cases h1'
    have : defines oncePs = [] := by decide +kernel
    rw [this]
    intro m hm
    cases hm

theorem exInputs_macros : inputMacros exInputs = [c!"TYPES_H"] := by decide +kernel

theorem noMacros_of {text : Str} (h : (match pptoks text with | some ps => fresh c!"TYPES_H" ps | none => true) = true) :
    NoMacros exInputs text := by
  intro m hm ps hps
  rw [exInputs_macros] at hm
  simp only [List.mem_cons, List.not_mem_nil, or_false] at hm
  subst hm
  rw [hps] at h
  exact h

theorem exFiles (nameCpp nameH : Str) (h1 : Plain nameCpp) (h2 : Plain nameH) :
    FileNamed c!"stfx 1.0" nameCpp nameH (exInputs.map Prod.fst) exOut.enumFile :=
  ⟨plain_of (by decide), h1, h2,
    (by
      intro f hf
      simp only [exInputs, List.map_cons, List.map_nil, List.mem_cons, List.not_mem_nil, or_false] at hf
      rcases hf with rfl | rfl <;> exact plain_of (by decide)),
    .inr (plain_of (by decide))⟩

theorem exInputs_found (k : Kind) : ∀ p ∈ exInputs, exFind k exInputs unitEnums p.1 = some p.2 := by
  intro p hp
  simp only [exInputs, List.mem_cons, List.not_mem_nil, or_false] at hp
  rcases hp with rfl | rfl <;> rfl

example : unitToks (exFind .ini exInputs unitEnums) 4 c!"structs.cpp" = some (
      ((headerToks onceText).getD [] ++ (headerToks guardedText).getD []) ++
      code (fileText (structsH .ini c!"stfx 1.0" c!"structs.h" [c!"data.h", c!"types.h"] exOut (exStructs .int))) ++
      code (fileText (enumsH c!"stfx 1.0" c!"enums.h" [c!"data.h", c!"types.h"] unitEnums)) ++
      code (fileText (structsCpp .ini c!"stfx 1.0" c!"structs.cpp" c!"structs.h" [c!"data.h", c!"types.h"] exOut (exStructs .int)))) := by
  have hn := exNames .int
  have := C71_structs_partial (n := 0) (E := unitEnums) (k := .ini) (find := exFind .ini exInputs unitEnums) (out := exOut)
    (exFiles c!"structs.cpp" c!"structs.h" (plain_of (by decide)) (plain_of (by decide))) hn.reader hn.writer hn.structs unitEnums_named
    ⟨rfl, rfl, .inr rfl, exInputs_found _, by decide⟩ exInputs_good
    (noMacros_of (by decide +kernel)) (noMacros_of (by decide +kernel)) (noMacros_of (by decide +kernel))
  simpa [exInputs, exOut, disabled] using this

/-- The header as it is compiled. -/
example : headerToks onceText = lex c!"struct inner_S { int n{7}; };\n" := by decide +kernel

example : unitToks (exFind .ini exInputs unitEnums) 4 c!"enums.cpp" = some (
      ((headerToks onceText).getD [] ++ (headerToks guardedText).getD []) ++
      code (fileText (enumsH c!"stfx 1.0" c!"enums.h" [c!"data.h", c!"types.h"] unitEnums)) ++
      code (fileText (enumsCpp c!"stfx 1.0" c!"enums.cpp" c!"enums.h" [c!"data.h", c!"types.h"] unitEnums))) := by
  have := C71_enums_partial (n := 0) (E := unitEnums) (find := exFind .ini exInputs unitEnums)
    (exFiles c!"enums.cpp" c!"enums.h" (plain_of (by decide)) (plain_of (by decide))) unitEnums_named
    ⟨rfl, rfl, exInputs_found _, by decide⟩ exInputs_good
    (noMacros_of (by decide +kernel)) (noMacros_of (by decide +kernel))
  simpa [exInputs] using this

/-- Also by computing it: `inner_S` is defined three times. -/
example : (unitToks (exFind .xml [(c!"data.h", bareText)] unitEnums) 4 c!"structs.cpp").map (fun ts =>
    (List.range ts.length).countP fun i => (ts.drop i).take 3 = (lex c!"struct inner_S {\n").getD []) = some 3 := by
  decide +kernel

/-! ### What an `#include` looks like -/

theorem split_at_mark (q : Char) (s : Str) :
    (∀ r, s.dropWhile (· ≠ q) = r → r = [] ∨ ∃ t, r = q :: t ∧ s = s.takeWhile (· ≠ q) ++ q :: t) ∧ q ∉ s.takeWhile (· ≠ q) := by
  induction s with
  | nil => simp
  | cons c s ih =>
    by_cases h : c = q
    · subst h; simp
    · simp only [ne_eq, h, not_false_eq_true, decide_true, List.dropWhile_cons_of_pos, List.takeWhile_cons_of_pos, List.mem_cons, not_or]
      refine ⟨fun r hr => ?_, fun e => h e.symm, ih.2⟩
      rcases ih.1 r hr with e | ⟨t, e1, e2⟩
      · exact Or.inl e
      · exact Or.inr ⟨t, e1, by rw [List.cons_append, ← e2]⟩

theorem mark_split {q : Char} {f t : Str} (h : q ∉ f) :
    (f ++ q :: t).dropWhile (· ≠ q) = q :: t ∧ (f ++ q :: t).takeWhile (· ≠ q) = f := by
  induction f with
  | nil => simp
  | cons c f ih =>
    simp only [List.mem_cons, not_or] at h
    have hc : c ≠ q := fun e => h.1 e.symm
    obtain ⟨i1, i2⟩ := ih h.2
    simp only [List.cons_append]
    constructor
    · rw [List.dropWhile_cons_of_pos (by simp [hc]), i1]
    · rw [List.takeWhile_cons_of_pos (by simp [hc]), i2]

/-- An `#include` of a source file: its name between quotation marks, with nothing but a comment behind. -/
theorem incOf_quoted_iff (s f : Str) :
    incOf s = some (.quoted f) ↔ ∃ r, s = '"' :: (f ++ '"' :: r) ∧ '"' ∉ f ∧ restBlank r = true := by
  constructor
  · intro h
    unfold incOf at h
    split at h
    · next s =>
      split at h
      · next c r hd =>
        split at h
        · next hr =>
          simp only [Option.some.injEq, Inc.quoted.injEq] at h
          obtain ⟨h1, h2⟩ := split_at_mark '"' s
          rcases h1 _ hd with e | ⟨t, e1, e2⟩
          · cases e
          · cases e1
            rw [h] at e2 h2
            exact ⟨r, by rw [e2], h2, hr⟩
        · cases h
      · cases h
    · split at h
      · split at h <;> cases h
      · cases h
    · cases h
  · rintro ⟨r, rfl, h1, h2⟩
    obtain ⟨e1, e2⟩ := mark_split (t := r) h1
    simp only [incOf, e1, e2, h2, if_true]

/-- An `#include` of a header: its name between angle brackets, with nothing but a comment behind. -/
theorem incOf_system_iff (s : Str) :
    incOf s = some .system ↔ ∃ f r, s = '<' :: (f ++ '>' :: r) ∧ '>' ∉ f ∧ restBlank r = true := by
  constructor
  · intro h
    unfold incOf at h
    split at h
    · split at h
      · split at h <;> cases h
      · cases h
    · next s =>
      split at h
      · next c r hd =>
        split at h
        · next hr =>
          obtain ⟨h1, h2⟩ := split_at_mark '>' s
          rcases h1 _ hd with e | ⟨t, e1, e2⟩
          · cases e
          · cases e1
            exact ⟨_, r, by rw [← e2], h2, hr⟩
        · cases h
      · cases h
    · cases h
  · rintro ⟨f, r, rfl, h1, h2⟩
    obtain ⟨e1, e2⟩ := mark_split (t := r) h1
    simp only [incOf, e1, h2, if_true]

example : incOf c!"\"a.h\" // a" = some (.quoted c!"a.h") ∧ incOf c!"\"a.h\" a" = none ∧ incOf c!"<vector>" = some .system ∧
    incOf c!"<vector> ;" = none ∧ incOf c!"A_H" = none := by decide +kernel

end Stfx.Cpp
