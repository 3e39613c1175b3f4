import Verif.Cpp.Library
/-
C72: the generated files include what declares the names they use.
-/
set_option autoImplicit false
set_option maxRecDepth 4000
namespace Stfx.Cpp
open Stfx.Gen Stfx.Parser Stfx.Items

section
variable {k : Kind} {stamp nameCpp nameH e : Str} {inputs : List Str} {out : OutSpec} {E : SMap EnumS} {S : SMap StructS}

/-- The generated headers that a structs .cpp file includes.  (Specification notion, models no code.) -/
def headersOf (k : Kind) (stamp nameH : Str) (inputs : List Str) (out : OutSpec) (E : SMap EnumS) (S : SMap StructS) : List Str :=
  fileText (structsH k stamp nameH inputs out S) ::
    if disabled out.enumFile then [] else [fileText (enumsH stamp (out.enumFile ++ c!".h") inputs E)]

/-- **C72, full statement**: every name with `std::`, `fmt::`, `tinyxml2::` or `stfx::` in a structs .cpp file is declared by the
generated headers it includes or by the library headers that it or they include. -/
def C72_statement : Prop :=
  ∀ (k : Kind) (stamp nameCpp nameH : Str) (inputs : List Str) (out : OutSpec) (E : SMap EnumS) (S : SMap StructS),
    FileNamed stamp nameCpp nameH inputs out.enumFile → Ident out.readerClass → (out.onlyRead = true ∨ Ident out.writerClass) →
    (∀ p ∈ S, StructNamed p.2) → (∀ p ∈ E, EnumNamed p.2) → (hasEnum S = true → E ≠ []) →
    ∃ fs, parse true (fileText (structsCpp k stamp nameCpp nameH inputs out S)) = some fs ∧
      ∀ f ∈ fs, ∀ q ∈ funNames f, foreign q = true →
        DeclaredIn (fileText (structsCpp k stamp nameCpp nameH inputs out S)) (headersOf k stamp nameH inputs out E S) q

/-! ### What holds -/

theorem nsNames_enumsH (hf : FileNamed stamp nameCpp nameH inputs e) (he : ∀ p ∈ E, EnumNamed p.2) (hE : E ≠ []) :
    ∀ q ∈ enumLib, q ∈ nsNames (fileText (enumsH stamp nameH inputs E)) := by
  intro q hq
  rw [nsNames, enumsH_parse (ext := true) hf he, Option.getD_some, List.flatMap_cons]
  refine List.mem_append_left _ ?_
  cases E with
  | nil => exact absurd rfl hE
  | cons p E =>
    simp only [List.flatMap_cons, List.map_append]
    refine List.mem_append_left _ ?_
    simpa [enumFDecls, enumLib] using hq

/-- **C72, structs .cpp file**: with the exception of the names of `<cstdio>` all names are declared, if the enum files are generated
whenever there is an enum member. -/
theorem C72_structs_partial (hf : FileNamed stamp nameCpp nameH inputs out.enumFile) (hr : Ident out.readerClass)
    (hw : out.onlyRead = true ∨ Ident out.writerClass) (hs : ∀ p ∈ S, StructNamed p.2) (he : ∀ p ∈ E, EnumNamed p.2)
    (hE : hasEnum S = true → E ≠ [] ∧ disabled out.enumFile = false) :
    ∃ fs, parse true (fileText (structsCpp k stamp nameCpp nameH inputs out S)) = some fs ∧
      ∀ f ∈ fs, ∀ q ∈ funNames f, foreign q = true → (k.isXml = false ∧ q ∈ provides c!"cstdio") ∨
        DeclaredIn (fileText (structsCpp k stamp nameCpp nameH inputs out S)) (headersOf k stamp nameH inputs out E S) q := by
  refine ⟨_, structsCpp_parse hf hr hw hs (.inl rfl), fun f hfm q hq hfo => ?_⟩
  have hin := within_mem (structsCpp_within f hfm) q hq hfo
  have henum : q ∈ (if hasEnum S then enumLib else []) →
      DeclaredIn (fileText (structsCpp k stamp nameCpp nameH inputs out S)) (headersOf k stamp nameH inputs out E S) q := by
    intro hq
    cases hb : hasEnum S with
    | false => rw [hb] at hq; cases hq
    | true =>
      rw [hb] at hq
      obtain ⟨h1, h2⟩ := hE hb
      have hen : Plain out.enumFile := hf.enums.resolve_left (by simp [h2])
      have hf' : FileNamed stamp nameCpp (out.enumFile ++ c!".h") inputs out.enumFile :=
        ⟨hf.stamp, hf.cpp, plain_append hen (by decide), hf.inputs, hf.enums⟩
      exact .inl ⟨_, by rw [headersOf, h2]; simp, nsNames_enumsH hf' he h1 q hq⟩
  have hlib : ∀ h ∈ (if k.isXml then [c!"string", c!"map", c!"stdexcept", c!"tinyxml2.h", c!"tixml2ex.h"]
      else [c!"string", c!"map", c!"regex", c!"stdexcept"] ++ if out.onlyRead then [] else [c!"fmt/format.h"]), q ∈ provides h →
      DeclaredIn (fileText (structsCpp k stamp nameCpp nameH inputs out S)) (headersOf k stamp nameH inputs out E S) q := by
    intro h hm hq
    exact .inr ⟨_, List.mem_cons_self, h, by rw [structsCpp_includes hf hr hw hs]; exact hm, hq⟩
  cases hk : k.isXml with
  | true =>
    rw [structsUses, hk] at hin
    rw [hk] at hlib
    refine .inr ?_
    rcases List.mem_append.1 hin with hin | hin
    · have : ∀ q ∈ xmlLib, q ∈ provides c!"string" ∨ q ∈ provides c!"stdexcept" ∨ q ∈ provides c!"tinyxml2.h" := by decide +kernel
      rcases this q hin with h | h | h
      · exact hlib _ (by simp) h
      · exact hlib _ (by simp) h
      · exact hlib _ (by simp) h
    · exact henum hin
  | false =>
    rw [structsUses, hk] at hin
    rw [hk] at hlib
    rcases List.mem_append.1 hin with hin | hin
    · rcases List.mem_append.1 hin with hin | hin
      · have : ∀ q ∈ iniLib, q ∈ provides c!"string" ∨ q ∈ provides c!"stdexcept" ∨ q ∈ provides c!"regex" := by decide +kernel
        refine .inr ?_
        rcases this q hin with h | h | h
        · exact hlib _ (by simp) h
        · exact hlib _ (by simp) h
        · exact hlib _ (by simp) h
      · exact .inl ⟨rfl, hin⟩
    · refine .inr ?_
      rcases List.mem_append.1 hin with hin | hin
      · exact henum hin
      · cases ho : out.onlyRead with
        | true => rw [ho] at hin; cases hin
        | false =>
          rw [ho] at hin hlib
          refine hlib c!"fmt/format.h" (by simp) ?_
          simp only [Bool.not_false, if_true, List.mem_cons, List.not_mem_nil, or_false] at hin
          subst hin
          decide

/-- For the XML formats nothing is excepted. -/
theorem C72_xml_partial (hk : k.isXml = true) (hf : FileNamed stamp nameCpp nameH inputs out.enumFile) (hr : Ident out.readerClass)
    (hw : out.onlyRead = true ∨ Ident out.writerClass) (hs : ∀ p ∈ S, StructNamed p.2) (he : ∀ p ∈ E, EnumNamed p.2)
    (hE : hasEnum S = true → E ≠ [] ∧ disabled out.enumFile = false) :
    ∃ fs, parse true (fileText (structsCpp k stamp nameCpp nameH inputs out S)) = some fs ∧
      ∀ f ∈ fs, ∀ q ∈ funNames f, foreign q = true →
        DeclaredIn (fileText (structsCpp k stamp nameCpp nameH inputs out S)) (headersOf k stamp nameH inputs out E S) q := by
  obtain ⟨fs, h1, h2⟩ := C72_structs_partial hf hr hw hs he hE
  exact ⟨fs, h1, fun f hf q hq hfo => (h2 f hf q hq hfo).resolve_left (by simp [hk])⟩

end

section
variable {k : Kind} {stamp nameCpp nameH e : Str} {inputs : List Str} {out : OutSpec} {E : SMap EnumS} {S : SMap StructS}

/-- The names in a generated class.  (Proof notion, models no code.) -/
def classLib (k : Kind) : List (List Str) :=
  if k.isXml then [[c!"std", c!"string"], [c!"tinyxml2", c!"XMLElement"]] else [[c!"std", c!"string"], [c!"std", c!"map"]]

theorem readerClass_within (k : Kind) (rc : Str) (ss : List StructS) : within (classLib k) (hdeclNames (.cls (readerClassOf k rc ss))) = true := by
  have h1 : ∀ s : StructS, within (classLib k) (memberDeclNames (entryMember c!"read_from_file" s.name c!"struct_to_fill")) = true := by
    intro s; cases k <;> kernel_rfl
  have h2 : ∀ s : StructS, within (classLib k) ((readerMember k s).flatMap memberDeclNames) = true := by
    intro s; cases k <;> kernel_rfl
  simp only [hdeclNames, readerClassOf, List.nil_append, List.flatMap_append, List.flatMap_map, List.flatMap_assoc, within_append,
    within_flatMap fun s _ => h1 s, within_flatMap fun s _ => h2 s, Bool.and_true]
  cases k <;> kernel_rfl

theorem writerClass_within (k : Kind) (wc rc : Str) (ss : List StructS) :
    within (classLib k ++ if k.isXml then [] else [[c!"std", c!"FILE"]]) (hdeclNames (.cls (writerClassOf k wc rc ss))) = true := by
  have h1 : ∀ s : StructS, within (classLib k ++ if k.isXml then [] else [[c!"std", c!"FILE"]])
      (memberDeclNames (entryMember c!"write_to_file" s.name c!"struct_to_read")) = true := by
    intro s; cases k <;> kernel_rfl
  have h2 : ∀ s : StructS, within (classLib k ++ if k.isXml then [] else [[c!"std", c!"FILE"]]) ((writerMember k s).flatMap memberDeclNames) = true := by
    intro s; cases k <;> kernel_rfl
  simp only [hdeclNames, writerClassOf, List.flatMap_append, List.flatMap_map, List.flatMap_assoc, within_append,
    within_flatMap fun s _ => h1 s, within_flatMap fun s _ => h2 s, Bool.and_true]
  cases k <;> kernel_rfl

/-- **C72, structs .h file**: it can be included first.  With the exception of `std::FILE` in the writer class of the ini formats it
includes the declarations of all names it uses. -/
theorem C72_header_partial (hf : FileNamed stamp nameCpp nameH inputs out.enumFile) (hr : Ident out.readerClass)
    (hw : out.onlyRead = true ∨ Ident out.writerClass) (hs : ∀ p ∈ S, StructNamed p.2) :
    ∃ ds, parseH true (fileText (structsH k stamp nameH inputs out S)) = some ds ∧
      ∀ d ∈ ds, ∀ q ∈ hdeclNames d, foreign q = true → (k.isXml = false ∧ out.onlyRead = false ∧ q = [c!"std", c!"FILE"]) ∨
        DeclaredIn (fileText (structsH k stamp nameH inputs out S)) [] q := by
  refine ⟨_, structsH_parse hf hr hw hs, fun d hd q hq hfo => ?_⟩
  have hlib : ∀ h ∈ [c!"string", if k.isXml then c!"tinyxml2.h" else c!"map"], q ∈ provides h →
      DeclaredIn (fileText (structsH k stamp nameH inputs out S)) [] q := by
    intro h hm hq
    exact .inr ⟨_, List.mem_cons_self, h, by rw [structsH_includes hf hr hw hs]; exact hm, hq⟩
  have hcls : q ∈ classLib k → DeclaredIn (fileText (structsH k stamp nameH inputs out S)) [] q := by
    intro hq
    unfold classLib at hq
    cases hk : k.isXml with
    | true =>
      rw [hk] at hq hlib
      simp only [if_true, List.mem_cons, List.not_mem_nil, or_false] at hq
      rcases hq with rfl | rfl
      · exact hlib c!"string" (by simp) (by decide)
      · exact hlib c!"tinyxml2.h" (by simp) (by decide)
    | false =>
      rw [hk] at hq hlib
      simp only [Bool.false_eq_true, if_false, List.mem_cons, List.not_mem_nil, or_false] at hq
      rcases hq with rfl | rfl
      · exact hlib c!"string" (by simp) (by decide)
      · exact hlib c!"map" (by simp) (by decide)
  rcases List.mem_cons.1 hd with rfl | hd
  · exact .inr (hcls (within_mem (readerClass_within k _ _) q hq hfo))
  · cases ho : out.onlyRead with
    | true => rw [ho] at hd; cases hd
    | false =>
      rw [ho] at hd
      simp only [Bool.false_eq_true, if_false, List.mem_cons, List.not_mem_nil, or_false] at hd
      subst hd
      rcases List.mem_append.1 (within_mem (writerClass_within k _ _ _) q hq hfo) with h | h
      · exact .inr (hcls h)
      · cases hk : k.isXml with
        | true => rw [hk] at h; cases h
        | false =>
          rw [hk] at h
          simp only [Bool.false_eq_true, if_false, List.mem_cons, List.not_mem_nil, or_false] at h
          exact .inl ⟨rfl, rfl, h⟩

/-- **C72, enums .h file**: it includes or declares all names it uses. -/
theorem C72_enums_header (hf : FileNamed stamp nameCpp nameH inputs e) (he : ∀ p ∈ E, EnumNamed p.2) :
    ∃ ds, parseH true (fileText (enumsH stamp nameH inputs E)) = some ds ∧
      ∀ d ∈ ds, ∀ q ∈ hdeclNames d, foreign q = true →
        DeclaredIn (fileText (enumsH stamp nameH inputs E)) [fileText (enumsH stamp nameH inputs E)] q := by
  refine ⟨_, enumsH_parse hf he, fun d hd q hq hfo => ?_⟩
  have hlib : ∀ h ∈ [c!"string", c!"fmt/format.h"], q ∈ provides h →
      DeclaredIn (fileText (enumsH stamp nameH inputs E)) [fileText (enumsH stamp nameH inputs E)] q := by
    intro h hm hq
    exact .inr ⟨_, List.mem_cons_self, h, by rw [enumsH_includes hf he]; exact hm, hq⟩
  rcases List.mem_cons.1 hd with rfl | hd
  · have : within [[c!"std", c!"string"]] (hdeclNames (.ns c!"stfx" (E.flatMap fun p => enumFDecls p.2.name))) = true := by
      simp only [hdeclNames, List.flatMap_assoc]
      exact within_flatMap fun p _ => by kernel_rfl
    have := within_mem this q hq hfo
    simp only [List.mem_cons, List.not_mem_nil, or_false] at this
    subst this
    exact hlib c!"string" (by simp) (by decide)
  · obtain ⟨p, hp, rfl⟩ := List.mem_map.1 hd
    have : within [[c!"std", c!"string"], [c!"fmt", c!"formatter"], [c!"stfx", c!"s_from_e"]]
        (hdeclNames (.special (formatterOf p.2.name))) = true := by kernel_rfl
    have := within_mem this q hq hfo
    simp only [List.mem_cons, List.not_mem_nil, or_false] at this
    rcases this with rfl | rfl | rfl
    · exact hlib c!"string" (by simp) (by decide)
    · exact hlib c!"fmt/format.h" (by simp) (by decide)
    · exact .inl ⟨_, List.mem_cons_self, nsNames_enumsH hf he (List.ne_nil_of_mem hp) _ (by decide)⟩

/-- The library names in enum functions.  (Proof notion, models no code.) -/
def enumFunLib : List (List Str) :=
  [[c!"std", c!"string"], [c!"std", c!"map"], [c!"std", c!"to_string"], [c!"std", c!"stoi"], [c!"std", c!"exception"]]

/-- The name is not that of a namespace.  (Specification notion, models no code.) -/
def NotSpace (n : Str) : Prop := n ≠ c!"std" ∧ n ≠ c!"fmt" ∧ n ≠ c!"tinyxml2" ∧ n ≠ c!"stfx"

theorem exprsNames_map {α : Type} (l : List α) (f : α → Expr) : exprsNames (l.map f) = l.flatMap fun x => exprNames (f x) := by
  induction l with
  | nil => rfl
  | cons x l ih => rw [List.map_cons, exprsNames, ih, List.flatMap_cons]

theorem enumId_within {A : List (List Str)} {e : EnumS} (h : NotSpace e.name) (l : EnumLine) : within A (exprNames (enumId e l)) = true := by
  unfold enumId
  obtain ⟨h1, h2, h3, h4⟩ := h
  split
  · simp [exprNames, within, foreign, h1, h2, h3, h4]
  · simp [exprNames, within, foreign]

theorem sFrom_within {e : EnumS} (h : NotSpace e.name) : within enumFunLib (funNames (sFromFun e)) = true := by
  have h1 : within enumFunLib (e.enums.flatMap fun l => exprNames (fromElem e l)) = true := by
    refine within_flatMap fun l _ => ?_
    have := enumId_within (A := enumFunLib) h l
    simp only [fromElem, exprNames, exprsNames, List.append_nil]
    exact this
  refine funNames_noBase (by kernel_rfl) ?_
  simp only [List.cons_append, List.nil_append, stmtsNames, stmtsNames_append, stmtNames, optNames, exprNames, exprsNames_map,
    within_append, h1, Bool.and_true, Bool.true_and]
  kernel_rfl

theorem sTo_within {e : EnumS} (h : NotSpace e.name) : within enumFunLib (funNames (sToFun e)) = true := by
  have h1 : within enumFunLib (e.enums.flatMap fun l => exprNames (toElem e l)) = true := by
    refine within_flatMap fun l _ => ?_
    have := enumId_within (A := enumFunLib) h l
    simp only [toElem, exprNames, exprsNames, List.append_nil, List.nil_append]
    exact this
  refine funNames_noBase (by kernel_rfl) ?_
  simp only [stmtsNames, stmtsNames_append, stmtNames, optNames, exprNames, exprsNames_map,
    within_append, h1, Bool.and_true]
  kernel_rfl

/-- **C72, enums .cpp file**: with the exception of `std::exception` all names are declared. -/
theorem C72_enums_partial (hf : FileNamed stamp nameCpp nameH inputs e) (he : ∀ p ∈ E, EnumNamed p.2) (hn : ∀ p ∈ E, NotSpace p.2.name) :
    ∃ fs, parse true (fileText (enumsCpp stamp nameCpp nameH inputs E)) = some fs ∧
      ∀ f ∈ fs, ∀ q ∈ funNames f, foreign q = true → q = [c!"std", c!"exception"] ∨
        DeclaredIn (fileText (enumsCpp stamp nameCpp nameH inputs E)) [fileText (enumsH stamp nameH inputs E)] q := by
  refine ⟨_, enumsCpp_parse hf he, fun f hfm q hq hfo => ?_⟩
  have hlib : ∀ h ∈ [c!"string", c!"map"], q ∈ provides h →
      DeclaredIn (fileText (enumsCpp stamp nameCpp nameH inputs E)) [fileText (enumsH stamp nameH inputs E)] q := by
    intro h hm hq
    exact .inr ⟨_, List.mem_cons_self, h, by rw [enumsCpp_includes hf he]; exact hm, hq⟩
  obtain ⟨p, hp, hf'⟩ := List.mem_flatMap.1 hfm
  have hin : q ∈ enumFunLib := by
    simp only [List.mem_cons, List.not_mem_nil, or_false] at hf'
    rcases hf' with rfl | rfl
    · exact within_mem (sFrom_within (hn p hp)) q hq hfo
    · exact within_mem (sTo_within (hn p hp)) q hq hfo
  simp only [enumFunLib, List.mem_cons, List.not_mem_nil, or_false] at hin
  rcases hin with rfl | rfl | rfl | rfl | rfl
  · exact .inr (hlib c!"string" (by simp) (by decide))
  · exact .inr (hlib c!"map" (by simp) (by decide))
  · exact .inr (hlib c!"string" (by simp) (by decide))
  · exact .inr (hlib c!"string" (by simp) (by decide))
  · exact .inl rfl

end

/-! ### What does not hold -/

section
variable {k : Kind} {stamp nameCpp nameH e : Str} {inputs : List Str} {out : OutSpec} {E : SMap EnumS} {S : SMap StructS}

theorem nsNames_structsH (hf : FileNamed stamp nameCpp nameH inputs out.enumFile) (hr : Ident out.readerClass)
    (hw : out.onlyRead = true ∨ Ident out.writerClass) (hs : ∀ p ∈ S, StructNamed p.2) :
    nsNames (fileText (structsH k stamp nameH inputs out S)) = [] := by
  rw [nsNames, structsH_parse (ext := true) hf hr hw hs, Option.getD_some]
  cases out.onlyRead <;> rfl

theorem nsNames_only (hf : FileNamed stamp nameCpp nameH inputs e) (he : ∀ p ∈ E, EnumNamed p.2) :
    ∀ q ∈ nsNames (fileText (enumsH stamp nameH inputs E)), q.head? = some c!"stfx" := by
  intro q hq
  rw [nsNames, enumsH_parse (ext := true) hf he, Option.getD_some, List.flatMap_cons] at hq
  rcases List.mem_append.1 hq with hq | hq
  · obtain ⟨f, _, rfl⟩ := List.mem_map.1 hq
    rfl
  · obtain ⟨d, hd, hq⟩ := List.mem_flatMap.1 hq
    obtain ⟨p, _, rfl⟩ := List.mem_map.1 hd
    cases hq

/-- What a structs .cpp file and the headers it includes do not declare. -/
theorem not_declared {q : List Str} (hf : FileNamed stamp nameCpp nameH inputs out.enumFile) (hr : Ident out.readerClass)
    (hw : out.onlyRead = true ∨ Ident out.writerClass) (hs : ∀ p ∈ S, StructNamed p.2) (he : ∀ p ∈ E, EnumNamed p.2)
    (h1 : q.head? ≠ some c!"stfx" ∨ disabled out.enumFile = true)
    (h2 : ∀ h ∈ [c!"string", c!"map", c!"stdexcept", c!"tinyxml2.h", c!"tixml2ex.h", c!"regex", c!"fmt/format.h"], q ∉ provides h) :
    ¬DeclaredIn (fileText (structsCpp k stamp nameCpp nameH inputs out S)) (headersOf k stamp nameH inputs out E S) q := by
  have hen : disabled out.enumFile = false → FileNamed stamp nameCpp (out.enumFile ++ c!".h") inputs out.enumFile := fun hd =>
    ⟨hf.stamp, hf.cpp, plain_append (hf.enums.resolve_left (by simp [hd])) (by decide), hf.inputs, hf.enums⟩
  rintro (⟨t, ht, hq⟩ | ⟨t, ht, h, hh, hq⟩)
  · rcases List.mem_cons.1 ht with rfl | ht
    · rw [nsNames_structsH hf hr hw hs] at hq
      cases hq
    · cases hd : disabled out.enumFile with
      | true => rw [hd] at ht; cases ht
      | false =>
        rw [hd] at ht
        simp only [Bool.false_eq_true, if_false, List.mem_cons, List.not_mem_nil, or_false] at ht
        subst ht
        exact (h1.resolve_right (by simp [hd])) (nsNames_only (hen hd) he q hq)
  · refine h2 h ?_ hq
    rcases List.mem_cons.1 ht with rfl | ht
    · rw [structsCpp_includes hf hr hw hs] at hh
      split at hh
      · simp only [List.mem_cons, List.not_mem_nil, or_false] at hh ⊢
        rcases hh with h | h | h | h | h <;> simp [h]
      · split at hh <;> simp only [List.mem_append, List.mem_cons, List.not_mem_nil, or_false] at hh ⊢
        · rcases hh with h | h | h | h <;> simp [h]
        · rcases hh with (h | h | h | h) | h <;> simp [h]
    · rcases List.mem_cons.1 ht with rfl | ht
      · rw [structsH_includes hf hr hw hs] at hh
        simp only [List.mem_cons, List.not_mem_nil, or_false] at hh ⊢
        rcases hh with rfl | rfl
        · simp
        · split <;> simp
      · cases hd : disabled out.enumFile with
        | true => rw [hd] at ht; cases ht
        | false =>
          rw [hd] at ht
          simp only [Bool.false_eq_true, if_false, List.mem_cons, List.not_mem_nil, or_false] at ht
          subst ht
          rw [enumsH_includes (hen hd) he] at hh
          simp only [List.mem_cons, List.not_mem_nil, or_false] at hh ⊢
          rcases hh with rfl | rfl <;> simp

/-- **Neither ini format includes `<cstdio>`**: whenever there is a struct to read from a file, `std::FILE`, `std::fopen`, `std::fgets`
and `std::fclose` are used and not declared by what the generated files include. -/
theorem C72_cstdio (hk : k.isXml = false) (hf : FileNamed stamp nameCpp nameH inputs out.enumFile) (hr : Ident out.readerClass)
    (hw : out.onlyRead = true ∨ Ident out.writerClass) (hs : ∀ p ∈ S, StructNamed p.2) (he : ∀ p ∈ E, EnumNamed p.2)
    (ht : ∃ p ∈ S, p.2.incoming = 0) :
    ∃ fs, parse true (fileText (structsCpp k stamp nameCpp nameH inputs out S)) = some fs ∧ ∀ q ∈ provides c!"cstdio",
      (∃ f ∈ fs, q ∈ funNames f) ∧
      ¬DeclaredIn (fileText (structsCpp k stamp nameCpp nameH inputs out S)) (headersOf k stamp nameH inputs out E S) q := by
  refine ⟨_, structsCpp_parse hf hr hw hs (.inl rfl), fun q hq => ⟨?_, not_declared hf hr hw hs he ?_ ?_⟩⟩
  · obtain ⟨p, hp, hi⟩ := ht
    refine ⟨ini120_fun out.readerClass p.2.name, ?_, ?_⟩
    · rw [structsCpp_funs]
      refine List.mem_cons_of_mem _ (List.mem_append_left _ (List.mem_append_left _ (List.mem_map.2 ⟨p.2, ?_, by rw [hk]; rfl⟩)))
      exact List.mem_filter.2 ⟨List.mem_map_of_mem hp, by simp [isTop, hi]⟩
    · have : ((provides c!"cstdio").all fun q => ((funNames (ini120_fun out.readerClass p.2.name)).filter foreign).contains q) = true := by
        kernel_rfl
      have := List.all_eq_true.1 this q hq
      simp only [List.contains_eq_mem, decide_eq_true_eq] at this
      exact (List.mem_filter.1 this).1
  · have : ∀ q ∈ provides c!"cstdio", q.head? ≠ some c!"stfx" := by decide
    exact .inl (this q hq)
  · have : ∀ q ∈ provides c!"cstdio",
        ∀ h ∈ [c!"string", c!"map", c!"stdexcept", c!"tinyxml2.h", c!"tixml2ex.h", c!"regex", c!"fmt/format.h"], q ∉ provides h := by
      decide +kernel
    exact this q hq

/-- **Without enum files the enum functions are used all the same**: if the name of the enum files is empty or `-` and a struct has an
enum member, `stfx::s_to_e` is used and not declared. -/
theorem C72_disabled (hk : k.isXml = true) (hf : FileNamed stamp nameCpp nameH inputs out.enumFile) (hr : Ident out.readerClass)
    (hw : out.onlyRead = true ∨ Ident out.writerClass) (hs : ∀ p ∈ S, StructNamed p.2) (he : ∀ p ∈ E, EnumNamed p.2)
    (hd : disabled out.enumFile = true) (hE : hasEnum S = true) :
    ∃ fs, parse true (fileText (structsCpp k stamp nameCpp nameH inputs out S)) = some fs ∧
      (∃ f ∈ fs, [c!"stfx", c!"s_to_e"] ∈ funNames f) ∧
      ¬DeclaredIn (fileText (structsCpp k stamp nameCpp nameH inputs out S)) (headersOf k stamp nameH inputs out E S)
        [c!"stfx", c!"s_to_e"] := by
  refine ⟨_, structsCpp_parse hf hr hw hs (.inl rfl), ?_, not_declared hf hr hw hs he (.inr hd) (by decide +kernel)⟩
  obtain ⟨p, hp, h⟩ := List.any_eq_true.1 hE
  obtain ⟨co, hco, h⟩ := List.any_eq_true.1 h
  simp only [decide_eq_true_eq] at h
  have hr : ∀ (k : Kind) (ch : Bool) (ss : List Rd) (r : Rd), rdEnum r = true → r ∈ p.2.complex.map (rdComplex k) →
      [c!"stfx", c!"s_to_e"] ∈ funNames (rdFun out.readerClass p.2.name (rdBody k ch ss (p.2.complex.map (rdComplex k)))) := by
    intro k ch ss r hr hm
    have h1 : [c!"stfx", c!"s_to_e"] ∈ stmtsNames (rdTree r) := by
      have : ((stmtsNames (rdTree r)).filter foreign).contains [c!"stfx", c!"s_to_e"] = true := by
        cases r with
        | elemEnum n => kernel_rfl
        | attrEnum n => kernel_rfl
        | elem ty n => cases hr
        | attr ty n => cases hr
        | child n ty => cases hr
        | vector n ty => cases hr
        | fixme n => cases hr
        | warn n => cases hr
      simp only [List.contains_eq_mem, decide_eq_true_eq] at this
      exact (List.mem_filter.1 this).1
    simp only [funNames, rdFun, rdBody, stmtsNames_append, stmtsNames_flatMap]
    refine List.mem_append_right _ (List.mem_append_left _ (List.mem_append_right _ (List.mem_flatMap.2 ⟨r, hm, h1⟩)))
  have hdef : ∃ f ∈ (readerDef k out.readerClass p.2).flatMap itemFuns, [c!"stfx", c!"s_to_e"] ∈ funNames f := by
    cases k with
    | xml => exact ⟨_, List.mem_cons_self, hr .xml _ _ (rdComplex .xml co) (by simp [rdComplex, h, rdEnum]) (List.mem_map_of_mem hco)⟩
    | attrib =>
      exact ⟨_, List.mem_cons_self, hr .attrib _ _ (rdComplex .attrib co) (by simp [rdComplex, h, rdEnum]) (List.mem_map_of_mem hco)⟩
    | ini => cases hk
    | nIni => cases hk
  obtain ⟨f, hfm, hq⟩ := hdef
  refine ⟨f, ?_, hq⟩
  rw [structsCpp_funs]
  exact List.mem_cons_of_mem _ (List.mem_append_left _ (List.mem_append_right _ (List.mem_flatMap.2 ⟨p.2, List.mem_map_of_mem hp, hfm⟩)))

/-- **The enums .cpp file uses `std::exception` and includes neither `<exception>` nor `<stdexcept>`.** -/
theorem C72_exception (hf : FileNamed stamp nameCpp nameH inputs e) (he : ∀ p ∈ E, EnumNamed p.2) (hE : E ≠ []) :
    ∃ fs, parse true (fileText (enumsCpp stamp nameCpp nameH inputs E)) = some fs ∧ (∃ f ∈ fs, [c!"std", c!"exception"] ∈ funNames f) ∧
      ¬DeclaredIn (fileText (enumsCpp stamp nameCpp nameH inputs E)) [fileText (enumsH stamp nameH inputs E)] [c!"std", c!"exception"] := by
  refine ⟨_, enumsCpp_parse hf he, ?_, ?_⟩
  · cases E with
    | nil => exact absurd rfl hE
    | cons p E =>
      refine ⟨sToFun p.2, by simp, ?_⟩
      have : ((stmtsNames (base186_tree p.2.name)).filter foreign).contains [c!"std", c!"exception"] = true := by kernel_rfl
      simp only [List.contains_eq_mem, decide_eq_true_eq] at this
      have := (List.mem_filter.1 this).1
      simp only [funNames, sToFun, stmtsNames_append]
      exact List.mem_append_right _ (List.mem_append_left _ (List.mem_append_right _ this))
  · rintro (⟨t, ht, hq⟩ | ⟨t, ht, h, hh, hq⟩)
    · simp only [List.mem_cons, List.not_mem_nil, or_false] at ht
      subst ht
      exact absurd (nsNames_only hf he _ hq) (by decide)
    · simp only [List.mem_cons, List.not_mem_nil, or_false] at ht
      have : ∀ h ∈ [c!"string", c!"map", c!"fmt/format.h"], [c!"std", c!"exception"] ∉ provides h := by decide +kernel
      rcases ht with rfl | rfl
      · rw [enumsCpp_includes hf he] at hh
        refine this h ?_ hq
        simp only [List.mem_cons, List.not_mem_nil, or_false] at hh ⊢
        rcases hh with rfl | rfl <;> simp
      · rw [enumsH_includes hf he] at hh
        refine this h ?_ hq
        simp only [List.mem_cons, List.not_mem_nil, or_false] at hh ⊢
        rcases hh with rfl | rfl <;> simp

end

/-- C72 refuted: an ini reader. -/
theorem C72_refuted : ¬C72_statement := by
  intro h
  have hn := exNames .int
  obtain ⟨fs, h1, h2⟩ := h .nIni _ _ _ _ exOut unitEnums (exStructs .int) hn.files hn.reader hn.writer hn.structs unitEnums_named (by simp [unitEnums])
  obtain ⟨gs, h3, h4⟩ := C72_cstdio (k := .nIni) (E := unitEnums) rfl hn.files hn.reader hn.writer hn.structs unitEnums_named
    ⟨_, List.mem_cons_of_mem _ List.mem_cons_self, rfl⟩
  rw [h1] at h3
  cases h3
  obtain ⟨⟨f, hf, hq⟩, hnd⟩ := h4 [c!"std", c!"fopen"] (by decide)
  exact hnd (h2 f hf _ hq (by decide))

/-! ### Examples -/

/-- All of an XML reader and writer with an enum member. -/
example : ∃ fs, parse true (fileText (structsCpp .attrib c!"stfx 1.0" c!"structs.cpp" c!"structs.h" [c!"data.h"] exOut (exStructs .int))) = some fs ∧
    ∀ f ∈ fs, ∀ q ∈ funNames f, foreign q = true →
      DeclaredIn (fileText (structsCpp .attrib c!"stfx 1.0" c!"structs.cpp" c!"structs.h" [c!"data.h"] exOut (exStructs .int)))
        (headersOf .attrib c!"stfx 1.0" c!"structs.h" [c!"data.h"] exOut unitEnums (exStructs .int)) q :=
  have hn := exNames .int
  C72_xml_partial rfl hn.files hn.reader hn.writer hn.structs unitEnums_named fun _ => ⟨by simp [unitEnums], by decide⟩

example : ∃ fs, parse true (fileText (structsCpp .nIni c!"stfx 1.0" c!"structs.cpp" c!"structs.h" [c!"data.h"] exOut (exStructs .int))) = some fs ∧
    ∀ f ∈ fs, ∀ q ∈ funNames f, foreign q = true → (false = false ∧ q ∈ provides c!"cstdio") ∨
      DeclaredIn (fileText (structsCpp .nIni c!"stfx 1.0" c!"structs.cpp" c!"structs.h" [c!"data.h"] exOut (exStructs .int)))
        (headersOf .nIni c!"stfx 1.0" c!"structs.h" [c!"data.h"] exOut unitEnums (exStructs .int)) q :=
  have hn := exNames .int
  C72_structs_partial hn.files hn.reader hn.writer hn.structs unitEnums_named fun _ => ⟨by simp [unitEnums], by decide⟩

/-- The n_ini header uses `std::FILE`. -/
example : (∃ ds, parseH true (fileText (structsH .nIni c!"stfx 1.0" c!"structs.h" [c!"data.h"] exOut (exStructs .int))) = some ds ∧
    [c!"std", c!"FILE"] ∈ ds.flatMap hdeclNames ∧ [c!"std", c!"map"] ∈ ds.flatMap hdeclNames) :=
  have hn := exNames .int
  ⟨_, structsH_parse hn.files hn.reader hn.writer hn.structs, by decide +kernel, by decide +kernel⟩

/-- An enum file of an enum class. -/
example : ∃ fs, parse true (fileText (enumsCpp c!"stfx 1.0" c!"structs.cpp" c!"structs.h" [c!"data.h"] unitEnums)) = some fs ∧
    ∀ f ∈ fs, ∀ q ∈ funNames f, foreign q = true → q = [c!"std", c!"exception"] ∨
      DeclaredIn (fileText (enumsCpp c!"stfx 1.0" c!"structs.cpp" c!"structs.h" [c!"data.h"] unitEnums))
        [fileText (enumsH c!"stfx 1.0" c!"structs.h" [c!"data.h"] unitEnums)] q :=
  C72_enums_partial (exNames .int).files unitEnums_named (by
    intro p hp
    simp only [unitEnums, List.mem_cons, List.not_mem_nil, or_false] at hp
    subst hp
    unfold NotSpace
    decide)

/-- An output specification without enum files.  (Example, models no code.) -/
def exOutNoEnums : OutSpec := { exOut with enumFile := c!"-" }

example : ∃ fs, parse true (fileText (structsCpp .xml c!"stfx 1.0" c!"structs.cpp" c!"structs.h" [c!"data.h"] exOutNoEnums (exStructs .int))) = some fs ∧
    ∃ f ∈ fs, [c!"stfx", c!"s_to_e"] ∈ funNames f := by
  have hn := exNames .int
  obtain ⟨fs, h1, h2, _⟩ := C72_disabled (k := .xml) (out := exOutNoEnums) (E := unitEnums) rfl
    ⟨hn.files.stamp, hn.files.cpp, hn.files.h, hn.files.inputs, .inl (by decide)⟩ hn.reader hn.writer hn.structs unitEnums_named (by decide) (by decide)
  exact ⟨fs, h1, h2⟩

end Stfx.Cpp
