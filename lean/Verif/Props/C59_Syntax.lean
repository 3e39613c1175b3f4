import Verif.Cpp.Reject
/-
Property C59: the generated .cpp files are C++.

The text of the files is read with the lexical rules and the grammar of `Cpp/Lex.lean` and `Cpp/Parse.lean`, which know
nothing of the generators.  The files turn out to be exactly the definitions of the functions they are meant to define, in a
known order and with known parameters, except that attribute XML readers of `unsigned short` and `unsigned long` members are
rejected: `unsigned short(i)` is no expression of C++ (process_items_xml_attrib.cpp:51, 57).
-/
set_option autoImplicit false
set_option maxRecDepth 4000
namespace Stfx.Cpp
open Stfx.Gen Stfx.Parser Stfx.Items

/-- What the declaration of a function says: result type (none for constructors), qualified name and parameters.
(Specification notion, models no code.) -/
abbrev Sig := Option Ty × List Str × List (Ty × Str)

/-- The signature of a definition.  (Specification notion, models no code.) -/
def Fun.sig (f : Fun) : Sig := (f.ret, f.name, f.params)

/-- `std::string`  (Specification notion, models no code.) -/
def tString : Ty := .name [c!"std", c!"string"]

/-- The functions of the class that reads objects of the structs.  (Specification notion, models no code.) -/
def readerSigs (k : Kind) (cls : Str) (ss : List StructS) : List Sig :=
  [(none, [cls, cls], [])] ++
  (ss.filter fun s => s.incoming = 0).map (fun s => (some (.prim .bool), [cls, c!"read_from_file"],
    [(.ref tString, c!"filename"), (.ref (.name [s.name]), c!"struct_to_fill")])) ++
  match k with
  | .xml | .attrib => ss.map fun s => (some (.prim .bool), [cls, c!"do_" ++ s.name],
      [(.ptr (.name [c!"tinyxml2", c!"XMLElement"]), c!"el"), (.ptr (.name [s.name]), c!"data")])
  | .nIni => ss.map fun s => (some (.prim .bool), [cls, c!"do_rd_" ++ s.name],
      [(tString, c!"path"), (.ref (.name [s.name]), c!"data")])
  | .ini => []

/-- The functions of the class that writes objects of the structs.  (Specification notion, models no code.) -/
def writerSigs (k : Kind) (cls : Str) (ss : List StructS) : List Sig :=
  [(none, [cls, cls], [(.prim .bool, c!"delta_only")])] ++
  (ss.filter fun s => s.incoming = 0).map (fun s => (some (.prim .bool), [cls, c!"write_to_file"],
    [(.ref tString, c!"filename"), (.ref (.name [s.name]), c!"struct_to_read")])) ++
  match k with
  | .xml | .attrib => ss.map fun s => (some (.prim .bool), [cls, c!"do_wr_" ++ s.name],
      [(.ptr (.name [c!"tinyxml2", c!"XMLElement"]), c!"el"), (.ptr (.name [s.name]), c!"data")])
  | .nIni => ss.map fun s => (some (.prim .bool), [cls, c!"do_wr_" ++ s.name],
      [(tString, c!"path"), (.ptr (.name [s.name]), c!"data")])
  | .ini => []

/-- No member needs `unsigned short(i)` or `unsigned long(i)`.  (Specification notion, models no code.) -/
def NoShort (k : Kind) (S : SMap StructS) : Prop :=
  k = .attrib → ∀ p ∈ S, ∀ l ∈ p.2.simple, l.ty ≠ .unsignedShort ∧ l.ty ≠ .unsignedLong

/-- All names the generated code is made of are identifiers or file names.  (Specification notion, models no code.) -/
structure Names (stamp nameCpp nameH : Str) (inputs : List Str) (out : OutSpec) (S : SMap StructS) : Prop where
  files : FileNamed stamp nameCpp nameH inputs out.enumFile
  reader : Ident out.readerClass
  writer : out.onlyRead = true ∨ Ident out.writerClass
  structs : ∀ p ∈ S, StructNamed p.2

theorem sigs_eq (k : Kind) (stamp nameCpp nameH : Str) (inputs : List Str) (out : OutSpec) (S : SMap StructS) :
    ((structsCpp k stamp nameCpp nameH inputs out S).flatMap itemFuns).map Fun.sig =
      readerSigs k out.readerClass (S.map Prod.snd) ++
      if out.onlyRead then [] else writerSigs k out.writerClass (S.map Prod.snd) := by
  have hq : ∀ is : List Item, (∀ i ∈ is, ∃ t, i = .raw t) → is.flatMap itemFuns = [] := by
    intro is h
    rw [List.flatMap_eq_nil_iff]
    intro i hi
    obtain ⟨t, rfl⟩ := h i hi
    rfl
  have hh : (structsCppHead k stamp nameCpp nameH inputs out).flatMap itemFuns = [] := by
    refine hq _ fun i hi => ?_
    unfold structsCppHead at hi
    split at hi <;> simp only [List.mem_append, List.mem_cons, List.not_mem_nil, or_false, List.mem_map] at hi
    · rcases hi with hi | ⟨f, _, rfl⟩
      · rcases hi with rfl | rfl | rfl | rfl | rfl | rfl <;> exact ⟨_, rfl⟩
      · exact ⟨_, rfl⟩
    · rcases hi with (((hi | hi) | hi) | hi) | ⟨f, _, rfl⟩
      · rcases hi with rfl | rfl | rfl | rfl <;> exact ⟨_, rfl⟩
      · split at hi
        · cases hi
        · simp only [List.mem_cons, List.not_mem_nil, or_false] at hi
          exact ⟨_, hi⟩
      · exact ⟨_, hi⟩
      · exact ⟨_, hi⟩
      · exact ⟨_, rfl⟩
  have hr : ∀ l : List StructS, ((l.flatMap (readerDef k out.readerClass)).flatMap itemFuns).map Fun.sig = match k with
      | .xml | .attrib => l.map fun s => (some (.prim .bool), [out.readerClass, c!"do_" ++ s.name],
          [(.ptr (.name [c!"tinyxml2", c!"XMLElement"]), c!"el"), (.ptr (.name [s.name]), c!"data")])
      | .nIni => l.map fun s => (some (.prim .bool), [out.readerClass, c!"do_rd_" ++ s.name],
          [(tString, c!"path"), (.ref (.name [s.name]), c!"data")])
      | .ini => [] := by
    intro l
    induction l with
    | nil => cases k <;> rfl
    | cons s l ih =>
      rw [List.flatMap_cons, List.flatMap_append, List.map_append, ih]
      cases k <;> rfl
  have hw : ∀ l : List StructS, ((l.flatMap (writerDef k out.writerClass out.noDelta)).flatMap itemFuns).map Fun.sig = match k with
      | .xml | .attrib => l.map fun s => (some (.prim .bool), [out.writerClass, c!"do_wr_" ++ s.name],
          [(.ptr (.name [c!"tinyxml2", c!"XMLElement"]), c!"el"), (.ptr (.name [s.name]), c!"data")])
      | .nIni => l.map fun s => (some (.prim .bool), [out.writerClass, c!"do_wr_" ++ s.name],
          [(tString, c!"path"), (.ptr (.name [s.name]), c!"data")])
      | .ini => [] := by
    intro l
    induction l with
    | nil => cases k <;> rfl
    | cons s l ih =>
      rw [List.flatMap_cons, List.flatMap_append, List.map_append, ih]
      cases k <;> rfl
  have hrt : ∀ l : List StructS, ((l.map fun s => Item.defReadFile k out.readerClass s.name).flatMap itemFuns).map Fun.sig =
      l.map (fun s => (some (.prim .bool), [out.readerClass, c!"read_from_file"],
        [(.ref tString, c!"filename"), (.ref (.name [s.name]), c!"struct_to_fill")])) := by
    intro l
    rw [List.flatMap_map]
    induction l with
    | nil => rfl
    | cons s l ih =>
      rw [List.flatMap_cons, List.map_append, ih]
      cases k <;> rfl
  have hwt : ∀ l : List StructS, ((l.map fun s => Item.defWriteFile k out.writerClass s.name).flatMap itemFuns).map Fun.sig =
      l.map (fun s => (some (.prim .bool), [out.writerClass, c!"write_to_file"],
        [(.ref tString, c!"filename"), (.ref (.name [s.name]), c!"struct_to_read")])) := by
    intro l
    rw [List.flatMap_map]
    induction l with
    | nil => rfl
    | cons s l ih =>
      rw [List.flatMap_cons, List.map_append, ih]
      cases k <;> rfl
  have htop : (fun s : StructS => isTop s) = fun s : StructS => decide (s.incoming = 0) := rfl
  simp only [structsCpp, List.flatMap_append, List.map_append, hh, hr, hrt, List.nil_append, List.append_assoc, htop]
  cases out.onlyRead
  · simp only [Bool.false_eq_true, if_false, List.flatMap_append, List.map_append, hw, hwt]
    cases k <;> simp [readerSigs, writerSigs, itemFuns, Fun.sig, xml93_fun, xml149_fun]
  · cases k <;> simp [readerSigs, itemFuns, Fun.sig, xml93_fun]

/-- C59 as stated: the structs .cpp file is C++ and defines these functions. -/
def C59_statement : Prop :=
  ∀ (k : Kind) (stamp nameCpp nameH : Str) (inputs : List Str) (out : OutSpec) (S : SMap StructS),
    Names stamp nameCpp nameH inputs out S →
    ∃ fs, parse false (fileText (structsCpp k stamp nameCpp nameH inputs out S)) = some fs ∧
      fs.map Fun.sig = readerSigs k out.readerClass (S.map Prod.snd) ++
        if out.onlyRead then [] else writerSigs k out.writerClass (S.map Prod.snd)

/-- It holds for schemas without attribute XML readers of `unsigned short` and `unsigned long` members. -/
theorem C59_partial {k : Kind} {stamp nameCpp nameH : Str} {inputs : List Str} {out : OutSpec} {S : SMap StructS}
    (h : Names stamp nameCpp nameH inputs out S) (hn : NoShort k S) :
    ∃ fs, parse false (fileText (structsCpp k stamp nameCpp nameH inputs out S)) = some fs ∧
      fs.map Fun.sig = readerSigs k out.readerClass (S.map Prod.snd) ++
        if out.onlyRead then [] else writerSigs k out.writerClass (S.map Prod.snd) := by
  refine ⟨_, structsCpp_parse h.files h.reader h.writer h.structs (.inr ?_), sigs_eq ..⟩
  by_cases hk : k = .attrib
  · exact .inr (hn hk)
  · exact .inl hk

/-- With compilers that accept `unsigned short(i)` it holds for all schemas. -/
theorem C59_lenient {k : Kind} {stamp nameCpp nameH : Str} {inputs : List Str} {out : OutSpec} {S : SMap StructS}
    (h : Names stamp nameCpp nameH inputs out S) :
    ∃ fs, parse true (fileText (structsCpp k stamp nameCpp nameH inputs out S)) = some fs ∧
      fs.map Fun.sig = readerSigs k out.readerClass (S.map Prod.snd) ++
        if out.onlyRead then [] else writerSigs k out.writerClass (S.map Prod.snd) :=
  ⟨_, structsCpp_parse h.files h.reader h.writer h.structs (.inl rfl), sigs_eq ..⟩

/-- Every attribute XML file for a schema with such a member is no C++. -/
theorem C59_rejected {stamp nameCpp nameH : Str} {inputs : List Str} {out : OutSpec} {S : SMap StructS}
    (h : Names stamp nameCpp nameH inputs out S)
    (hn : ∃ p ∈ S, ∃ l ∈ p.2.simple, l.ty = .unsignedShort ∨ l.ty = .unsignedLong) :
    parse false (fileText (structsCpp .attrib stamp nameCpp nameH inputs out S)) = none := by
  have hs' : ∀ s ∈ S.map Prod.snd, StructNamed s := by
    intro s hs
    obtain ⟨p, hp, rfl⟩ := List.mem_map.1 hs
    exact h.structs p hp
  -- the first struct with such a member
  obtain ⟨a, s, b, hab, ha, hs⟩ := first_false (l := S.map Prod.snd)
    (p := fun s => s.simple.all fun l => l.ty ≠ .unsignedShort && l.ty ≠ .unsignedLong) (by
      obtain ⟨p, hp, l, hl, ht⟩ := hn
      refine ⟨p.2, List.mem_map_of_mem hp, ?_⟩
      rw [List.all_eq_false]
      exact ⟨l, hl, by rcases ht with ht | ht <;> simp [ht]⟩)
  have hsn : StructNamed s := hs' s (by rw [hab]; simp)
  rw [List.all_eq_false] at hs
  obtain ⟨l, hl, hlt⟩ := hs
  let pre : List Item := structsCppHead .attrib stamp nameCpp nameH inputs out ++ [.readerCtor .attrib out.readerClass] ++
    ((S.map Prod.snd).filter isTop).map (fun s => .defReadFile .attrib out.readerClass s.name) ++
    a.flatMap (readerDef .attrib out.readerClass)
  let rd : List Rd := s.simple.map fun l => .attr l.ty l.name
  let it : Item := .defRd .attrib out.readerClass s.name (hasChildren s) rd (s.complex.map (rdComplex .attrib))
  let post : List Item := b.flatMap (readerDef .attrib out.readerClass) ++ [.raw T.xml134] ++
    (if out.onlyRead then [] else
      [.writerCtor .attrib out.writerClass out.readerClass] ++
      ((S.map Prod.snd).filter isTop).map (fun s => .defWriteFile .attrib out.writerClass s.name) ++
      (S.map Prod.snd).flatMap (writerDef .attrib out.writerClass out.noDelta) ++ [.raw T.xml191])
  have he : structsCpp .attrib stamp nameCpp nameH inputs out S = pre ++ it :: post := by
    simp only [structsCpp, pre, it, post, rd, hab, List.flatMap_append, List.flatMap_cons, readerDef, Kind.isXml, if_true,
      List.append_assoc, List.cons_append, List.nil_append]
  have hpre : ∀ i ∈ pre, ItemNamed false i := by
    intro i hi
    simp only [pre, List.mem_append, List.mem_cons, List.not_mem_nil, or_false] at hi
    rcases hi with ((hi | hi) | hi) | hi
    · exact head_named h.files i hi
    · rw [hi]; exact h.reader
    · obtain ⟨s, hs, rfl⟩ := List.mem_map.1 hi
      exact ⟨h.reader, (hs' s (List.mem_filter.1 hs).1).name⟩
    · obtain ⟨s', hs'', hi⟩ := List.mem_flatMap.1 hi
      refine readerDef_named h.reader (hs' s' (by rw [hab]; simp [hs''])) (.inr (.inr ?_)) i hi
      have := ha s' hs''
      rw [List.all_eq_true] at this
      intro l hl
      simpa using this l hl
  have hrn : ∀ s ∈ S.map Prod.snd, ItemNamed true (.defRd .attrib out.readerClass s.name (hasChildren s)
      (s.simple.map fun l => .attr l.ty l.name) (s.complex.map (rdComplex .attrib))) := fun s hs =>
    readerDef_named (k := .attrib) h.reader (hs' s hs) (.inl rfl) _ (by simp [readerDef])
  have hbad : BadDef it.text := by
    have := hrn s (by rw [hab]; simp)
    refine bad_def this.1 this.2.1 (by simp) (fun r hr => (this.2.2.1 r hr).1) (fun r hr => (this.2.2.2 r hr).1)
      ⟨.attr l.ty l.name, List.mem_map_of_mem (f := fun l : SimpleLine => Rd.attr l.ty l.name) hl, ?_⟩
    revert hlt
    cases l.ty <;> simp [Rd.standard]
  have hpost : ∃ us, scan isLetter wordTok .start (post.flatMap Item.text) = (us, .start) := by
    have : DefChunk true (post.flatMap Item.text) (post.flatMap itemFuns) := by
      refine .flatMap fun i hi => item_chunk ?_
      have hq : Quiet T.xml134 := ⟨0, xml134_scan⟩
      simp only [post, List.mem_append, List.mem_cons, List.not_mem_nil, or_false] at hi
      rcases hi with (hi | hi) | hi
      · obtain ⟨s', hs'', hi⟩ := List.mem_flatMap.1 hi
        exact readerDef_named h.reader (hs' s' (by rw [hab]; simp [hs''])) (.inl rfl) i hi
      · rw [hi]; exact hq
      · split at hi
        · cases hi
        · next ho =>
          have hw := h.writer.resolve_left ho
          simp only [List.mem_append, List.mem_cons, List.not_mem_nil, or_false] at hi
          rcases hi with ((hi | hi) | hi) | hi
          · rw [hi]; exact ⟨hw, h.reader⟩
          · obtain ⟨s, hs, rfl⟩ := List.mem_map.1 hi
            exact ⟨hw, (hs' s (List.mem_filter.1 hs).1).name⟩
          · obtain ⟨s, hs, hi⟩ := List.mem_flatMap.1 hi
            exact writerDef_named hw (hs' s hs) i hi
          · rw [hi]; exact hq
    obtain ⟨us, hu, _⟩ := this
    exact ⟨us, hu⟩
  rw [he]
  exact reject hpre hbad hpost

/-- The enums .cpp file is C++ and defines `s_from_e` and `s_to_e` for every enum. -/
theorem C59_enums {stamp nameCpp nameH enumFile : Str} {inputs : List Str} {E : SMap EnumS}
    (hf : FileNamed stamp nameCpp nameH inputs enumFile) (he : ∀ p ∈ E, EnumNamed p.2) :
    ∃ fs, parse false (fileText (enumsCpp stamp nameCpp nameH inputs E)) = some fs ∧
      fs.map Fun.sig = E.flatMap fun p =>
        [(some tString, [c!"stfx", c!"s_from_e"], [(.name [p.2.name], c!"e")]),
         (some (.prim .bool), [c!"stfx", c!"s_to_e"], [(tString, c!"s"), (.ref (.name [p.2.name]), c!"e")])] := by
  refine ⟨_, enumsCpp_parse hf he, ?_⟩
  rw [List.map_flatMap]
  rfl

/-! ### Examples -/

/-- A schema with one member of each sort.  (Specification notion, models no code.) -/
def exStructs (ty : SimpleTy) : SMap StructS :=
  [(c!"inner_S", ⟨c!"inner_S", [⟨ty, c!"n", []⟩], [], 1⟩),
   (c!"top_S", ⟨c!"top_S", [⟨.stdString, c!"title", []⟩],
     [⟨.enum, c!"colour_E", c!"colour"⟩, ⟨.struct, c!"inner_S", c!"first"⟩, ⟨.vector, c!"inner_S", c!"others"⟩], 0⟩)]

/-- An output specification.  (Specification notion, models no code.) -/
def exOut : OutSpec := ⟨c!".", c!"enums", c!"structs", c!"reader_C", c!"writer_C", 0, false, false⟩

theorem ident_of {c : Char} {s : Str} (h : isLetter c = true ∧ (s.all fun d => isLetter d || isDigit d) = true ∧
    keywords.lookup (c :: s) = none) : Ident (c :: s) :=
  ⟨⟨c, s, rfl, h.1, List.all_eq_true.1 h.2.1⟩, h.2.2⟩

theorem plain_of {a : Str} (h : a ≠ [] ∧ (a.all fun c => c ≠ '"' && c ≠ '\'' && c ≠ '\\' && c ≠ '\n') = true) : Plain a :=
  ⟨h.1, fun c hc => by simpa [and_assoc] using List.all_eq_true.1 h.2 c hc⟩

theorem exNames (ty : SimpleTy) : Names c!"stfx 1.0" c!"structs.cpp" c!"structs.h" [c!"data.h"] exOut (exStructs ty) where
  files := ⟨plain_of (by decide), plain_of (by decide), plain_of (by decide),
    (by intro f hf; simp only [List.mem_cons, List.not_mem_nil, or_false] at hf; subst hf; exact plain_of (by decide)),
    .inr (plain_of (by decide))⟩
  reader := ident_of (by decide)
  writer := .inr (ident_of (by decide))
  structs := by
    intro p hp
    simp only [exStructs, List.mem_cons, List.not_mem_nil, or_false] at hp
    rcases hp with rfl | rfl
    · refine ⟨ident_of (by decide), ?_, by simp⟩
      intro l hl
      simp only [List.mem_cons, List.not_mem_nil, or_false] at hl
      subst hl
      exact ident_of (by decide)
    · refine ⟨ident_of (by decide), ?_, ?_⟩
      · intro l hl
        simp only [List.mem_cons, List.not_mem_nil, or_false] at hl
        subst hl
        exact ident_of (by decide)
      · intro co hco
        simp only [List.mem_cons, List.not_mem_nil, or_false] at hco
        rcases hco with rfl | rfl | rfl <;> exact ⟨ident_of (by decide), ident_of (by decide)⟩

/-- The statement is false: an `unsigned short` member stored as attribute. -/
theorem C59_refuted : ¬ C59_statement := by
  intro h
  obtain ⟨fs, hf, _⟩ := h .attrib _ _ _ _ _ _ (exNames .unsignedShort)
  rw [C59_rejected (exNames .unsignedShort) ⟨_, List.mem_cons_self, _, List.mem_cons_self, .inl rfl⟩] at hf
  cases hf

example : ∃ fs, parse false (fileText (structsCpp .attrib c!"stfx 1.0" c!"structs.cpp" c!"structs.h" [c!"data.h"] exOut
    (exStructs .int))) = some fs ∧ fs.length = 8 := by
  obtain ⟨fs, h1, h2⟩ := C59_partial (k := .attrib) (exNames .int) (by
    intro _ p hp l hl
    simp only [exStructs, List.mem_cons, List.not_mem_nil, or_false] at hp
    rcases hp with rfl | rfl <;> simp only [List.mem_cons, List.not_mem_nil, or_false] at hl <;> subst hl <;> simp)
  exact ⟨fs, h1, by have := congrArg List.length h2; rw [List.length_map] at this; rw [this]; rfl⟩

example : parse false (fileText (structsCpp .attrib c!"stfx 1.0" c!"structs.cpp" c!"structs.h" [c!"data.h"] exOut
    (exStructs .unsignedLong))) = none :=
  C59_rejected (exNames .unsignedLong) ⟨_, List.mem_cons_self, _, List.mem_cons_self, .inr rfl⟩

example : ∃ fs, parse true (fileText (structsCpp .attrib c!"stfx 1.0" c!"structs.cpp" c!"structs.h" [c!"data.h"] exOut
    (exStructs .unsignedLong))) = some fs := by
  obtain ⟨fs, h, _⟩ := C59_lenient (k := .attrib) (exNames .unsignedLong)
  exact ⟨fs, h⟩

example : ∃ fs, parse false (fileText (enumsCpp c!"stfx 1.0" c!"structs.cpp" c!"structs.h" [c!"data.h"]
    [(c!"colour_E", ⟨c!"colour_E", true, [⟨c!"red_E", false, []⟩, ⟨c!"blue_E", false, []⟩]⟩)])) = some fs ∧ fs.length = 2 := by
  obtain ⟨fs, h1, h2⟩ := C59_enums (exNames .int).files (E := [(c!"colour_E",
    ⟨c!"colour_E", true, [⟨c!"red_E", false, []⟩, ⟨c!"blue_E", false, []⟩]⟩)]) (by
    intro p hp
    simp only [List.mem_cons, List.not_mem_nil, or_false] at hp
    subst hp
    refine ⟨ident_of (by decide), ?_⟩
    intro l hl
    simp only [List.mem_cons, List.not_mem_nil, or_false] at hl
    rcases hl with rfl | rfl <;> exact ident_of (by decide))
  exact ⟨fs, h1, by have := congrArg List.length h2; rw [List.length_map] at this; rw [this]; rfl⟩

/-- The grammar rejects texts that are no C++. -/
example : parse false c!"bool f(int i)\n{\nif (i == 1 {\nreturn true;\n}\n" = none ∧
    parse false c!"bool f(int i)\n{\nreturn unsigned short(i);\n}\n" = none ∧
    parse false c!"bool f(int i)\n{\nreturn true\n}\n" = none ∧
    (parse false c!"bool f(int i)\n{\nif (i == 1) {\nreturn true;\n}\nreturn false;\n}\n").isSome = true := by
  decide +kernel

end Stfx.Cpp
