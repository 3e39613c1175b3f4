import Verif.Cpp.HeaderText
import Verif.Props.C59_Syntax
/-
Property C65: the generated .h files are C++ and declare what the generated .cpp files define.

The text of the .h files is read with the grammar of `Cpp/Class.lean`, that of the .cpp files with the grammar of `Cpp/Parse.lean`.
-/
set_option autoImplicit false
set_option maxRecDepth 4000
namespace Stfx.Cpp
open Stfx.Gen Stfx.Parser Stfx.Items

/-- The signature a definition of a declared function of the class or namespace `q` has.  (Specification notion, models no code.) -/
def FDecl.sig (q : Str) (f : FDecl) : Sig := (f.ret, [q, f.name], f.params.map fun p => (p.1, p.2.1))

/-- The namespaces of a header.  (Specification notion, models no code.) -/
def nsOf (ds : List HDecl) : List (Str × List FDecl) :=
  ds.filterMap fun
    | .ns n fs => some (n, fs)
    | _ => none

/-- The specialisation that is declared.  (Specification notion, models no code.) -/
def HDecl.special? : HDecl → Option Special
  | .special s => some s
  | _ => none

/-- The specialisations of a header.  (Specification notion, models no code.) -/
def specialsOf (ds : List HDecl) : List Special := ds.filterMap HDecl.special?

/-- What users of a class may call: constructors and the functions for whole files, which may be overridden.  The functions for a struct
are for derived classes, the data members and nested classes for nobody else.  (Specification notion, models no code.) -/
structure Sealed (c : Class) : Prop where
  access : c.fnAccess = c.fns.map fun f => (if f.ret.isNone || f.virt then .pub else .prot, f.name)
  virt : ∀ f ∈ c.fns, f.virt = (f.ret.isSome && (f.name == c!"read_from_file" || f.name == c!"write_to_file"))
  data : ∀ a f, (a, Member.field f) ∈ withAccess .priv c.members → a = .priv
  nested : ∀ a n fs, (a, Member.nested n fs) ∈ withAccess .priv c.members → a = .priv

/-- Members that are functions.  (Specification notion, models no code.) -/
def fnsOf (ms : List Member) : List FDecl :=
  ms.filterMap fun
    | .fn f => some f
    | _ => none

/-- Only functions, all of them declared like `g` says. -/
theorem fns_access (a : Access) (ms : List Member) (h : ∀ m ∈ ms, ∃ f, m = .fn f) :
    withAccess a ms = (fnsOf ms).map fun f => (a, .fn f) := by
  induction ms with
  | nil => rfl
  | cons m ms ih =>
    obtain ⟨f, rfl⟩ := h m List.mem_cons_self
    rw [withAccess, ih fun m hm => h m (List.mem_cons_of_mem _ hm)]
    · rfl
    · simp

theorem withAccess_append (a b : Access) (ms ns : List Member) (h : ∀ m ∈ ms, ∃ f, m = .fn f) :
    withAccess a (ms ++ .access b :: ns) = withAccess a ms ++ withAccess b ns := by
  induction ms with
  | nil => rfl
  | cons m ms ih =>
    obtain ⟨f, rfl⟩ := h m List.mem_cons_self
    rw [List.cons_append, withAccess, withAccess, ih fun m hm => h m (List.mem_cons_of_mem _ hm)]
    · rfl
    · simp
    · simp

theorem entries_fn (g x : Str) (l : List StructS) : ∀ m ∈ l.map (fun s => entryMember g s.name x), ∃ f, m = .fn f := by
  intro m hm
  obtain ⟨s, _, rfl⟩ := List.mem_map.1 hm
  exact ⟨_, rfl⟩

theorem readers_fn (k : Kind) (l : List StructS) : ∀ m ∈ l.flatMap (readerMember k), ∃ f, m = .fn f := by
  intro m hm
  obtain ⟨s, _, hm⟩ := List.mem_flatMap.1 hm
  cases k <;> simp only [readerMember, List.not_mem_nil, List.mem_cons, or_false] at hm <;> exact ⟨_, hm⟩

theorem writers_fn (k : Kind) (l : List StructS) : ∀ m ∈ l.flatMap (writerMember k), ∃ f, m = .fn f := by
  intro m hm
  obtain ⟨s, _, hm⟩ := List.mem_flatMap.1 hm
  cases k <;> simp only [writerMember, List.not_mem_nil, List.mem_cons, or_false] at hm <;> exact ⟨_, hm⟩

theorem fnsOf_append (a b : List Member) : fnsOf (a ++ b) = fnsOf a ++ fnsOf b := List.filterMap_append ..

theorem fnsOf_map {α : Type} (l : List α) (g : α → FDecl) : fnsOf (l.map fun x => .fn (g x)) = l.map g := by
  induction l with
  | nil => rfl
  | cons x l ih => show g x :: _ = _; rw [List.map_cons, ← ih]; rfl

theorem Class.fns_eq (c : Class) : c.fns = fnsOf c.members := rfl

/-- The functions the reader class declares. -/
theorem reader_fns (k : Kind) (rc : Str) (ss : List StructS) :
    (readerClassOf k rc ss).fns.map (FDecl.sig rc) = readerSigs k rc ss := by
  have h1 : ∀ l : List StructS, (fnsOf (l.flatMap (readerMember k))).map (FDecl.sig rc) = match k with
      | .xml | .attrib => l.map fun s => (some (.prim .bool), [rc, c!"do_" ++ s.name],
          [(.ptr (.name [c!"tinyxml2", c!"XMLElement"]), c!"el"), (.ptr (.name [s.name]), c!"data")])
      | .nIni => l.map fun s => (some (.prim .bool), [rc, c!"do_rd_" ++ s.name],
          [(tString, c!"path"), (.ref (.name [s.name]), c!"data")])
      | .ini => [] := by
    intro l
    induction l with
    | nil => cases k <;> rfl
    | cons s l ih =>
      rw [List.flatMap_cons, fnsOf_append, List.map_append, ih]
      cases k <;> rfl
  have h2 : ∀ l : List StructS, (fnsOf (l.map fun s => entryMember c!"read_from_file" s.name c!"struct_to_fill")).map (FDecl.sig rc) =
      l.map (fun s => (some (.prim .bool), [rc, c!"read_from_file"],
        [(.ref tString, c!"filename"), (.ref (.name [s.name]), c!"struct_to_fill")])) := by
    intro l
    unfold entryMember
    rw [fnsOf_map, List.map_map]
    rfl
  rw [Class.fns_eq, readerClassOf, fnsOf_append, fnsOf_append, fnsOf_append, List.map_append, List.map_append, List.map_append, h1, h2,
    show (fnsOf [Member.access .prot]).map (FDecl.sig rc) = [] from rfl, List.append_nil]
  cases k <;> rfl

/-- The functions the writer class declares. -/
theorem writer_fns (k : Kind) (wc rc : Str) (ss : List StructS) :
    (writerClassOf k wc rc ss).fns.map (FDecl.sig wc) = writerSigs k wc ss := by
  have h1 : ∀ l : List StructS, (fnsOf (l.flatMap (writerMember k))).map (FDecl.sig wc) = match k with
      | .xml | .attrib => l.map fun s => (some (.prim .bool), [wc, c!"do_wr_" ++ s.name],
          [(.ptr (.name [c!"tinyxml2", c!"XMLElement"]), c!"el"), (.ptr (.name [s.name]), c!"data")])
      | .nIni => l.map fun s => (some (.prim .bool), [wc, c!"do_wr_" ++ s.name],
          [(tString, c!"path"), (.ptr (.name [s.name]), c!"data")])
      | .ini => [] := by
    intro l
    induction l with
    | nil => cases k <;> rfl
    | cons s l ih =>
      rw [List.flatMap_cons, fnsOf_append, List.map_append, ih]
      cases k <;> rfl
  have h2 : ∀ l : List StructS, (fnsOf (l.map fun s => entryMember c!"write_to_file" s.name c!"struct_to_read")).map (FDecl.sig wc) =
      l.map (fun s => (some (.prim .bool), [wc, c!"write_to_file"],
        [(.ref tString, c!"filename"), (.ref (.name [s.name]), c!"struct_to_read")])) := by
    intro l
    unfold entryMember
    rw [fnsOf_map, List.map_map]
    rfl
  rw [Class.fns_eq, writerClassOf, fnsOf_append, fnsOf_append, fnsOf_append, List.map_append, List.map_append, List.map_append, h1, h2,
    show (fnsOf [Member.access .prot]).map (FDecl.sig wc) = [] from rfl, List.append_nil]
  cases k <;> rfl

/-- Declares something.  (Specification notion, models no code.) -/
def notAccess : Member → Bool
  | .access _ => false
  | _ => true

/-- The access of the members of a class that starts with private data members and a public constructor and goes on with public and then
with protected functions. -/
theorem split_access {d : List Member} {k : FDecl} {es fs : List Member}
    (hd : ∀ m ∈ d, m = .access .priv ∨ (∃ f, m = .field f) ∨ ∃ n fs, m = .nested n fs)
    (he : ∀ m ∈ es, ∃ f, m = .fn f) (hf : ∀ m ∈ fs, ∃ f, m = .fn f) :
    withAccess .priv (d ++ [.access .pub, .fn k] ++ es ++ [.access .prot] ++ fs) =
      (d.filter notAccess).map (fun m => (.priv, m)) ++
      (.pub, .fn k) :: ((fnsOf es).map (fun f => (Access.pub, Member.fn f)) ++ (fnsOf fs).map fun f => (Access.prot, Member.fn f)) := by
  have h1 : ∀ ms : List Member, withAccess .priv (d ++ ms) =
      (d.filter notAccess).map (fun m => (.priv, m)) ++ withAccess .priv ms := by
    intro ms
    induction d with
    | nil => rfl
    | cons m d ih =>
      have := ih fun m hm => hd m (List.mem_cons_of_mem _ hm)
      rcases hd m List.mem_cons_self with rfl | ⟨f, rfl⟩ | ⟨n, f, rfl⟩
      · exact this
      · show _ :: withAccess _ (d ++ ms) = _
        rw [this]; rfl
      · show _ :: withAccess _ (d ++ ms) = _
        rw [this]; rfl
  rw [List.append_assoc, List.append_assoc, List.append_assoc, h1]
  congr 1
  show _ :: withAccess .pub (es ++ .access .prot :: fs) = _
  rw [withAccess_append _ _ _ _ he, fns_access _ _ he, fns_access _ _ hf]

/-- A class that starts with private data members and the public constructor and goes on with overridable and then with protected functions. -/
theorem sealed_of {c : Class} {d : List Member} {k : FDecl} {es fs : List Member}
    (hc : c.members = d ++ [.access .pub, .fn k] ++ es ++ [.access .prot] ++ fs)
    (hd : ∀ m ∈ d, m = .access .priv ∨ (∃ f, m = .field f) ∨ ∃ n fs, m = .nested n fs)
    (hk : k.ret = none ∧ k.virt = false)
    (he : ∀ m ∈ es, ∃ f, m = .fn f ∧ f.virt = true ∧ f.ret.isSome = true ∧ (f.name = c!"read_from_file" ∨ f.name = c!"write_to_file"))
    (hf : ∀ m ∈ fs, ∃ f, m = .fn f ∧ f.virt = false ∧ f.ret.isSome = true ∧ ∃ t, f.name = c!"do_" ++ t) : Sealed c := by
  have hw := split_access hd (fun m hm => (he m hm).imp fun f h => h.1) (fun m hm => (hf m hm).imp fun f h => h.1) (k := k)
  rw [← hc] at hw
  have hfn : c.fns = k :: (fnsOf es ++ fnsOf fs) := by
    rw [Class.fns_eq, hc, fnsOf_append, fnsOf_append, fnsOf_append, fnsOf_append]
    have : fnsOf d = [] := by
      unfold fnsOf
      rw [List.filterMap_eq_nil_iff]
      intro m hm
      rcases hd m hm with rfl | ⟨f, rfl⟩ | ⟨n, f, rfl⟩ <;> rfl
    rw [this]
    show _ = k :: _
    simp [fnsOf]
  have hes : ∀ f ∈ fnsOf es, f.virt = true ∧ f.ret.isSome = true ∧ (f.name = c!"read_from_file" ∨ f.name = c!"write_to_file") := by
    intro f h
    obtain ⟨m, hm, h⟩ := List.mem_filterMap.1 h
    obtain ⟨g, rfl, hg⟩ := he m hm
    cases h
    exact hg
  have hfs : ∀ f ∈ fnsOf fs, f.virt = false ∧ f.ret.isSome = true ∧ ∃ t, f.name = c!"do_" ++ t := by
    intro f h
    obtain ⟨m, hm, h⟩ := List.mem_filterMap.1 h
    obtain ⟨g, rfl, hg⟩ := hf m hm
    cases h
    exact hg
  refine ⟨?_, ?_, ?_, ?_⟩
  · have h2 : ∀ (a : Access) (l : List FDecl), (l.map fun f => (a, Member.fn f)).filterMap accessName = l.map fun f => (a, f.name) := by
      intro a l
      induction l with
      | nil => rfl
      | cons f l ih => rw [List.map_cons, List.filterMap_cons, ih]; rfl
    have h3 : ∀ l : List Member, (∀ m ∈ l, m = .access .priv ∨ (∃ f, m = .field f) ∨ ∃ n fs, m = .nested n fs) →
        (l.map fun m => (Access.priv, m)).filterMap accessName = [] := by
      intro l hl
      rw [List.filterMap_eq_nil_iff]
      intro p hp
      obtain ⟨m, hm, rfl⟩ := List.mem_map.1 hp
      rcases hl m hm with rfl | ⟨f, rfl⟩ | ⟨n, f, rfl⟩ <;> rfl
    rw [Class.fnAccess, hw, hfn, List.filterMap_append, h3 _ fun m hm => hd m (List.mem_filter.1 hm).1, List.nil_append, List.filterMap_cons,
      List.filterMap_append, h2, h2]
    simp only [List.map_cons, List.map_append, hk.1, Option.isNone_none, Bool.true_or, if_true]
    show (Access.pub, k.name) :: (_ ++ _) = _
    congr 2
    · refine List.map_congr_left fun f hf => ?_
      rw [(hes f hf).1, Bool.or_true, if_pos rfl]
    · refine List.map_congr_left fun f hf => ?_
      obtain ⟨h1, h2, _⟩ := hfs f hf
      rw [h1, Bool.or_false, if_neg (by simpa using Option.ne_none_iff_isSome.2 h2)]
  · intro f hm
    rw [hfn] at hm
    rcases List.mem_cons.1 hm with rfl | hm
    · rw [hk.1, hk.2]; rfl
    · rcases List.mem_append.1 hm with hm | hm
      · obtain ⟨h1, h2, h3⟩ := hes f hm
        rw [h1, h2]
        rcases h3 with h3 | h3 <;> rw [h3] <;> rfl
      · obtain ⟨h1, h2, t, h3⟩ := hfs f hm
        rw [h1, h3]
        simp
  · intro a f hm
    rw [hw] at hm
    rcases List.mem_append.1 hm with hm | hm
    · obtain ⟨m, _, hm⟩ := List.mem_map.1 hm
      cases hm; rfl
    · simp at hm
  · intro a n f hm
    rw [hw] at hm
    rcases List.mem_append.1 hm with hm | hm
    · obtain ⟨m, _, hm⟩ := List.mem_map.1 hm
      cases hm; rfl
    · simp at hm

theorem reader_sealed (k : Kind) (rc : Str) (ss : List StructS) : Sealed (readerClassOf k rc ss) := by
  refine sealed_of (d := if k.isXml then [] else _) (k := ⟨false, none, rc, []⟩) (by rfl) ?_ ⟨rfl, rfl⟩ ?_ ?_
  · intro m hm
    split at hm
    · cases hm
    · simp only [itemMember, List.mem_cons, List.not_mem_nil, or_false] at hm
      rcases hm with rfl | rfl | rfl | rfl | rfl <;> simp
  · intro m hm
    obtain ⟨s, _, rfl⟩ := List.mem_map.1 hm
    exact ⟨_, rfl, rfl, rfl, .inl rfl⟩
  · intro m hm
    obtain ⟨s, _, hm⟩ := List.mem_flatMap.1 hm
    cases k <;> simp only [readerMember, List.not_mem_nil, List.mem_cons, or_false] at hm
    · exact ⟨_, hm, rfl, rfl, _, rfl⟩
    · exact ⟨_, hm, rfl, rfl, _, rfl⟩
    · exact ⟨_, hm, rfl, rfl, c!"rd_" ++ s.name, rfl⟩

theorem writer_sealed (k : Kind) (wc rc : Str) (ss : List StructS) : Sealed (writerClassOf k wc rc ss) := by
  refine sealed_of (d := [.access .priv, .field ⟨.prim .bool, c!"m_delta_only", some (.braces [])⟩] ++ if k.isXml then [] else _)
    (k := ⟨false, none, wc, [(.prim .bool, c!"delta_only", some (.bool true))]⟩) (by rfl) ?_ ⟨rfl, rfl⟩ ?_ ?_
  · intro m hm
    rcases List.mem_append.1 hm with hm | hm
    · simp only [List.mem_cons, List.not_mem_nil, or_false] at hm
      rcases hm with rfl | rfl <;> simp
    · split at hm
      · cases hm
      · simp only [List.mem_cons, List.not_mem_nil, or_false] at hm
        subst hm
        simp
  · intro m hm
    obtain ⟨s, _, rfl⟩ := List.mem_map.1 hm
    exact ⟨_, rfl, rfl, rfl, .inr rfl⟩
  · intro m hm
    obtain ⟨s, _, hm⟩ := List.mem_flatMap.1 hm
    cases k <;> simp only [writerMember, List.not_mem_nil, List.mem_cons, or_false] at hm
    · exact ⟨_, hm, rfl, rfl, c!"wr_" ++ s.name, rfl⟩
    · exact ⟨_, hm, rfl, rfl, c!"wr_" ++ s.name, rfl⟩
    · exact ⟨_, hm, rfl, rfl, c!"wr_" ++ s.name, rfl⟩

/-- The structs .h file is C++.  It declares the reader class and, unless only readers are asked for, the writer class, publicly derived
from the reader class, and nothing else.  Read as C++, the functions the classes declare are, one by one and with the same result types
and parameters, those the structs .cpp file defines.  (`ext`: the .cpp file is accepted by compilers that accept `unsigned short(i)`; see
C59.) -/
theorem C65_structs {ext : Bool} {k : Kind} {stamp nameCpp nameH : Str} {inputs : List Str} {out : OutSpec} {S : SMap StructS}
    (h : Names stamp nameCpp nameH inputs out S) (hn : ext = true ∨ NoShort k S) :
    ∃ (ds : List HDecl) (cs : List Class) (fs : List Fun), parseH false (fileText (structsH k stamp nameH inputs out S)) = some ds ∧ ds = cs.map .cls ∧
      parse ext (fileText (structsCpp k stamp nameCpp nameH inputs out S)) = some fs ∧
      cs.flatMap (fun c => c.fns.map (FDecl.sig c.name)) = fs.map Fun.sig ∧
      cs.map (fun c => (c.name, c.base)) =
        (out.readerClass, none) :: (if out.onlyRead then [] else [(out.writerClass, some (.pub, [out.readerClass]))]) ∧
      ∀ c ∈ cs, Sealed c := by
  refine ⟨_, readerClassOf k out.readerClass (S.map Prod.snd) ::
    (if out.onlyRead then [] else [writerClassOf k out.writerClass out.readerClass (S.map Prod.snd)]), _,
    structsH_parse h.files h.reader h.writer h.structs, ?_, structsCpp_parse h.files h.reader h.writer h.structs ?_, ?_, ?_, ?_⟩
  · cases out.onlyRead <;> rfl
  · rcases hn with hn | hn
    · exact .inl hn
    · by_cases hk : k = .attrib
      · exact .inr (.inr (hn hk))
      · exact .inr (.inl hk)
  · rw [sigs_eq, List.flatMap_cons]
    show (readerClassOf k out.readerClass _).fns.map (FDecl.sig out.readerClass) ++ _ = _
    rw [reader_fns]
    congr 1
    cases out.onlyRead
    · show (writerClassOf k out.writerClass _ _).fns.map (FDecl.sig out.writerClass) ++ [] = _
      rw [writer_fns, List.append_nil]
      rfl
    · rfl
  · cases out.onlyRead <;> rfl
  · intro c hc
    rcases List.mem_cons.1 hc with rfl | hc
    · exact reader_sealed ..
    · cases ho : out.onlyRead
      · rw [ho] at hc
        simp only [Bool.false_eq_true, if_false, List.mem_cons, List.not_mem_nil, or_false] at hc
        rw [hc]
        exact writer_sealed ..
      · rw [ho] at hc
        cases hc

/-- The enums .h file is C++.  It declares, in the namespace `stfx`, the functions the enums .cpp file defines, and specialises
`fmt::formatter` once for every enum, by a class whose function `format` gives `formatter<string_view>::format` what `stfx::s_from_e`
returns for the enum. -/
theorem C65_enums {stamp nameCpp nameH enumFile : Str} {inputs : List Str} {E : SMap EnumS}
    (hf : FileNamed stamp nameCpp nameH inputs enumFile) (he : ∀ p ∈ E, EnumNamed p.2) :
    ∃ (ds : List HDecl) (fns : List FDecl) (fs : List Fun), parseH false (fileText (enumsH stamp nameH inputs E)) = some ds ∧
      parse false (fileText (enumsCpp stamp nameCpp nameH inputs E)) = some fs ∧
      classesOf ds = [] ∧ nsOf ds = [(c!"stfx", fns)] ∧ fns.map (FDecl.sig c!"stfx") = fs.map Fun.sig ∧
      specialsOf ds = E.map fun p => {
        tmpl := [c!"fmt", c!"formatter"], arg := [p.2.name], base := [c!"formatter"], baseArg := [c!"string_view"],
        tparam := c!"FormatContext", fn := c!"format",
        params := [(.name [p.2.name], c!"c"), (.ref (.name [c!"FormatContext"]), c!"ctx")],
        body := [.decl tString c!"str" none (some (.call (.id [c!"stfx", c!"s_from_e"]) [.id [c!"c"]])),
          .decl (.name [c!"string_view"]) c!"name" none (some (.id [c!"str"]))],
        ret := ([c!"formatter"], [c!"string_view"], c!"format"), retArgs := [.id [c!"name"], .id [c!"ctx"]] } := by
  have h1 : ∀ l : SMap EnumS, (l.map fun p => HDecl.special (formatterOf p.2.name)).filterMap HDecl.special? = l.map fun p => formatterOf p.2.name := by
    intro l
    induction l with
    | nil => rfl
    | cons p l ih => rw [List.map_cons, List.filterMap_cons, ih]; rfl
  refine ⟨_, E.flatMap fun p => enumFDecls p.2.name, _, enumsH_parse hf he, enumsCpp_parse hf he, ?_, ?_, ?_, h1 E⟩
  · rw [classesOf, List.filterMap_eq_nil_iff]
    intro d hd
    rcases List.mem_cons.1 hd with rfl | hd
    · rfl
    · obtain ⟨p, _, rfl⟩ := List.mem_map.1 hd
      rfl
  · rw [nsOf, List.filterMap_cons]
    show _ :: _ = _
    congr 1
    rw [List.filterMap_eq_nil_iff]
    intro d hd
    obtain ⟨p, _, rfl⟩ := List.mem_map.1 hd
    rfl
  · rw [List.map_flatMap, List.map_flatMap]
    rfl

/-! ### Examples -/

example : ∃ (ds : List HDecl) (cs : List Class) (fs : List Fun), parseH false (fileText (structsH .nIni c!"stfx 1.0" c!"structs.h" [c!"data.h"] exOut (exStructs .int))) = some ds ∧
    ds = cs.map .cls ∧
    parse false (fileText (structsCpp .nIni c!"stfx 1.0" c!"structs.cpp" c!"structs.h" [c!"data.h"] exOut (exStructs .int))) = some fs ∧
    cs.flatMap (fun c => c.fns.map (FDecl.sig c.name)) = fs.map Fun.sig ∧ fs.length = 8 ∧ cs.length = 2 := by
  obtain ⟨ds, cs, fs, h1, h2, h3, h4, h5, _⟩ := C65_structs (ext := false) (k := .nIni) (exNames .int) (.inr (by intro h; cases h))
  refine ⟨ds, cs, fs, h1, h2, h3, h4, ?_, ?_⟩
  · rw [structsCpp_parse (exNames .int).files (exNames .int).reader (exNames .int).writer (exNames .int).structs (.inr (.inl (by simp)))] at h3
    cases h3
    rfl
  · have := congrArg List.length h5
    rw [List.length_map] at this
    rw [this]
    rfl

/-- The enum of the example of C59. -/
example : ∃ ds, parseH false (fileText (enumsH c!"stfx 1.0" c!"structs.h" [c!"data.h"]
    [(c!"colour_E", ⟨c!"colour_E", true, [⟨c!"red_E", false, []⟩, ⟨c!"blue_E", false, []⟩]⟩)])) = some ds ∧ (specialsOf ds).length = 1 := by
  obtain ⟨ds, _, _, h1, _, _, _, _, h2⟩ := C65_enums (exNames .int).files (E := [(c!"colour_E",
    ⟨c!"colour_E", true, [⟨c!"red_E", false, []⟩, ⟨c!"blue_E", false, []⟩]⟩)]) (by
    intro p hp
    simp only [List.mem_cons, List.not_mem_nil, or_false] at hp
    subst hp
    refine ⟨ident_of (by decide), ?_⟩
    intro l hl
    simp only [List.mem_cons, List.not_mem_nil, or_false] at hl
    rcases hl with rfl | rfl <;> exact ident_of (by decide))
  exact ⟨ds, h1, by rw [h2]; rfl⟩

/-- The grammar rejects what is no C++: a class without its semicolon, a member without its type, a constructor of another class. -/
example : (parseH false c!"class A {\nprivate:\nint i;\npublic:\nA(bool b = true);\nvirtual bool f(A &a);\n};\n").isSome = true ∧
    parseH false c!"class A {\nint i;\n}\n" = none ∧ parseH false c!"class A {\ni;\n};\n" = none ∧
    parseH false c!"class A {\nB();\n};\n" = none ∧ parseH false c!"class A : B {\n" = none := by
  decide +kernel

end Stfx.Cpp
