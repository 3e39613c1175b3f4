import Verif.Cpp.UnitHeaders
import Verif.Cpp.Tactic
import Verif.Gen.Generate
/-
The directives of the generated files: they are at the start of the files.
-/
set_option autoImplicit false
set_option maxRecDepth 4000
namespace Stfx.Cpp
open Stfx.Gen Stfx.Parser Stfx.Items

/-! ### Text without directives -/

/-- Text without `#`.  (Proof notion, models no code.) -/
def noHash (s : Str) : Bool := s.all (· != '#')

theorem nh_append {a b : Str} (ha : noHash a = true) (hb : noHash b = true) : noHash (a ++ b) = true := by
  simp only [noHash, List.all_append, Bool.and_eq_true] at *
  exact ⟨ha, hb⟩

theorem nh_nil : noHash [] = true := rfl

theorem nh_flatMap {α : Type} {l : List α} {f : α → Str} (h : ∀ x ∈ l, noHash (f x) = true) : noHash (l.flatMap f) = true := by
  induction l with
  | nil => rfl
  | cons x l ih =>
    rw [List.flatMap_cons]
    exact nh_append (h x List.mem_cons_self) (ih fun y hy => h y (List.mem_cons_of_mem _ hy))

theorem nh_if {p : Prop} [Decidable p] {a b : Str} (ha : noHash a = true) (hb : noHash b = true) :
    noHash (if p then a else b) = true := by
  split <;> assumption

theorem Ident.noHash {w : Str} (h : Ident w) : noHash w = true := by
  obtain ⟨⟨c, s, rfl, hc, hs⟩, _⟩ := h
  have key : ∀ d, (isLetter d || isDigit d) = true → (d != '#') = true := by
    intro d hd
    rw [bne_iff_ne]
    rintro rfl
    exact absurd hd (by decide)
  simp only [Cpp.noHash, List.all_cons, Bool.and_eq_true, List.all_eq_true]
  exact ⟨key c (by simp [hc]), fun d hd => key d (hs d hd)⟩

theorem nh_spaced {n : Str} (h : noHash n = true) : noHash (spaced n) = true := by
  simp only [noHash, spaced, List.all_map, List.all_eq_true, Function.comp_def] at *
  intro c hc
  have := h c hc
  split
  · decide
  · exact this

/-- Proves that the text of a template has no `#`. -/
macro "nohash" : tactic => `(tactic| repeat' first | with_reducible assumption | apply nh_append | kernel_rfl)

theorem nh_rd {k : Kind} {l : SimpleLine} (h : noHash l.name = true) :
    noHash (Rd.text (.elem l.ty l.name)) = true ∧ noHash (Rd.text (.attr l.ty l.name)) = true := by
  generalize l.name = n at *
  generalize l.ty = t at *
  cases t <;> constructor <;> nohash

theorem nh_wr {g : Bool} {l : SimpleLine} (h : noHash l.name = true) :
    noHash (Wr.text (.elem g l.ty l.name)) = true ∧ noHash (Wr.text (.attr g l.ty l.name)) = true := by
  generalize l.name = n at *
  generalize l.ty = t at *
  cases g <;> cases t <;> constructor <;> nohash

theorem nh_rdComplex {k : Kind} {co : ComplexLine} (h1 : noHash co.name = true) (h2 : noHash co.tyName = true) :
    noHash (Rd.text (rdComplex k co)) = true := by
  unfold rdComplex
  generalize co.name = n at *
  generalize co.tyName = t at *
  cases co.ty <;> simp only
  case enum => split <;> nohash
  all_goals nohash

theorem nh_wrComplex {k : Kind} {g : Bool} {co : ComplexLine} (h1 : noHash co.name = true) (h2 : noHash co.tyName = true) :
    noHash (Wr.text (wrComplex k g co)) = true := by
  unfold wrComplex
  generalize co.name = n at *
  generalize co.tyName = t at *
  cases co.ty <;> simp only
  case enum => split <;> cases g <;> nohash
  all_goals nohash

theorem nh_look {l : SimpleLine} (h : noHash l.name = true) : noHash (Look.text (.simple l.ty l.name)) = true := by
  have : noHash (iniConvert l.ty) = true := by cases l.ty <;> kernel_rfl
  show noHash (T.ini354 l.name (iniConvert l.ty)) = true
  generalize l.name = n at *
  generalize iniConvert l.ty = t at *
  nohash

theorem nh_enumLook {co : ComplexLine} {l : Look} (h : noHash co.name = true) (hl : enumLook co = some l) :
    noHash l.text = true := by
  unfold enumLook at hl
  generalize co.name = n at *
  split at hl <;> cases hl
  nohash

theorem nh_nrdComplex {co : ComplexLine} {r : NRd} (h1 : noHash co.name = true) (h2 : noHash co.tyName = true)
    (hr : nrdComplex co = some r) : noHash r.text = true := by
  have h3 := nh_spaced h1
  unfold nrdComplex at hr
  generalize spaced co.name = sp at *
  generalize co.name = n at *
  generalize co.tyName = t at *
  split at hr <;> cases hr <;> nohash

theorem nh_nwr {g : Bool} {l : SimpleLine} (h : noHash l.name = true) : noHash (NWr.text (.line g l.ty l.name)) = true := by
  generalize l.name = n at *
  generalize l.ty = t at *
  cases g <;> cases t <;> nohash

theorem nh_nwrComplex {g : Bool} {co : ComplexLine} (h1 : noHash co.name = true) (h2 : noHash co.tyName = true) :
    noHash (NWr.text (nwrComplex g co)) = true := by
  have h3 := nh_spaced h1
  unfold nwrComplex
  generalize spaced co.name = sp at *
  generalize co.name = n at *
  generalize co.tyName = t at *
  cases co.ty <;> cases g <;> nohash

/-- The names in a struct declaration have no `#`.  (Proof notion, models no code.) -/
structure StructNH (s : StructS) : Prop where
  name : noHash s.name = true
  simple : ∀ l ∈ s.simple, noHash l.name = true
  complex : ∀ co ∈ s.complex, noHash co.name = true ∧ noHash co.tyName = true

theorem nh_readerDef {k : Kind} {cls : Str} {s : StructS} (hc : noHash cls = true) (hs : StructNH s) :
    ∀ i ∈ readerDef k cls s, noHash i.text = true := by
  have hn := hs.name
  intro i hi
  cases k with
  | xml =>
    simp only [readerDef, List.mem_cons, List.not_mem_nil, or_false] at hi
    rw [hi]
    have h1 : noHash ((s.simple.map fun l => Rd.elem l.ty l.name).flatMap Rd.text) = true := by
      rw [List.flatMap_map]; exact nh_flatMap fun l hl => (nh_rd (k := .xml) (hs.simple l hl)).1
    have h2 : noHash ((s.complex.map (rdComplex .xml)).flatMap Rd.text) = true := by
      rw [List.flatMap_map]; exact nh_flatMap fun co hco => nh_rdComplex (hs.complex co hco).1 (hs.complex co hco).2
    simp only [Item.text]
    generalize List.flatMap Rd.text _ = a at *
    generalize List.flatMap Rd.text _ = b at *
    generalize s.name = n at *
    nohash
  | attrib =>
    simp only [readerDef, List.mem_cons, List.not_mem_nil, or_false] at hi
    rw [hi]
    have h1 : noHash ((s.simple.map fun l => Rd.attr l.ty l.name).flatMap Rd.text) = true := by
      rw [List.flatMap_map]; exact nh_flatMap fun l hl => (nh_rd (k := .xml) (hs.simple l hl)).2
    have h2 : noHash ((s.complex.map (rdComplex .attrib)).flatMap Rd.text) = true := by
      rw [List.flatMap_map]; exact nh_flatMap fun co hco => nh_rdComplex (hs.complex co hco).1 (hs.complex co hco).2
    have h3 : noHash (if hasChildren s then T.attrib83 else []) = true := nh_if (by kernel_rfl) rfl
    simp only [Item.text]
    generalize List.flatMap Rd.text _ = a at *
    generalize List.flatMap Rd.text _ = b at *
    generalize (if hasChildren s then T.attrib83 else []) = d at *
    generalize s.name = n at *
    nohash
  | ini => cases hi
  | nIni =>
    simp only [readerDef, List.mem_cons, List.not_mem_nil, or_false] at hi
    rw [hi]
    have h1 : noHash ((s.simple.map (fun l => Look.simple l.ty l.name) ++ s.complex.filterMap enumLook).flatMap Look.text) = true := by
      refine nh_flatMap fun l hl => ?_
      rcases List.mem_append.1 hl with hl | hl
      · obtain ⟨l', hl', rfl⟩ := List.mem_map.1 hl
        exact nh_look (hs.simple l' hl')
      · obtain ⟨co, hco, h⟩ := List.mem_filterMap.1 hl
        exact nh_enumLook (hs.complex co hco).1 h
    have h2 : noHash ((s.complex.filterMap nrdComplex).flatMap NRd.text) = true := by
      refine nh_flatMap fun l hl => ?_
      obtain ⟨co, hco, h⟩ := List.mem_filterMap.1 hl
      exact nh_nrdComplex (hs.complex co hco).1 (hs.complex co hco).2 h
    have h3 : noHash (if hasChildren s then T.ini400 else []) = true := nh_if (by kernel_rfl) rfl
    have h4 : noHash (match (if s.simple = [] then none
       else some (s.simple.map (fun l => Look.simple l.ty l.name) ++ s.complex.filterMap enumLook)) with
       | none => []
       | some ls => T.ini310 ++ T.ini311 ++ T.ini312 ++ T.ini313 ++ ls.flatMap Look.text ++ T.ini381) = true := by
      split
      · rfl
      · next ls hls =>
        split at hls
        · cases hls
        · cases hls
          generalize List.flatMap Look.text _ = a at *
          nohash
    simp only [Item.text]
    generalize List.flatMap NRd.text _ = b at *
    generalize (if hasChildren s then T.ini400 else []) = d at *
    revert h4
    generalize (if s.simple = [] then none
       else some (s.simple.map (fun l => Look.simple l.ty l.name) ++ s.complex.filterMap enumLook)) = q
    intro h4
    generalize s.name = n at *
    cases q with
    | none => nohash
    | some ls => nohash

theorem nh_writerDef {k : Kind} {cls : Str} {nd : Bool} {s : StructS} (hc : noHash cls = true) (hs : StructNH s) :
    ∀ i ∈ writerDef k cls nd s, noHash i.text = true := by
  have hn := hs.name
  intro i hi
  cases k with
  | xml =>
    simp only [writerDef, List.mem_cons, List.not_mem_nil, or_false] at hi
    rw [hi]
    have h1 : noHash ((s.simple.map fun l => Wr.elem (!nd) l.ty l.name).flatMap Wr.text) = true := by
      rw [List.flatMap_map]; exact nh_flatMap fun l hl => (nh_wr (hs.simple l hl)).1
    have h2 : noHash ((s.complex.map (wrComplex .xml (!nd))).flatMap Wr.text) = true := by
      rw [List.flatMap_map]; exact nh_flatMap fun co hco => nh_wrComplex (hs.complex co hco).1 (hs.complex co hco).2
    simp only [Item.text]
    generalize List.flatMap Wr.text _ = a at *
    generalize List.flatMap Wr.text _ = b at *
    generalize s.name = n at *
    cases nd <;> nohash
  | attrib =>
    simp only [writerDef, List.mem_cons, List.not_mem_nil, or_false] at hi
    rw [hi]
    have h1 : noHash ((s.simple.map fun l => Wr.attr (!nd) l.ty l.name).flatMap Wr.text) = true := by
      rw [List.flatMap_map]; exact nh_flatMap fun l hl => (nh_wr (hs.simple l hl)).2
    have h2 : noHash ((s.complex.map (wrComplex .attrib (!nd))).flatMap Wr.text) = true := by
      rw [List.flatMap_map]; exact nh_flatMap fun co hco => nh_wrComplex (hs.complex co hco).1 (hs.complex co hco).2
    have h3 : noHash (if hasChildren s then T.attrib241 else []) = true := nh_if (by kernel_rfl) rfl
    simp only [Item.text]
    generalize List.flatMap Wr.text _ = a at *
    generalize List.flatMap Wr.text _ = b at *
    generalize (if hasChildren s then T.attrib241 else []) = d at *
    generalize s.name = n at *
    cases nd <;> nohash
  | ini => cases hi
  | nIni =>
    simp only [writerDef, List.mem_cons, List.not_mem_nil, or_false] at hi
    rw [hi]
    have h1 : noHash ((s.simple.map (fun l => NWr.line (!nd) l.ty l.name) ++ s.complex.map (nwrComplex (!nd))).flatMap NWr.text) = true := by
      refine nh_flatMap fun l hl => ?_
      rcases List.mem_append.1 hl with hl | hl
      · obtain ⟨l', hl', rfl⟩ := List.mem_map.1 hl
        exact nh_nwr (hs.simple l' hl')
      · obtain ⟨co, hco, rfl⟩ := List.mem_map.1 hl
        exact nh_nwrComplex (hs.complex co hco).1 (hs.complex co hco).2
    simp only [Item.text]
    generalize List.flatMap NWr.text _ = b at *
    generalize s.name = n at *
    cases nd <;> nohash

/-! ### The bodies of the files -/

/-- The structs .cpp file after its includes, process_items_xml.cpp:90-193, process_items_ini.cpp:92-266.  (Proof notion.) -/
def structsCppBody (k : Kind) (out : OutSpec) (structs : SMap StructS) : List Item :=
  let ss := structs.map Prod.snd
  [.readerCtor k out.readerClass] ++
  (ss.filter isTop).map (fun s => .defReadFile k out.readerClass s.name) ++
  ss.flatMap (readerDef k out.readerClass) ++
  [.raw (if k.isXml then T.xml134 else T.ini208)] ++
  (if out.onlyRead then []
   else
    [.writerCtor k out.writerClass out.readerClass] ++
    (ss.filter isTop).map (fun s => .defWriteFile k out.writerClass s.name) ++
    ss.flatMap (writerDef k out.writerClass out.noDelta) ++
    [.raw (if k.isXml then T.xml191 else T.ini264)])

theorem structsCpp_split (k : Kind) (stamp nameCpp nameH : Str) (inputs : List Str) (out : OutSpec) (S : SMap StructS) :
    structsCpp k stamp nameCpp nameH inputs out S = structsCppHead k stamp nameCpp nameH inputs out ++ structsCppBody k out S := by
  simp only [structsCpp, structsCppBody, List.append_assoc]

/-- The structs .h file up to its classes, process_items_xml.cpp:71-83, process_items_ini.cpp:76-89.  (Proof notion.) -/
def structsHHead (k : Kind) (stamp nameH : Str) (inputs : List Str) : List Item :=
  (if k.isXml then [.raw (T.xml71 nameH), .raw (T.xml72 (stfxInfo stamp)), .raw T.xml74]
   else [.raw (T.ini76 nameH), .raw (T.ini77 (stfxInfo stamp)), .raw T.ini79]) ++
  inputs.map (fun f => .raw (if k.isXml then T.xml81 f else T.ini87 f)) ++
  [.raw (if k.isXml then T.xml83 else T.ini89)]

/-- The classes of the structs .h file, process_items_xml.cpp:86-193, process_items_ini.cpp:91-266.  (Proof notion.) -/
def structsHBody (k : Kind) (out : OutSpec) (structs : SMap StructS) : List Item :=
  let ss := structs.map Prod.snd
  [.readerClass k out.readerClass] ++
  (ss.filter isTop).map (fun s => .declReadFile k s.name) ++
  [.raw (if k.isXml then T.xml124 else T.ini198)] ++
  ss.flatMap (readerDecl k) ++
  [.raw (if k.isXml then T.xml132 else T.ini206)] ++
  (if out.onlyRead then []
   else
    [.writerClass k out.writerClass out.readerClass] ++
    (ss.filter isTop).map (fun s => .declWriteFile k s.name) ++
    [.raw (if k.isXml then T.xml181 else T.ini254)] ++
    ss.flatMap (writerDecl k) ++
    [.raw (if k.isXml then T.xml189 else T.ini262)])

theorem structsH_split (k : Kind) (stamp nameH : Str) (inputs : List Str) (out : OutSpec) (S : SMap StructS) :
    structsH k stamp nameH inputs out S = structsHHead k stamp nameH inputs ++ structsHBody k out S := by
  simp only [structsH, structsHHead, structsHBody, List.append_assoc, List.cons_append, List.nil_append]

/-- The enums .cpp file up to its functions, process_items.cpp:87-95.  (Proof notion.) -/
def enumsCppHead (stamp nameCpp nameH : Str) (inputs : List Str) : List Item :=
  [.raw (T.base87 nameCpp), .raw (T.base88 (stfxInfo stamp)), .raw (T.base89 nameH), .raw T.base90] ++
  inputs.map (fun f => .raw (T.base93 f)) ++ [.raw T.base95]

/-- The functions of the enums .cpp file, process_items.cpp:109-113.  (Proof notion.) -/
def enumsCppBody (enums : SMap EnumS) : List Item := enums.flatMap (fun p => [.defSFromE p.2, .defSToE p.2])

/-- The enums .h file up to its namespace, process_items.cpp:97-106.  (Proof notion.) -/
def enumsHHead (stamp nameH : Str) (inputs : List Str) : List Item :=
  [.raw (T.base97 nameH), .raw (T.base98 (stfxInfo stamp)), .raw T.base99, .raw T.base100, .raw T.base101] ++
  inputs.map (fun f => .raw (T.base104 f)) ++ [.raw T.base106]

/-- The declarations of the enums .h file, process_items.cpp:107-122.  (Proof notion.) -/
def enumsHBody (enums : SMap EnumS) : List Item :=
  [.raw T.base107] ++ enums.flatMap (fun p => [.declSFromE p.2.name, .declSToE p.2.name]) ++ [.raw T.base115] ++
  enums.map (fun p => .formatter p.2.name)

theorem enumsH_split (stamp nameH : Str) (inputs : List Str) (E : SMap EnumS) :
    enumsH stamp nameH inputs E = enumsHHead stamp nameH inputs ++ enumsHBody E := by
  simp only [enumsH, enumsHHead, enumsHBody, List.append_assoc, List.cons_append, List.nil_append]

theorem enumsCpp_split (stamp nameCpp nameH : Str) (inputs : List Str) (E : SMap EnumS) :
    enumsCpp stamp nameCpp nameH inputs E = enumsCppHead stamp nameCpp nameH inputs ++ enumsCppBody E := rfl

theorem nh_fileText {is : List Item} (h : ∀ i ∈ is, noHash i.text = true) : noHash (fileText is) = true := nh_flatMap h

theorem nh_structsCpp {k : Kind} {out : OutSpec} {S : SMap StructS} (hr : noHash out.readerClass = true)
    (hw : out.onlyRead = true ∨ noHash out.writerClass = true) (hs : ∀ p ∈ S, StructNH p.2) :
    noHash (fileText (structsCppBody k out S)) = true := by
  have hs' : ∀ s ∈ S.map Prod.snd, StructNH s := by
    intro s h
    obtain ⟨p, hp, rfl⟩ := List.mem_map.1 h
    exact hs p hp
  refine nh_fileText fun i hi => ?_
  simp only [structsCppBody, List.mem_append, List.mem_cons, List.not_mem_nil, or_false,
    List.mem_map (f := fun s => Item.defReadFile _ _ _)] at hi
  rcases hi with (((hi | hi) | hi) | hi) | hi
  · rw [hi]
    generalize out.readerClass = rc at *
    cases k <;> nohash
  · obtain ⟨s, h, rfl⟩ := hi
    have := (hs' s (List.mem_filter.1 h).1).name
    generalize out.readerClass = rc at *
    generalize s.name = n at *
    cases k <;> nohash
  · obtain ⟨s, h, hi⟩ := List.mem_flatMap.1 hi
    exact nh_readerDef hr (hs' s h) i hi
  · rw [hi]
    cases k <;> kernel_rfl
  · split at hi
    · cases hi
    · next h =>
      have hw := hw.resolve_left h
      simp only [List.mem_append, List.mem_cons, List.not_mem_nil, or_false] at hi
      rcases hi with ((hi | hi) | hi) | hi
      · rw [hi]
        generalize out.readerClass = rc at *
        generalize out.writerClass = wc at *
        cases k <;> nohash
      · obtain ⟨s, h, rfl⟩ := List.mem_map.1 hi
        have := (hs' s (List.mem_filter.1 h).1).name
        generalize out.writerClass = wc at *
        generalize s.name = n at *
        cases k <;> nohash
      · obtain ⟨s, h, hi⟩ := List.mem_flatMap.1 hi
        exact nh_writerDef hw (hs' s h) i hi
      · rw [hi]
        cases k <;> kernel_rfl

theorem nh_structsH {k : Kind} {out : OutSpec} {S : SMap StructS} (hr : noHash out.readerClass = true)
    (hw : out.onlyRead = true ∨ noHash out.writerClass = true) (hs : ∀ p ∈ S, noHash p.2.name = true) :
    noHash (fileText (structsHBody k out S)) = true := by
  have hs' : ∀ s ∈ S.map Prod.snd, noHash s.name = true := by
    intro s h
    obtain ⟨p, hp, rfl⟩ := List.mem_map.1 h
    exact hs p hp
  refine nh_fileText fun i hi => ?_
  simp only [structsHBody, List.mem_append, List.mem_cons, List.not_mem_nil, or_false,
    List.mem_map (f := fun s => Item.declReadFile _ _)] at hi
  rcases hi with ((((hi | hi) | hi) | hi) | hi) | hi
  · rw [hi]
    generalize out.readerClass = rc at *
    cases k <;> nohash
  · obtain ⟨s, h, rfl⟩ := hi
    have := hs' s (List.mem_filter.1 h).1
    generalize s.name = n at *
    cases k <;> nohash
  · rw [hi]
    cases k <;> kernel_rfl
  · obtain ⟨s, h, hi⟩ := List.mem_flatMap.1 hi
    have := hs' s h
    unfold readerDecl at hi
    generalize s.name = n at *
    cases k <;> simp only [List.mem_cons, List.not_mem_nil, or_false] at hi <;> (rw [hi]; nohash)
  · rw [hi]
    cases k <;> kernel_rfl
  · split at hi
    · cases hi
    · next h =>
      have hw := hw.resolve_left h
      simp only [List.mem_append, List.mem_cons, List.not_mem_nil, or_false] at hi
      rcases hi with (((hi | hi) | hi) | hi) | hi
      · rw [hi]
        generalize out.readerClass = rc at *
        generalize out.writerClass = wc at *
        cases k <;> nohash
      · obtain ⟨s, h, rfl⟩ := List.mem_map.1 hi
        have := hs' s (List.mem_filter.1 h).1
        generalize s.name = n at *
        cases k <;> nohash
      · rw [hi]
        cases k <;> kernel_rfl
      · obtain ⟨s, h, hi⟩ := List.mem_flatMap.1 hi
        have := hs' s h
        unfold writerDecl at hi
        generalize s.name = n at *
        cases k <;> simp only [List.mem_cons, List.not_mem_nil, or_false] at hi <;> (rw [hi]; nohash)
      · rw [hi]
        cases k <;> kernel_rfl

/-- The names in an enum declaration have no `#`.  (Proof notion, models no code.) -/
structure EnumNH (e : EnumS) : Prop where
  name : noHash e.name = true
  enums : ∀ l ∈ e.enums, noHash l.name = true

theorem nh_enumsCpp {E : SMap EnumS} (he : ∀ p ∈ E, EnumNH p.2) : noHash (fileText (enumsCppBody E)) = true := by
  refine nh_fileText fun i hi => ?_
  simp only [enumsCppBody, List.mem_flatMap, List.mem_cons, List.not_mem_nil, or_false] at hi
  obtain ⟨p, hp, hi⟩ := hi
  have hn := (he p hp).name
  have h1 : noHash (p.2.enums.flatMap (fromLine p.2)) = true := by
    refine nh_flatMap fun l hl => ?_
    have := (he p hp).enums l hl
    unfold fromLine
    generalize p.2.name = n at *
    generalize l.name = m at *
    split <;> nohash
  have h2 : noHash (p.2.enums.flatMap (toLine p.2)) = true := by
    refine nh_flatMap fun l hl => ?_
    have := (he p hp).enums l hl
    unfold toLine
    generalize p.2.name = n at *
    generalize l.name = m at *
    split <;> nohash
  rcases hi with rfl | rfl
  · simp only [Item.text]
    generalize List.flatMap _ p.2.enums = b at *
    generalize p.2.name = n at *
    nohash
  · simp only [Item.text]
    generalize List.flatMap (toLine p.2) p.2.enums = b at *
    generalize p.2.name = n at *
    nohash

theorem nh_enumsH {E : SMap EnumS} (he : ∀ p ∈ E, noHash p.2.name = true) : noHash (fileText (enumsHBody E)) = true := by
  refine nh_fileText fun i hi => ?_
  simp only [enumsHBody, List.mem_append, List.mem_cons, List.not_mem_nil, or_false, List.mem_flatMap, List.mem_map] at hi
  rcases hi with ((hi | hi) | hi) | hi
  · rw [hi]; kernel_rfl
  · obtain ⟨p, hp, hi⟩ := hi
    have hn := he p hp
    generalize p.2.name = n at *
    rcases hi with rfl | rfl <;> nohash
  · rw [hi]; kernel_rfl
  · obtain ⟨p, hp, rfl⟩ := hi
    have hn := he p hp
    generalize p.2.name = n at *
    nohash

end Stfx.Cpp
