import Verif.Cpp.IniText
/-
The generated .cpp files as sequences of function definitions.
-/
set_option autoImplicit false
set_option maxRecDepth 4000
namespace Stfx.Cpp
open Stfx.Gen Stfx.Parser Stfx.Items

/-- The functions a piece of a .cpp file defines, process_items.cpp:146-208, process_items_xml.cpp:93-576,
process_items_xml_attrib.cpp:22-297, process_items_ini.cpp:107-600. -/
def itemFuns : Item → List Fun
  | .defSFromE e => [sFromFun e]
  | .defSToE e => [sToFun e]
  | .readerCtor _ rc => [xml93_fun rc]
  | .writerCtor _ wc rc => [xml149_fun wc rc]
  | .defReadFile k rc n => [if k.isXml then xml106_fun rc n else ini120_fun rc n]
  | .defWriteFile k wc n => [if k.isXml then xml164_fun wc n else ini239_fun wc n]
  | .defRd k cls n ch ss cs => [rdFun cls n (rdBody k ch ss cs)]
  | .defWr k cls n dd ch ss cs => [wrFun cls n (wrBody k n dd ch ss cs)]
  | .defNRd cls n looks dot body => [nrdFun cls n (nrdBody looks dot body)]
  | .defNWr cls n dd body => [nwrFun cls n (nwrBody n dd body)]
  | _ => []

/-- Text of comments, directives and blank lines only.  (Proof notion, models no code.) -/
def Quiet (s : Str) : Prop := ∃ n, scan isLetter wordTok .start s = (List.replicate n .dir, .start)

/-- The names in a piece of a .cpp file are identifiers and it is standard C++ unless `ext`. -/
def ItemNamed (ext : Bool) : Item → Prop
  | .raw s => Quiet s
  | .defSFromE e | .defSToE e => EnumNamed e
  | .readerCtor _ rc => Ident rc
  | .writerCtor _ wc rc => Ident wc ∧ Ident rc
  | .defReadFile _ c n | .defWriteFile _ c n => Ident c ∧ Ident n
  | .defRd _ cls n _ ss cs => Ident cls ∧ Ident n ∧ (∀ r ∈ ss, Rd.Named r ∧ (ext = true ∨ Rd.standard r = true)) ∧
      (∀ r ∈ cs, Rd.Named r ∧ (ext = true ∨ Rd.standard r = true))
  | .defWr _ cls n _ _ ss cs => Ident cls ∧ Ident n ∧ (∀ r ∈ ss, Wr.Named r) ∧ (∀ r ∈ cs, Wr.Named r)
  | .defNRd cls n looks _ body => Ident cls ∧ Ident n ∧ (∀ ls, looks = some ls → ∀ l ∈ ls, Look.Named l) ∧ (∀ r ∈ body, NRd.Named r)
  | .defNWr cls n _ body => Ident cls ∧ Ident n ∧ (∀ r ∈ body, NWr.Named r)
  | _ => False

theorem whole_chunk {ext : Bool} {text : Str} {ts : List Tok} {g : Fun} (hs : scan isLetter wordTok .start text = (ts, .start))
    (hne : ∃ t r, ts = t :: r ∧ t ≠ .dir ∧ t ≠ .op .semi) (h : ∀ f r, pFun ext (f + 60) (ts ++ r) = some (g, r)) :
    DefChunk ext text [g] := ⟨ts, hs, .one hne fun f r _ => h f r⟩

theorem item_chunk {ext : Bool} {i : Item} (h : ItemNamed ext i) : DefChunk ext i.text (itemFuns i) := by
  cases i with
  | raw s =>
    obtain ⟨n, h⟩ := h
    exact .quiet h (by rw [List.length_replicate])
  | defSFromE e => exact defSFromE_chunk h
  | defSToE e => exact defSToE_chunk h
  | readerCtor k rc =>
    have : DefChunk ext (T.xml93 rc) [xml93_fun rc] := whole_chunk (xml93_scan h) ⟨_, _, rfl, by simp, by simp⟩ xml93_parse
    cases k <;> exact this
  | writerCtor k wc rc =>
    have : DefChunk ext (T.xml149 wc rc) [xml149_fun wc rc] :=
      whole_chunk (xml149_scan h.1 h.2) ⟨_, _, rfl, by simp, by simp⟩ xml149_parse
    cases k <;> exact this
  | defReadFile k rc n =>
    have h1 : DefChunk ext (T.xml106 rc n) [xml106_fun rc n] :=
      whole_chunk (xml106_scan h.1 h.2) ⟨_, _, rfl, by simp, by simp⟩ xml106_parse
    have h2 : DefChunk ext (T.ini120 rc n) [ini120_fun rc n] :=
      whole_chunk (ini120_scan h.1 h.2) ⟨_, _, rfl, by simp, by simp⟩ ini120_parse
    cases k
    case xml => exact h1
    case attrib => exact h1
    case ini => exact h2
    case nIni => exact h2
  | defWriteFile k wc n =>
    have h1 : DefChunk ext (T.xml164 wc n) [xml164_fun wc n] :=
      whole_chunk (xml164_scan h.1 h.2) ⟨_, _, rfl, by simp, by simp⟩ xml164_parse
    have h2 : DefChunk ext (T.ini239 wc n) [ini239_fun wc n] :=
      whole_chunk (ini239_scan h.1 h.2) ⟨_, _, rfl, by simp, by simp⟩ ini239_parse
    cases k
    case xml => exact h1
    case attrib => exact h1
    case ini => exact h2
    case nIni => exact h2
  | defRd k cls n ch ss cs => exact defRd_chunk h.1 h.2.1 h.2.2.1 h.2.2.2
  | defWr k cls n dd ch ss cs => exact defWr_chunk h.1 h.2.1 h.2.2.1 h.2.2.2
  | defNRd cls n looks dot body => exact defNRd_chunk h.1 h.2.1 h.2.2.1 h.2.2.2
  | defNWr cls n dd body => exact defNWr_chunk h.1 h.2.1 h.2.2
  | _ => exact h.elim

/-- A file of such pieces defines their functions. -/
theorem parse_items {ext : Bool} {is : List Item} (h : ∀ i ∈ is, ItemNamed ext i) :
    parse ext (fileText is) = some (is.flatMap itemFuns) :=
  (DefChunk.flatMap fun i hi => item_chunk (h i hi)).parse

/-! ### The files of a schema -/

/-- The names a struct declaration uses are identifiers and no keywords.  (Proof notion, models no code.) -/
structure StructNamed (s : StructS) : Prop where
  name : Ident s.name
  simple : ∀ l ∈ s.simple, Ident l.name
  complex : ∀ co ∈ s.complex, Ident co.name ∧ Ident co.tyName

theorem quiet_nil : Quiet [] := ⟨0, rfl⟩

/-- A comment with some text. -/
theorem quiet_comment {a : Str} (h : Plain a) : Quiet (T.xml50 a) := ⟨0, xml50_scan h⟩

/-- An include directive. -/
theorem quiet_include {a : Str} (h : Plain a) : Quiet (T.xml68 a) := ⟨1, xml68_scan h⟩

theorem quiet_append {a b : Str} (ha : Quiet a) (hb : Quiet b) : Quiet (a ++ b) := by
  obtain ⟨n, ha⟩ := ha
  obtain ⟨m, hb⟩ := hb
  exact ⟨n + m, by rw [scans ha hb, List.replicate_append_replicate]⟩

/-- The include directive followed by a blank line. -/
theorem quiet_include2 {a : Str} (h : Plain a) : Quiet (T.xml52 a) := ⟨1, xml52_scan h⟩

theorem quiet_info {a : Str} (h : Plain a) : Quiet (T.xml51 (stfxInfo a)) := by
  have h1 : Quiet (c!"//\n// Automatically generated using stfx\n// Do not directly edit this file, " ++
    c!"use stfx to re-create this file.\n//\n// License : MIT License\n//\n") := ⟨0, by kernel_rfl⟩
  have h2 : Quiet (T.xml50 a ++ c!"\n") := quiet_append (quiet_comment h) ⟨0, by kernel_rfl⟩
  have := quiet_append h1 h2
  have e : T.xml51 (stfxInfo a) = (c!"//\n// Automatically generated using stfx\n// Do not directly edit this file, " ++
    c!"use stfx to re-create this file.\n//\n// License : MIT License\n//\n") ++ (T.xml50 a ++ c!"\n") := by
    simp [T.xml51, T.xml50, stfxInfo]
  rwa [e]

theorem plain_append {a b : Str} (ha : Plain a) (hb : ∀ c ∈ b, c ≠ '"' ∧ c ≠ '\'' ∧ c ≠ '\\' ∧ c ≠ '\n') : Plain (a ++ b) :=
  ⟨by simp [ha.1], fun c hc => by
    rcases List.mem_append.1 hc with h | h
    · exact ha.2 c h
    · exact hb c h⟩

theorem plain_spaced {n : Str} (h : Ident n) : Plain (spaced n) := by
  obtain ⟨⟨c, s, rfl, hc, hs⟩, _⟩ := h
  refine ⟨by simp [spaced], ?_⟩
  intro d hd
  simp only [spaced, List.mem_map] at hd
  obtain ⟨e, he, rfl⟩ := hd
  have hl : (isLetter e || isDigit e) = true := by
    rcases List.mem_cons.1 he with rfl | he
    · simp [hc]
    · exact hs e he
  have := letter_plain hl
  split
  · decide
  · exact ⟨this.1, this.2.1, this.2.2.1, this.2.2.2.1⟩

/-- The file names and the stamp are text that can stand in a comment or an include directive.  (Proof notion, models no code.) -/
structure FileNamed (stamp nameCpp nameH : Str) (inputs : List Str) (enumFile : Str) : Prop where
  stamp : Plain stamp
  cpp : Plain nameCpp
  h : Plain nameH
  inputs : ∀ f ∈ inputs, Plain f
  enums : disabled enumFile = true ∨ Plain enumFile

theorem head_named {ext : Bool} {k : Kind} {stamp nameCpp nameH : Str} {inputs : List Str} {out : OutSpec}
    (h : FileNamed stamp nameCpp nameH inputs out.enumFile) : ∀ i ∈ structsCppHead k stamp nameCpp nameH inputs out, ItemNamed ext i := by
  have he : Quiet (if disabled out.enumFile then T.xml60 else T.xml64 (out.enumFile ++ c!".h")) := by
    cases hd : disabled out.enumFile
    · rcases h.enums with h' | h'
      · rw [hd] at h'; cases h'
      · exact quiet_include (plain_append h' (by decide))
    · exact ⟨0, xml60_scan⟩
  intro i hi
  unfold structsCppHead at hi
  cases hk : k.isXml
  · rw [hk] at hi
    simp only [Bool.false_eq_true, if_false, List.mem_append, List.mem_cons, List.not_mem_nil, or_false, List.mem_map] at hi
    rcases hi with (((hi | hi) | hi) | hi) | hi
    · rcases hi with rfl | rfl | rfl | rfl
      · exact quiet_comment h.cpp
      · exact quiet_info h.stamp
      · exact quiet_include2 h.h
      · exact ⟨4, ini53_scan⟩
    · split at hi
      · cases hi
      · simp only [List.mem_cons, List.not_mem_nil, or_false] at hi
        rw [hi]
        exact ⟨1, ini59_scan⟩
    · rw [hi]; exact ⟨0, ini61_scan⟩
    · rw [hi]; exact he
    · obtain ⟨f, hf, rfl⟩ := hi
      exact quiet_include (h.inputs f hf)
  · rw [hk] at hi
    simp only [if_true, List.mem_append, List.mem_cons, List.not_mem_nil, or_false, List.mem_map] at hi
    rcases hi with hi | hi
    · rcases hi with rfl | rfl | rfl | rfl | rfl | rfl
      · exact quiet_comment h.cpp
      · exact quiet_info h.stamp
      · exact quiet_include2 h.h
      · exact ⟨3, xml53_scan⟩
      · exact ⟨2, xml56_scan⟩
      · exact he
    · obtain ⟨f, hf, rfl⟩ := hi
      exact quiet_include (h.inputs f hf)

theorem readerDef_named {ext : Bool} {k : Kind} {cls : Str} {s : StructS} (hc : Ident cls) (hs : StructNamed s)
    (he : ext = true ∨ k ≠ .attrib ∨ ∀ l ∈ s.simple, l.ty ≠ .unsignedShort ∧ l.ty ≠ .unsignedLong) :
    ∀ i ∈ readerDef k cls s, ItemNamed ext i := by
  have hco : ∀ k', ∀ r ∈ s.complex.map (rdComplex k'), Rd.Named r ∧ (ext = true ∨ Rd.standard r = true) := by
    intro k' r hr
    obtain ⟨co, hco, rfl⟩ := List.mem_map.1 hr
    have := hs.complex co hco
    unfold rdComplex
    cases co.ty <;> simp only
    case enum => split <;> exact ⟨this.1, .inr rfl⟩
    case unknown => exact ⟨this.1, .inr rfl⟩
    case enumOrStruct => exact ⟨this.1, .inr rfl⟩
    case struct => exact ⟨this, .inr rfl⟩
    case vector => exact ⟨this, .inr rfl⟩
  intro i hi
  cases k with
  | xml =>
    simp only [readerDef, List.mem_cons, List.not_mem_nil, or_false] at hi
    rw [hi]
    refine ⟨hc, hs.name, ?_, hco _⟩
    intro r hr
    obtain ⟨l, hl, rfl⟩ := List.mem_map.1 hr
    exact ⟨hs.simple l hl, .inr rfl⟩
  | attrib =>
    simp only [readerDef, List.mem_cons, List.not_mem_nil, or_false] at hi
    rw [hi]
    refine ⟨hc, hs.name, ?_, hco _⟩
    intro r hr
    obtain ⟨l, hl, rfl⟩ := List.mem_map.1 hr
    refine ⟨hs.simple l hl, ?_⟩
    rcases he with he | he | he
    · exact .inl he
    · exact absurd rfl he
    · have := he l hl
      refine .inr ?_
      revert this
      cases l.ty <;> simp [Rd.standard]
  | ini => cases hi
  | nIni =>
    simp only [readerDef, List.mem_cons, List.not_mem_nil, or_false] at hi
    rw [hi]
    refine ⟨hc, hs.name, ?_, ?_⟩
    · intro ls hls l hl
      split at hls
      · cases hls
      · cases hls
        rcases List.mem_append.1 hl with hl | hl
        · obtain ⟨l', hl', rfl⟩ := List.mem_map.1 hl
          exact hs.simple l' hl'
        · obtain ⟨co, hco', h⟩ := List.mem_filterMap.1 hl
          have := (hs.complex co hco').1
          unfold enumLook at h
          split at h <;> cases h
          exact this
    · intro r hr
      obtain ⟨co, hco', h⟩ := List.mem_filterMap.1 hr
      have := hs.complex co hco'
      unfold nrdComplex at h
      split at h <;> cases h
      · exact ⟨this.1, this.2, plain_spaced this.1⟩
      all_goals exact this.1

theorem writerDef_named {ext : Bool} {k : Kind} {cls : Str} {nd : Bool} {s : StructS} (hc : Ident cls) (hs : StructNamed s) :
    ∀ i ∈ writerDef k cls nd s, ItemNamed ext i := by
  have hco : ∀ k' g, ∀ r ∈ s.complex.map (wrComplex k' g), Wr.Named r := by
    intro k' g r hr
    obtain ⟨co, hco, rfl⟩ := List.mem_map.1 hr
    have := hs.complex co hco
    unfold wrComplex
    cases co.ty <;> simp only
    case enum => split <;> exact this.1
    case unknown => exact this.1
    case enumOrStruct => exact this.1
    case struct => exact this
    case vector => exact this
  intro i hi
  cases k with
  | xml =>
    simp only [writerDef, List.mem_cons, List.not_mem_nil, or_false] at hi
    rw [hi]
    refine ⟨hc, hs.name, ?_, hco _ _⟩
    intro r hr
    obtain ⟨l, hl, rfl⟩ := List.mem_map.1 hr
    exact hs.simple l hl
  | attrib =>
    simp only [writerDef, List.mem_cons, List.not_mem_nil, or_false] at hi
    rw [hi]
    refine ⟨hc, hs.name, ?_, hco _ _⟩
    intro r hr
    obtain ⟨l, hl, rfl⟩ := List.mem_map.1 hr
    exact hs.simple l hl
  | ini => cases hi
  | nIni =>
    simp only [writerDef, List.mem_cons, List.not_mem_nil, or_false] at hi
    rw [hi]
    refine ⟨hc, hs.name, ?_⟩
    intro r hr
    rcases List.mem_append.1 hr with hr | hr
    · obtain ⟨l, hl, rfl⟩ := List.mem_map.1 hr
      exact hs.simple l hl
    · obtain ⟨co, hco', rfl⟩ := List.mem_map.1 hr
      have := hs.complex co hco'
      unfold nwrComplex
      cases co.ty <;> simp only
      case struct => exact ⟨this.1, this.2, plain_spaced this.1⟩
      all_goals exact this.1

/-- The structs .cpp file defines the functions of its pieces. -/
theorem structsCpp_parse {ext : Bool} {k : Kind} {stamp nameCpp nameH : Str} {inputs : List Str} {out : OutSpec}
    {S : SMap StructS} (hf : FileNamed stamp nameCpp nameH inputs out.enumFile) (hr : Ident out.readerClass)
    (hw : out.onlyRead = true ∨ Ident out.writerClass) (hs : ∀ p ∈ S, StructNamed p.2)
    (he : ext = true ∨ k ≠ .attrib ∨ ∀ p ∈ S, ∀ l ∈ p.2.simple, l.ty ≠ .unsignedShort ∧ l.ty ≠ .unsignedLong) :
    parse ext (fileText (structsCpp k stamp nameCpp nameH inputs out S)) =
      some ((structsCpp k stamp nameCpp nameH inputs out S).flatMap itemFuns) := by
  have hs' : ∀ s ∈ S.map Prod.snd, StructNamed s := by
    intro s h
    obtain ⟨p, hp, rfl⟩ := List.mem_map.1 h
    exact hs p hp
  refine parse_items fun i hi => ?_
  simp only [structsCpp, List.mem_append, List.mem_cons, List.not_mem_nil, or_false, List.mem_map (f := fun s => Item.defReadFile _ _ _)] at hi
  rcases hi with ((((hi | hi) | hi) | hi) | hi) | hi
  · exact head_named hf i hi
  · rw [hi]; exact hr
  · obtain ⟨s, h, rfl⟩ := hi
    exact ⟨hr, (hs' s (List.mem_filter.1 h).1).name⟩
  · obtain ⟨s, h, hi⟩ := List.mem_flatMap.1 hi
    refine readerDef_named hr (hs' s h) ?_ i hi
    rcases he with he | he | he
    · exact .inl he
    · exact .inr (.inl he)
    · obtain ⟨p, hp, rfl⟩ := List.mem_map.1 h
      exact .inr (.inr (he p hp))
  · rw [hi]
    have : Quiet T.xml134 := ⟨0, xml134_scan⟩
    cases k <;> exact this
  · split at hi
    · cases hi
    · next h =>
      have hw := hw.resolve_left h
      simp only [List.mem_append, List.mem_cons, List.not_mem_nil, or_false] at hi
      rcases hi with ((hi | hi) | hi) | hi
      · rw [hi]; exact ⟨hw, hr⟩
      · obtain ⟨s, h, rfl⟩ := List.mem_map.1 hi
        exact ⟨hw, (hs' s (List.mem_filter.1 h).1).name⟩
      · obtain ⟨s, h, hi⟩ := List.mem_flatMap.1 hi
        exact writerDef_named hw (hs' s h) i hi
      · rw [hi]
        have : Quiet T.xml134 := ⟨0, xml134_scan⟩
        cases k <;> exact this

/-- The enums .cpp file defines the functions of its pieces. -/
theorem enumsCpp_parse {ext : Bool} {stamp nameCpp nameH : Str} {inputs : List Str} {E : SMap EnumS} {e : Str}
    (hf : FileNamed stamp nameCpp nameH inputs e) (he : ∀ p ∈ E, EnumNamed p.2) :
    parse ext (fileText (enumsCpp stamp nameCpp nameH inputs E)) =
      some (E.flatMap fun p => [sFromFun p.2, sToFun p.2]) := by
  have := parse_items (ext := ext) (is := enumsCpp stamp nameCpp nameH inputs E) fun i hi => by
    simp only [enumsCpp, List.mem_append, List.mem_cons, List.not_mem_nil, or_false, List.mem_map, List.mem_flatMap] at hi
    rcases hi with ((hi | hi) | hi) | hi
    · rcases hi with rfl | rfl | rfl | rfl
      · exact quiet_comment hf.cpp
      · exact quiet_info hf.stamp
      · exact quiet_include2 hf.h
      · exact ⟨2, base90_scan⟩
    · obtain ⟨f, h, rfl⟩ := hi
      exact quiet_include (hf.inputs f h)
    · rw [hi]; exact ⟨0, base95_scan⟩
    · obtain ⟨p, hp, rfl | rfl⟩ := hi
      · exact he p hp
      · exact he p hp
  rw [this]
  congr 1
  simp only [enumsCpp, List.flatMap_append, List.flatMap_cons, List.flatMap_nil, List.flatMap_map, List.flatMap_assoc, itemFuns,
    List.nil_append, List.append_nil]
  have : inputs.flatMap (fun _ => ([] : List Fun)) = [] := by simp
  rw [this, List.nil_append]
  rfl

end Stfx.Cpp
