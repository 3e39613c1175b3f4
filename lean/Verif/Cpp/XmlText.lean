import Verif.Cpp.TreesXml
import Verif.Cpp.Defs
import Verif.Gen.Generate
/-
The text of the generated XML readers and writers as function definitions.
-/
set_option autoImplicit false
set_option maxRecDepth 4000
namespace Stfx.Cpp
open Stfx.Gen Stfx.Parser Stfx.Items

/-- The statements of `Rd.text`, process_items_xml.cpp:227-395, process_items_xml_attrib.cpp:28-133. -/
def rdTree : Rd → List Stmt
  | .elem .bool n => xml232_tree n
  | .elem .int n => xml239_tree n
  | .elem .unsignedInt n => xml246_tree n
  | .elem .float n => xml253_tree n
  | .elem .double n => xml260_tree n
  | .elem .stdString n => xml267_tree n
  | .elem .short n => xml278_tree n
  | .elem .unsignedShort n => xml289_tree n
  | .elem .long n => xml300_tree n
  | .elem .unsignedLong n => xml311_tree n
  | .elemEnum n => xml351_tree n
  | .attr .bool n | .attr .int n | .attr .unsignedInt n | .attr .float n | .attr .double n => attrib37_tree n
  | .attr .stdString n => attrib40_tree n
  | .attr .short n => attrib48_tree n
  | .attr .unsignedShort n => attrib51_tree n
  | .attr .long n => attrib54_tree n
  | .attr .unsignedLong n => attrib57_tree n
  | .attrEnum n => attrib92_tree n
  | .child n ty => xml361_tree n ty
  | .vector n ty => xml370_tree n ty
  | .fixme _ | .warn _ => []

/-- The statements of `Wr.text`, process_items_xml.cpp:423-572, process_items_xml_attrib.cpp:156-293. -/
def wrTree : Wr → List Stmt
  | .elem false .stdString n => xml456_tree n
  | .elem true .stdString n => xml463_tree n
  | .elem false .unsignedLong n => xml475_tree n
  | .elem true .unsignedLong n => xml482_tree n
  | .elem false _ n => xml437_tree n
  | .elem true _ n => xml444_tree n
  | .elemEnum false n => xml523_tree n
  | .elemEnum true n => xml530_tree n
  | .attr false .stdString n => attrib180_tree n
  | .attr true .stdString n => attrib185_tree n
  | .attr false .long n | .attr false .short n => attrib194_tree n
  | .attr true .long n | .attr true .short n => attrib199_tree n
  | .attr false .unsignedLong n | .attr false .unsignedShort n => attrib208_tree n
  | .attr true .unsignedLong n | .attr true .unsignedShort n => attrib213_tree n
  | .attr false _ n => attrib167_tree n
  | .attr true _ n => attrib172_tree n
  | .attrEnum false n => attrib252_tree n
  | .attrEnum true n => attrib257_tree n
  | .child n ty => xml540_tree n ty
  | .vector n ty => xml549_tree n ty
  | .fixme _ | .warn _ => []

/-- The names in a reader statement are identifiers, process_items_xml.cpp:227-395. -/
def Rd.Named : Rd → Prop
  | .elem _ n | .elemEnum n | .attr _ n | .attrEnum n | .fixme n | .warn n => Ident n
  | .child n ty | .vector n ty => Ident n ∧ Ident ty

/-- The names in a writer statement are identifiers, process_items_xml.cpp:423-572. -/
def Wr.Named : Wr → Prop
  | .elem _ _ n | .elemEnum _ n | .attr _ _ n | .attrEnum _ n | .fixme n | .warn n => Ident n
  | .child n ty | .vector n ty => Ident n ∧ Ident ty

/-- The statement does not use `unsigned short(i)` or `unsigned long(i)`, process_items_xml_attrib.cpp:50-51, 56-57. -/
def Rd.standard : Rd → Bool
  | .attr .unsignedShort _ | .attr .unsignedLong _ => false
  | _ => true

theorem rd_chunk {ext : Bool} {r : Rd} (h : Rd.Named r) (he : ext = true ∨ Rd.standard r = true) : Chunk 40 ext r.text (rdTree r) := by
  cases r with
  | elem ty n =>
    cases ty
    case bool => exact xml232_chunk h
    case int => exact xml239_chunk h
    case unsignedInt => exact xml246_chunk h
    case float => exact xml253_chunk h
    case double => exact xml260_chunk h
    case stdString => exact xml267_chunk h
    case short => exact xml278_chunk h
    case unsignedShort => exact xml289_chunk h
    case long => exact xml300_chunk h
    case unsignedLong => exact xml311_chunk h
  | elemEnum n => exact xml351_chunk h
  | attr ty n =>
    cases ty
    case bool => exact attrib37_chunk h
    case int => exact attrib37_chunk h
    case unsignedInt => exact attrib37_chunk h
    case float => exact attrib37_chunk h
    case double => exact attrib37_chunk h
    case stdString => exact attrib40_chunk h
    case short => exact attrib48_chunk h
    case unsignedShort =>
      rcases he with rfl | he
      · exact attrib51_chunk h
      · cases he
    case long => exact attrib54_chunk h
    case unsignedLong =>
      rcases he with rfl | he
      · exact attrib57_chunk h
      · cases he
  | attrEnum n => exact attrib92_chunk h
  | child n ty => exact xml361_chunk h.1 h.2
  | vector n ty => exact xml370_chunk h.1 h.2
  | fixme n => exact xml385_chunk h
  | warn n => exact xml390_chunk h

theorem wr_chunk {ext : Bool} {w : Wr} (h : Wr.Named w) : Chunk 40 ext w.text (wrTree w) := by
  cases w with
  | elem g ty n =>
    cases g <;> cases ty
    case false.bool => exact xml437_chunk h
    case false.int => exact xml437_chunk h
    case false.unsignedInt => exact xml437_chunk h
    case false.float => exact xml437_chunk h
    case false.double => exact xml437_chunk h
    case false.long => exact xml437_chunk h
    case false.short => exact xml437_chunk h
    case false.unsignedShort => exact xml437_chunk h
    case false.stdString => exact xml456_chunk h
    case false.unsignedLong => exact xml475_chunk h
    case true.bool => exact xml444_chunk h
    case true.int => exact xml444_chunk h
    case true.unsignedInt => exact xml444_chunk h
    case true.float => exact xml444_chunk h
    case true.double => exact xml444_chunk h
    case true.long => exact xml444_chunk h
    case true.short => exact xml444_chunk h
    case true.unsignedShort => exact xml444_chunk h
    case true.stdString => exact xml463_chunk h
    case true.unsignedLong => exact xml482_chunk h
  | elemEnum g n =>
    cases g
    case false => exact xml523_chunk h
    case true => exact xml530_chunk h
  | attr g ty n =>
    cases g <;> cases ty
    case false.bool => exact attrib167_chunk h
    case false.int => exact attrib167_chunk h
    case false.unsignedInt => exact attrib167_chunk h
    case false.float => exact attrib167_chunk h
    case false.double => exact attrib167_chunk h
    case false.long => exact attrib194_chunk h
    case false.short => exact attrib194_chunk h
    case false.unsignedShort => exact attrib208_chunk h
    case false.stdString => exact attrib180_chunk h
    case false.unsignedLong => exact attrib208_chunk h
    case true.bool => exact attrib172_chunk h
    case true.int => exact attrib172_chunk h
    case true.unsignedInt => exact attrib172_chunk h
    case true.float => exact attrib172_chunk h
    case true.double => exact attrib172_chunk h
    case true.long => exact attrib199_chunk h
    case true.short => exact attrib199_chunk h
    case true.unsignedShort => exact attrib213_chunk h
    case true.stdString => exact attrib185_chunk h
    case true.unsignedLong => exact attrib213_chunk h
  | attrEnum g n =>
    cases g
    case false => exact attrib252_chunk h
    case true => exact attrib257_chunk h
  | child n ty => exact xml540_chunk h.1 h.2
  | vector n ty => exact xml549_chunk h.1 h.2
  | fixme n => exact xml562_chunk h
  | warn n => exact xml567_chunk h

/-! ### Functions -/

/-- `return rv;`  process_items_xml.cpp:247, 503 (`return rv;`). -/
def retRv : List Stmt := [.ret (.id [c!"rv"])]

/-- The declaration of `ch_el`, process_items_xml_attrib.cpp:83, 241. -/
def chDecl (ch : Bool) : List Stmt := if ch then attrib83_tree else []

/-- The declaration of `default_data`, process_items_xml.cpp:420, process_items_xml_attrib.cpp:153. -/
def ddDecl (dd : Bool) (n : Str) : List Stmt := if dd then xml420_tree n else []

/-- The reader function of a struct, process_items_xml.cpp:219-397, process_items_xml_attrib.cpp:22-137. -/
def rdFun (cls n : Str) (body : List Stmt) : Fun where
  ret := some (.prim .bool)
  name := [cls, c!"do_" ++ n]
  params := [(.ptr (.name [c!"tinyxml2", c!"XMLElement"]), c!"el"), (.ptr (.name [n]), c!"data")]
  base := none
  body := body

/-- The writer function of a struct, process_items_xml.cpp:412-576, process_items_xml_attrib.cpp:147-297. -/
def wrFun (cls n : Str) (body : List Stmt) : Fun where
  ret := some (.prim .bool)
  name := [cls, c!"do_wr_" ++ n]
  params := [(.ptr (.name [c!"tinyxml2", c!"XMLElement"]), c!"el"), (.ptr (.name [n]), c!"data")]
  base := none
  body := body

/-- Its body; in the first form `ch_el` is declared in the head.  process_items_xml.cpp:215-250, process_items_xml_attrib.cpp:15-180. -/
def rdBody (k : Kind) (ch : Bool) (ss cs : List Rd) : List Stmt :=
  chDecl (k = .xml) ++ xml225_tree ++ ss.flatMap rdTree ++ chDecl (k ≠ .xml && ch) ++ cs.flatMap rdTree ++ retRv

/-- The body of the writer.  process_items_xml.cpp:400-510, process_items_xml_attrib.cpp:130-300. -/
def wrBody (k : Kind) (n : Str) (dd ch : Bool) (ss cs : List Wr) : List Stmt :=
  chDecl (k = .xml) ++ xml225_tree ++ ddDecl dd n ++ ss.flatMap wrTree ++ chDecl (k ≠ .xml && ch) ++ cs.flatMap wrTree ++ retRv

theorem retRv_stmts {ext : Bool} : IsStmts 40 ext [.kw .return_, .id c!"rv", .op .semi] retRv := by
  delta retRv
  stmts

theorem chDecl_chunk {ext : Bool} (ch : Bool) : Chunk 40 ext (if ch then T.attrib83 else []) (chDecl ch) := by
  cases ch
  · exact .nil
  · exact attrib83_chunk

theorem ddDecl_chunk {ext : Bool} (dd : Bool) {n : Str} (hn : Ident n) :
    Chunk 40 ext (if dd then T.xml420 n else []) (ddDecl dd n) := by
  cases dd
  · exact .nil
  · exact xml420_chunk hn

/-- A function ending with `return rv;`. -/
theorem fun_chunk {d : Nat} {ext : Bool} {hd body : Str} {hts ets : List Tok} {es ss : List Stmt} {ret : Option Ty} {name : List Str}
    {ps : List (Ty × Str)}
    (hs : scan isLetter wordTok .start hd = (hts ++ ets, .start))
    (hne : ∃ t r, hts = t :: r ∧ t ≠ .dir ∧ t ≠ .op .semi)
    (hh : ∀ f r, pFun ext (f + 60) (hts ++ r) = mkFun ret name ps none (pMany (pStmt ext (f + 60)) (f + 60) r))
    (he : IsStmts 40 ext ets es) (hb : Chunk d ext body ss) (hd40 : 40 ≤ d := by decide) (hd60 : d ≤ 60 := by decide) :
    DefChunk ext (hd ++ (body ++ T.xml396)) [⟨ret, name, ps, none, es ++ (ss ++ retRv)⟩] := by
  obtain ⟨ts, h1, i1⟩ := hb
  refine ⟨hts ++ (ets ++ (ts ++ [.kw .return_, .id c!"rv", .op .semi])) ++ [.op .rbrace] ++ [.op .semi], ?_, ?_⟩
  · rw [scan_append, hs]
    simp only [scan_append, h1, xml396_scan]
    simp [xml396_toks]
  · have := (defs_fun hd60 hne hh ((he.mono hd40).append (i1.append (retRv_stmts.mono hd40)))).append .semi
    simpa using this

/-- The head of a reader function. -/
theorem attrib22_head {ext : Bool} {cls n : Str} (f : Nat) (r : List Tok) :
    pFun ext (f + 60) (attrib22_toks cls n ++ r) =
      mkFun (some (.prim .bool)) [cls, c!"do_" ++ n]
        [(.ptr (.name [c!"tinyxml2", c!"XMLElement"]), c!"el"), (.ptr (.name [n]), c!"data")] none
        (pMany (pStmt ext (f + 60)) (f + 60) r) := by kernel_rfl

/-- The head of a writer function. -/
theorem attrib147_head {ext : Bool} {cls n : Str} (f : Nat) (r : List Tok) :
    pFun ext (f + 60) (attrib147_toks cls n ++ r) =
      mkFun (some (.prim .bool)) [cls, c!"do_wr_" ++ n]
        [(.ptr (.name [c!"tinyxml2", c!"XMLElement"]), c!"el"), (.ptr (.name [n]), c!"data")] none
        (pMany (pStmt ext (f + 60)) (f + 60) r) := by kernel_rfl

theorem defRd_chunk {ext : Bool} {k : Kind} {cls n : Str} {ch : Bool} {ss cs : List Rd} (hc : Ident cls) (hn : Ident n)
    (hss : ∀ r ∈ ss, Rd.Named r ∧ (ext = true ∨ Rd.standard r = true))
    (hcs : ∀ r ∈ cs, Rd.Named r ∧ (ext = true ∨ Rd.standard r = true)) :
    DefChunk ext (Item.text (.defRd k cls n ch ss cs)) [rdFun cls n (rdBody k ch ss cs)] := by
  have hs : Chunk 40 ext (ss.flatMap Rd.text) (ss.flatMap rdTree) := .flatMap fun r hr => rd_chunk (hss r hr).1 (hss r hr).2
  have hc' : Chunk 40 ext (cs.flatMap Rd.text) (cs.flatMap rdTree) := .flatMap fun r hr => rd_chunk (hcs r hr).1 (hcs r hr).2
  by_cases hk : k = .xml
  · subst hk
    have := fun_chunk (ets := attrib83_toks) (hts := attrib22_toks cls n) (xml219_scan hc hn) ⟨_, _, rfl, by simp, by simp⟩
      attrib22_head attrib83_stmts ((xml225_chunk.append hs).append hc')
    have h2 : Item.text (.defRd .xml cls n ch ss cs) =
        T.xml219 cls n ++ (T.xml225 ++ ss.flatMap Rd.text ++ cs.flatMap Rd.text ++ T.xml396) := by
      simp only [Item.text, List.append_assoc]
    rw [h2, rdFun, rdBody]
    simpa [chDecl] using this
  · have := fun_chunk (ets := []) (hts := attrib22_toks cls n) (by rw [List.append_nil]; exact attrib22_scan hc hn)
      ⟨_, _, rfl, by simp, by simp⟩ attrib22_head .nil (((xml225_chunk.append hs).append (chDecl_chunk ch)).append hc')
    have h2 : Item.text (.defRd k cls n ch ss cs) =
        T.attrib22 cls n ++ (T.xml225 ++ ss.flatMap Rd.text ++ (if ch then T.attrib83 else []) ++ cs.flatMap Rd.text ++
          T.xml396) := by
      rw [← List.append_assoc, ← List.append_assoc, ← List.append_assoc, ← List.append_assoc]
      cases k <;> first | exact absurd rfl hk | rfl
    rw [h2, rdFun, rdBody]
    simpa [chDecl, hk] using this

theorem defWr_chunk {ext : Bool} {k : Kind} {cls n : Str} {dd ch : Bool} {ss cs : List Wr} (hc : Ident cls) (hn : Ident n)
    (hss : ∀ r ∈ ss, Wr.Named r) (hcs : ∀ r ∈ cs, Wr.Named r) :
    DefChunk ext (Item.text (.defWr k cls n dd ch ss cs)) [wrFun cls n (wrBody k n dd ch ss cs)] := by
  have hs : Chunk 40 ext (ss.flatMap Wr.text) (ss.flatMap wrTree) := .flatMap fun r hr => wr_chunk (hss r hr)
  have hc' : Chunk 40 ext (cs.flatMap Wr.text) (cs.flatMap wrTree) := .flatMap fun r hr => wr_chunk (hcs r hr)
  by_cases hk : k = .xml
  · subst hk
    have := fun_chunk (ets := attrib83_toks) (hts := attrib147_toks cls n) (xml412_scan hc hn) ⟨_, _, rfl, by simp, by simp⟩
      attrib147_head attrib83_stmts (((xml225_chunk.append (ddDecl_chunk dd hn)).append hs).append hc')
    have h2 : Item.text (.defWr .xml cls n dd ch ss cs) =
        T.xml412 cls n ++ (T.xml225 ++ (if dd then T.xml420 n else []) ++ ss.flatMap Wr.text ++ cs.flatMap Wr.text ++ T.xml396) := by
      rw [← List.append_assoc, ← List.append_assoc, ← List.append_assoc, ← List.append_assoc]
      rfl
    rw [h2, wrFun, wrBody]
    simpa [chDecl] using this
  · have := fun_chunk (ets := []) (hts := attrib147_toks cls n) (by rw [List.append_nil]; exact attrib147_scan hc hn)
      ⟨_, _, rfl, by simp, by simp⟩ attrib147_head .nil
      ((((xml225_chunk.append (ddDecl_chunk dd hn)).append hs).append (chDecl_chunk ch)).append hc')
    have h2 : Item.text (.defWr k cls n dd ch ss cs) =
        T.attrib147 cls n ++ (T.xml225 ++ (if dd then T.xml420 n else []) ++ ss.flatMap Wr.text ++
          (if ch then T.attrib83 else []) ++ cs.flatMap Wr.text ++ T.xml396) := by
      rw [← List.append_assoc, ← List.append_assoc, ← List.append_assoc, ← List.append_assoc, ← List.append_assoc]
      cases k <;> first | exact absurd rfl hk | rfl
    rw [h2, wrFun, wrBody]
    simpa [chDecl, hk] using this

end Stfx.Cpp
