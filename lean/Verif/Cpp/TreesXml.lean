import Verif.Cpp.Chunk
import Verif.Gen.Code
/-
Generated by tools/trees.txt: tokens and syntax trees of the templates of
process_items_xml.cpp and process_items_xml_attrib.cpp.  Each tree is proved to be the
one the grammar gives.
-/
set_option autoImplicit false
set_option maxRecDepth 4000
set_option linter.unusedVariables false
namespace Stfx.Cpp
open Stfx.Gen

/-- The tokens of `T.xml232 a0`, xml/process_items_xml.cpp:232-236. -/
def xml232_toks (a0 : Str) : List Tok :=
  [.id c!"ch_el", .op .assign, .id c!"find_element", .op .lpar, .id c!"el", .op .comma, .str a0, .op .rpar, .op .semi,
   .kw .if_, .op .lpar, .id c!"ch_el", .op .ne, .kw .nullptr_, .op .rpar, .id c!"ch_el", .op .arrow,
   .id c!"QueryBoolText", .op .lpar, .op .amp, .id c!"data", .op .arrow, .id a0, .op .rpar, .op .semi]

theorem xml232_scan {a0 : Str} (h0 : Ident a0) :
    scan isLetter wordTok .start (T.xml232 a0) = (xml232_toks a0, .start) :=
  IsTemplate.scanned (good1 h0) (show IsTemplate [a0] (T.xml232 [hole 0]) _ (xml232_toks [hole 0]) _ by
    template T.xml232)

/-- The statements of `T.xml232 a0`, xml/process_items_xml.cpp:232-236. -/
def xml232_tree (a0 : Str) : List Stmt :=
  [
    .expr (.assign (.id [c!"ch_el"]) (.call (.id [c!"find_element"]) [(.id [c!"el"]), (.str a0)])),
    .when (.bin .ne (.id [c!"ch_el"]) .null)
      (.expr (.call (.arrow (.id [c!"ch_el"]) c!"QueryBoolText") [(.addr (.arrow (.id [c!"data"]) a0))]))]

theorem xml232_stmts {ext : Bool} {a0 : Str} : IsStmts 40 ext (xml232_toks a0) (xml232_tree a0) := by stmts

theorem xml232_chunk {ext : Bool} {a0 : Str} (h0 : Ident a0) : Chunk 40 ext (T.xml232 a0) (xml232_tree a0) :=
  ⟨_, xml232_scan h0, xml232_stmts⟩

/-- The tokens of `T.xml239 a0`, xml/process_items_xml.cpp:239-243. -/
def xml239_toks (a0 : Str) : List Tok :=
  [.id c!"ch_el", .op .assign, .id c!"find_element", .op .lpar, .id c!"el", .op .comma, .str a0, .op .rpar, .op .semi,
   .kw .if_, .op .lpar, .id c!"ch_el", .op .ne, .kw .nullptr_, .op .rpar, .id c!"ch_el", .op .arrow,
   .id c!"QueryIntText", .op .lpar, .op .amp, .id c!"data", .op .arrow, .id a0, .op .rpar, .op .semi]

theorem xml239_scan {a0 : Str} (h0 : Ident a0) :
    scan isLetter wordTok .start (T.xml239 a0) = (xml239_toks a0, .start) :=
  IsTemplate.scanned (good1 h0) (show IsTemplate [a0] (T.xml239 [hole 0]) _ (xml239_toks [hole 0]) _ by
    template T.xml239)

/-- The statements of `T.xml239 a0`, xml/process_items_xml.cpp:239-243. -/
def xml239_tree (a0 : Str) : List Stmt :=
  [
    .expr (.assign (.id [c!"ch_el"]) (.call (.id [c!"find_element"]) [(.id [c!"el"]), (.str a0)])),
    .when (.bin .ne (.id [c!"ch_el"]) .null)
      (.expr (.call (.arrow (.id [c!"ch_el"]) c!"QueryIntText") [(.addr (.arrow (.id [c!"data"]) a0))]))]

theorem xml239_stmts {ext : Bool} {a0 : Str} : IsStmts 40 ext (xml239_toks a0) (xml239_tree a0) := by stmts

theorem xml239_chunk {ext : Bool} {a0 : Str} (h0 : Ident a0) : Chunk 40 ext (T.xml239 a0) (xml239_tree a0) :=
  ⟨_, xml239_scan h0, xml239_stmts⟩

/-- The tokens of `T.xml246 a0`, xml/process_items_xml.cpp:246-250. -/
def xml246_toks (a0 : Str) : List Tok :=
  [.id c!"ch_el", .op .assign, .id c!"find_element", .op .lpar, .id c!"el", .op .comma, .str a0, .op .rpar, .op .semi,
   .kw .if_, .op .lpar, .id c!"ch_el", .op .ne, .kw .nullptr_, .op .rpar, .id c!"ch_el", .op .arrow,
   .id c!"QueryUnsignedText", .op .lpar, .op .amp, .id c!"data", .op .arrow, .id a0, .op .rpar, .op .semi]

theorem xml246_scan {a0 : Str} (h0 : Ident a0) :
    scan isLetter wordTok .start (T.xml246 a0) = (xml246_toks a0, .start) :=
  IsTemplate.scanned (good1 h0) (show IsTemplate [a0] (T.xml246 [hole 0]) _ (xml246_toks [hole 0]) _ by
    template T.xml246)

/-- The statements of `T.xml246 a0`, xml/process_items_xml.cpp:246-250. -/
def xml246_tree (a0 : Str) : List Stmt :=
  [
    .expr (.assign (.id [c!"ch_el"]) (.call (.id [c!"find_element"]) [(.id [c!"el"]), (.str a0)])),
    .when (.bin .ne (.id [c!"ch_el"]) .null)
      (.expr (.call (.arrow (.id [c!"ch_el"]) c!"QueryUnsignedText") [(.addr (.arrow (.id [c!"data"]) a0))]))]

theorem xml246_stmts {ext : Bool} {a0 : Str} : IsStmts 40 ext (xml246_toks a0) (xml246_tree a0) := by stmts

theorem xml246_chunk {ext : Bool} {a0 : Str} (h0 : Ident a0) : Chunk 40 ext (T.xml246 a0) (xml246_tree a0) :=
  ⟨_, xml246_scan h0, xml246_stmts⟩

/-- The tokens of `T.xml253 a0`, xml/process_items_xml.cpp:253-257. -/
def xml253_toks (a0 : Str) : List Tok :=
  [.id c!"ch_el", .op .assign, .id c!"find_element", .op .lpar, .id c!"el", .op .comma, .str a0, .op .rpar, .op .semi,
   .kw .if_, .op .lpar, .id c!"ch_el", .op .ne, .kw .nullptr_, .op .rpar, .id c!"ch_el", .op .arrow,
   .id c!"QueryFloatText", .op .lpar, .op .amp, .id c!"data", .op .arrow, .id a0, .op .rpar, .op .semi]

theorem xml253_scan {a0 : Str} (h0 : Ident a0) :
    scan isLetter wordTok .start (T.xml253 a0) = (xml253_toks a0, .start) :=
  IsTemplate.scanned (good1 h0) (show IsTemplate [a0] (T.xml253 [hole 0]) _ (xml253_toks [hole 0]) _ by
    template T.xml253)

/-- The statements of `T.xml253 a0`, xml/process_items_xml.cpp:253-257. -/
def xml253_tree (a0 : Str) : List Stmt :=
  [
    .expr (.assign (.id [c!"ch_el"]) (.call (.id [c!"find_element"]) [(.id [c!"el"]), (.str a0)])),
    .when (.bin .ne (.id [c!"ch_el"]) .null)
      (.expr (.call (.arrow (.id [c!"ch_el"]) c!"QueryFloatText") [(.addr (.arrow (.id [c!"data"]) a0))]))]

theorem xml253_stmts {ext : Bool} {a0 : Str} : IsStmts 40 ext (xml253_toks a0) (xml253_tree a0) := by stmts

theorem xml253_chunk {ext : Bool} {a0 : Str} (h0 : Ident a0) : Chunk 40 ext (T.xml253 a0) (xml253_tree a0) :=
  ⟨_, xml253_scan h0, xml253_stmts⟩

/-- The tokens of `T.xml260 a0`, xml/process_items_xml.cpp:260-264. -/
def xml260_toks (a0 : Str) : List Tok :=
  [.id c!"ch_el", .op .assign, .id c!"find_element", .op .lpar, .id c!"el", .op .comma, .str a0, .op .rpar, .op .semi,
   .kw .if_, .op .lpar, .id c!"ch_el", .op .ne, .kw .nullptr_, .op .rpar, .id c!"ch_el", .op .arrow,
   .id c!"QueryDoubleText", .op .lpar, .op .amp, .id c!"data", .op .arrow, .id a0, .op .rpar, .op .semi]

theorem xml260_scan {a0 : Str} (h0 : Ident a0) :
    scan isLetter wordTok .start (T.xml260 a0) = (xml260_toks a0, .start) :=
  IsTemplate.scanned (good1 h0) (show IsTemplate [a0] (T.xml260 [hole 0]) _ (xml260_toks [hole 0]) _ by
    template T.xml260)

/-- The statements of `T.xml260 a0`, xml/process_items_xml.cpp:260-264. -/
def xml260_tree (a0 : Str) : List Stmt :=
  [
    .expr (.assign (.id [c!"ch_el"]) (.call (.id [c!"find_element"]) [(.id [c!"el"]), (.str a0)])),
    .when (.bin .ne (.id [c!"ch_el"]) .null)
      (.expr (.call (.arrow (.id [c!"ch_el"]) c!"QueryDoubleText") [(.addr (.arrow (.id [c!"data"]) a0))]))]

theorem xml260_stmts {ext : Bool} {a0 : Str} : IsStmts 40 ext (xml260_toks a0) (xml260_tree a0) := by stmts

theorem xml260_chunk {ext : Bool} {a0 : Str} (h0 : Ident a0) : Chunk 40 ext (T.xml260 a0) (xml260_tree a0) :=
  ⟨_, xml260_scan h0, xml260_stmts⟩

/-- The tokens of `T.xml267 a0`, xml/process_items_xml.cpp:267-275. -/
def xml267_toks (a0 : Str) : List Tok :=
  [.id c!"ch_el", .op .assign, .id c!"find_element", .op .lpar, .id c!"el", .op .comma, .str a0, .op .rpar, .op .semi,
   .kw .if_, .op .lpar, .id c!"ch_el", .op .ne, .kw .nullptr_, .op .rpar, .op .lbrace, .kw .const_, .kw .char_,
   .op .star, .id c!"pt", .op .assign, .id c!"ch_el", .op .arrow, .id c!"GetText", .op .lpar, .op .rpar, .op .semi,
   .kw .if_, .op .lpar, .id c!"pt", .op .ne, .kw .nullptr_, .op .rpar, .id c!"data", .op .arrow, .id a0, .op .assign,
   .id c!"pt", .op .semi, .op .rbrace]

theorem xml267_scan {a0 : Str} (h0 : Ident a0) :
    scan isLetter wordTok .start (T.xml267 a0) = (xml267_toks a0, .start) :=
  IsTemplate.scanned (good1 h0) (show IsTemplate [a0] (T.xml267 [hole 0]) _ (xml267_toks [hole 0]) _ by
    template T.xml267)

/-- The statements of `T.xml267 a0`, xml/process_items_xml.cpp:267-275. -/
def xml267_tree (a0 : Str) : List Stmt :=
  [
    .expr (.assign (.id [c!"ch_el"]) (.call (.id [c!"find_element"]) [(.id [c!"el"]), (.str a0)])),
    .when (.bin .ne (.id [c!"ch_el"]) .null)
      (.block [
        .decl (.ptr (.prim .char)) c!"pt" none (some (.call (.arrow (.id [c!"ch_el"]) c!"GetText") [])),
        .when (.bin .ne (.id [c!"pt"]) .null)
          (.expr (.assign (.arrow (.id [c!"data"]) a0) (.id [c!"pt"])))])]

theorem xml267_stmts {ext : Bool} {a0 : Str} : IsStmts 40 ext (xml267_toks a0) (xml267_tree a0) := by stmts

theorem xml267_chunk {ext : Bool} {a0 : Str} (h0 : Ident a0) : Chunk 40 ext (T.xml267 a0) (xml267_tree a0) :=
  ⟨_, xml267_scan h0, xml267_stmts⟩

/-- The tokens of `T.xml278 a0`, xml/process_items_xml.cpp:278-286. -/
def xml278_toks (a0 : Str) : List Tok :=
  [.id c!"ch_el", .op .assign, .id c!"find_element", .op .lpar, .id c!"el", .op .comma, .str a0, .op .rpar, .op .semi,
   .kw .if_, .op .lpar, .id c!"ch_el", .op .ne, .kw .nullptr_, .op .rpar, .op .lbrace, .kw .int_, .id c!"i", .op .semi,
   .id c!"ch_el", .op .arrow, .id c!"QueryIntText", .op .lpar, .op .amp, .id c!"i", .op .rpar, .op .semi, .id c!"data",
   .op .arrow, .id a0, .op .assign, .op .lpar, .kw .short_, .op .rpar, .id c!"i", .op .semi, .op .rbrace]

theorem xml278_scan {a0 : Str} (h0 : Ident a0) :
    scan isLetter wordTok .start (T.xml278 a0) = (xml278_toks a0, .start) :=
  IsTemplate.scanned (good1 h0) (show IsTemplate [a0] (T.xml278 [hole 0]) _ (xml278_toks [hole 0]) _ by
    template T.xml278)

/-- The statements of `T.xml278 a0`, xml/process_items_xml.cpp:278-286. -/
def xml278_tree (a0 : Str) : List Stmt :=
  [
    .expr (.assign (.id [c!"ch_el"]) (.call (.id [c!"find_element"]) [(.id [c!"el"]), (.str a0)])),
    .when (.bin .ne (.id [c!"ch_el"]) .null)
      (.block [
        .decl (.prim .int) c!"i" none none,
        .expr (.call (.arrow (.id [c!"ch_el"]) c!"QueryIntText") [(.addr (.id [c!"i"]))]),
        .expr (.assign (.arrow (.id [c!"data"]) a0) (.cast .short (.id [c!"i"])))])]

theorem xml278_stmts {ext : Bool} {a0 : Str} : IsStmts 40 ext (xml278_toks a0) (xml278_tree a0) := by stmts

theorem xml278_chunk {ext : Bool} {a0 : Str} (h0 : Ident a0) : Chunk 40 ext (T.xml278 a0) (xml278_tree a0) :=
  ⟨_, xml278_scan h0, xml278_stmts⟩

/-- The tokens of `T.xml289 a0`, xml/process_items_xml.cpp:289-297. -/
def xml289_toks (a0 : Str) : List Tok :=
  [.id c!"ch_el", .op .assign, .id c!"find_element", .op .lpar, .id c!"el", .op .comma, .str a0, .op .rpar, .op .semi,
   .kw .if_, .op .lpar, .id c!"ch_el", .op .ne, .kw .nullptr_, .op .rpar, .op .lbrace, .kw .unsigned_, .kw .int_,
   .id c!"ui", .op .semi, .id c!"ch_el", .op .arrow, .id c!"QueryUnsignedText", .op .lpar, .op .amp, .id c!"ui",
   .op .rpar, .op .semi, .id c!"data", .op .arrow, .id a0, .op .assign, .op .lpar, .kw .unsigned_, .kw .short_,
   .op .rpar, .id c!"ui", .op .semi, .op .rbrace]

theorem xml289_scan {a0 : Str} (h0 : Ident a0) :
    scan isLetter wordTok .start (T.xml289 a0) = (xml289_toks a0, .start) :=
  IsTemplate.scanned (good1 h0) (show IsTemplate [a0] (T.xml289 [hole 0]) _ (xml289_toks [hole 0]) _ by
    template T.xml289)

/-- The statements of `T.xml289 a0`, xml/process_items_xml.cpp:289-297. -/
def xml289_tree (a0 : Str) : List Stmt :=
  [
    .expr (.assign (.id [c!"ch_el"]) (.call (.id [c!"find_element"]) [(.id [c!"el"]), (.str a0)])),
    .when (.bin .ne (.id [c!"ch_el"]) .null)
      (.block [
        .decl (.prim .uint) c!"ui" none none,
        .expr (.call (.arrow (.id [c!"ch_el"]) c!"QueryUnsignedText") [(.addr (.id [c!"ui"]))]),
        .expr (.assign (.arrow (.id [c!"data"]) a0) (.cast .ushort (.id [c!"ui"])))])]

theorem xml289_stmts {ext : Bool} {a0 : Str} : IsStmts 40 ext (xml289_toks a0) (xml289_tree a0) := by stmts

theorem xml289_chunk {ext : Bool} {a0 : Str} (h0 : Ident a0) : Chunk 40 ext (T.xml289 a0) (xml289_tree a0) :=
  ⟨_, xml289_scan h0, xml289_stmts⟩

/-- The tokens of `T.xml300 a0`, xml/process_items_xml.cpp:300-308. -/
def xml300_toks (a0 : Str) : List Tok :=
  [.id c!"ch_el", .op .assign, .id c!"find_element", .op .lpar, .id c!"el", .op .comma, .str a0, .op .rpar, .op .semi,
   .kw .if_, .op .lpar, .id c!"ch_el", .op .ne, .kw .nullptr_, .op .rpar, .op .lbrace, .kw .int_, .id c!"i", .op .semi,
   .id c!"ch_el", .op .arrow, .id c!"QueryIntText", .op .lpar, .op .amp, .id c!"i", .op .rpar, .op .semi, .id c!"data",
   .op .arrow, .id a0, .op .assign, .op .lpar, .kw .long_, .op .rpar, .id c!"i", .op .semi, .op .rbrace]

theorem xml300_scan {a0 : Str} (h0 : Ident a0) :
    scan isLetter wordTok .start (T.xml300 a0) = (xml300_toks a0, .start) :=
  IsTemplate.scanned (good1 h0) (show IsTemplate [a0] (T.xml300 [hole 0]) _ (xml300_toks [hole 0]) _ by
    template T.xml300)

/-- The statements of `T.xml300 a0`, xml/process_items_xml.cpp:300-308. -/
def xml300_tree (a0 : Str) : List Stmt :=
  [
    .expr (.assign (.id [c!"ch_el"]) (.call (.id [c!"find_element"]) [(.id [c!"el"]), (.str a0)])),
    .when (.bin .ne (.id [c!"ch_el"]) .null)
      (.block [
        .decl (.prim .int) c!"i" none none,
        .expr (.call (.arrow (.id [c!"ch_el"]) c!"QueryIntText") [(.addr (.id [c!"i"]))]),
        .expr (.assign (.arrow (.id [c!"data"]) a0) (.cast .long (.id [c!"i"])))])]

theorem xml300_stmts {ext : Bool} {a0 : Str} : IsStmts 40 ext (xml300_toks a0) (xml300_tree a0) := by stmts

theorem xml300_chunk {ext : Bool} {a0 : Str} (h0 : Ident a0) : Chunk 40 ext (T.xml300 a0) (xml300_tree a0) :=
  ⟨_, xml300_scan h0, xml300_stmts⟩

/-- The tokens of `T.xml311 a0`, xml/process_items_xml.cpp:311-319. -/
def xml311_toks (a0 : Str) : List Tok :=
  [.id c!"ch_el", .op .assign, .id c!"find_element", .op .lpar, .id c!"el", .op .comma, .str a0, .op .rpar, .op .semi,
   .kw .if_, .op .lpar, .id c!"ch_el", .op .ne, .kw .nullptr_, .op .rpar, .op .lbrace, .kw .unsigned_, .kw .int_,
   .id c!"ui", .op .semi, .id c!"ch_el", .op .arrow, .id c!"QueryUnsignedText", .op .lpar, .op .amp, .id c!"ui",
   .op .rpar, .op .semi, .id c!"data", .op .arrow, .id a0, .op .assign, .op .lpar, .kw .unsigned_, .kw .long_,
   .op .rpar, .id c!"ui", .op .semi, .op .rbrace]

theorem xml311_scan {a0 : Str} (h0 : Ident a0) :
    scan isLetter wordTok .start (T.xml311 a0) = (xml311_toks a0, .start) :=
  IsTemplate.scanned (good1 h0) (show IsTemplate [a0] (T.xml311 [hole 0]) _ (xml311_toks [hole 0]) _ by
    template T.xml311)

/-- The statements of `T.xml311 a0`, xml/process_items_xml.cpp:311-319. -/
def xml311_tree (a0 : Str) : List Stmt :=
  [
    .expr (.assign (.id [c!"ch_el"]) (.call (.id [c!"find_element"]) [(.id [c!"el"]), (.str a0)])),
    .when (.bin .ne (.id [c!"ch_el"]) .null)
      (.block [
        .decl (.prim .uint) c!"ui" none none,
        .expr (.call (.arrow (.id [c!"ch_el"]) c!"QueryUnsignedText") [(.addr (.id [c!"ui"]))]),
        .expr (.assign (.arrow (.id [c!"data"]) a0) (.cast .ulong (.id [c!"ui"])))])]

theorem xml311_stmts {ext : Bool} {a0 : Str} : IsStmts 40 ext (xml311_toks a0) (xml311_tree a0) := by stmts

theorem xml311_chunk {ext : Bool} {a0 : Str} (h0 : Ident a0) : Chunk 40 ext (T.xml311 a0) (xml311_tree a0) :=
  ⟨_, xml311_scan h0, xml311_stmts⟩

/-- The tokens of `T.xml351 a0`, xml/process_items_xml.cpp:351-358. -/
def xml351_toks (a0 : Str) : List Tok :=
  [.id c!"ch_el", .op .assign, .id c!"find_element", .op .lpar, .id c!"el", .op .comma, .str a0, .op .rpar, .op .semi,
   .kw .if_, .op .lpar, .id c!"ch_el", .op .ne, .kw .nullptr_, .op .rpar, .op .lbrace, .kw .const_, .kw .char_,
   .op .star, .id c!"pt", .op .assign, .id c!"ch_el", .op .arrow, .id c!"GetText", .op .lpar, .op .rpar, .op .semi,
   .kw .if_, .op .lpar, .id c!"pt", .op .ne, .kw .nullptr_, .op .rpar, .id c!"stfx", .op .scope, .id c!"s_to_e",
   .op .lpar, .id c!"pt", .op .comma, .id c!"data", .op .arrow, .id a0, .op .rpar, .op .semi, .op .rbrace]

theorem xml351_scan {a0 : Str} (h0 : Ident a0) :
    scan isLetter wordTok .start (T.xml351 a0) = (xml351_toks a0, .start) :=
  IsTemplate.scanned (good1 h0) (show IsTemplate [a0] (T.xml351 [hole 0]) _ (xml351_toks [hole 0]) _ by
    template T.xml351)

/-- The statements of `T.xml351 a0`, xml/process_items_xml.cpp:351-358. -/
def xml351_tree (a0 : Str) : List Stmt :=
  [
    .expr (.assign (.id [c!"ch_el"]) (.call (.id [c!"find_element"]) [(.id [c!"el"]), (.str a0)])),
    .when (.bin .ne (.id [c!"ch_el"]) .null)
      (.block [
        .decl (.ptr (.prim .char)) c!"pt" none (some (.call (.arrow (.id [c!"ch_el"]) c!"GetText") [])),
        .when (.bin .ne (.id [c!"pt"]) .null)
          (.expr (.call (.id [c!"stfx", c!"s_to_e"]) [(.id [c!"pt"]), (.arrow (.id [c!"data"]) a0)]))])]

theorem xml351_stmts {ext : Bool} {a0 : Str} : IsStmts 40 ext (xml351_toks a0) (xml351_tree a0) := by stmts

theorem xml351_chunk {ext : Bool} {a0 : Str} (h0 : Ident a0) : Chunk 40 ext (T.xml351 a0) (xml351_tree a0) :=
  ⟨_, xml351_scan h0, xml351_stmts⟩

/-- The tokens of `T.xml361 a0 a1`, xml/process_items_xml.cpp:361-367. -/
def xml361_toks (a0 a1 : Str) : List Tok :=
  [.id c!"ch_el", .op .assign, .id c!"el", .op .arrow, .id c!"FirstChildElement", .op .lpar, .str a0, .op .rpar,
   .op .semi, .kw .if_, .op .lpar, .id c!"ch_el", .op .ne, .kw .nullptr_, .op .rpar, .op .lbrace, .id (c!"do_" ++ a1),
   .op .lpar, .id c!"ch_el", .op .comma, .op .amp, .id c!"data", .op .arrow, .id a0, .op .rpar, .op .semi, .op .rbrace]

theorem xml361_scan {a0 a1 : Str} (h0 : Ident a0) (h1 : Ident a1) :
    scan isLetter wordTok .start (T.xml361 a0 a1) = (xml361_toks a0 a1, .start) :=
  IsTemplate.scanned (good2 h0 h1) (show IsTemplate [a0, a1] (T.xml361 [hole 0] [hole 1]) _ (xml361_toks [hole 0] [hole 1]) _ by
    template T.xml361)

/-- The statements of `T.xml361 a0 a1`, xml/process_items_xml.cpp:361-367. -/
def xml361_tree (a0 a1 : Str) : List Stmt :=
  [
    .expr (.assign (.id [c!"ch_el"]) (.call (.arrow (.id [c!"el"]) c!"FirstChildElement") [(.str a0)])),
    .when (.bin .ne (.id [c!"ch_el"]) .null)
      (.block [
        .expr (.call (.id [(c!"do_" ++ a1)]) [(.id [c!"ch_el"]), (.addr (.arrow (.id [c!"data"]) a0))])])]

theorem xml361_stmts {ext : Bool} {a0 a1 : Str} : IsStmts 40 ext (xml361_toks a0 a1) (xml361_tree a0 a1) := by stmts

theorem xml361_chunk {ext : Bool} {a0 a1 : Str} (h0 : Ident a0) (h1 : Ident a1) : Chunk 40 ext (T.xml361 a0 a1) (xml361_tree a0 a1) :=
  ⟨_, xml361_scan h0 h1, xml361_stmts⟩

/-- The tokens of `T.xml370 a0 a1`, xml/process_items_xml.cpp:370-382. -/
def xml370_toks (a0 a1 : Str) : List Tok :=
  [.id c!"ch_el", .op .assign, .id c!"el", .op .arrow, .id c!"FirstChildElement", .op .lpar, .str a0, .op .rpar,
   .op .semi, .kw .if_, .op .lpar, .id c!"ch_el", .op .ne, .kw .nullptr_, .op .rpar, .op .lbrace, .kw .for_, .op .lpar,
   .kw .auto_, .id c!"item", .op .colon, .id c!"ch_el", .op .rpar, .op .lbrace, .id a1, .id c!"s", .op .semi, .kw .if_,
   .op .lpar, .id (c!"do_" ++ a1), .op .lpar, .id c!"item", .op .comma, .op .amp, .id c!"s", .op .rpar, .op .eq,
   .kw .true_, .op .rpar, .op .lbrace, .id c!"data", .op .arrow, .id a0, .op .dot, .id c!"push_back", .op .lpar,
   .id c!"s", .op .rpar, .op .semi, .op .rbrace, .op .rbrace, .op .rbrace]

theorem xml370_scan {a0 a1 : Str} (h0 : Ident a0) (h1 : Ident a1) :
    scan isLetter wordTok .start (T.xml370 a0 a1) = (xml370_toks a0 a1, .start) :=
  IsTemplate.scanned (good2 h0 h1) (show IsTemplate [a0, a1] (T.xml370 [hole 0] [hole 1]) _ (xml370_toks [hole 0] [hole 1]) _ by
    template T.xml370)

/-- The statements of `T.xml370 a0 a1`, xml/process_items_xml.cpp:370-382. -/
def xml370_tree (a0 a1 : Str) : List Stmt :=
  [
    .expr (.assign (.id [c!"ch_el"]) (.call (.arrow (.id [c!"el"]) c!"FirstChildElement") [(.str a0)])),
    .when (.bin .ne (.id [c!"ch_el"]) .null)
      (.block [
        .forEach .auto c!"item" (.id [c!"ch_el"])
          (.block [
            .decl (.name [a1]) c!"s" none none,
            .when (.bin .eq (.call (.id [(c!"do_" ++ a1)]) [(.id [c!"item"]), (.addr (.id [c!"s"]))]) (.bool true))
              (.block [
                .expr (.call (.mem (.arrow (.id [c!"data"]) a0) c!"push_back") [(.id [c!"s"])])])])])]

theorem xml370_stmts {ext : Bool} {a0 a1 : Str} : IsStmts 40 ext (xml370_toks a0 a1) (xml370_tree a0 a1) := by stmts

theorem xml370_chunk {ext : Bool} {a0 a1 : Str} (h0 : Ident a0) (h1 : Ident a1) : Chunk 40 ext (T.xml370 a0 a1) (xml370_tree a0 a1) :=
  ⟨_, xml370_scan h0 h1, xml370_stmts⟩

/-- The tokens of `T.xml385 a0`, xml/process_items_xml.cpp:385. -/
def xml385_toks (a0 : Str) : List Tok :=
  []

theorem xml385_scan {a0 : Str} (h0 : Ident a0) :
    scan isLetter wordTok .start (T.xml385 a0) = (xml385_toks a0, .start) :=
  IsTemplate.scanned (good1 h0) (show IsTemplate [a0] (T.xml385 [hole 0]) _ (xml385_toks [hole 0]) _ by
    template T.xml385)

/-- The statements of `T.xml385 a0`, xml/process_items_xml.cpp:385. -/
def xml385_tree (a0 : Str) : List Stmt :=
  []

theorem xml385_stmts {ext : Bool} {a0 : Str} : IsStmts 40 ext (xml385_toks a0) (xml385_tree a0) := by stmts

theorem xml385_chunk {ext : Bool} {a0 : Str} (h0 : Ident a0) : Chunk 40 ext (T.xml385 a0) (xml385_tree a0) :=
  ⟨_, xml385_scan h0, xml385_stmts⟩

/-- The tokens of `T.xml390 a0`, xml/process_items_xml.cpp:390. -/
def xml390_toks (a0 : Str) : List Tok :=
  []

theorem xml390_scan {a0 : Str} (h0 : Ident a0) :
    scan isLetter wordTok .start (T.xml390 a0) = (xml390_toks a0, .start) :=
  IsTemplate.scanned (good1 h0) (show IsTemplate [a0] (T.xml390 [hole 0]) _ (xml390_toks [hole 0]) _ by
    template T.xml390)

/-- The statements of `T.xml390 a0`, xml/process_items_xml.cpp:390. -/
def xml390_tree (a0 : Str) : List Stmt :=
  []

theorem xml390_stmts {ext : Bool} {a0 : Str} : IsStmts 40 ext (xml390_toks a0) (xml390_tree a0) := by stmts

theorem xml390_chunk {ext : Bool} {a0 : Str} (h0 : Ident a0) : Chunk 40 ext (T.xml390 a0) (xml390_tree a0) :=
  ⟨_, xml390_scan h0, xml390_stmts⟩

/-- The tokens of `T.attrib37 a0`, xml/process_items_xml_attrib.cpp:37. -/
def attrib37_toks (a0 : Str) : List Tok :=
  [.id c!"el", .op .arrow, .id c!"QueryAttribute", .op .lpar, .str a0, .op .comma, .op .amp, .id c!"data", .op .arrow,
   .id a0, .op .rpar, .op .semi]

theorem attrib37_scan {a0 : Str} (h0 : Ident a0) :
    scan isLetter wordTok .start (T.attrib37 a0) = (attrib37_toks a0, .start) :=
  IsTemplate.scanned (good1 h0) (show IsTemplate [a0] (T.attrib37 [hole 0]) _ (attrib37_toks [hole 0]) _ by
    template T.attrib37)

/-- The statements of `T.attrib37 a0`, xml/process_items_xml_attrib.cpp:37. -/
def attrib37_tree (a0 : Str) : List Stmt :=
  [
    .expr (.call (.arrow (.id [c!"el"]) c!"QueryAttribute") [(.str a0), (.addr (.arrow (.id [c!"data"]) a0))])]

theorem attrib37_stmts {ext : Bool} {a0 : Str} : IsStmts 40 ext (attrib37_toks a0) (attrib37_tree a0) := by stmts

theorem attrib37_chunk {ext : Bool} {a0 : Str} (h0 : Ident a0) : Chunk 40 ext (T.attrib37 a0) (attrib37_tree a0) :=
  ⟨_, attrib37_scan h0, attrib37_stmts⟩

/-- The tokens of `T.attrib40 a0`, xml/process_items_xml_attrib.cpp:40-45. -/
def attrib40_toks (a0 : Str) : List Tok :=
  [.op .lbrace, .kw .const_, .kw .char_, .op .star, .id c!"pt", .op .semi, .kw .if_, .op .lpar, .id c!"tinyxml2",
   .op .scope, .id c!"XML_SUCCESS", .op .eq, .id c!"el", .op .arrow, .id c!"QueryAttribute", .op .lpar, .str a0,
   .op .comma, .op .amp, .id c!"pt", .op .rpar, .op .rpar, .id c!"data", .op .arrow, .id a0, .op .assign, .id c!"pt",
   .op .semi, .op .rbrace]

theorem attrib40_scan {a0 : Str} (h0 : Ident a0) :
    scan isLetter wordTok .start (T.attrib40 a0) = (attrib40_toks a0, .start) :=
  IsTemplate.scanned (good1 h0) (show IsTemplate [a0] (T.attrib40 [hole 0]) _ (attrib40_toks [hole 0]) _ by
    template T.attrib40)

/-- The statements of `T.attrib40 a0`, xml/process_items_xml_attrib.cpp:40-45. -/
def attrib40_tree (a0 : Str) : List Stmt :=
  [
    .block [
      .decl (.ptr (.prim .char)) c!"pt" none none,
      .when (.bin .eq (.id [c!"tinyxml2", c!"XML_SUCCESS"]) (.call (.arrow (.id [c!"el"]) c!"QueryAttribute") [(.str a0), (.addr (.id [c!"pt"]))]))
        (.expr (.assign (.arrow (.id [c!"data"]) a0) (.id [c!"pt"])))]]

theorem attrib40_stmts {ext : Bool} {a0 : Str} : IsStmts 40 ext (attrib40_toks a0) (attrib40_tree a0) := by stmts

theorem attrib40_chunk {ext : Bool} {a0 : Str} (h0 : Ident a0) : Chunk 40 ext (T.attrib40 a0) (attrib40_tree a0) :=
  ⟨_, attrib40_scan h0, attrib40_stmts⟩

/-- The tokens of `T.attrib48 a0`, xml/process_items_xml_attrib.cpp:48. -/
def attrib48_toks (a0 : Str) : List Tok :=
  [.op .lbrace, .kw .int_, .id c!"i", .op .semi, .id c!"el", .op .arrow, .id c!"QueryIntAttribute", .op .lpar, .str a0,
   .op .comma, .op .amp, .id c!"i", .op .rpar, .op .semi, .id c!"data", .op .arrow, .id a0, .op .assign, .kw .short_,
   .op .lpar, .id c!"i", .op .rpar, .op .semi, .op .rbrace]

theorem attrib48_scan {a0 : Str} (h0 : Ident a0) :
    scan isLetter wordTok .start (T.attrib48 a0) = (attrib48_toks a0, .start) :=
  IsTemplate.scanned (good1 h0) (show IsTemplate [a0] (T.attrib48 [hole 0]) _ (attrib48_toks [hole 0]) _ by
    template T.attrib48)

/-- The statements of `T.attrib48 a0`, xml/process_items_xml_attrib.cpp:48. -/
def attrib48_tree (a0 : Str) : List Stmt :=
  [
    .block [
      .decl (.prim .int) c!"i" none none,
      .expr (.call (.arrow (.id [c!"el"]) c!"QueryIntAttribute") [(.str a0), (.addr (.id [c!"i"]))]),
      .expr (.assign (.arrow (.id [c!"data"]) a0) (.cast .short (.id [c!"i"])))]]

theorem attrib48_stmts {ext : Bool} {a0 : Str} : IsStmts 40 ext (attrib48_toks a0) (attrib48_tree a0) := by stmts

theorem attrib48_chunk {ext : Bool} {a0 : Str} (h0 : Ident a0) : Chunk 40 ext (T.attrib48 a0) (attrib48_tree a0) :=
  ⟨_, attrib48_scan h0, attrib48_stmts⟩

/-- The tokens of `T.attrib54 a0`, xml/process_items_xml_attrib.cpp:54. -/
def attrib54_toks (a0 : Str) : List Tok :=
  [.op .lbrace, .kw .int_, .id c!"i", .op .semi, .id c!"el", .op .arrow, .id c!"QueryIntAttribute", .op .lpar, .str a0,
   .op .comma, .op .amp, .id c!"i", .op .rpar, .op .semi, .id c!"data", .op .arrow, .id a0, .op .assign, .kw .long_,
   .op .lpar, .id c!"i", .op .rpar, .op .semi, .op .rbrace]

theorem attrib54_scan {a0 : Str} (h0 : Ident a0) :
    scan isLetter wordTok .start (T.attrib54 a0) = (attrib54_toks a0, .start) :=
  IsTemplate.scanned (good1 h0) (show IsTemplate [a0] (T.attrib54 [hole 0]) _ (attrib54_toks [hole 0]) _ by
    template T.attrib54)

/-- The statements of `T.attrib54 a0`, xml/process_items_xml_attrib.cpp:54. -/
def attrib54_tree (a0 : Str) : List Stmt :=
  [
    .block [
      .decl (.prim .int) c!"i" none none,
      .expr (.call (.arrow (.id [c!"el"]) c!"QueryIntAttribute") [(.str a0), (.addr (.id [c!"i"]))]),
      .expr (.assign (.arrow (.id [c!"data"]) a0) (.cast .long (.id [c!"i"])))]]

theorem attrib54_stmts {ext : Bool} {a0 : Str} : IsStmts 40 ext (attrib54_toks a0) (attrib54_tree a0) := by stmts

theorem attrib54_chunk {ext : Bool} {a0 : Str} (h0 : Ident a0) : Chunk 40 ext (T.attrib54 a0) (attrib54_tree a0) :=
  ⟨_, attrib54_scan h0, attrib54_stmts⟩

/-- The tokens of `T.attrib92 a0`, xml/process_items_xml_attrib.cpp:92-97. -/
def attrib92_toks (a0 : Str) : List Tok :=
  [.op .lbrace, .kw .const_, .kw .char_, .op .star, .id c!"pt", .op .semi, .kw .if_, .op .lpar, .id c!"tinyxml2",
   .op .scope, .id c!"XML_SUCCESS", .op .eq, .id c!"el", .op .arrow, .id c!"QueryAttribute", .op .lpar, .str a0,
   .op .comma, .op .amp, .id c!"pt", .op .rpar, .op .rpar, .id c!"stfx", .op .scope, .id c!"s_to_e", .op .lpar,
   .id c!"pt", .op .comma, .id c!"data", .op .arrow, .id a0, .op .rpar, .op .semi, .op .rbrace]

theorem attrib92_scan {a0 : Str} (h0 : Ident a0) :
    scan isLetter wordTok .start (T.attrib92 a0) = (attrib92_toks a0, .start) :=
  IsTemplate.scanned (good1 h0) (show IsTemplate [a0] (T.attrib92 [hole 0]) _ (attrib92_toks [hole 0]) _ by
    template T.attrib92)

/-- The statements of `T.attrib92 a0`, xml/process_items_xml_attrib.cpp:92-97. -/
def attrib92_tree (a0 : Str) : List Stmt :=
  [
    .block [
      .decl (.ptr (.prim .char)) c!"pt" none none,
      .when (.bin .eq (.id [c!"tinyxml2", c!"XML_SUCCESS"]) (.call (.arrow (.id [c!"el"]) c!"QueryAttribute") [(.str a0), (.addr (.id [c!"pt"]))]))
        (.expr (.call (.id [c!"stfx", c!"s_to_e"]) [(.id [c!"pt"]), (.arrow (.id [c!"data"]) a0)]))]]

theorem attrib92_stmts {ext : Bool} {a0 : Str} : IsStmts 40 ext (attrib92_toks a0) (attrib92_tree a0) := by stmts

theorem attrib92_chunk {ext : Bool} {a0 : Str} (h0 : Ident a0) : Chunk 40 ext (T.attrib92 a0) (attrib92_tree a0) :=
  ⟨_, attrib92_scan h0, attrib92_stmts⟩

/-- The tokens of `T.xml225`, xml/process_items_xml.cpp:225. -/
def xml225_toks : List Tok :=
  [.kw .bool_, .id c!"rv", .op .assign, .kw .true_, .op .semi]

theorem xml225_scan :
    scan isLetter wordTok .start (T.xml225) = (xml225_toks, .start) :=
  IsTemplate.scanned good0 (show IsTemplate [] (T.xml225) _ (xml225_toks) _ by
    template T.xml225)

/-- The statements of `T.xml225`, xml/process_items_xml.cpp:225. -/
def xml225_tree : List Stmt :=
  [
    .decl (.prim .bool) c!"rv" none (some (.bool true))]

theorem xml225_stmts {ext : Bool} : IsStmts 40 ext (xml225_toks) (xml225_tree) := by stmts

theorem xml225_chunk {ext : Bool} : Chunk 40 ext (T.xml225) (xml225_tree) :=
  ⟨_, xml225_scan, xml225_stmts⟩

/-- The tokens of `T.attrib83`, xml/process_items_xml_attrib.cpp:83. -/
def attrib83_toks : List Tok :=
  [.id c!"tinyxml2", .op .scope, .id c!"XMLElement", .op .star, .id c!"ch_el", .op .semi]

theorem attrib83_scan :
    scan isLetter wordTok .start (T.attrib83) = (attrib83_toks, .start) :=
  IsTemplate.scanned good0 (show IsTemplate [] (T.attrib83) _ (attrib83_toks) _ by
    template T.attrib83)

/-- The statements of `T.attrib83`, xml/process_items_xml_attrib.cpp:83. -/
def attrib83_tree : List Stmt :=
  [
    .decl (.ptr (.name [c!"tinyxml2", c!"XMLElement"])) c!"ch_el" none none]

theorem attrib83_stmts {ext : Bool} : IsStmts 40 ext (attrib83_toks) (attrib83_tree) := by stmts

theorem attrib83_chunk {ext : Bool} : Chunk 40 ext (T.attrib83) (attrib83_tree) :=
  ⟨_, attrib83_scan, attrib83_stmts⟩

/-- The tokens of `T.xml420 a0`, xml/process_items_xml.cpp:420. -/
def xml420_toks (a0 : Str) : List Tok :=
  [.id a0, .id c!"default_data", .op .semi]

theorem xml420_scan {a0 : Str} (h0 : Ident a0) :
    scan isLetter wordTok .start (T.xml420 a0) = (xml420_toks a0, .start) :=
  IsTemplate.scanned (good1 h0) (show IsTemplate [a0] (T.xml420 [hole 0]) _ (xml420_toks [hole 0]) _ by
    template T.xml420)

/-- The statements of `T.xml420 a0`, xml/process_items_xml.cpp:420. -/
def xml420_tree (a0 : Str) : List Stmt :=
  [
    .decl (.name [a0]) c!"default_data" none none]

theorem xml420_stmts {ext : Bool} {a0 : Str} : IsStmts 40 ext (xml420_toks a0) (xml420_tree a0) := by stmts

theorem xml420_chunk {ext : Bool} {a0 : Str} (h0 : Ident a0) : Chunk 40 ext (T.xml420 a0) (xml420_tree a0) :=
  ⟨_, xml420_scan h0, xml420_stmts⟩

/-- The tokens of `T.xml437 a0`, xml/process_items_xml.cpp:437-440. -/
def xml437_toks (a0 : Str) : List Tok :=
  [.id c!"ch_el", .op .assign, .id c!"el", .op .arrow, .id c!"InsertNewChildElement", .op .lpar, .str a0, .op .rpar,
   .op .semi, .id c!"ch_el", .op .arrow, .id c!"SetText", .op .lpar, .id c!"data", .op .arrow, .id a0, .op .rpar,
   .op .semi]

theorem xml437_scan {a0 : Str} (h0 : Ident a0) :
    scan isLetter wordTok .start (T.xml437 a0) = (xml437_toks a0, .start) :=
  IsTemplate.scanned (good1 h0) (show IsTemplate [a0] (T.xml437 [hole 0]) _ (xml437_toks [hole 0]) _ by
    template T.xml437)

/-- The statements of `T.xml437 a0`, xml/process_items_xml.cpp:437-440. -/
def xml437_tree (a0 : Str) : List Stmt :=
  [
    .expr (.assign (.id [c!"ch_el"]) (.call (.arrow (.id [c!"el"]) c!"InsertNewChildElement") [(.str a0)])),
    .expr (.call (.arrow (.id [c!"ch_el"]) c!"SetText") [(.arrow (.id [c!"data"]) a0)])]

theorem xml437_stmts {ext : Bool} {a0 : Str} : IsStmts 40 ext (xml437_toks a0) (xml437_tree a0) := by stmts

theorem xml437_chunk {ext : Bool} {a0 : Str} (h0 : Ident a0) : Chunk 40 ext (T.xml437 a0) (xml437_tree a0) :=
  ⟨_, xml437_scan h0, xml437_stmts⟩

/-- The tokens of `T.xml444 a0`, xml/process_items_xml.cpp:444-450. -/
def xml444_toks (a0 : Str) : List Tok :=
  [.kw .if_, .op .lpar, .id c!"m_delta_only", .op .eq, .kw .false_, .op .or, .id c!"data", .op .arrow, .id a0, .op .ne,
   .id c!"default_data", .op .dot, .id a0, .op .rpar, .op .lbrace, .id c!"ch_el", .op .assign, .id c!"el", .op .arrow,
   .id c!"InsertNewChildElement", .op .lpar, .str a0, .op .rpar, .op .semi, .id c!"ch_el", .op .arrow, .id c!"SetText",
   .op .lpar, .id c!"data", .op .arrow, .id a0, .op .rpar, .op .semi, .op .rbrace]

theorem xml444_scan {a0 : Str} (h0 : Ident a0) :
    scan isLetter wordTok .start (T.xml444 a0) = (xml444_toks a0, .start) :=
  IsTemplate.scanned (good1 h0) (show IsTemplate [a0] (T.xml444 [hole 0]) _ (xml444_toks [hole 0]) _ by
    template T.xml444)

/-- The statements of `T.xml444 a0`, xml/process_items_xml.cpp:444-450. -/
def xml444_tree (a0 : Str) : List Stmt :=
  [
    .when (.bin .or (.bin .eq (.id [c!"m_delta_only"]) (.bool false)) (.bin .ne (.arrow (.id [c!"data"]) a0) (.mem (.id [c!"default_data"]) a0)))
      (.block [
        .expr (.assign (.id [c!"ch_el"]) (.call (.arrow (.id [c!"el"]) c!"InsertNewChildElement") [(.str a0)])),
        .expr (.call (.arrow (.id [c!"ch_el"]) c!"SetText") [(.arrow (.id [c!"data"]) a0)])])]

theorem xml444_stmts {ext : Bool} {a0 : Str} : IsStmts 40 ext (xml444_toks a0) (xml444_tree a0) := by stmts

theorem xml444_chunk {ext : Bool} {a0 : Str} (h0 : Ident a0) : Chunk 40 ext (T.xml444 a0) (xml444_tree a0) :=
  ⟨_, xml444_scan h0, xml444_stmts⟩

/-- The tokens of `T.xml456 a0`, xml/process_items_xml.cpp:456-459. -/
def xml456_toks (a0 : Str) : List Tok :=
  [.id c!"ch_el", .op .assign, .id c!"el", .op .arrow, .id c!"InsertNewChildElement", .op .lpar, .str a0, .op .rpar,
   .op .semi, .id c!"ch_el", .op .arrow, .id c!"SetText", .op .lpar, .id c!"data", .op .arrow, .id a0, .op .dot,
   .id c!"c_str", .op .lpar, .op .rpar, .op .rpar, .op .semi]

theorem xml456_scan {a0 : Str} (h0 : Ident a0) :
    scan isLetter wordTok .start (T.xml456 a0) = (xml456_toks a0, .start) :=
  IsTemplate.scanned (good1 h0) (show IsTemplate [a0] (T.xml456 [hole 0]) _ (xml456_toks [hole 0]) _ by
    template T.xml456)

/-- The statements of `T.xml456 a0`, xml/process_items_xml.cpp:456-459. -/
def xml456_tree (a0 : Str) : List Stmt :=
  [
    .expr (.assign (.id [c!"ch_el"]) (.call (.arrow (.id [c!"el"]) c!"InsertNewChildElement") [(.str a0)])),
    .expr (.call (.arrow (.id [c!"ch_el"]) c!"SetText") [(.call (.mem (.arrow (.id [c!"data"]) a0) c!"c_str") [])])]

theorem xml456_stmts {ext : Bool} {a0 : Str} : IsStmts 40 ext (xml456_toks a0) (xml456_tree a0) := by stmts

theorem xml456_chunk {ext : Bool} {a0 : Str} (h0 : Ident a0) : Chunk 40 ext (T.xml456 a0) (xml456_tree a0) :=
  ⟨_, xml456_scan h0, xml456_stmts⟩

/-- The tokens of `T.xml463 a0`, xml/process_items_xml.cpp:463-469. -/
def xml463_toks (a0 : Str) : List Tok :=
  [.kw .if_, .op .lpar, .id c!"m_delta_only", .op .eq, .kw .false_, .op .or, .id c!"data", .op .arrow, .id a0, .op .ne,
   .id c!"default_data", .op .dot, .id a0, .op .rpar, .op .lbrace, .id c!"ch_el", .op .assign, .id c!"el", .op .arrow,
   .id c!"InsertNewChildElement", .op .lpar, .str a0, .op .rpar, .op .semi, .id c!"ch_el", .op .arrow, .id c!"SetText",
   .op .lpar, .id c!"data", .op .arrow, .id a0, .op .dot, .id c!"c_str", .op .lpar, .op .rpar, .op .rpar, .op .semi,
   .op .rbrace]

theorem xml463_scan {a0 : Str} (h0 : Ident a0) :
    scan isLetter wordTok .start (T.xml463 a0) = (xml463_toks a0, .start) :=
  IsTemplate.scanned (good1 h0) (show IsTemplate [a0] (T.xml463 [hole 0]) _ (xml463_toks [hole 0]) _ by
    template T.xml463)

/-- The statements of `T.xml463 a0`, xml/process_items_xml.cpp:463-469. -/
def xml463_tree (a0 : Str) : List Stmt :=
  [
    .when (.bin .or (.bin .eq (.id [c!"m_delta_only"]) (.bool false)) (.bin .ne (.arrow (.id [c!"data"]) a0) (.mem (.id [c!"default_data"]) a0)))
      (.block [
        .expr (.assign (.id [c!"ch_el"]) (.call (.arrow (.id [c!"el"]) c!"InsertNewChildElement") [(.str a0)])),
        .expr (.call (.arrow (.id [c!"ch_el"]) c!"SetText") [(.call (.mem (.arrow (.id [c!"data"]) a0) c!"c_str") [])])])]

theorem xml463_stmts {ext : Bool} {a0 : Str} : IsStmts 40 ext (xml463_toks a0) (xml463_tree a0) := by stmts

theorem xml463_chunk {ext : Bool} {a0 : Str} (h0 : Ident a0) : Chunk 40 ext (T.xml463 a0) (xml463_tree a0) :=
  ⟨_, xml463_scan h0, xml463_stmts⟩

/-- The tokens of `T.xml475 a0`, xml/process_items_xml.cpp:475-478. -/
def xml475_toks (a0 : Str) : List Tok :=
  [.id c!"ch_el", .op .assign, .id c!"el", .op .arrow, .id c!"InsertNewChildElement", .op .lpar, .str a0, .op .rpar,
   .op .semi, .id c!"ch_el", .op .arrow, .id c!"SetText", .op .lpar, .op .lpar, .kw .unsigned_, .op .rpar, .id c!"data",
   .op .arrow, .id a0, .op .rpar, .op .semi]

theorem xml475_scan {a0 : Str} (h0 : Ident a0) :
    scan isLetter wordTok .start (T.xml475 a0) = (xml475_toks a0, .start) :=
  IsTemplate.scanned (good1 h0) (show IsTemplate [a0] (T.xml475 [hole 0]) _ (xml475_toks [hole 0]) _ by
    template T.xml475)

/-- The statements of `T.xml475 a0`, xml/process_items_xml.cpp:475-478. -/
def xml475_tree (a0 : Str) : List Stmt :=
  [
    .expr (.assign (.id [c!"ch_el"]) (.call (.arrow (.id [c!"el"]) c!"InsertNewChildElement") [(.str a0)])),
    .expr (.call (.arrow (.id [c!"ch_el"]) c!"SetText") [(.cast .uint (.arrow (.id [c!"data"]) a0))])]

theorem xml475_stmts {ext : Bool} {a0 : Str} : IsStmts 40 ext (xml475_toks a0) (xml475_tree a0) := by stmts

theorem xml475_chunk {ext : Bool} {a0 : Str} (h0 : Ident a0) : Chunk 40 ext (T.xml475 a0) (xml475_tree a0) :=
  ⟨_, xml475_scan h0, xml475_stmts⟩

/-- The tokens of `T.xml482 a0`, xml/process_items_xml.cpp:482-488. -/
def xml482_toks (a0 : Str) : List Tok :=
  [.kw .if_, .op .lpar, .id c!"m_delta_only", .op .eq, .kw .false_, .op .or, .id c!"data", .op .arrow, .id a0, .op .ne,
   .id c!"default_data", .op .dot, .id a0, .op .rpar, .op .lbrace, .id c!"ch_el", .op .assign, .id c!"el", .op .arrow,
   .id c!"InsertNewChildElement", .op .lpar, .str a0, .op .rpar, .op .semi, .id c!"ch_el", .op .arrow, .id c!"SetText",
   .op .lpar, .op .lpar, .kw .unsigned_, .op .rpar, .id c!"data", .op .arrow, .id a0, .op .rpar, .op .semi, .op .rbrace]

theorem xml482_scan {a0 : Str} (h0 : Ident a0) :
    scan isLetter wordTok .start (T.xml482 a0) = (xml482_toks a0, .start) :=
  IsTemplate.scanned (good1 h0) (show IsTemplate [a0] (T.xml482 [hole 0]) _ (xml482_toks [hole 0]) _ by
    template T.xml482)

/-- The statements of `T.xml482 a0`, xml/process_items_xml.cpp:482-488. -/
def xml482_tree (a0 : Str) : List Stmt :=
  [
    .when (.bin .or (.bin .eq (.id [c!"m_delta_only"]) (.bool false)) (.bin .ne (.arrow (.id [c!"data"]) a0) (.mem (.id [c!"default_data"]) a0)))
      (.block [
        .expr (.assign (.id [c!"ch_el"]) (.call (.arrow (.id [c!"el"]) c!"InsertNewChildElement") [(.str a0)])),
        .expr (.call (.arrow (.id [c!"ch_el"]) c!"SetText") [(.cast .uint (.arrow (.id [c!"data"]) a0))])])]

theorem xml482_stmts {ext : Bool} {a0 : Str} : IsStmts 40 ext (xml482_toks a0) (xml482_tree a0) := by stmts

theorem xml482_chunk {ext : Bool} {a0 : Str} (h0 : Ident a0) : Chunk 40 ext (T.xml482 a0) (xml482_tree a0) :=
  ⟨_, xml482_scan h0, xml482_stmts⟩

/-- The tokens of `T.xml523 a0`, xml/process_items_xml.cpp:523-526. -/
def xml523_toks (a0 : Str) : List Tok :=
  [.id c!"ch_el", .op .assign, .id c!"el", .op .arrow, .id c!"InsertNewChildElement", .op .lpar, .str a0, .op .rpar,
   .op .semi, .id c!"ch_el", .op .arrow, .id c!"SetText", .op .lpar, .id c!"stfx", .op .scope, .id c!"s_from_e",
   .op .lpar, .id c!"data", .op .arrow, .id a0, .op .rpar, .op .dot, .id c!"c_str", .op .lpar, .op .rpar, .op .rpar,
   .op .semi]

theorem xml523_scan {a0 : Str} (h0 : Ident a0) :
    scan isLetter wordTok .start (T.xml523 a0) = (xml523_toks a0, .start) :=
  IsTemplate.scanned (good1 h0) (show IsTemplate [a0] (T.xml523 [hole 0]) _ (xml523_toks [hole 0]) _ by
    template T.xml523)

/-- The statements of `T.xml523 a0`, xml/process_items_xml.cpp:523-526. -/
def xml523_tree (a0 : Str) : List Stmt :=
  [
    .expr (.assign (.id [c!"ch_el"]) (.call (.arrow (.id [c!"el"]) c!"InsertNewChildElement") [(.str a0)])),
    .expr (.call (.arrow (.id [c!"ch_el"]) c!"SetText") [(.call (.mem (.call (.id [c!"stfx", c!"s_from_e"]) [(.arrow (.id [c!"data"]) a0)]) c!"c_str") [])])]

theorem xml523_stmts {ext : Bool} {a0 : Str} : IsStmts 40 ext (xml523_toks a0) (xml523_tree a0) := by stmts

theorem xml523_chunk {ext : Bool} {a0 : Str} (h0 : Ident a0) : Chunk 40 ext (T.xml523 a0) (xml523_tree a0) :=
  ⟨_, xml523_scan h0, xml523_stmts⟩

/-- The tokens of `T.xml530 a0`, xml/process_items_xml.cpp:530-536. -/
def xml530_toks (a0 : Str) : List Tok :=
  [.kw .if_, .op .lpar, .id c!"m_delta_only", .op .eq, .kw .false_, .op .or, .id c!"data", .op .arrow, .id a0, .op .ne,
   .id c!"default_data", .op .dot, .id a0, .op .rpar, .op .lbrace, .id c!"ch_el", .op .assign, .id c!"el", .op .arrow,
   .id c!"InsertNewChildElement", .op .lpar, .str a0, .op .rpar, .op .semi, .id c!"ch_el", .op .arrow, .id c!"SetText",
   .op .lpar, .id c!"stfx", .op .scope, .id c!"s_from_e", .op .lpar, .id c!"data", .op .arrow, .id a0, .op .rpar,
   .op .dot, .id c!"c_str", .op .lpar, .op .rpar, .op .rpar, .op .semi, .op .rbrace]

theorem xml530_scan {a0 : Str} (h0 : Ident a0) :
    scan isLetter wordTok .start (T.xml530 a0) = (xml530_toks a0, .start) :=
  IsTemplate.scanned (good1 h0) (show IsTemplate [a0] (T.xml530 [hole 0]) _ (xml530_toks [hole 0]) _ by
    template T.xml530)

/-- The statements of `T.xml530 a0`, xml/process_items_xml.cpp:530-536. -/
def xml530_tree (a0 : Str) : List Stmt :=
  [
    .when (.bin .or (.bin .eq (.id [c!"m_delta_only"]) (.bool false)) (.bin .ne (.arrow (.id [c!"data"]) a0) (.mem (.id [c!"default_data"]) a0)))
      (.block [
        .expr (.assign (.id [c!"ch_el"]) (.call (.arrow (.id [c!"el"]) c!"InsertNewChildElement") [(.str a0)])),
        .expr (.call (.arrow (.id [c!"ch_el"]) c!"SetText") [(.call (.mem (.call (.id [c!"stfx", c!"s_from_e"]) [(.arrow (.id [c!"data"]) a0)]) c!"c_str") [])])])]

theorem xml530_stmts {ext : Bool} {a0 : Str} : IsStmts 40 ext (xml530_toks a0) (xml530_tree a0) := by stmts

theorem xml530_chunk {ext : Bool} {a0 : Str} (h0 : Ident a0) : Chunk 40 ext (T.xml530 a0) (xml530_tree a0) :=
  ⟨_, xml530_scan h0, xml530_stmts⟩

/-- The tokens of `T.xml540 a0 a1`, xml/process_items_xml.cpp:540-546. -/
def xml540_toks (a0 a1 : Str) : List Tok :=
  [.id c!"ch_el", .op .assign, .id c!"el", .op .arrow, .id c!"InsertNewChildElement", .op .lpar, .str a0, .op .rpar,
   .op .semi, .kw .if_, .op .lpar, .id c!"ch_el", .op .ne, .kw .nullptr_, .op .rpar, .op .lbrace,
   .id (c!"do_wr_" ++ a1), .op .lpar, .id c!"ch_el", .op .comma, .op .amp, .id c!"data", .op .arrow, .id a0, .op .rpar,
   .op .semi, .op .rbrace]

theorem xml540_scan {a0 a1 : Str} (h0 : Ident a0) (h1 : Ident a1) :
    scan isLetter wordTok .start (T.xml540 a0 a1) = (xml540_toks a0 a1, .start) :=
  IsTemplate.scanned (good2 h0 h1) (show IsTemplate [a0, a1] (T.xml540 [hole 0] [hole 1]) _ (xml540_toks [hole 0] [hole 1]) _ by
    template T.xml540)

/-- The statements of `T.xml540 a0 a1`, xml/process_items_xml.cpp:540-546. -/
def xml540_tree (a0 a1 : Str) : List Stmt :=
  [
    .expr (.assign (.id [c!"ch_el"]) (.call (.arrow (.id [c!"el"]) c!"InsertNewChildElement") [(.str a0)])),
    .when (.bin .ne (.id [c!"ch_el"]) .null)
      (.block [
        .expr (.call (.id [(c!"do_wr_" ++ a1)]) [(.id [c!"ch_el"]), (.addr (.arrow (.id [c!"data"]) a0))])])]

theorem xml540_stmts {ext : Bool} {a0 a1 : Str} : IsStmts 40 ext (xml540_toks a0 a1) (xml540_tree a0 a1) := by stmts

theorem xml540_chunk {ext : Bool} {a0 a1 : Str} (h0 : Ident a0) (h1 : Ident a1) : Chunk 40 ext (T.xml540 a0 a1) (xml540_tree a0 a1) :=
  ⟨_, xml540_scan h0 h1, xml540_stmts⟩

/-- The tokens of `T.xml549 a0 a1`, xml/process_items_xml.cpp:549-559. -/
def xml549_toks (a0 a1 : Str) : List Tok :=
  [.id c!"ch_el", .op .assign, .id c!"el", .op .arrow, .id c!"InsertNewChildElement", .op .lpar, .str a0, .op .rpar,
   .op .semi, .kw .if_, .op .lpar, .id c!"ch_el", .op .ne, .kw .nullptr_, .op .rpar, .op .lbrace, .kw .for_, .op .lpar,
   .id a1, .id c!"itr", .op .colon, .id c!"data", .op .arrow, .id a0, .op .rpar, .op .lbrace, .id c!"tinyxml2",
   .op .scope, .id c!"XMLElement", .op .star, .id c!"ch_ch_el", .op .assign, .id c!"ch_el", .op .arrow,
   .id c!"InsertNewChildElement", .op .lpar, .str a1, .op .rpar, .op .semi, .id (c!"do_wr_" ++ a1), .op .lpar,
   .id c!"ch_ch_el", .op .comma, .op .amp, .id c!"itr", .op .rpar, .op .semi, .op .rbrace, .op .rbrace]

theorem xml549_scan {a0 a1 : Str} (h0 : Ident a0) (h1 : Ident a1) :
    scan isLetter wordTok .start (T.xml549 a0 a1) = (xml549_toks a0 a1, .start) :=
  IsTemplate.scanned (good2 h0 h1) (show IsTemplate [a0, a1] (T.xml549 [hole 0] [hole 1]) _ (xml549_toks [hole 0] [hole 1]) _ by
    template T.xml549)

/-- The statements of `T.xml549 a0 a1`, xml/process_items_xml.cpp:549-559. -/
def xml549_tree (a0 a1 : Str) : List Stmt :=
  [
    .expr (.assign (.id [c!"ch_el"]) (.call (.arrow (.id [c!"el"]) c!"InsertNewChildElement") [(.str a0)])),
    .when (.bin .ne (.id [c!"ch_el"]) .null)
      (.block [
        .forEach (.name [a1]) c!"itr" (.arrow (.id [c!"data"]) a0)
          (.block [
            .decl (.ptr (.name [c!"tinyxml2", c!"XMLElement"])) c!"ch_ch_el" none (some (.call (.arrow (.id [c!"ch_el"]) c!"InsertNewChildElement") [(.str a1)])),
            .expr (.call (.id [(c!"do_wr_" ++ a1)]) [(.id [c!"ch_ch_el"]), (.addr (.id [c!"itr"]))])])])]

theorem xml549_stmts {ext : Bool} {a0 a1 : Str} : IsStmts 40 ext (xml549_toks a0 a1) (xml549_tree a0 a1) := by stmts

theorem xml549_chunk {ext : Bool} {a0 a1 : Str} (h0 : Ident a0) (h1 : Ident a1) : Chunk 40 ext (T.xml549 a0 a1) (xml549_tree a0 a1) :=
  ⟨_, xml549_scan h0 h1, xml549_stmts⟩

/-- The tokens of `T.xml562 a0`, xml/process_items_xml.cpp:562. -/
def xml562_toks (a0 : Str) : List Tok :=
  []

theorem xml562_scan {a0 : Str} (h0 : Ident a0) :
    scan isLetter wordTok .start (T.xml562 a0) = (xml562_toks a0, .start) :=
  IsTemplate.scanned (good1 h0) (show IsTemplate [a0] (T.xml562 [hole 0]) _ (xml562_toks [hole 0]) _ by
    template T.xml562)

/-- The statements of `T.xml562 a0`, xml/process_items_xml.cpp:562. -/
def xml562_tree (a0 : Str) : List Stmt :=
  []

theorem xml562_stmts {ext : Bool} {a0 : Str} : IsStmts 40 ext (xml562_toks a0) (xml562_tree a0) := by stmts

theorem xml562_chunk {ext : Bool} {a0 : Str} (h0 : Ident a0) : Chunk 40 ext (T.xml562 a0) (xml562_tree a0) :=
  ⟨_, xml562_scan h0, xml562_stmts⟩

/-- The tokens of `T.xml567 a0`, xml/process_items_xml.cpp:567. -/
def xml567_toks (a0 : Str) : List Tok :=
  []

theorem xml567_scan {a0 : Str} (h0 : Ident a0) :
    scan isLetter wordTok .start (T.xml567 a0) = (xml567_toks a0, .start) :=
  IsTemplate.scanned (good1 h0) (show IsTemplate [a0] (T.xml567 [hole 0]) _ (xml567_toks [hole 0]) _ by
    template T.xml567)

/-- The statements of `T.xml567 a0`, xml/process_items_xml.cpp:567. -/
def xml567_tree (a0 : Str) : List Stmt :=
  []

theorem xml567_stmts {ext : Bool} {a0 : Str} : IsStmts 40 ext (xml567_toks a0) (xml567_tree a0) := by stmts

theorem xml567_chunk {ext : Bool} {a0 : Str} (h0 : Ident a0) : Chunk 40 ext (T.xml567 a0) (xml567_tree a0) :=
  ⟨_, xml567_scan h0, xml567_stmts⟩

/-- The tokens of `T.attrib167 a0`, xml/process_items_xml_attrib.cpp:167-168. -/
def attrib167_toks (a0 : Str) : List Tok :=
  [.id c!"el", .op .arrow, .id c!"SetAttribute", .op .lpar, .str a0, .op .comma, .id c!"data", .op .arrow, .id a0,
   .op .rpar, .op .semi]

theorem attrib167_scan {a0 : Str} (h0 : Ident a0) :
    scan isLetter wordTok .start (T.attrib167 a0) = (attrib167_toks a0, .start) :=
  IsTemplate.scanned (good1 h0) (show IsTemplate [a0] (T.attrib167 [hole 0]) _ (attrib167_toks [hole 0]) _ by
    template T.attrib167)

/-- The statements of `T.attrib167 a0`, xml/process_items_xml_attrib.cpp:167-168. -/
def attrib167_tree (a0 : Str) : List Stmt :=
  [
    .expr (.call (.arrow (.id [c!"el"]) c!"SetAttribute") [(.str a0), (.arrow (.id [c!"data"]) a0)])]

theorem attrib167_stmts {ext : Bool} {a0 : Str} : IsStmts 40 ext (attrib167_toks a0) (attrib167_tree a0) := by stmts

theorem attrib167_chunk {ext : Bool} {a0 : Str} (h0 : Ident a0) : Chunk 40 ext (T.attrib167 a0) (attrib167_tree a0) :=
  ⟨_, attrib167_scan h0, attrib167_stmts⟩

/-- The tokens of `T.attrib172 a0`, xml/process_items_xml_attrib.cpp:172-174. -/
def attrib172_toks (a0 : Str) : List Tok :=
  [.kw .if_, .op .lpar, .id c!"m_delta_only", .op .eq, .kw .false_, .op .or, .id c!"data", .op .arrow, .id a0, .op .ne,
   .id c!"default_data", .op .dot, .id a0, .op .rpar, .id c!"el", .op .arrow, .id c!"SetAttribute", .op .lpar, .str a0,
   .op .comma, .id c!"data", .op .arrow, .id a0, .op .rpar, .op .semi]

theorem attrib172_scan {a0 : Str} (h0 : Ident a0) :
    scan isLetter wordTok .start (T.attrib172 a0) = (attrib172_toks a0, .start) :=
  IsTemplate.scanned (good1 h0) (show IsTemplate [a0] (T.attrib172 [hole 0]) _ (attrib172_toks [hole 0]) _ by
    template T.attrib172)

/-- The statements of `T.attrib172 a0`, xml/process_items_xml_attrib.cpp:172-174. -/
def attrib172_tree (a0 : Str) : List Stmt :=
  [
    .when (.bin .or (.bin .eq (.id [c!"m_delta_only"]) (.bool false)) (.bin .ne (.arrow (.id [c!"data"]) a0) (.mem (.id [c!"default_data"]) a0)))
      (.expr (.call (.arrow (.id [c!"el"]) c!"SetAttribute") [(.str a0), (.arrow (.id [c!"data"]) a0)]))]

theorem attrib172_stmts {ext : Bool} {a0 : Str} : IsStmts 40 ext (attrib172_toks a0) (attrib172_tree a0) := by stmts

theorem attrib172_chunk {ext : Bool} {a0 : Str} (h0 : Ident a0) : Chunk 40 ext (T.attrib172 a0) (attrib172_tree a0) :=
  ⟨_, attrib172_scan h0, attrib172_stmts⟩

/-- The tokens of `T.attrib180 a0`, xml/process_items_xml_attrib.cpp:180-181. -/
def attrib180_toks (a0 : Str) : List Tok :=
  [.id c!"el", .op .arrow, .id c!"SetAttribute", .op .lpar, .str a0, .op .comma, .id c!"data", .op .arrow, .id a0,
   .op .dot, .id c!"c_str", .op .lpar, .op .rpar, .op .rpar, .op .semi]

theorem attrib180_scan {a0 : Str} (h0 : Ident a0) :
    scan isLetter wordTok .start (T.attrib180 a0) = (attrib180_toks a0, .start) :=
  IsTemplate.scanned (good1 h0) (show IsTemplate [a0] (T.attrib180 [hole 0]) _ (attrib180_toks [hole 0]) _ by
    template T.attrib180)

/-- The statements of `T.attrib180 a0`, xml/process_items_xml_attrib.cpp:180-181. -/
def attrib180_tree (a0 : Str) : List Stmt :=
  [
    .expr (.call (.arrow (.id [c!"el"]) c!"SetAttribute") [(.str a0), (.call (.mem (.arrow (.id [c!"data"]) a0) c!"c_str") [])])]

theorem attrib180_stmts {ext : Bool} {a0 : Str} : IsStmts 40 ext (attrib180_toks a0) (attrib180_tree a0) := by stmts

theorem attrib180_chunk {ext : Bool} {a0 : Str} (h0 : Ident a0) : Chunk 40 ext (T.attrib180 a0) (attrib180_tree a0) :=
  ⟨_, attrib180_scan h0, attrib180_stmts⟩

/-- The tokens of `T.attrib185 a0`, xml/process_items_xml_attrib.cpp:185-187. -/
def attrib185_toks (a0 : Str) : List Tok :=
  [.kw .if_, .op .lpar, .id c!"m_delta_only", .op .eq, .kw .false_, .op .or, .id c!"data", .op .arrow, .id a0, .op .ne,
   .id c!"default_data", .op .dot, .id a0, .op .rpar, .id c!"el", .op .arrow, .id c!"SetAttribute", .op .lpar, .str a0,
   .op .comma, .id c!"data", .op .arrow, .id a0, .op .dot, .id c!"c_str", .op .lpar, .op .rpar, .op .rpar, .op .semi]

theorem attrib185_scan {a0 : Str} (h0 : Ident a0) :
    scan isLetter wordTok .start (T.attrib185 a0) = (attrib185_toks a0, .start) :=
  IsTemplate.scanned (good1 h0) (show IsTemplate [a0] (T.attrib185 [hole 0]) _ (attrib185_toks [hole 0]) _ by
    template T.attrib185)

/-- The statements of `T.attrib185 a0`, xml/process_items_xml_attrib.cpp:185-187. -/
def attrib185_tree (a0 : Str) : List Stmt :=
  [
    .when (.bin .or (.bin .eq (.id [c!"m_delta_only"]) (.bool false)) (.bin .ne (.arrow (.id [c!"data"]) a0) (.mem (.id [c!"default_data"]) a0)))
      (.expr (.call (.arrow (.id [c!"el"]) c!"SetAttribute") [(.str a0), (.call (.mem (.arrow (.id [c!"data"]) a0) c!"c_str") [])]))]

theorem attrib185_stmts {ext : Bool} {a0 : Str} : IsStmts 40 ext (attrib185_toks a0) (attrib185_tree a0) := by stmts

theorem attrib185_chunk {ext : Bool} {a0 : Str} (h0 : Ident a0) : Chunk 40 ext (T.attrib185 a0) (attrib185_tree a0) :=
  ⟨_, attrib185_scan h0, attrib185_stmts⟩

/-- The tokens of `T.attrib194 a0`, xml/process_items_xml_attrib.cpp:194-195. -/
def attrib194_toks (a0 : Str) : List Tok :=
  [.id c!"el", .op .arrow, .id c!"SetAttribute", .op .lpar, .str a0, .op .comma, .kw .int_, .op .lpar, .id c!"data",
   .op .arrow, .id a0, .op .rpar, .op .rpar, .op .semi]

theorem attrib194_scan {a0 : Str} (h0 : Ident a0) :
    scan isLetter wordTok .start (T.attrib194 a0) = (attrib194_toks a0, .start) :=
  IsTemplate.scanned (good1 h0) (show IsTemplate [a0] (T.attrib194 [hole 0]) _ (attrib194_toks [hole 0]) _ by
    template T.attrib194)

/-- The statements of `T.attrib194 a0`, xml/process_items_xml_attrib.cpp:194-195. -/
def attrib194_tree (a0 : Str) : List Stmt :=
  [
    .expr (.call (.arrow (.id [c!"el"]) c!"SetAttribute") [(.str a0), (.cast .int (.arrow (.id [c!"data"]) a0))])]

theorem attrib194_stmts {ext : Bool} {a0 : Str} : IsStmts 40 ext (attrib194_toks a0) (attrib194_tree a0) := by stmts

theorem attrib194_chunk {ext : Bool} {a0 : Str} (h0 : Ident a0) : Chunk 40 ext (T.attrib194 a0) (attrib194_tree a0) :=
  ⟨_, attrib194_scan h0, attrib194_stmts⟩

/-- The tokens of `T.attrib199 a0`, xml/process_items_xml_attrib.cpp:199-201. -/
def attrib199_toks (a0 : Str) : List Tok :=
  [.kw .if_, .op .lpar, .id c!"m_delta_only", .op .eq, .kw .false_, .op .or, .id c!"data", .op .arrow, .id a0, .op .ne,
   .id c!"default_data", .op .dot, .id a0, .op .rpar, .id c!"el", .op .arrow, .id c!"SetAttribute", .op .lpar, .str a0,
   .op .comma, .kw .int_, .op .lpar, .id c!"data", .op .arrow, .id a0, .op .rpar, .op .rpar, .op .semi]

theorem attrib199_scan {a0 : Str} (h0 : Ident a0) :
    scan isLetter wordTok .start (T.attrib199 a0) = (attrib199_toks a0, .start) :=
  IsTemplate.scanned (good1 h0) (show IsTemplate [a0] (T.attrib199 [hole 0]) _ (attrib199_toks [hole 0]) _ by
    template T.attrib199)

/-- The statements of `T.attrib199 a0`, xml/process_items_xml_attrib.cpp:199-201. -/
def attrib199_tree (a0 : Str) : List Stmt :=
  [
    .when (.bin .or (.bin .eq (.id [c!"m_delta_only"]) (.bool false)) (.bin .ne (.arrow (.id [c!"data"]) a0) (.mem (.id [c!"default_data"]) a0)))
      (.expr (.call (.arrow (.id [c!"el"]) c!"SetAttribute") [(.str a0), (.cast .int (.arrow (.id [c!"data"]) a0))]))]

theorem attrib199_stmts {ext : Bool} {a0 : Str} : IsStmts 40 ext (attrib199_toks a0) (attrib199_tree a0) := by stmts

theorem attrib199_chunk {ext : Bool} {a0 : Str} (h0 : Ident a0) : Chunk 40 ext (T.attrib199 a0) (attrib199_tree a0) :=
  ⟨_, attrib199_scan h0, attrib199_stmts⟩

/-- The tokens of `T.attrib208 a0`, xml/process_items_xml_attrib.cpp:208-209. -/
def attrib208_toks (a0 : Str) : List Tok :=
  [.id c!"el", .op .arrow, .id c!"SetAttribute", .op .lpar, .str a0, .op .comma, .kw .unsigned_, .op .lpar,
   .id c!"data", .op .arrow, .id a0, .op .rpar, .op .rpar, .op .semi]

theorem attrib208_scan {a0 : Str} (h0 : Ident a0) :
    scan isLetter wordTok .start (T.attrib208 a0) = (attrib208_toks a0, .start) :=
  IsTemplate.scanned (good1 h0) (show IsTemplate [a0] (T.attrib208 [hole 0]) _ (attrib208_toks [hole 0]) _ by
    template T.attrib208)

/-- The statements of `T.attrib208 a0`, xml/process_items_xml_attrib.cpp:208-209. -/
def attrib208_tree (a0 : Str) : List Stmt :=
  [
    .expr (.call (.arrow (.id [c!"el"]) c!"SetAttribute") [(.str a0), (.cast .uint (.arrow (.id [c!"data"]) a0))])]

theorem attrib208_stmts {ext : Bool} {a0 : Str} : IsStmts 40 ext (attrib208_toks a0) (attrib208_tree a0) := by stmts

theorem attrib208_chunk {ext : Bool} {a0 : Str} (h0 : Ident a0) : Chunk 40 ext (T.attrib208 a0) (attrib208_tree a0) :=
  ⟨_, attrib208_scan h0, attrib208_stmts⟩

/-- The tokens of `T.attrib213 a0`, xml/process_items_xml_attrib.cpp:213-215. -/
def attrib213_toks (a0 : Str) : List Tok :=
  [.kw .if_, .op .lpar, .id c!"m_delta_only", .op .eq, .kw .false_, .op .or, .id c!"data", .op .arrow, .id a0, .op .ne,
   .id c!"default_data", .op .dot, .id a0, .op .rpar, .id c!"el", .op .arrow, .id c!"SetAttribute", .op .lpar, .str a0,
   .op .comma, .kw .unsigned_, .op .lpar, .id c!"data", .op .arrow, .id a0, .op .rpar, .op .rpar, .op .semi]

theorem attrib213_scan {a0 : Str} (h0 : Ident a0) :
    scan isLetter wordTok .start (T.attrib213 a0) = (attrib213_toks a0, .start) :=
  IsTemplate.scanned (good1 h0) (show IsTemplate [a0] (T.attrib213 [hole 0]) _ (attrib213_toks [hole 0]) _ by
    template T.attrib213)

/-- The statements of `T.attrib213 a0`, xml/process_items_xml_attrib.cpp:213-215. -/
def attrib213_tree (a0 : Str) : List Stmt :=
  [
    .when (.bin .or (.bin .eq (.id [c!"m_delta_only"]) (.bool false)) (.bin .ne (.arrow (.id [c!"data"]) a0) (.mem (.id [c!"default_data"]) a0)))
      (.expr (.call (.arrow (.id [c!"el"]) c!"SetAttribute") [(.str a0), (.cast .uint (.arrow (.id [c!"data"]) a0))]))]

theorem attrib213_stmts {ext : Bool} {a0 : Str} : IsStmts 40 ext (attrib213_toks a0) (attrib213_tree a0) := by stmts

theorem attrib213_chunk {ext : Bool} {a0 : Str} (h0 : Ident a0) : Chunk 40 ext (T.attrib213 a0) (attrib213_tree a0) :=
  ⟨_, attrib213_scan h0, attrib213_stmts⟩

/-- The tokens of `T.attrib252 a0`, xml/process_items_xml_attrib.cpp:252-253. -/
def attrib252_toks (a0 : Str) : List Tok :=
  [.id c!"el", .op .arrow, .id c!"SetAttribute", .op .lpar, .str a0, .op .comma, .id c!"stfx", .op .scope,
   .id c!"s_from_e", .op .lpar, .id c!"data", .op .arrow, .id a0, .op .rpar, .op .dot, .id c!"c_str", .op .lpar,
   .op .rpar, .op .rpar, .op .semi]

theorem attrib252_scan {a0 : Str} (h0 : Ident a0) :
    scan isLetter wordTok .start (T.attrib252 a0) = (attrib252_toks a0, .start) :=
  IsTemplate.scanned (good1 h0) (show IsTemplate [a0] (T.attrib252 [hole 0]) _ (attrib252_toks [hole 0]) _ by
    template T.attrib252)

/-- The statements of `T.attrib252 a0`, xml/process_items_xml_attrib.cpp:252-253. -/
def attrib252_tree (a0 : Str) : List Stmt :=
  [
    .expr (.call (.arrow (.id [c!"el"]) c!"SetAttribute") [(.str a0), (.call (.mem (.call (.id [c!"stfx", c!"s_from_e"]) [(.arrow (.id [c!"data"]) a0)]) c!"c_str") [])])]

theorem attrib252_stmts {ext : Bool} {a0 : Str} : IsStmts 40 ext (attrib252_toks a0) (attrib252_tree a0) := by stmts

theorem attrib252_chunk {ext : Bool} {a0 : Str} (h0 : Ident a0) : Chunk 40 ext (T.attrib252 a0) (attrib252_tree a0) :=
  ⟨_, attrib252_scan h0, attrib252_stmts⟩

/-- The tokens of `T.attrib257 a0`, xml/process_items_xml_attrib.cpp:257-259. -/
def attrib257_toks (a0 : Str) : List Tok :=
  [.kw .if_, .op .lpar, .id c!"m_delta_only", .op .eq, .kw .false_, .op .or, .id c!"data", .op .arrow, .id a0, .op .ne,
   .id c!"default_data", .op .dot, .id a0, .op .rpar, .id c!"el", .op .arrow, .id c!"SetAttribute", .op .lpar, .str a0,
   .op .comma, .id c!"stfx", .op .scope, .id c!"s_from_e", .op .lpar, .id c!"data", .op .arrow, .id a0, .op .rpar,
   .op .dot, .id c!"c_str", .op .lpar, .op .rpar, .op .rpar, .op .semi]

theorem attrib257_scan {a0 : Str} (h0 : Ident a0) :
    scan isLetter wordTok .start (T.attrib257 a0) = (attrib257_toks a0, .start) :=
  IsTemplate.scanned (good1 h0) (show IsTemplate [a0] (T.attrib257 [hole 0]) _ (attrib257_toks [hole 0]) _ by
    template T.attrib257)

/-- The statements of `T.attrib257 a0`, xml/process_items_xml_attrib.cpp:257-259. -/
def attrib257_tree (a0 : Str) : List Stmt :=
  [
    .when (.bin .or (.bin .eq (.id [c!"m_delta_only"]) (.bool false)) (.bin .ne (.arrow (.id [c!"data"]) a0) (.mem (.id [c!"default_data"]) a0)))
      (.expr (.call (.arrow (.id [c!"el"]) c!"SetAttribute") [(.str a0), (.call (.mem (.call (.id [c!"stfx", c!"s_from_e"]) [(.arrow (.id [c!"data"]) a0)]) c!"c_str") [])]))]

theorem attrib257_stmts {ext : Bool} {a0 : Str} : IsStmts 40 ext (attrib257_toks a0) (attrib257_tree a0) := by stmts

theorem attrib257_chunk {ext : Bool} {a0 : Str} (h0 : Ident a0) : Chunk 40 ext (T.attrib257 a0) (attrib257_tree a0) :=
  ⟨_, attrib257_scan h0, attrib257_stmts⟩

/-- The tokens of `T.attrib51 a0`, xml/process_items_xml_attrib.cpp:51. -/
def attrib51_toks (a0 : Str) : List Tok :=
  [.op .lbrace, .kw .unsigned_, .kw .int_, .id c!"i", .op .semi, .id c!"el", .op .arrow, .id c!"QueryUnsignedAttribute",
   .op .lpar, .str a0, .op .comma, .op .amp, .id c!"i", .op .rpar, .op .semi, .id c!"data", .op .arrow, .id a0,
   .op .assign, .kw .unsigned_, .kw .short_, .op .lpar, .id c!"i", .op .rpar, .op .semi, .op .rbrace]

theorem attrib51_scan {a0 : Str} (h0 : Ident a0) :
    scan isLetter wordTok .start (T.attrib51 a0) = (attrib51_toks a0, .start) :=
  IsTemplate.scanned (good1 h0) (show IsTemplate [a0] (T.attrib51 [hole 0]) _ (attrib51_toks [hole 0]) _ by
    template T.attrib51)

/-- The statements of `T.attrib51 a0`, xml/process_items_xml_attrib.cpp:51. -/
def attrib51_tree (a0 : Str) : List Stmt :=
  [
    .block [
      .decl (.prim .uint) c!"i" none none,
      .expr (.call (.arrow (.id [c!"el"]) c!"QueryUnsignedAttribute") [(.str a0), (.addr (.id [c!"i"]))]),
      .expr (.assign (.arrow (.id [c!"data"]) a0) (.cast .ushort (.id [c!"i"])))]]

theorem attrib51_stmts {a0 : Str} : IsStmts 40 true (attrib51_toks a0) (attrib51_tree a0) := by stmts

theorem attrib51_chunk {a0 : Str} (h0 : Ident a0) : Chunk 40 true (T.attrib51 a0) (attrib51_tree a0) :=
  ⟨_, attrib51_scan h0, attrib51_stmts⟩

/-- The tokens of `T.attrib57 a0`, xml/process_items_xml_attrib.cpp:57. -/
def attrib57_toks (a0 : Str) : List Tok :=
  [.op .lbrace, .kw .unsigned_, .kw .int_, .id c!"i", .op .semi, .id c!"el", .op .arrow, .id c!"QueryUnsignedAttribute",
   .op .lpar, .str a0, .op .comma, .op .amp, .id c!"i", .op .rpar, .op .semi, .id c!"data", .op .arrow, .id a0,
   .op .assign, .kw .unsigned_, .kw .long_, .op .lpar, .id c!"i", .op .rpar, .op .semi, .op .rbrace]

theorem attrib57_scan {a0 : Str} (h0 : Ident a0) :
    scan isLetter wordTok .start (T.attrib57 a0) = (attrib57_toks a0, .start) :=
  IsTemplate.scanned (good1 h0) (show IsTemplate [a0] (T.attrib57 [hole 0]) _ (attrib57_toks [hole 0]) _ by
    template T.attrib57)

/-- The statements of `T.attrib57 a0`, xml/process_items_xml_attrib.cpp:57. -/
def attrib57_tree (a0 : Str) : List Stmt :=
  [
    .block [
      .decl (.prim .uint) c!"i" none none,
      .expr (.call (.arrow (.id [c!"el"]) c!"QueryUnsignedAttribute") [(.str a0), (.addr (.id [c!"i"]))]),
      .expr (.assign (.arrow (.id [c!"data"]) a0) (.cast .ulong (.id [c!"i"])))]]

theorem attrib57_stmts {a0 : Str} : IsStmts 40 true (attrib57_toks a0) (attrib57_tree a0) := by stmts

theorem attrib57_chunk {a0 : Str} (h0 : Ident a0) : Chunk 40 true (T.attrib57 a0) (attrib57_tree a0) :=
  ⟨_, attrib57_scan h0, attrib57_stmts⟩

/-- The tokens of `T.xml219 a0 a1`, xml/process_items_xml.cpp:219-224. -/
def xml219_toks (a0 a1 : Str) : List Tok :=
  [.kw .bool_, .id a0, .op .scope, .id (c!"do_" ++ a1), .op .lpar, .id c!"tinyxml2", .op .scope, .id c!"XMLElement",
   .op .star, .id c!"el", .op .comma, .id a1, .op .star, .id c!"data", .op .rpar, .op .lbrace, .id c!"tinyxml2",
   .op .scope, .id c!"XMLElement", .op .star, .id c!"ch_el", .op .semi]

theorem xml219_scan {a0 a1 : Str} (h0 : Ident a0) (h1 : Ident a1) :
    scan isLetter wordTok .start (T.xml219 a0 a1) = (xml219_toks a0 a1, .start) :=
  IsTemplate.scanned (good2 h0 h1) (show IsTemplate [a0, a1] (T.xml219 [hole 0] [hole 1]) _ (xml219_toks [hole 0] [hole 1]) _ by
    template T.xml219)

/-- The tokens of `T.xml412 a0 a1`, xml/process_items_xml.cpp:412-416. -/
def xml412_toks (a0 a1 : Str) : List Tok :=
  [.kw .bool_, .id a0, .op .scope, .id (c!"do_wr_" ++ a1), .op .lpar, .id c!"tinyxml2", .op .scope, .id c!"XMLElement",
   .op .star, .id c!"el", .op .comma, .id a1, .op .star, .id c!"data", .op .rpar, .op .lbrace, .id c!"tinyxml2",
   .op .scope, .id c!"XMLElement", .op .star, .id c!"ch_el", .op .semi]

theorem xml412_scan {a0 a1 : Str} (h0 : Ident a0) (h1 : Ident a1) :
    scan isLetter wordTok .start (T.xml412 a0 a1) = (xml412_toks a0 a1, .start) :=
  IsTemplate.scanned (good2 h0 h1) (show IsTemplate [a0, a1] (T.xml412 [hole 0] [hole 1]) _ (xml412_toks [hole 0] [hole 1]) _ by
    template T.xml412)

/-- The tokens of `T.attrib22 a0 a1`, xml/process_items_xml_attrib.cpp:22-25. -/
def attrib22_toks (a0 a1 : Str) : List Tok :=
  [.kw .bool_, .id a0, .op .scope, .id (c!"do_" ++ a1), .op .lpar, .id c!"tinyxml2", .op .scope, .id c!"XMLElement",
   .op .star, .id c!"el", .op .comma, .id a1, .op .star, .id c!"data", .op .rpar, .op .lbrace]

theorem attrib22_scan {a0 a1 : Str} (h0 : Ident a0) (h1 : Ident a1) :
    scan isLetter wordTok .start (T.attrib22 a0 a1) = (attrib22_toks a0 a1, .start) :=
  IsTemplate.scanned (good2 h0 h1) (show IsTemplate [a0, a1] (T.attrib22 [hole 0] [hole 1]) _ (attrib22_toks [hole 0] [hole 1]) _ by
    template T.attrib22)

/-- The tokens of `T.attrib147 a0 a1`, xml/process_items_xml_attrib.cpp:147-149. -/
def attrib147_toks (a0 a1 : Str) : List Tok :=
  [.kw .bool_, .id a0, .op .scope, .id (c!"do_wr_" ++ a1), .op .lpar, .id c!"tinyxml2", .op .scope, .id c!"XMLElement",
   .op .star, .id c!"el", .op .comma, .id a1, .op .star, .id c!"data", .op .rpar, .op .lbrace]

theorem attrib147_scan {a0 a1 : Str} (h0 : Ident a0) (h1 : Ident a1) :
    scan isLetter wordTok .start (T.attrib147 a0 a1) = (attrib147_toks a0 a1, .start) :=
  IsTemplate.scanned (good2 h0 h1) (show IsTemplate [a0, a1] (T.attrib147 [hole 0] [hole 1]) _ (attrib147_toks [hole 0] [hole 1]) _ by
    template T.attrib147)

/-- The tokens of `T.xml396`, xml/process_items_xml.cpp:396-398. -/
def xml396_toks : List Tok :=
  [.kw .return_, .id c!"rv", .op .semi, .op .rbrace, .op .semi]

theorem xml396_scan :
    scan isLetter wordTok .start (T.xml396) = (xml396_toks, .start) :=
  IsTemplate.scanned good0 (show IsTemplate [] (T.xml396) _ (xml396_toks) _ by
    template T.xml396)

/-- The tokens of `T.xml134`, xml/process_items_xml.cpp:134-135. -/
def xml134_toks : List Tok :=
  []

theorem xml134_scan :
    scan isLetter wordTok .start (T.xml134) = (xml134_toks, .start) :=
  IsTemplate.scanned good0 (show IsTemplate [] (T.xml134) _ (xml134_toks) _ by
    template T.xml134)

/-- The tokens of `T.xml50 a2`, xml/process_items_xml.cpp:50. -/
def xml50_toks (a2 : Str) : List Tok :=
  []

theorem xml50_scan {a2 : Str} (h2 : Plain a2) :
    scan isLetter wordTok .start (T.xml50 a2) = (xml50_toks a2, .start) :=
  IsTemplate.scanned (goodT h2) (show IsTemplate [c!"x", c!"x", c!"x", c!"x", a2] (T.xml50 [hole 4]) _ (xml50_toks [hole 4]) _ by
    template T.xml50)

/-- The tokens of `T.xml52 a2`, xml/process_items_xml.cpp:52. -/
def xml52_toks (a2 : Str) : List Tok :=
  [.dir]

theorem xml52_scan {a2 : Str} (h2 : Plain a2) :
    scan isLetter wordTok .start (T.xml52 a2) = (xml52_toks a2, .start) :=
  IsTemplate.scanned (goodT h2) (show IsTemplate [c!"x", c!"x", c!"x", c!"x", a2] (T.xml52 [hole 4]) _ (xml52_toks [hole 4]) _ by
    template T.xml52)

/-- The tokens of `T.xml53`, xml/process_items_xml.cpp:53-55. -/
def xml53_toks : List Tok :=
  [.dir, .dir, .dir]

theorem xml53_scan :
    scan isLetter wordTok .start (T.xml53) = (xml53_toks, .start) :=
  IsTemplate.scanned good0 (show IsTemplate [] (T.xml53) _ (xml53_toks) _ by
    template T.xml53)

/-- The tokens of `T.xml56`, xml/process_items_xml.cpp:56-57. -/
def xml56_toks : List Tok :=
  [.dir, .dir]

theorem xml56_scan :
    scan isLetter wordTok .start (T.xml56) = (xml56_toks, .start) :=
  IsTemplate.scanned good0 (show IsTemplate [] (T.xml56) _ (xml56_toks) _ by
    template T.xml56)

/-- The tokens of `T.xml60`, xml/process_items_xml.cpp:60. -/
def xml60_toks : List Tok :=
  []

theorem xml60_scan :
    scan isLetter wordTok .start (T.xml60) = (xml60_toks, .start) :=
  IsTemplate.scanned good0 (show IsTemplate [] (T.xml60) _ (xml60_toks) _ by
    template T.xml60)

/-- The tokens of `T.xml64 a2`, xml/process_items_xml.cpp:64. -/
def xml64_toks (a2 : Str) : List Tok :=
  [.dir]

theorem xml64_scan {a2 : Str} (h2 : Plain a2) :
    scan isLetter wordTok .start (T.xml64 a2) = (xml64_toks a2, .start) :=
  IsTemplate.scanned (goodT h2) (show IsTemplate [c!"x", c!"x", c!"x", c!"x", a2] (T.xml64 [hole 4]) _ (xml64_toks [hole 4]) _ by
    template T.xml64)

/-- The tokens of `T.xml68 a2`, xml/process_items_xml.cpp:68. -/
def xml68_toks (a2 : Str) : List Tok :=
  [.dir]

theorem xml68_scan {a2 : Str} (h2 : Plain a2) :
    scan isLetter wordTok .start (T.xml68 a2) = (xml68_toks a2, .start) :=
  IsTemplate.scanned (goodT h2) (show IsTemplate [c!"x", c!"x", c!"x", c!"x", a2] (T.xml68 [hole 4]) _ (xml68_toks [hole 4]) _ by
    template T.xml68)

/-- The tokens of `T.xml93 a0`, xml/process_items_xml.cpp:93-97. -/
def xml93_toks (a0 : Str) : List Tok :=
  [.id a0, .op .scope, .id a0, .op .lpar, .op .rpar, .op .lbrace, .op .rbrace]

theorem xml93_scan {a0 : Str} (h0 : Ident a0) :
    scan isLetter wordTok .start (T.xml93 a0) = (xml93_toks a0, .start) :=
  IsTemplate.scanned (good1 h0) (show IsTemplate [a0] (T.xml93 [hole 0]) _ (xml93_toks [hole 0]) _ by
    template T.xml93)

/-- The function in `T.xml93 a0`, xml/process_items_xml.cpp:93-97. -/
def xml93_fun (a0 : Str) : Fun where
  ret := none
  name := [a0, a0]
  params := []
  base := none
  body := []

theorem xml93_parse {ext : Bool} {a0 : Str} (f : Nat) (r : List Tok) :
    pFun ext (f + 60) (xml93_toks a0 ++ r) = some (xml93_fun a0, r) := by kernel_rfl

/-- The tokens of `T.xml106 a0 a1`, xml/process_items_xml.cpp:106-120. -/
def xml106_toks (a0 a1 : Str) : List Tok :=
  [.kw .bool_, .id a0, .op .scope, .id c!"read_from_file", .op .lpar, .id c!"std", .op .scope, .id c!"string",
   .kw .const_, .op .amp, .id c!"filename", .op .comma, .id a1, .op .amp, .id c!"struct_to_fill", .op .rpar,
   .op .lbrace, .kw .bool_, .id c!"rv", .op .lbrace, .op .rbrace, .op .semi, .id c!"tinyxml2", .op .scope,
   .id c!"XMLError", .id c!"er", .op .semi, .id c!"tinyxml2", .op .scope, .id c!"XMLDocument", .id c!"doc", .op .semi,
   .id c!"er", .op .assign, .id c!"doc", .op .dot, .id c!"LoadFile", .op .lpar, .id c!"filename", .op .dot,
   .id c!"c_str", .op .lpar, .op .rpar, .op .rpar, .op .semi, .kw .if_, .op .lpar, .id c!"er", .op .eq,
   .id c!"tinyxml2", .op .scope, .id c!"XML_SUCCESS", .op .rpar, .op .lbrace, .id c!"tinyxml2", .op .scope,
   .id c!"XMLElement", .op .star, .id c!"el", .op .assign, .id c!"doc", .op .dot, .id c!"RootElement", .op .lpar,
   .op .rpar, .op .semi, .id c!"rv", .op .assign, .id (c!"do_" ++ a1), .op .lpar, .id c!"el", .op .comma, .op .amp,
   .id c!"struct_to_fill", .op .rpar, .op .semi, .op .rbrace, .kw .return_, .id c!"rv", .op .semi, .op .rbrace]

theorem xml106_scan {a0 a1 : Str} (h0 : Ident a0) (h1 : Ident a1) :
    scan isLetter wordTok .start (T.xml106 a0 a1) = (xml106_toks a0 a1, .start) :=
  IsTemplate.scanned (good2 h0 h1) (show IsTemplate [a0, a1] (T.xml106 [hole 0] [hole 1]) _ (xml106_toks [hole 0] [hole 1]) _ by
    template T.xml106)

/-- The function in `T.xml106 a0 a1`, xml/process_items_xml.cpp:106-120. -/
def xml106_fun (a0 a1 : Str) : Fun where
  ret := some (.prim .bool)
  name := [a0, c!"read_from_file"]
  params := [((.ref (.name [c!"std", c!"string"])), c!"filename"), ((.ref (.name [a1])), c!"struct_to_fill")]
  base := none
  body := [
    .decl (.prim .bool) c!"rv" none (some (.braces [])),
    .decl (.name [c!"tinyxml2", c!"XMLError"]) c!"er" none none,
    .decl (.name [c!"tinyxml2", c!"XMLDocument"]) c!"doc" none none,
    .expr (.assign (.id [c!"er"]) (.call (.mem (.id [c!"doc"]) c!"LoadFile") [(.call (.mem (.id [c!"filename"]) c!"c_str") [])])),
    .when (.bin .eq (.id [c!"er"]) (.id [c!"tinyxml2", c!"XML_SUCCESS"]))
      (.block [
        .decl (.ptr (.name [c!"tinyxml2", c!"XMLElement"])) c!"el" none (some (.call (.mem (.id [c!"doc"]) c!"RootElement") [])),
        .expr (.assign (.id [c!"rv"]) (.call (.id [(c!"do_" ++ a1)]) [(.id [c!"el"]), (.addr (.id [c!"struct_to_fill"]))]))]),
    .ret (.id [c!"rv"])]

theorem xml106_parse {ext : Bool} {a0 a1 : Str} (f : Nat) (r : List Tok) :
    pFun ext (f + 60) (xml106_toks a0 a1 ++ r) = some (xml106_fun a0 a1, r) := by kernel_rfl

/-- The tokens of `T.xml149 a0 a1`, xml/process_items_xml.cpp:149-155. -/
def xml149_toks (a0 a1 : Str) : List Tok :=
  [.id a0, .op .scope, .id a0, .op .lpar, .kw .bool_, .id c!"delta_only", .op .rpar, .op .colon, .id a1, .op .lpar,
   .op .rpar, .op .lbrace, .id c!"m_delta_only", .op .assign, .id c!"delta_only", .op .semi, .op .rbrace]

theorem xml149_scan {a0 a1 : Str} (h0 : Ident a0) (h1 : Ident a1) :
    scan isLetter wordTok .start (T.xml149 a0 a1) = (xml149_toks a0 a1, .start) :=
  IsTemplate.scanned (good2 h0 h1) (show IsTemplate [a0, a1] (T.xml149 [hole 0] [hole 1]) _ (xml149_toks [hole 0] [hole 1]) _ by
    template T.xml149)

/-- The function in `T.xml149 a0 a1`, xml/process_items_xml.cpp:149-155. -/
def xml149_fun (a0 a1 : Str) : Fun where
  ret := none
  name := [a0, a0]
  params := [((.prim .bool), c!"delta_only")]
  base := some [a1]
  body := [
    .expr (.assign (.id [c!"m_delta_only"]) (.id [c!"delta_only"]))]

theorem xml149_parse {ext : Bool} {a0 a1 : Str} (f : Nat) (r : List Tok) :
    pFun ext (f + 60) (xml149_toks a0 a1 ++ r) = some (xml149_fun a0 a1, r) := by kernel_rfl

/-- The tokens of `T.xml164 a0 a1`, xml/process_items_xml.cpp:164-177. -/
def xml164_toks (a0 a1 : Str) : List Tok :=
  [.kw .bool_, .id a0, .op .scope, .id c!"write_to_file", .op .lpar, .id c!"std", .op .scope, .id c!"string",
   .kw .const_, .op .amp, .id c!"filename", .op .comma, .id a1, .op .amp, .id c!"struct_to_read", .op .rpar,
   .op .lbrace, .kw .bool_, .id c!"rv", .op .lbrace, .op .rbrace, .op .semi, .id c!"tinyxml2", .op .scope,
   .id c!"XMLError", .id c!"er", .op .semi, .id c!"tinyxml2", .op .scope, .id c!"XMLDocument", .id c!"doc_w", .op .semi,
   .kw .auto_, .id c!"ch", .op .assign, .id c!"doc_w", .op .dot, .id c!"NewElement", .op .lpar, .str a1, .op .rpar,
   .op .semi, .id c!"doc_w", .op .dot, .id c!"InsertFirstChild", .op .lpar, .id c!"ch", .op .rpar, .op .semi,
   .id c!"tinyxml2", .op .scope, .id c!"XMLElement", .op .star, .id c!"el", .op .assign, .id c!"doc_w", .op .dot,
   .id c!"RootElement", .op .lpar, .op .rpar, .op .semi, .id (c!"do_wr_" ++ a1), .op .lpar, .id c!"el", .op .comma,
   .op .amp, .id c!"struct_to_read", .op .rpar, .op .semi, .id c!"er", .op .assign, .id c!"doc_w", .op .dot,
   .id c!"SaveFile", .op .lpar, .id c!"filename", .op .dot, .id c!"c_str", .op .lpar, .op .rpar, .op .rpar, .op .semi,
   .id c!"rv", .op .assign, .op .lpar, .id c!"er", .op .eq, .id c!"tinyxml2", .op .scope, .id c!"XML_SUCCESS",
   .op .rpar, .op .semi, .kw .return_, .id c!"rv", .op .semi, .op .rbrace]

theorem xml164_scan {a0 a1 : Str} (h0 : Ident a0) (h1 : Ident a1) :
    scan isLetter wordTok .start (T.xml164 a0 a1) = (xml164_toks a0 a1, .start) :=
  IsTemplate.scanned (good2 h0 h1) (show IsTemplate [a0, a1] (T.xml164 [hole 0] [hole 1]) _ (xml164_toks [hole 0] [hole 1]) _ by
    template T.xml164)

/-- The function in `T.xml164 a0 a1`, xml/process_items_xml.cpp:164-177. -/
def xml164_fun (a0 a1 : Str) : Fun where
  ret := some (.prim .bool)
  name := [a0, c!"write_to_file"]
  params := [((.ref (.name [c!"std", c!"string"])), c!"filename"), ((.ref (.name [a1])), c!"struct_to_read")]
  base := none
  body := [
    .decl (.prim .bool) c!"rv" none (some (.braces [])),
    .decl (.name [c!"tinyxml2", c!"XMLError"]) c!"er" none none,
    .decl (.name [c!"tinyxml2", c!"XMLDocument"]) c!"doc_w" none none,
    .decl .auto c!"ch" none (some (.call (.mem (.id [c!"doc_w"]) c!"NewElement") [(.str a1)])),
    .expr (.call (.mem (.id [c!"doc_w"]) c!"InsertFirstChild") [(.id [c!"ch"])]),
    .decl (.ptr (.name [c!"tinyxml2", c!"XMLElement"])) c!"el" none (some (.call (.mem (.id [c!"doc_w"]) c!"RootElement") [])),
    .expr (.call (.id [(c!"do_wr_" ++ a1)]) [(.id [c!"el"]), (.addr (.id [c!"struct_to_read"]))]),
    .expr (.assign (.id [c!"er"]) (.call (.mem (.id [c!"doc_w"]) c!"SaveFile") [(.call (.mem (.id [c!"filename"]) c!"c_str") [])])),
    .expr (.assign (.id [c!"rv"]) (.bin .eq (.id [c!"er"]) (.id [c!"tinyxml2", c!"XML_SUCCESS"]))),
    .ret (.id [c!"rv"])]

theorem xml164_parse {ext : Bool} {a0 a1 : Str} (f : Nat) (r : List Tok) :
    pFun ext (f + 60) (xml164_toks a0 a1 ++ r) = some (xml164_fun a0 a1, r) := by kernel_rfl

end Stfx.Cpp
