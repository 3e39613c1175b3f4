import Verif.Cpp.Chunk
import Verif.Gen.Code
/-
Generated by tools/trees.txt: tokens and syntax trees of the templates of
process_items_ini.cpp and process_items.cpp.  Each tree is proved to be the
one the grammar gives.
-/
set_option autoImplicit false
set_option maxRecDepth 4000
set_option linter.unusedVariables false
namespace Stfx.Cpp
open Stfx.Gen

/-- The tokens of `T.ini354 a0 (iniConvert .bool)`, ini/process_items_ini.cpp:354-360. -/
def ini354_bool_toks (a0 : Str) : List Tok :=
  [.kw .auto_, .id a0, .op .assign, .id c!"items", .op .dot, .id c!"find", .op .lpar, .str a0, .op .rpar, .op .semi,
   .kw .if_, .op .lpar, .id a0, .op .ne, .id c!"items", .op .dot, .id c!"cend", .op .lpar, .op .rpar, .op .rpar,
   .op .lbrace, .id c!"data", .op .dot, .id a0, .op .assign, .op .lpar, .kw .bool_, .op .rpar, .id c!"std", .op .scope,
   .id c!"stoi", .op .lpar, .id a0, .op .arrow, .id c!"second", .op .rpar, .op .semi, .op .rbrace]

theorem ini354_bool_scan {a0 : Str} (h0 : Ident a0) :
    scan isLetter wordTok .start (T.ini354 a0 (iniConvert .bool)) = (ini354_bool_toks a0, .start) :=
  IsTemplate.scanned (good1 h0) (show IsTemplate [a0] (T.ini354 [hole 0] (iniConvert .bool)) _ (ini354_bool_toks [hole 0]) _ by
    template T.ini354)

/-- The statements of `T.ini354 a0 (iniConvert .bool)`, ini/process_items_ini.cpp:354-360. -/
def ini354_bool_tree (a0 : Str) : List Stmt :=
  [
    .decl .auto a0 none (some (.call (.mem (.id [c!"items"]) c!"find") [(.str a0)])),
    .when (.bin .ne (.id [a0]) (.call (.mem (.id [c!"items"]) c!"cend") []))
      (.block [
        .expr (.assign (.mem (.id [c!"data"]) a0) (.cast .bool (.call (.id [c!"std", c!"stoi"]) [(.arrow (.id [a0]) c!"second")])))])]

theorem ini354_bool_stmts {ext : Bool} {a0 : Str} : IsStmts 40 ext (ini354_bool_toks a0) (ini354_bool_tree a0) := by stmts

theorem ini354_bool_chunk {ext : Bool} {a0 : Str} (h0 : Ident a0) : Chunk 40 ext (T.ini354 a0 (iniConvert .bool)) (ini354_bool_tree a0) :=
  ⟨_, ini354_bool_scan h0, ini354_bool_stmts⟩

/-- The tokens of `T.ini354 a0 (iniConvert .int)`, ini/process_items_ini.cpp:354-360. -/
def ini354_int_toks (a0 : Str) : List Tok :=
  [.kw .auto_, .id a0, .op .assign, .id c!"items", .op .dot, .id c!"find", .op .lpar, .str a0, .op .rpar, .op .semi,
   .kw .if_, .op .lpar, .id a0, .op .ne, .id c!"items", .op .dot, .id c!"cend", .op .lpar, .op .rpar, .op .rpar,
   .op .lbrace, .id c!"data", .op .dot, .id a0, .op .assign, .id c!"std", .op .scope, .id c!"stoi", .op .lpar, .id a0,
   .op .arrow, .id c!"second", .op .rpar, .op .semi, .op .rbrace]

theorem ini354_int_scan {a0 : Str} (h0 : Ident a0) :
    scan isLetter wordTok .start (T.ini354 a0 (iniConvert .int)) = (ini354_int_toks a0, .start) :=
  IsTemplate.scanned (good1 h0) (show IsTemplate [a0] (T.ini354 [hole 0] (iniConvert .int)) _ (ini354_int_toks [hole 0]) _ by
    template T.ini354)

/-- The statements of `T.ini354 a0 (iniConvert .int)`, ini/process_items_ini.cpp:354-360. -/
def ini354_int_tree (a0 : Str) : List Stmt :=
  [
    .decl .auto a0 none (some (.call (.mem (.id [c!"items"]) c!"find") [(.str a0)])),
    .when (.bin .ne (.id [a0]) (.call (.mem (.id [c!"items"]) c!"cend") []))
      (.block [
        .expr (.assign (.mem (.id [c!"data"]) a0) (.call (.id [c!"std", c!"stoi"]) [(.arrow (.id [a0]) c!"second")]))])]

theorem ini354_int_stmts {ext : Bool} {a0 : Str} : IsStmts 40 ext (ini354_int_toks a0) (ini354_int_tree a0) := by stmts

theorem ini354_int_chunk {ext : Bool} {a0 : Str} (h0 : Ident a0) : Chunk 40 ext (T.ini354 a0 (iniConvert .int)) (ini354_int_tree a0) :=
  ⟨_, ini354_int_scan h0, ini354_int_stmts⟩

/-- The tokens of `T.ini354 a0 (iniConvert .unsignedInt)`, ini/process_items_ini.cpp:354-360. -/
def ini354_unsignedInt_toks (a0 : Str) : List Tok :=
  [.kw .auto_, .id a0, .op .assign, .id c!"items", .op .dot, .id c!"find", .op .lpar, .str a0, .op .rpar, .op .semi,
   .kw .if_, .op .lpar, .id a0, .op .ne, .id c!"items", .op .dot, .id c!"cend", .op .lpar, .op .rpar, .op .rpar,
   .op .lbrace, .id c!"data", .op .dot, .id a0, .op .assign, .op .lpar, .kw .unsigned_, .kw .int_, .op .rpar,
   .id c!"std", .op .scope, .id c!"stoul", .op .lpar, .id a0, .op .arrow, .id c!"second", .op .rpar, .op .semi,
   .op .rbrace]

theorem ini354_unsignedInt_scan {a0 : Str} (h0 : Ident a0) :
    scan isLetter wordTok .start (T.ini354 a0 (iniConvert .unsignedInt)) = (ini354_unsignedInt_toks a0, .start) :=
  IsTemplate.scanned (good1 h0) (show IsTemplate [a0] (T.ini354 [hole 0] (iniConvert .unsignedInt)) _ (ini354_unsignedInt_toks [hole 0]) _ by
    template T.ini354)

/-- The statements of `T.ini354 a0 (iniConvert .unsignedInt)`, ini/process_items_ini.cpp:354-360. -/
def ini354_unsignedInt_tree (a0 : Str) : List Stmt :=
  [
    .decl .auto a0 none (some (.call (.mem (.id [c!"items"]) c!"find") [(.str a0)])),
    .when (.bin .ne (.id [a0]) (.call (.mem (.id [c!"items"]) c!"cend") []))
      (.block [
        .expr (.assign (.mem (.id [c!"data"]) a0) (.cast .uint (.call (.id [c!"std", c!"stoul"]) [(.arrow (.id [a0]) c!"second")])))])]

theorem ini354_unsignedInt_stmts {ext : Bool} {a0 : Str} : IsStmts 40 ext (ini354_unsignedInt_toks a0) (ini354_unsignedInt_tree a0) := by stmts

theorem ini354_unsignedInt_chunk {ext : Bool} {a0 : Str} (h0 : Ident a0) : Chunk 40 ext (T.ini354 a0 (iniConvert .unsignedInt)) (ini354_unsignedInt_tree a0) :=
  ⟨_, ini354_unsignedInt_scan h0, ini354_unsignedInt_stmts⟩

/-- The tokens of `T.ini354 a0 (iniConvert .float)`, ini/process_items_ini.cpp:354-360. -/
def ini354_float_toks (a0 : Str) : List Tok :=
  [.kw .auto_, .id a0, .op .assign, .id c!"items", .op .dot, .id c!"find", .op .lpar, .str a0, .op .rpar, .op .semi,
   .kw .if_, .op .lpar, .id a0, .op .ne, .id c!"items", .op .dot, .id c!"cend", .op .lpar, .op .rpar, .op .rpar,
   .op .lbrace, .id c!"data", .op .dot, .id a0, .op .assign, .id c!"std", .op .scope, .id c!"stof", .op .lpar, .id a0,
   .op .arrow, .id c!"second", .op .rpar, .op .semi, .op .rbrace]

theorem ini354_float_scan {a0 : Str} (h0 : Ident a0) :
    scan isLetter wordTok .start (T.ini354 a0 (iniConvert .float)) = (ini354_float_toks a0, .start) :=
  IsTemplate.scanned (good1 h0) (show IsTemplate [a0] (T.ini354 [hole 0] (iniConvert .float)) _ (ini354_float_toks [hole 0]) _ by
    template T.ini354)

/-- The statements of `T.ini354 a0 (iniConvert .float)`, ini/process_items_ini.cpp:354-360. -/
def ini354_float_tree (a0 : Str) : List Stmt :=
  [
    .decl .auto a0 none (some (.call (.mem (.id [c!"items"]) c!"find") [(.str a0)])),
    .when (.bin .ne (.id [a0]) (.call (.mem (.id [c!"items"]) c!"cend") []))
      (.block [
        .expr (.assign (.mem (.id [c!"data"]) a0) (.call (.id [c!"std", c!"stof"]) [(.arrow (.id [a0]) c!"second")]))])]

theorem ini354_float_stmts {ext : Bool} {a0 : Str} : IsStmts 40 ext (ini354_float_toks a0) (ini354_float_tree a0) := by stmts

theorem ini354_float_chunk {ext : Bool} {a0 : Str} (h0 : Ident a0) : Chunk 40 ext (T.ini354 a0 (iniConvert .float)) (ini354_float_tree a0) :=
  ⟨_, ini354_float_scan h0, ini354_float_stmts⟩

/-- The tokens of `T.ini354 a0 (iniConvert .double)`, ini/process_items_ini.cpp:354-360. -/
def ini354_double_toks (a0 : Str) : List Tok :=
  [.kw .auto_, .id a0, .op .assign, .id c!"items", .op .dot, .id c!"find", .op .lpar, .str a0, .op .rpar, .op .semi,
   .kw .if_, .op .lpar, .id a0, .op .ne, .id c!"items", .op .dot, .id c!"cend", .op .lpar, .op .rpar, .op .rpar,
   .op .lbrace, .id c!"data", .op .dot, .id a0, .op .assign, .id c!"std", .op .scope, .id c!"stod", .op .lpar, .id a0,
   .op .arrow, .id c!"second", .op .rpar, .op .semi, .op .rbrace]

theorem ini354_double_scan {a0 : Str} (h0 : Ident a0) :
    scan isLetter wordTok .start (T.ini354 a0 (iniConvert .double)) = (ini354_double_toks a0, .start) :=
  IsTemplate.scanned (good1 h0) (show IsTemplate [a0] (T.ini354 [hole 0] (iniConvert .double)) _ (ini354_double_toks [hole 0]) _ by
    template T.ini354)

/-- The statements of `T.ini354 a0 (iniConvert .double)`, ini/process_items_ini.cpp:354-360. -/
def ini354_double_tree (a0 : Str) : List Stmt :=
  [
    .decl .auto a0 none (some (.call (.mem (.id [c!"items"]) c!"find") [(.str a0)])),
    .when (.bin .ne (.id [a0]) (.call (.mem (.id [c!"items"]) c!"cend") []))
      (.block [
        .expr (.assign (.mem (.id [c!"data"]) a0) (.call (.id [c!"std", c!"stod"]) [(.arrow (.id [a0]) c!"second")]))])]

theorem ini354_double_stmts {ext : Bool} {a0 : Str} : IsStmts 40 ext (ini354_double_toks a0) (ini354_double_tree a0) := by stmts

theorem ini354_double_chunk {ext : Bool} {a0 : Str} (h0 : Ident a0) : Chunk 40 ext (T.ini354 a0 (iniConvert .double)) (ini354_double_tree a0) :=
  ⟨_, ini354_double_scan h0, ini354_double_stmts⟩

/-- The tokens of `T.ini354 a0 (iniConvert .long)`, ini/process_items_ini.cpp:354-360. -/
def ini354_long_toks (a0 : Str) : List Tok :=
  [.kw .auto_, .id a0, .op .assign, .id c!"items", .op .dot, .id c!"find", .op .lpar, .str a0, .op .rpar, .op .semi,
   .kw .if_, .op .lpar, .id a0, .op .ne, .id c!"items", .op .dot, .id c!"cend", .op .lpar, .op .rpar, .op .rpar,
   .op .lbrace, .id c!"data", .op .dot, .id a0, .op .assign, .id c!"std", .op .scope, .id c!"stol", .op .lpar, .id a0,
   .op .arrow, .id c!"second", .op .rpar, .op .semi, .op .rbrace]

theorem ini354_long_scan {a0 : Str} (h0 : Ident a0) :
    scan isLetter wordTok .start (T.ini354 a0 (iniConvert .long)) = (ini354_long_toks a0, .start) :=
  IsTemplate.scanned (good1 h0) (show IsTemplate [a0] (T.ini354 [hole 0] (iniConvert .long)) _ (ini354_long_toks [hole 0]) _ by
    template T.ini354)

/-- The statements of `T.ini354 a0 (iniConvert .long)`, ini/process_items_ini.cpp:354-360. -/
def ini354_long_tree (a0 : Str) : List Stmt :=
  [
    .decl .auto a0 none (some (.call (.mem (.id [c!"items"]) c!"find") [(.str a0)])),
    .when (.bin .ne (.id [a0]) (.call (.mem (.id [c!"items"]) c!"cend") []))
      (.block [
        .expr (.assign (.mem (.id [c!"data"]) a0) (.call (.id [c!"std", c!"stol"]) [(.arrow (.id [a0]) c!"second")]))])]

theorem ini354_long_stmts {ext : Bool} {a0 : Str} : IsStmts 40 ext (ini354_long_toks a0) (ini354_long_tree a0) := by stmts

theorem ini354_long_chunk {ext : Bool} {a0 : Str} (h0 : Ident a0) : Chunk 40 ext (T.ini354 a0 (iniConvert .long)) (ini354_long_tree a0) :=
  ⟨_, ini354_long_scan h0, ini354_long_stmts⟩

/-- The tokens of `T.ini354 a0 (iniConvert .short)`, ini/process_items_ini.cpp:354-360. -/
def ini354_short_toks (a0 : Str) : List Tok :=
  [.kw .auto_, .id a0, .op .assign, .id c!"items", .op .dot, .id c!"find", .op .lpar, .str a0, .op .rpar, .op .semi,
   .kw .if_, .op .lpar, .id a0, .op .ne, .id c!"items", .op .dot, .id c!"cend", .op .lpar, .op .rpar, .op .rpar,
   .op .lbrace, .id c!"data", .op .dot, .id a0, .op .assign, .op .lpar, .kw .short_, .op .rpar, .id c!"std", .op .scope,
   .id c!"stoi", .op .lpar, .id a0, .op .arrow, .id c!"second", .op .rpar, .op .semi, .op .rbrace]

theorem ini354_short_scan {a0 : Str} (h0 : Ident a0) :
    scan isLetter wordTok .start (T.ini354 a0 (iniConvert .short)) = (ini354_short_toks a0, .start) :=
  IsTemplate.scanned (good1 h0) (show IsTemplate [a0] (T.ini354 [hole 0] (iniConvert .short)) _ (ini354_short_toks [hole 0]) _ by
    template T.ini354)

/-- The statements of `T.ini354 a0 (iniConvert .short)`, ini/process_items_ini.cpp:354-360. -/
def ini354_short_tree (a0 : Str) : List Stmt :=
  [
    .decl .auto a0 none (some (.call (.mem (.id [c!"items"]) c!"find") [(.str a0)])),
    .when (.bin .ne (.id [a0]) (.call (.mem (.id [c!"items"]) c!"cend") []))
      (.block [
        .expr (.assign (.mem (.id [c!"data"]) a0) (.cast .short (.call (.id [c!"std", c!"stoi"]) [(.arrow (.id [a0]) c!"second")])))])]

theorem ini354_short_stmts {ext : Bool} {a0 : Str} : IsStmts 40 ext (ini354_short_toks a0) (ini354_short_tree a0) := by stmts

theorem ini354_short_chunk {ext : Bool} {a0 : Str} (h0 : Ident a0) : Chunk 40 ext (T.ini354 a0 (iniConvert .short)) (ini354_short_tree a0) :=
  ⟨_, ini354_short_scan h0, ini354_short_stmts⟩

/-- The tokens of `T.ini354 a0 (iniConvert .unsignedShort)`, ini/process_items_ini.cpp:354-360. -/
def ini354_unsignedShort_toks (a0 : Str) : List Tok :=
  [.kw .auto_, .id a0, .op .assign, .id c!"items", .op .dot, .id c!"find", .op .lpar, .str a0, .op .rpar, .op .semi,
   .kw .if_, .op .lpar, .id a0, .op .ne, .id c!"items", .op .dot, .id c!"cend", .op .lpar, .op .rpar, .op .rpar,
   .op .lbrace, .id c!"data", .op .dot, .id a0, .op .assign, .op .lpar, .kw .unsigned_, .kw .short_, .op .rpar,
   .id c!"std", .op .scope, .id c!"stoul", .op .lpar, .id a0, .op .arrow, .id c!"second", .op .rpar, .op .semi,
   .op .rbrace]

theorem ini354_unsignedShort_scan {a0 : Str} (h0 : Ident a0) :
    scan isLetter wordTok .start (T.ini354 a0 (iniConvert .unsignedShort)) = (ini354_unsignedShort_toks a0, .start) :=
  IsTemplate.scanned (good1 h0) (show IsTemplate [a0] (T.ini354 [hole 0] (iniConvert .unsignedShort)) _ (ini354_unsignedShort_toks [hole 0]) _ by
    template T.ini354)

/-- The statements of `T.ini354 a0 (iniConvert .unsignedShort)`, ini/process_items_ini.cpp:354-360. -/
def ini354_unsignedShort_tree (a0 : Str) : List Stmt :=
  [
    .decl .auto a0 none (some (.call (.mem (.id [c!"items"]) c!"find") [(.str a0)])),
    .when (.bin .ne (.id [a0]) (.call (.mem (.id [c!"items"]) c!"cend") []))
      (.block [
        .expr (.assign (.mem (.id [c!"data"]) a0) (.cast .ushort (.call (.id [c!"std", c!"stoul"]) [(.arrow (.id [a0]) c!"second")])))])]

theorem ini354_unsignedShort_stmts {ext : Bool} {a0 : Str} : IsStmts 40 ext (ini354_unsignedShort_toks a0) (ini354_unsignedShort_tree a0) := by stmts

theorem ini354_unsignedShort_chunk {ext : Bool} {a0 : Str} (h0 : Ident a0) : Chunk 40 ext (T.ini354 a0 (iniConvert .unsignedShort)) (ini354_unsignedShort_tree a0) :=
  ⟨_, ini354_unsignedShort_scan h0, ini354_unsignedShort_stmts⟩

/-- The tokens of `T.ini354 a0 (iniConvert .stdString)`, ini/process_items_ini.cpp:354-360. -/
def ini354_stdString_toks (a0 : Str) : List Tok :=
  [.kw .auto_, .id a0, .op .assign, .id c!"items", .op .dot, .id c!"find", .op .lpar, .str a0, .op .rpar, .op .semi,
   .kw .if_, .op .lpar, .id a0, .op .ne, .id c!"items", .op .dot, .id c!"cend", .op .lpar, .op .rpar, .op .rpar,
   .op .lbrace, .id c!"data", .op .dot, .id a0, .op .assign, .op .lpar, .id a0, .op .arrow, .id c!"second", .op .rpar,
   .op .semi, .op .rbrace]

theorem ini354_stdString_scan {a0 : Str} (h0 : Ident a0) :
    scan isLetter wordTok .start (T.ini354 a0 (iniConvert .stdString)) = (ini354_stdString_toks a0, .start) :=
  IsTemplate.scanned (good1 h0) (show IsTemplate [a0] (T.ini354 [hole 0] (iniConvert .stdString)) _ (ini354_stdString_toks [hole 0]) _ by
    template T.ini354)

/-- The statements of `T.ini354 a0 (iniConvert .stdString)`, ini/process_items_ini.cpp:354-360. -/
def ini354_stdString_tree (a0 : Str) : List Stmt :=
  [
    .decl .auto a0 none (some (.call (.mem (.id [c!"items"]) c!"find") [(.str a0)])),
    .when (.bin .ne (.id [a0]) (.call (.mem (.id [c!"items"]) c!"cend") []))
      (.block [
        .expr (.assign (.mem (.id [c!"data"]) a0) (.arrow (.id [a0]) c!"second"))])]

theorem ini354_stdString_stmts {ext : Bool} {a0 : Str} : IsStmts 40 ext (ini354_stdString_toks a0) (ini354_stdString_tree a0) := by stmts

theorem ini354_stdString_chunk {ext : Bool} {a0 : Str} (h0 : Ident a0) : Chunk 40 ext (T.ini354 a0 (iniConvert .stdString)) (ini354_stdString_tree a0) :=
  ⟨_, ini354_stdString_scan h0, ini354_stdString_stmts⟩

/-- The tokens of `T.ini354 a0 (iniConvert .unsignedLong)`, ini/process_items_ini.cpp:354-360. -/
def ini354_unsignedLong_toks (a0 : Str) : List Tok :=
  [.kw .auto_, .id a0, .op .assign, .id c!"items", .op .dot, .id c!"find", .op .lpar, .str a0, .op .rpar, .op .semi,
   .kw .if_, .op .lpar, .id a0, .op .ne, .id c!"items", .op .dot, .id c!"cend", .op .lpar, .op .rpar, .op .rpar,
   .op .lbrace, .id c!"data", .op .dot, .id a0, .op .assign, .id c!"std", .op .scope, .id c!"stoul", .op .lpar, .id a0,
   .op .arrow, .id c!"second", .op .rpar, .op .semi, .op .rbrace]

theorem ini354_unsignedLong_scan {a0 : Str} (h0 : Ident a0) :
    scan isLetter wordTok .start (T.ini354 a0 (iniConvert .unsignedLong)) = (ini354_unsignedLong_toks a0, .start) :=
  IsTemplate.scanned (good1 h0) (show IsTemplate [a0] (T.ini354 [hole 0] (iniConvert .unsignedLong)) _ (ini354_unsignedLong_toks [hole 0]) _ by
    template T.ini354)

/-- The statements of `T.ini354 a0 (iniConvert .unsignedLong)`, ini/process_items_ini.cpp:354-360. -/
def ini354_unsignedLong_tree (a0 : Str) : List Stmt :=
  [
    .decl .auto a0 none (some (.call (.mem (.id [c!"items"]) c!"find") [(.str a0)])),
    .when (.bin .ne (.id [a0]) (.call (.mem (.id [c!"items"]) c!"cend") []))
      (.block [
        .expr (.assign (.mem (.id [c!"data"]) a0) (.call (.id [c!"std", c!"stoul"]) [(.arrow (.id [a0]) c!"second")]))])]

theorem ini354_unsignedLong_stmts {ext : Bool} {a0 : Str} : IsStmts 40 ext (ini354_unsignedLong_toks a0) (ini354_unsignedLong_tree a0) := by stmts

theorem ini354_unsignedLong_chunk {ext : Bool} {a0 : Str} (h0 : Ident a0) : Chunk 40 ext (T.ini354 a0 (iniConvert .unsignedLong)) (ini354_unsignedLong_tree a0) :=
  ⟨_, ini354_unsignedLong_scan h0, ini354_unsignedLong_stmts⟩

/-- The tokens of `T.ini369 a0`, ini/process_items_ini.cpp:369-375. -/
def ini369_toks (a0 : Str) : List Tok :=
  [.kw .auto_, .id a0, .op .assign, .id c!"items", .op .dot, .id c!"find", .op .lpar, .str a0, .op .rpar, .op .semi,
   .kw .if_, .op .lpar, .id a0, .op .ne, .id c!"items", .op .dot, .id c!"cend", .op .lpar, .op .rpar, .op .rpar,
   .op .lbrace, .id c!"stfx", .op .scope, .id c!"s_to_e", .op .lpar, .id a0, .op .arrow, .id c!"second", .op .comma,
   .id c!"data", .op .dot, .id a0, .op .rpar, .op .semi, .op .rbrace]

theorem ini369_scan {a0 : Str} (h0 : Ident a0) :
    scan isLetter wordTok .start (T.ini369 a0) = (ini369_toks a0, .start) :=
  IsTemplate.scanned (good1 h0) (show IsTemplate [a0] (T.ini369 [hole 0]) _ (ini369_toks [hole 0]) _ by
    template T.ini369)

/-- The statements of `T.ini369 a0`, ini/process_items_ini.cpp:369-375. -/
def ini369_tree (a0 : Str) : List Stmt :=
  [
    .decl .auto a0 none (some (.call (.mem (.id [c!"items"]) c!"find") [(.str a0)])),
    .when (.bin .ne (.id [a0]) (.call (.mem (.id [c!"items"]) c!"cend") []))
      (.block [
        .expr (.call (.id [c!"stfx", c!"s_to_e"]) [(.arrow (.id [a0]) c!"second"), (.mem (.id [c!"data"]) a0)])])]

theorem ini369_stmts {ext : Bool} {a0 : Str} : IsStmts 40 ext (ini369_toks a0) (ini369_tree a0) := by stmts

theorem ini369_chunk {ext : Bool} {a0 : Str} (h0 : Ident a0) : Chunk 40 ext (T.ini369 a0) (ini369_tree a0) :=
  ⟨_, ini369_scan h0, ini369_stmts⟩

/-- The tokens of `T.ini400`, ini/process_items_ini.cpp:400-402. -/
def ini400_toks : List Tok :=
  [.kw .if_, .op .lpar, .id c!"path", .op .dot, .id c!"length", .op .lpar, .op .rpar, .op .gt, .num c!"0", .op .rpar,
   .id c!"path", .op .plusAssign, .str c!".", .op .semi]

theorem ini400_scan :
    scan isLetter wordTok .start (T.ini400) = (ini400_toks, .start) :=
  IsTemplate.scanned good0 (show IsTemplate [] (T.ini400) _ (ini400_toks) _ by
    template T.ini400)

/-- The statements of `T.ini400`, ini/process_items_ini.cpp:400-402. -/
def ini400_tree : List Stmt :=
  [
    .when (.bin .gt (.call (.mem (.id [c!"path"]) c!"length") []) (.num c!"0"))
      (.expr (.plusAssign (.id [c!"path"]) (.str c!".")))]

theorem ini400_stmts {ext : Bool} : IsStmts 40 ext (ini400_toks) (ini400_tree) := by stmts

theorem ini400_chunk {ext : Bool} : Chunk 40 ext (T.ini400) (ini400_tree) :=
  ⟨_, ini400_scan, ini400_stmts⟩

/-- The tokens of `T.ini417 a0 a1 a2`, ini/process_items_ini.cpp:417-419. -/
def ini417_toks (a0 a1 a2 : Str) : List Tok :=
  [.id c!"rv", .op .assign, .id (c!"do_rd_" ++ a1), .op .lpar, .id c!"path", .op .plus, .str a2, .op .comma,
   .id c!"data", .op .dot, .id a0, .op .rpar, .op .semi]

theorem ini417_scan {a0 a1 a2 : Str} (h0 : Ident a0) (h1 : Ident a1) (h2 : Plain a2) :
    scan isLetter wordTok .start (T.ini417 a0 a1 a2) = (ini417_toks a0 a1 a2, .start) :=
  IsTemplate.scanned (good3 h0 h1 h2) (show IsTemplate [a0, a1, c!"x", c!"x", a2] (T.ini417 [hole 0] [hole 1] [hole 4]) _ (ini417_toks [hole 0] [hole 1] [hole 4]) _ by
    template T.ini417)

/-- The statements of `T.ini417 a0 a1 a2`, ini/process_items_ini.cpp:417-419. -/
def ini417_tree (a0 a1 a2 : Str) : List Stmt :=
  [
    .expr (.assign (.id [c!"rv"]) (.call (.id [(c!"do_rd_" ++ a1)]) [(.bin .add (.id [c!"path"]) (.str a2)), (.mem (.id [c!"data"]) a0)]))]

theorem ini417_stmts {ext : Bool} {a0 a1 a2 : Str} : IsStmts 40 ext (ini417_toks a0 a1 a2) (ini417_tree a0 a1 a2) := by stmts

theorem ini417_chunk {ext : Bool} {a0 a1 a2 : Str} (h0 : Ident a0) (h1 : Ident a1) (h2 : Plain a2) : Chunk 40 ext (T.ini417 a0 a1 a2) (ini417_tree a0 a1 a2) :=
  ⟨_, ini417_scan h0 h1 h2, ini417_stmts⟩

/-- The tokens of `T.ini422 a0`, ini/process_items_ini.cpp:422. -/
def ini422_toks (a0 : Str) : List Tok :=
  []

theorem ini422_scan {a0 : Str} (h0 : Ident a0) :
    scan isLetter wordTok .start (T.ini422 a0) = (ini422_toks a0, .start) :=
  IsTemplate.scanned (good1 h0) (show IsTemplate [a0] (T.ini422 [hole 0]) _ (ini422_toks [hole 0]) _ by
    template T.ini422)

/-- The statements of `T.ini422 a0`, ini/process_items_ini.cpp:422. -/
def ini422_tree (a0 : Str) : List Stmt :=
  []

theorem ini422_stmts {ext : Bool} {a0 : Str} : IsStmts 40 ext (ini422_toks a0) (ini422_tree a0) := by stmts

theorem ini422_chunk {ext : Bool} {a0 : Str} (h0 : Ident a0) : Chunk 40 ext (T.ini422 a0) (ini422_tree a0) :=
  ⟨_, ini422_scan h0, ini422_stmts⟩

/-- The tokens of `T.ini427 a0`, ini/process_items_ini.cpp:427. -/
def ini427_toks (a0 : Str) : List Tok :=
  []

theorem ini427_scan {a0 : Str} (h0 : Ident a0) :
    scan isLetter wordTok .start (T.ini427 a0) = (ini427_toks a0, .start) :=
  IsTemplate.scanned (good1 h0) (show IsTemplate [a0] (T.ini427 [hole 0]) _ (ini427_toks [hole 0]) _ by
    template T.ini427)

/-- The statements of `T.ini427 a0`, ini/process_items_ini.cpp:427. -/
def ini427_tree (a0 : Str) : List Stmt :=
  []

theorem ini427_stmts {ext : Bool} {a0 : Str} : IsStmts 40 ext (ini427_toks a0) (ini427_tree a0) := by stmts

theorem ini427_chunk {ext : Bool} {a0 : Str} (h0 : Ident a0) : Chunk 40 ext (T.ini427 a0) (ini427_tree a0) :=
  ⟨_, ini427_scan h0, ini427_stmts⟩

/-- The tokens of `T.ini432 a0`, ini/process_items_ini.cpp:432. -/
def ini432_toks (a0 : Str) : List Tok :=
  []

theorem ini432_scan {a0 : Str} (h0 : Ident a0) :
    scan isLetter wordTok .start (T.ini432 a0) = (ini432_toks a0, .start) :=
  IsTemplate.scanned (good1 h0) (show IsTemplate [a0] (T.ini432 [hole 0]) _ (ini432_toks [hole 0]) _ by
    template T.ini432)

/-- The statements of `T.ini432 a0`, ini/process_items_ini.cpp:432. -/
def ini432_tree (a0 : Str) : List Stmt :=
  []

theorem ini432_stmts {ext : Bool} {a0 : Str} : IsStmts 40 ext (ini432_toks a0) (ini432_tree a0) := by stmts

theorem ini432_chunk {ext : Bool} {a0 : Str} (h0 : Ident a0) : Chunk 40 ext (T.ini432 a0) (ini432_tree a0) :=
  ⟨_, ini432_scan h0, ini432_stmts⟩

/-- The tokens of `T.ini305`, ini/process_items_ini.cpp:305. -/
def ini305_toks : List Tok :=
  [.kw .bool_, .id c!"rv", .op .assign, .kw .true_, .op .semi]

theorem ini305_scan :
    scan isLetter wordTok .start (T.ini305) = (ini305_toks, .start) :=
  IsTemplate.scanned good0 (show IsTemplate [] (T.ini305) _ (ini305_toks) _ by
    template T.ini305)

/-- The statements of `T.ini305`, ini/process_items_ini.cpp:305. -/
def ini305_tree : List Stmt :=
  [
    .decl (.prim .bool) c!"rv" none (some (.bool true))]

theorem ini305_stmts {ext : Bool} : IsStmts 40 ext (ini305_toks) (ini305_tree) := by stmts

theorem ini305_chunk {ext : Bool} : Chunk 40 ext (T.ini305) (ini305_tree) :=
  ⟨_, ini305_scan, ini305_stmts⟩

/-- The tokens of `T.ini310`, ini/process_items_ini.cpp:310. -/
def ini310_toks : List Tok :=
  [.kw .auto_, .id c!"found_items", .op .assign, .id c!"m_lookup", .op .dot, .id c!"under", .op .dot, .id c!"find",
   .op .lpar, .id c!"path", .op .rpar, .op .semi]

theorem ini310_scan :
    scan isLetter wordTok .start (T.ini310) = (ini310_toks, .start) :=
  IsTemplate.scanned good0 (show IsTemplate [] (T.ini310) _ (ini310_toks) _ by
    template T.ini310)

/-- The statements of `T.ini310`, ini/process_items_ini.cpp:310. -/
def ini310_tree : List Stmt :=
  [
    .decl .auto c!"found_items" none (some (.call (.mem (.mem (.id [c!"m_lookup"]) c!"under") c!"find") [(.id [c!"path"])]))]

theorem ini310_stmts {ext : Bool} : IsStmts 40 ext (ini310_toks) (ini310_tree) := by stmts

theorem ini310_chunk {ext : Bool} : Chunk 40 ext (T.ini310) (ini310_tree) :=
  ⟨_, ini310_scan, ini310_stmts⟩

/-- The tokens of `T.ini313`, ini/process_items_ini.cpp:313. -/
def ini313_toks : List Tok :=
  [.kw .auto_, .id c!"items", .op .assign, .id c!"found_items", .op .arrow, .id c!"second", .op .dot, .id c!"items",
   .op .semi]

theorem ini313_scan :
    scan isLetter wordTok .start (T.ini313) = (ini313_toks, .start) :=
  IsTemplate.scanned good0 (show IsTemplate [] (T.ini313) _ (ini313_toks) _ by
    template T.ini313)

/-- The statements of `T.ini313`, ini/process_items_ini.cpp:313. -/
def ini313_tree : List Stmt :=
  [
    .decl .auto c!"items" none (some (.mem (.arrow (.id [c!"found_items"]) c!"second") c!"items"))]

theorem ini313_stmts {ext : Bool} : IsStmts 40 ext (ini313_toks) (ini313_tree) := by stmts

theorem ini313_chunk {ext : Bool} : Chunk 40 ext (T.ini313) (ini313_tree) :=
  ⟨_, ini313_scan, ini313_stmts⟩

/-- The tokens of `T.ini444`, ini/process_items_ini.cpp:444. -/
def ini444_toks : List Tok :=
  [.id c!"rv", .op .assign, .kw .false_, .op .semi]

theorem ini444_scan :
    scan isLetter wordTok .start (T.ini444) = (ini444_toks, .start) :=
  IsTemplate.scanned good0 (show IsTemplate [] (T.ini444) _ (ini444_toks) _ by
    template T.ini444)

/-- The statements of `T.ini444`, ini/process_items_ini.cpp:444. -/
def ini444_tree : List Stmt :=
  [
    .expr (.assign (.id [c!"rv"]) (.bool false))]

theorem ini444_stmts {ext : Bool} : IsStmts 40 ext (ini444_toks) (ini444_tree) := by stmts

theorem ini444_chunk {ext : Bool} : Chunk 40 ext (T.ini444) (ini444_tree) :=
  ⟨_, ini444_scan, ini444_stmts⟩

/-- The tokens of `T.ini462`, ini/process_items_ini.cpp:462. -/
def ini462_toks : List Tok :=
  [.kw .bool_, .id c!"rv", .op .assign, .kw .true_, .op .semi]

theorem ini462_scan :
    scan isLetter wordTok .start (T.ini462) = (ini462_toks, .start) :=
  IsTemplate.scanned good0 (show IsTemplate [] (T.ini462) _ (ini462_toks) _ by
    template T.ini462)

/-- The statements of `T.ini462`, ini/process_items_ini.cpp:462. -/
def ini462_tree : List Stmt :=
  [
    .decl (.prim .bool) c!"rv" none (some (.bool true))]

theorem ini462_stmts {ext : Bool} : IsStmts 40 ext (ini462_toks) (ini462_tree) := by stmts

theorem ini462_chunk {ext : Bool} : Chunk 40 ext (T.ini462) (ini462_tree) :=
  ⟨_, ini462_scan, ini462_stmts⟩

/-- The tokens of `T.ini463`, ini/process_items_ini.cpp:463. -/
def ini463_toks : List Tok :=
  [.id c!"std", .op .scope, .id c!"string", .id c!"lower_path", .op .semi]

theorem ini463_scan :
    scan isLetter wordTok .start (T.ini463) = (ini463_toks, .start) :=
  IsTemplate.scanned good0 (show IsTemplate [] (T.ini463) _ (ini463_toks) _ by
    template T.ini463)

/-- The statements of `T.ini463`, ini/process_items_ini.cpp:463. -/
def ini463_tree : List Stmt :=
  [
    .decl (.name [c!"std", c!"string"]) c!"lower_path" none none]

theorem ini463_stmts {ext : Bool} : IsStmts 40 ext (ini463_toks) (ini463_tree) := by stmts

theorem ini463_chunk {ext : Bool} : Chunk 40 ext (T.ini463) (ini463_tree) :=
  ⟨_, ini463_scan, ini463_stmts⟩

/-- The tokens of `T.ini466 a0`, ini/process_items_ini.cpp:466. -/
def ini466_toks (a0 : Str) : List Tok :=
  [.id a0, .id c!"default_data", .op .semi]

theorem ini466_scan {a0 : Str} (h0 : Ident a0) :
    scan isLetter wordTok .start (T.ini466 a0) = (ini466_toks a0, .start) :=
  IsTemplate.scanned (good1 h0) (show IsTemplate [a0] (T.ini466 [hole 0]) _ (ini466_toks [hole 0]) _ by
    template T.ini466)

/-- The statements of `T.ini466 a0`, ini/process_items_ini.cpp:466. -/
def ini466_tree (a0 : Str) : List Stmt :=
  [
    .decl (.name [a0]) c!"default_data" none none]

theorem ini466_stmts {ext : Bool} {a0 : Str} : IsStmts 40 ext (ini466_toks a0) (ini466_tree a0) := by stmts

theorem ini466_chunk {ext : Bool} {a0 : Str} (h0 : Ident a0) : Chunk 40 ext (T.ini466 a0) (ini466_tree a0) :=
  ⟨_, ini466_scan h0, ini466_stmts⟩

/-- The tokens of `T.ini468`, ini/process_items_ini.cpp:468-474. -/
def ini468_toks : List Tok :=
  [.kw .if_, .op .lpar, .id c!"path", .op .dot, .id c!"length", .op .lpar, .op .rpar, .op .gt, .num c!"0", .op .rpar,
   .op .lbrace, .id c!"fmt", .op .scope, .id c!"println", .op .lpar, .id c!"m_file", .op .comma, .str c!"", .op .rpar,
   .op .semi, .id c!"fmt", .op .scope, .id c!"println", .op .lpar, .id c!"m_file", .op .comma, .str c!"[{}]",
   .op .comma, .id c!"path", .op .rpar, .op .semi, .op .rbrace]

theorem ini468_scan :
    scan isLetter wordTok .start (T.ini468) = (ini468_toks, .start) :=
  IsTemplate.scanned good0 (show IsTemplate [] (T.ini468) _ (ini468_toks) _ by
    template T.ini468)

/-- The statements of `T.ini468`, ini/process_items_ini.cpp:468-474. -/
def ini468_tree : List Stmt :=
  [
    .when (.bin .gt (.call (.mem (.id [c!"path"]) c!"length") []) (.num c!"0"))
      (.block [
        .expr (.call (.id [c!"fmt", c!"println"]) [(.id [c!"m_file"]), (.str c!"")]),
        .expr (.call (.id [c!"fmt", c!"println"]) [(.id [c!"m_file"]), (.str c!"[{}]"), (.id [c!"path"])])])]

theorem ini468_stmts {ext : Bool} : IsStmts 40 ext (ini468_toks) (ini468_tree) := by stmts

theorem ini468_chunk {ext : Bool} : Chunk 40 ext (T.ini468) (ini468_tree) :=
  ⟨_, ini468_scan, ini468_stmts⟩

/-- The tokens of `T.ini483 a0`, ini/process_items_ini.cpp:483-485. -/
def ini483_toks (a0 : Str) : List Tok :=
  [.id c!"fmt", .op .scope, .id c!"println", .op .lpar, .id c!"m_file", .op .comma, .str (a0 ++ c!" {}"), .op .comma,
   .op .lpar, .kw .int_, .op .rpar, .id c!"data", .op .arrow, .id a0, .op .rpar, .op .semi]

theorem ini483_scan {a0 : Str} (h0 : Ident a0) :
    scan isLetter wordTok .start (T.ini483 a0) = (ini483_toks a0, .start) :=
  IsTemplate.scanned (good1 h0) (show IsTemplate [a0] (T.ini483 [hole 0]) _ (ini483_toks [hole 0]) _ by
    template T.ini483)

/-- The statements of `T.ini483 a0`, ini/process_items_ini.cpp:483-485. -/
def ini483_tree (a0 : Str) : List Stmt :=
  [
    .expr (.call (.id [c!"fmt", c!"println"]) [(.id [c!"m_file"]), (.str (a0 ++ c!" {}")), (.cast .int (.arrow (.id [c!"data"]) a0))])]

theorem ini483_stmts {ext : Bool} {a0 : Str} : IsStmts 40 ext (ini483_toks a0) (ini483_tree a0) := by stmts

theorem ini483_chunk {ext : Bool} {a0 : Str} (h0 : Ident a0) : Chunk 40 ext (T.ini483 a0) (ini483_tree a0) :=
  ⟨_, ini483_scan h0, ini483_stmts⟩

/-- The tokens of `T.ini489 a0`, ini/process_items_ini.cpp:489-494. -/
def ini489_toks (a0 : Str) : List Tok :=
  [.kw .if_, .op .lpar, .id c!"m_delta_only", .op .eq, .kw .false_, .op .or, .id c!"data", .op .arrow, .id a0, .op .ne,
   .id c!"default_data", .op .dot, .id a0, .op .rpar, .op .lbrace, .id c!"fmt", .op .scope, .id c!"println", .op .lpar,
   .id c!"m_file", .op .comma, .str (a0 ++ c!" {}"), .op .comma, .op .lpar, .kw .int_, .op .rpar, .id c!"data",
   .op .arrow, .id a0, .op .rpar, .op .semi, .op .rbrace]

theorem ini489_scan {a0 : Str} (h0 : Ident a0) :
    scan isLetter wordTok .start (T.ini489 a0) = (ini489_toks a0, .start) :=
  IsTemplate.scanned (good1 h0) (show IsTemplate [a0] (T.ini489 [hole 0]) _ (ini489_toks [hole 0]) _ by
    template T.ini489)

/-- The statements of `T.ini489 a0`, ini/process_items_ini.cpp:489-494. -/
def ini489_tree (a0 : Str) : List Stmt :=
  [
    .when (.bin .or (.bin .eq (.id [c!"m_delta_only"]) (.bool false)) (.bin .ne (.arrow (.id [c!"data"]) a0) (.mem (.id [c!"default_data"]) a0)))
      (.block [
        .expr (.call (.id [c!"fmt", c!"println"]) [(.id [c!"m_file"]), (.str (a0 ++ c!" {}")), (.cast .int (.arrow (.id [c!"data"]) a0))])])]

theorem ini489_stmts {ext : Bool} {a0 : Str} : IsStmts 40 ext (ini489_toks a0) (ini489_tree a0) := by stmts

theorem ini489_chunk {ext : Bool} {a0 : Str} (h0 : Ident a0) : Chunk 40 ext (T.ini489 a0) (ini489_tree a0) :=
  ⟨_, ini489_scan h0, ini489_stmts⟩

/-- The tokens of `T.ini508 a0`, ini/process_items_ini.cpp:508-510. -/
def ini508_toks (a0 : Str) : List Tok :=
  [.id c!"fmt", .op .scope, .id c!"println", .op .lpar, .id c!"m_file", .op .comma, .str (a0 ++ c!" {}"), .op .comma,
   .id c!"data", .op .arrow, .id a0, .op .rpar, .op .semi]

theorem ini508_scan {a0 : Str} (h0 : Ident a0) :
    scan isLetter wordTok .start (T.ini508 a0) = (ini508_toks a0, .start) :=
  IsTemplate.scanned (good1 h0) (show IsTemplate [a0] (T.ini508 [hole 0]) _ (ini508_toks [hole 0]) _ by
    template T.ini508)

/-- The statements of `T.ini508 a0`, ini/process_items_ini.cpp:508-510. -/
def ini508_tree (a0 : Str) : List Stmt :=
  [
    .expr (.call (.id [c!"fmt", c!"println"]) [(.id [c!"m_file"]), (.str (a0 ++ c!" {}")), (.arrow (.id [c!"data"]) a0)])]

theorem ini508_stmts {ext : Bool} {a0 : Str} : IsStmts 40 ext (ini508_toks a0) (ini508_tree a0) := by stmts

theorem ini508_chunk {ext : Bool} {a0 : Str} (h0 : Ident a0) : Chunk 40 ext (T.ini508 a0) (ini508_tree a0) :=
  ⟨_, ini508_scan h0, ini508_stmts⟩

/-- The tokens of `T.ini514 a0`, ini/process_items_ini.cpp:514-519. -/
def ini514_toks (a0 : Str) : List Tok :=
  [.kw .if_, .op .lpar, .id c!"m_delta_only", .op .eq, .kw .false_, .op .or, .id c!"data", .op .arrow, .id a0, .op .ne,
   .id c!"default_data", .op .dot, .id a0, .op .rpar, .op .lbrace, .id c!"fmt", .op .scope, .id c!"println", .op .lpar,
   .id c!"m_file", .op .comma, .str (a0 ++ c!" {}"), .op .comma, .id c!"data", .op .arrow, .id a0, .op .rpar, .op .semi,
   .op .rbrace]

theorem ini514_scan {a0 : Str} (h0 : Ident a0) :
    scan isLetter wordTok .start (T.ini514 a0) = (ini514_toks a0, .start) :=
  IsTemplate.scanned (good1 h0) (show IsTemplate [a0] (T.ini514 [hole 0]) _ (ini514_toks [hole 0]) _ by
    template T.ini514)

/-- The statements of `T.ini514 a0`, ini/process_items_ini.cpp:514-519. -/
def ini514_tree (a0 : Str) : List Stmt :=
  [
    .when (.bin .or (.bin .eq (.id [c!"m_delta_only"]) (.bool false)) (.bin .ne (.arrow (.id [c!"data"]) a0) (.mem (.id [c!"default_data"]) a0)))
      (.block [
        .expr (.call (.id [c!"fmt", c!"println"]) [(.id [c!"m_file"]), (.str (a0 ++ c!" {}")), (.arrow (.id [c!"data"]) a0)])])]

theorem ini514_stmts {ext : Bool} {a0 : Str} : IsStmts 40 ext (ini514_toks a0) (ini514_tree a0) := by stmts

theorem ini514_chunk {ext : Bool} {a0 : Str} (h0 : Ident a0) : Chunk 40 ext (T.ini514 a0) (ini514_tree a0) :=
  ⟨_, ini514_scan h0, ini514_stmts⟩

/-- The tokens of `T.ini555 a0`, ini/process_items_ini.cpp:555-557. -/
def ini555_toks (a0 : Str) : List Tok :=
  [.id c!"fmt", .op .scope, .id c!"println", .op .lpar, .id c!"m_file", .op .comma, .str (a0 ++ c!" {}"), .op .comma,
   .id c!"data", .op .arrow, .id a0, .op .rpar, .op .semi]

theorem ini555_scan {a0 : Str} (h0 : Ident a0) :
    scan isLetter wordTok .start (T.ini555 a0) = (ini555_toks a0, .start) :=
  IsTemplate.scanned (good1 h0) (show IsTemplate [a0] (T.ini555 [hole 0]) _ (ini555_toks [hole 0]) _ by
    template T.ini555)

/-- The statements of `T.ini555 a0`, ini/process_items_ini.cpp:555-557. -/
def ini555_tree (a0 : Str) : List Stmt :=
  [
    .expr (.call (.id [c!"fmt", c!"println"]) [(.id [c!"m_file"]), (.str (a0 ++ c!" {}")), (.arrow (.id [c!"data"]) a0)])]

theorem ini555_stmts {ext : Bool} {a0 : Str} : IsStmts 40 ext (ini555_toks a0) (ini555_tree a0) := by stmts

theorem ini555_chunk {ext : Bool} {a0 : Str} (h0 : Ident a0) : Chunk 40 ext (T.ini555 a0) (ini555_tree a0) :=
  ⟨_, ini555_scan h0, ini555_stmts⟩

/-- The tokens of `T.ini562 a0`, ini/process_items_ini.cpp:562-567. -/
def ini562_toks (a0 : Str) : List Tok :=
  [.kw .if_, .op .lpar, .id c!"m_delta_only", .op .eq, .kw .false_, .op .or, .id c!"data", .op .arrow, .id a0, .op .ne,
   .id c!"default_data", .op .dot, .id a0, .op .rpar, .op .lbrace, .id c!"fmt", .op .scope, .id c!"println", .op .lpar,
   .id c!"m_file", .op .comma, .str (a0 ++ c!" {}"), .op .comma, .id c!"data", .op .arrow, .id a0, .op .rpar, .op .semi,
   .op .rbrace]

theorem ini562_scan {a0 : Str} (h0 : Ident a0) :
    scan isLetter wordTok .start (T.ini562 a0) = (ini562_toks a0, .start) :=
  IsTemplate.scanned (good1 h0) (show IsTemplate [a0] (T.ini562 [hole 0]) _ (ini562_toks [hole 0]) _ by
    template T.ini562)

/-- The statements of `T.ini562 a0`, ini/process_items_ini.cpp:562-567. -/
def ini562_tree (a0 : Str) : List Stmt :=
  [
    .when (.bin .or (.bin .eq (.id [c!"m_delta_only"]) (.bool false)) (.bin .ne (.arrow (.id [c!"data"]) a0) (.mem (.id [c!"default_data"]) a0)))
      (.block [
        .expr (.call (.id [c!"fmt", c!"println"]) [(.id [c!"m_file"]), (.str (a0 ++ c!" {}")), (.arrow (.id [c!"data"]) a0)])])]

theorem ini562_stmts {ext : Bool} {a0 : Str} : IsStmts 40 ext (ini562_toks a0) (ini562_tree a0) := by stmts

theorem ini562_chunk {ext : Bool} {a0 : Str} (h0 : Ident a0) : Chunk 40 ext (T.ini562 a0) (ini562_tree a0) :=
  ⟨_, ini562_scan h0, ini562_stmts⟩

/-- The tokens of `T.ini571 a0 a1 a2`, ini/process_items_ini.cpp:571-579. -/
def ini571_toks (a0 a1 a2 : Str) : List Tok :=
  [.id c!"lower_path", .op .assign, .id c!"path", .op .semi, .kw .if_, .op .lpar, .id c!"lower_path", .op .dot,
   .id c!"length", .op .lpar, .op .rpar, .op .gt, .num c!"0", .op .rpar, .op .lbrace, .id c!"lower_path",
   .op .plusAssign, .str c!".", .op .semi, .op .rbrace, .id c!"lower_path", .op .plusAssign, .str a2, .op .semi,
   .id (c!"do_wr_" ++ a1), .op .lpar, .id c!"lower_path", .op .comma, .op .amp, .id c!"data", .op .arrow, .id a0,
   .op .rpar, .op .semi]

theorem ini571_scan {a0 a1 a2 : Str} (h0 : Ident a0) (h1 : Ident a1) (h2 : Plain a2) :
    scan isLetter wordTok .start (T.ini571 a0 a1 a2) = (ini571_toks a0 a1 a2, .start) :=
  IsTemplate.scanned (good3 h0 h1 h2) (show IsTemplate [a0, a1, c!"x", c!"x", a2] (T.ini571 [hole 0] [hole 1] [hole 4]) _ (ini571_toks [hole 0] [hole 1] [hole 4]) _ by
    template T.ini571)

/-- The statements of `T.ini571 a0 a1 a2`, ini/process_items_ini.cpp:571-579. -/
def ini571_tree (a0 a1 a2 : Str) : List Stmt :=
  [
    .expr (.assign (.id [c!"lower_path"]) (.id [c!"path"])),
    .when (.bin .gt (.call (.mem (.id [c!"lower_path"]) c!"length") []) (.num c!"0"))
      (.block [
        .expr (.plusAssign (.id [c!"lower_path"]) (.str c!"."))]),
    .expr (.plusAssign (.id [c!"lower_path"]) (.str a2)),
    .expr (.call (.id [(c!"do_wr_" ++ a1)]) [(.id [c!"lower_path"]), (.addr (.arrow (.id [c!"data"]) a0))])]

theorem ini571_stmts {ext : Bool} {a0 a1 a2 : Str} : IsStmts 40 ext (ini571_toks a0 a1 a2) (ini571_tree a0 a1 a2) := by stmts

theorem ini571_chunk {ext : Bool} {a0 a1 a2 : Str} (h0 : Ident a0) (h1 : Ident a1) (h2 : Plain a2) : Chunk 40 ext (T.ini571 a0 a1 a2) (ini571_tree a0 a1 a2) :=
  ⟨_, ini571_scan h0 h1 h2, ini571_stmts⟩

/-- The tokens of `T.ini582 a0`, ini/process_items_ini.cpp:582. -/
def ini582_toks (a0 : Str) : List Tok :=
  []

theorem ini582_scan {a0 : Str} (h0 : Ident a0) :
    scan isLetter wordTok .start (T.ini582 a0) = (ini582_toks a0, .start) :=
  IsTemplate.scanned (good1 h0) (show IsTemplate [a0] (T.ini582 [hole 0]) _ (ini582_toks [hole 0]) _ by
    template T.ini582)

/-- The statements of `T.ini582 a0`, ini/process_items_ini.cpp:582. -/
def ini582_tree (a0 : Str) : List Stmt :=
  []

theorem ini582_stmts {ext : Bool} {a0 : Str} : IsStmts 40 ext (ini582_toks a0) (ini582_tree a0) := by stmts

theorem ini582_chunk {ext : Bool} {a0 : Str} (h0 : Ident a0) : Chunk 40 ext (T.ini582 a0) (ini582_tree a0) :=
  ⟨_, ini582_scan h0, ini582_stmts⟩

/-- The tokens of `T.ini587 a0`, ini/process_items_ini.cpp:587. -/
def ini587_toks (a0 : Str) : List Tok :=
  []

theorem ini587_scan {a0 : Str} (h0 : Ident a0) :
    scan isLetter wordTok .start (T.ini587 a0) = (ini587_toks a0, .start) :=
  IsTemplate.scanned (good1 h0) (show IsTemplate [a0] (T.ini587 [hole 0]) _ (ini587_toks [hole 0]) _ by
    template T.ini587)

/-- The statements of `T.ini587 a0`, ini/process_items_ini.cpp:587. -/
def ini587_tree (a0 : Str) : List Stmt :=
  []

theorem ini587_stmts {ext : Bool} {a0 : Str} : IsStmts 40 ext (ini587_toks a0) (ini587_tree a0) := by stmts

theorem ini587_chunk {ext : Bool} {a0 : Str} (h0 : Ident a0) : Chunk 40 ext (T.ini587 a0) (ini587_tree a0) :=
  ⟨_, ini587_scan h0, ini587_stmts⟩

/-- The tokens of `T.ini592 a0`, ini/process_items_ini.cpp:592. -/
def ini592_toks (a0 : Str) : List Tok :=
  []

theorem ini592_scan {a0 : Str} (h0 : Ident a0) :
    scan isLetter wordTok .start (T.ini592 a0) = (ini592_toks a0, .start) :=
  IsTemplate.scanned (good1 h0) (show IsTemplate [a0] (T.ini592 [hole 0]) _ (ini592_toks [hole 0]) _ by
    template T.ini592)

/-- The statements of `T.ini592 a0`, ini/process_items_ini.cpp:592. -/
def ini592_tree (a0 : Str) : List Stmt :=
  []

theorem ini592_stmts {ext : Bool} {a0 : Str} : IsStmts 40 ext (ini592_toks a0) (ini592_tree a0) := by stmts

theorem ini592_chunk {ext : Bool} {a0 : Str} (h0 : Ident a0) : Chunk 40 ext (T.ini592 a0) (ini592_tree a0) :=
  ⟨_, ini592_scan h0, ini592_stmts⟩

/-- The tokens of `T.base162 a0`, process_items.cpp:162. -/
def base162_toks (a0 : Str) : List Tok :=
  [.id c!"std", .op .scope, .id c!"string", .id c!"rv", .op .assign, .op .lpar, .id (a0 ++ c!"_to_string"), .op .dot,
   .id c!"find", .op .lpar, .id c!"e", .op .rpar, .op .ne, .id (a0 ++ c!"_to_string"), .op .dot, .id c!"end", .op .lpar,
   .op .rpar, .op .rpar, .op .question, .id (a0 ++ c!"_to_string"), .op .lbrack, .id c!"e", .op .rbrack, .op .colon,
   .id c!"std", .op .scope, .id c!"to_string", .op .lpar, .kw .int_, .op .lpar, .id c!"e", .op .rpar, .op .rpar,
   .op .semi]

theorem base162_scan {a0 : Str} (h0 : Ident a0) :
    scan isLetter wordTok .start (T.base162 a0) = (base162_toks a0, .start) :=
  IsTemplate.scanned (good1 h0) (show IsTemplate [a0] (T.base162 [hole 0]) _ (base162_toks [hole 0]) _ by
    template T.base162)

/-- The statements of `T.base162 a0`, process_items.cpp:162. -/
def base162_tree (a0 : Str) : List Stmt :=
  [
    .decl (.name [c!"std", c!"string"]) c!"rv" none (some (.cond (.bin .ne (.call (.mem (.id [(a0 ++ c!"_to_string")]) c!"find") [(.id [c!"e"])]) (.call (.mem (.id [(a0 ++ c!"_to_string")]) c!"end") [])) (.index (.id [(a0 ++ c!"_to_string")]) (.id [c!"e"])) (.call (.id [c!"std", c!"to_string"]) [(.cast .int (.id [c!"e"]))])))]

theorem base162_stmts {ext : Bool} {a0 : Str} : IsStmts 40 ext (base162_toks a0) (base162_tree a0) := by stmts

theorem base162_chunk {ext : Bool} {a0 : Str} (h0 : Ident a0) : Chunk 40 ext (T.base162 a0) (base162_tree a0) :=
  ⟨_, base162_scan h0, base162_stmts⟩

/-- The tokens of `T.base170`, process_items.cpp:170. -/
def base170_toks : List Tok :=
  [.kw .bool_, .id c!"rv", .op .lbrace, .kw .false_, .op .rbrace, .op .semi]

theorem base170_scan :
    scan isLetter wordTok .start (T.base170) = (base170_toks, .start) :=
  IsTemplate.scanned good0 (show IsTemplate [] (T.base170) _ (base170_toks) _ by
    template T.base170)

/-- The statements of `T.base170`, process_items.cpp:170. -/
def base170_tree : List Stmt :=
  [
    .decl (.prim .bool) c!"rv" none (some (.braces [(.bool false)]))]

theorem base170_stmts {ext : Bool} : IsStmts 40 ext (base170_toks) (base170_tree) := by stmts

theorem base170_chunk {ext : Bool} : Chunk 40 ext (T.base170) (base170_tree) :=
  ⟨_, base170_scan, base170_stmts⟩

/-- The tokens of `T.base186 a0`, process_items.cpp:186-204. -/
def base186_toks (a0 : Str) : List Tok :=
  [.kw .if_, .op .lpar, .id (c!"string_to_" ++ a0), .op .dot, .id c!"find", .op .lpar, .id c!"s", .op .rpar, .op .ne,
   .id (c!"string_to_" ++ a0), .op .dot, .id c!"end", .op .lpar, .op .rpar, .op .rpar, .op .lbrace, .id c!"e",
   .op .assign, .id (c!"string_to_" ++ a0), .op .lbrack, .id c!"s", .op .rbrack, .op .semi, .id c!"rv", .op .assign,
   .kw .true_, .op .semi, .op .rbrace, .kw .else_, .op .lbrace, .kw .try_, .op .lbrace, .kw .int_, .id c!"i",
   .op .assign, .id c!"std", .op .scope, .id c!"stoi", .op .lpar, .id c!"s", .op .rpar, .op .semi, .id c!"e",
   .op .assign, .id a0, .op .lpar, .id c!"i", .op .rpar, .op .semi, .op .rbrace, .kw .catch_, .op .lpar, .id c!"std",
   .op .scope, .id c!"exception", .op .amp, .op .rpar, .op .lbrace, .op .rbrace, .op .rbrace]

theorem base186_scan {a0 : Str} (h0 : Ident a0) :
    scan isLetter wordTok .start (T.base186 a0) = (base186_toks a0, .start) :=
  IsTemplate.scanned (good1 h0) (show IsTemplate [a0] (T.base186 [hole 0]) _ (base186_toks [hole 0]) _ by
    template T.base186)

/-- The statements of `T.base186 a0`, process_items.cpp:186-204. -/
def base186_tree (a0 : Str) : List Stmt :=
  [
    .ite (.bin .ne (.call (.mem (.id [(c!"string_to_" ++ a0)]) c!"find") [(.id [c!"s"])]) (.call (.mem (.id [(c!"string_to_" ++ a0)]) c!"end") []))
      (.block [
        .expr (.assign (.id [c!"e"]) (.index (.id [(c!"string_to_" ++ a0)]) (.id [c!"s"]))),
        .expr (.assign (.id [c!"rv"]) (.bool true))])
      (.block [
        .try [
          .decl (.prim .int) c!"i" none (some (.call (.id [c!"std", c!"stoi"]) [(.id [c!"s"])])),
          .expr (.assign (.id [c!"e"]) (.call (.id [a0]) [(.id [c!"i"])]))] (.ref (.name [c!"std", c!"exception"])) []])]

theorem base186_stmts {ext : Bool} {a0 : Str} : IsStmts 40 ext (base186_toks a0) (base186_tree a0) := by stmts

theorem base186_chunk {ext : Bool} {a0 : Str} (h0 : Ident a0) : Chunk 40 ext (T.base186 a0) (base186_tree a0) :=
  ⟨_, base186_scan h0, base186_stmts⟩

/-- The tokens of `T.ini301 a0 a1`, ini/process_items_ini.cpp:301-304. -/
def ini301_toks (a0 a1 : Str) : List Tok :=
  [.kw .bool_, .id a0, .op .scope, .id (c!"do_rd_" ++ a1), .op .lpar, .id c!"std", .op .scope, .id c!"string",
   .id c!"path", .op .comma, .id a1, .op .amp, .id c!"data", .op .rpar, .op .lbrace]

theorem ini301_scan {a0 a1 : Str} (h0 : Ident a0) (h1 : Ident a1) :
    scan isLetter wordTok .start (T.ini301 a0 a1) = (ini301_toks a0 a1, .start) :=
  IsTemplate.scanned (good2 h0 h1) (show IsTemplate [a0, a1] (T.ini301 [hole 0] [hole 1]) _ (ini301_toks [hole 0] [hole 1]) _ by
    template T.ini301)

/-- The tokens of `T.ini458 a0 a1`, ini/process_items_ini.cpp:458-461. -/
def ini458_toks (a0 a1 : Str) : List Tok :=
  [.kw .bool_, .id a0, .op .scope, .id (c!"do_wr_" ++ a1), .op .lpar, .id c!"std", .op .scope, .id c!"string",
   .id c!"path", .op .comma, .id a1, .op .star, .id c!"data", .op .rpar, .op .lbrace]

theorem ini458_scan {a0 a1 : Str} (h0 : Ident a0) (h1 : Ident a1) :
    scan isLetter wordTok .start (T.ini458 a0 a1) = (ini458_toks a0 a1, .start) :=
  IsTemplate.scanned (good2 h0 h1) (show IsTemplate [a0, a1] (T.ini458 [hole 0] [hole 1]) _ (ini458_toks [hole 0] [hole 1]) _ by
    template T.ini458)

/-- The tokens of `T.ini306`, ini/process_items_ini.cpp:306. -/
def ini306_toks : List Tok :=
  [.kw .try_]

theorem ini306_scan :
    scan isLetter wordTok .start (T.ini306) = (ini306_toks, .start) :=
  IsTemplate.scanned good0 (show IsTemplate [] (T.ini306) _ (ini306_toks) _ by
    template T.ini306)

/-- The tokens of `T.ini307`, ini/process_items_ini.cpp:307. -/
def ini307_toks : List Tok :=
  [.op .lbrace]

theorem ini307_scan :
    scan isLetter wordTok .start (T.ini307) = (ini307_toks, .start) :=
  IsTemplate.scanned good0 (show IsTemplate [] (T.ini307) _ (ini307_toks) _ by
    template T.ini307)

/-- The tokens of `T.ini311`, ini/process_items_ini.cpp:311. -/
def ini311_toks : List Tok :=
  [.kw .if_, .op .lpar, .id c!"found_items", .op .ne, .id c!"m_lookup", .op .dot, .id c!"under", .op .dot, .id c!"cend",
   .op .lpar, .op .rpar, .op .rpar]

theorem ini311_scan :
    scan isLetter wordTok .start (T.ini311) = (ini311_toks, .start) :=
  IsTemplate.scanned good0 (show IsTemplate [] (T.ini311) _ (ini311_toks) _ by
    template T.ini311)

/-- The tokens of `T.ini312`, ini/process_items_ini.cpp:312. -/
def ini312_toks : List Tok :=
  [.op .lbrace]

theorem ini312_scan :
    scan isLetter wordTok .start (T.ini312) = (ini312_toks, .start) :=
  IsTemplate.scanned good0 (show IsTemplate [] (T.ini312) _ (ini312_toks) _ by
    template T.ini312)

/-- The tokens of `T.ini381`, ini/process_items_ini.cpp:381. -/
def ini381_toks : List Tok :=
  [.op .rbrace]

theorem ini381_scan :
    scan isLetter wordTok .start (T.ini381) = (ini381_toks, .start) :=
  IsTemplate.scanned good0 (show IsTemplate [] (T.ini381) _ (ini381_toks) _ by
    template T.ini381)

/-- The tokens of `T.ini440`, ini/process_items_ini.cpp:440. -/
def ini440_toks : List Tok :=
  [.op .rbrace]

theorem ini440_scan :
    scan isLetter wordTok .start (T.ini440) = (ini440_toks, .start) :=
  IsTemplate.scanned good0 (show IsTemplate [] (T.ini440) _ (ini440_toks) _ by
    template T.ini440)

/-- The tokens of `T.ini442`, ini/process_items_ini.cpp:442. -/
def ini442_toks : List Tok :=
  [.kw .catch_, .op .lpar, .id c!"std", .op .scope, .id c!"exception", .op .amp, .op .rpar]

theorem ini442_scan :
    scan isLetter wordTok .start (T.ini442) = (ini442_toks, .start) :=
  IsTemplate.scanned good0 (show IsTemplate [] (T.ini442) _ (ini442_toks) _ by
    template T.ini442)

/-- The tokens of `T.ini443`, ini/process_items_ini.cpp:443. -/
def ini443_toks : List Tok :=
  [.op .lbrace]

theorem ini443_scan :
    scan isLetter wordTok .start (T.ini443) = (ini443_toks, .start) :=
  IsTemplate.scanned good0 (show IsTemplate [] (T.ini443) _ (ini443_toks) _ by
    template T.ini443)

/-- The tokens of `T.ini445`, ini/process_items_ini.cpp:445. -/
def ini445_toks : List Tok :=
  [.op .rbrace]

theorem ini445_scan :
    scan isLetter wordTok .start (T.ini445) = (ini445_toks, .start) :=
  IsTemplate.scanned good0 (show IsTemplate [] (T.ini445) _ (ini445_toks) _ by
    template T.ini445)

/-- The tokens of `T.ini446`, ini/process_items_ini.cpp:446-448. -/
def ini446_toks : List Tok :=
  [.kw .return_, .id c!"rv", .op .semi, .op .rbrace, .op .semi]

theorem ini446_scan :
    scan isLetter wordTok .start (T.ini446) = (ini446_toks, .start) :=
  IsTemplate.scanned good0 (show IsTemplate [] (T.ini446) _ (ini446_toks) _ by
    template T.ini446)

/-- The tokens of `T.ini208`, ini/process_items_ini.cpp:208-209. -/
def ini208_toks : List Tok :=
  []

theorem ini208_scan :
    scan isLetter wordTok .start (T.ini208) = (ini208_toks, .start) :=
  IsTemplate.scanned good0 (show IsTemplate [] (T.ini208) _ (ini208_toks) _ by
    template T.ini208)

/-- The tokens of `T.ini53`, ini/process_items_ini.cpp:53-56. -/
def ini53_toks : List Tok :=
  [.dir, .dir, .dir, .dir]

theorem ini53_scan :
    scan isLetter wordTok .start (T.ini53) = (ini53_toks, .start) :=
  IsTemplate.scanned good0 (show IsTemplate [] (T.ini53) _ (ini53_toks) _ by
    template T.ini53)

/-- The tokens of `T.ini59`, ini/process_items_ini.cpp:59. -/
def ini59_toks : List Tok :=
  [.dir]

theorem ini59_scan :
    scan isLetter wordTok .start (T.ini59) = (ini59_toks, .start) :=
  IsTemplate.scanned good0 (show IsTemplate [] (T.ini59) _ (ini59_toks) _ by
    template T.ini59)

/-- The tokens of `T.ini61`, ini/process_items_ini.cpp:61. -/
def ini61_toks : List Tok :=
  []

theorem ini61_scan :
    scan isLetter wordTok .start (T.ini61) = (ini61_toks, .start) :=
  IsTemplate.scanned good0 (show IsTemplate [] (T.ini61) _ (ini61_toks) _ by
    template T.ini61)

/-- The tokens of `T.base90`, process_items.cpp:90. -/
def base90_toks : List Tok :=
  [.dir, .dir]

theorem base90_scan :
    scan isLetter wordTok .start (T.base90) = (base90_toks, .start) :=
  IsTemplate.scanned good0 (show IsTemplate [] (T.base90) _ (base90_toks) _ by
    template T.base90)

/-- The tokens of `T.base95`, process_items.cpp:95. -/
def base95_toks : List Tok :=
  []

theorem base95_scan :
    scan isLetter wordTok .start (T.base95) = (base95_toks, .start) :=
  IsTemplate.scanned good0 (show IsTemplate [] (T.base95) _ (base95_toks) _ by
    template T.base95)

/-- The tokens of `T.base146 a0`, process_items.cpp:146. -/
def base146_toks (a0 : Str) : List Tok :=
  [.kw .const_, .id c!"std", .op .scope, .id c!"string", .id c!"stfx", .op .scope, .id c!"s_from_e", .op .lpar, .id a0,
   .id c!"e", .op .rpar, .op .lbrace]

theorem base146_scan {a0 : Str} (h0 : Ident a0) :
    scan isLetter wordTok .start (T.base146 a0) = (base146_toks a0, .start) :=
  IsTemplate.scanned (good1 h0) (show IsTemplate [a0] (T.base146 [hole 0]) _ (base146_toks [hole 0]) _ by
    template T.base146)

/-- The tokens of `T.base148 a0`, process_items.cpp:148. -/
def base148_toks (a0 : Str) : List Tok :=
  [.id c!"std", .op .scope, .id c!"map", .op .lt, .id a0, .op .comma, .id c!"std", .op .scope, .id c!"string", .op .gt,
   .id (a0 ++ c!"_to_string"), .op .assign, .op .lbrace]

theorem base148_scan {a0 : Str} (h0 : Ident a0) :
    scan isLetter wordTok .start (T.base148 a0) = (base148_toks a0, .start) :=
  IsTemplate.scanned (good1 h0) (show IsTemplate [a0] (T.base148 [hole 0]) _ (base148_toks [hole 0]) _ by
    template T.base148)

/-- The tokens of `T.base154 a0 a1`, process_items.cpp:154. -/
def base154_toks (a0 a1 : Str) : List Tok :=
  [.op .lbrace, .id a0, .op .scope, .id a1, .op .comma, .str a1, .op .rbrace, .op .comma]

theorem base154_scan {a0 a1 : Str} (h0 : Ident a0) (h1 : Ident a1) :
    scan isLetter wordTok .start (T.base154 a0 a1) = (base154_toks a0 a1, .start) :=
  IsTemplate.scanned (good2 h0 h1) (show IsTemplate [a0, a1] (T.base154 [hole 0] [hole 1]) _ (base154_toks [hole 0] [hole 1]) _ by
    template T.base154)

/-- The tokens of `T.base158 a0`, process_items.cpp:158. -/
def base158_toks (a0 : Str) : List Tok :=
  [.op .lbrace, .id a0, .op .comma, .str a0, .op .rbrace, .op .comma]

theorem base158_scan {a0 : Str} (h0 : Ident a0) :
    scan isLetter wordTok .start (T.base158 a0) = (base158_toks a0, .start) :=
  IsTemplate.scanned (good1 h0) (show IsTemplate [a0] (T.base158 [hole 0]) _ (base158_toks [hole 0]) _ by
    template T.base158)

/-- The tokens of `T.base161`, process_items.cpp:161. -/
def base161_toks : List Tok :=
  [.op .rbrace, .op .semi]

theorem base161_scan :
    scan isLetter wordTok .start (T.base161) = (base161_toks, .start) :=
  IsTemplate.scanned good0 (show IsTemplate [] (T.base161) _ (base161_toks) _ by
    template T.base161)

/-- The tokens of `T.base169 a0`, process_items.cpp:169. -/
def base169_toks (a0 : Str) : List Tok :=
  [.kw .bool_, .id c!"stfx", .op .scope, .id c!"s_to_e", .op .lpar, .id c!"std", .op .scope, .id c!"string", .id c!"s",
   .op .comma, .id a0, .op .amp, .id c!"e", .op .rpar, .op .lbrace]

theorem base169_scan {a0 : Str} (h0 : Ident a0) :
    scan isLetter wordTok .start (T.base169 a0) = (base169_toks a0, .start) :=
  IsTemplate.scanned (good1 h0) (show IsTemplate [a0] (T.base169 [hole 0]) _ (base169_toks [hole 0]) _ by
    template T.base169)

/-- The tokens of `T.base172 a0`, process_items.cpp:172. -/
def base172_toks (a0 : Str) : List Tok :=
  [.id c!"std", .op .scope, .id c!"map", .op .lt, .id c!"std", .op .scope, .id c!"string", .op .comma, .id a0, .op .gt,
   .id (c!"string_to_" ++ a0), .op .assign, .op .lbrace]

theorem base172_scan {a0 : Str} (h0 : Ident a0) :
    scan isLetter wordTok .start (T.base172 a0) = (base172_toks a0, .start) :=
  IsTemplate.scanned (good1 h0) (show IsTemplate [a0] (T.base172 [hole 0]) _ (base172_toks [hole 0]) _ by
    template T.base172)

/-- The tokens of `T.base178 a0 a1`, process_items.cpp:178. -/
def base178_toks (a0 a1 : Str) : List Tok :=
  [.op .lbrace, .str a1, .op .comma, .id a0, .op .scope, .id a1, .op .rbrace, .op .comma]

theorem base178_scan {a0 a1 : Str} (h0 : Ident a0) (h1 : Ident a1) :
    scan isLetter wordTok .start (T.base178 a0 a1) = (base178_toks a0 a1, .start) :=
  IsTemplate.scanned (good2 h0 h1) (show IsTemplate [a0, a1] (T.base178 [hole 0] [hole 1]) _ (base178_toks [hole 0] [hole 1]) _ by
    template T.base178)

/-- The tokens of `T.base182 a0`, process_items.cpp:182. -/
def base182_toks (a0 : Str) : List Tok :=
  [.op .lbrace, .str a0, .op .comma, .id a0, .op .rbrace, .op .comma]

theorem base182_scan {a0 : Str} (h0 : Ident a0) :
    scan isLetter wordTok .start (T.base182 a0) = (base182_toks a0, .start) :=
  IsTemplate.scanned (good1 h0) (show IsTemplate [a0] (T.base182 [hole 0]) _ (base182_toks [hole 0]) _ by
    template T.base182)

/-- The tokens of `T.ini120 a0 a1`, ini/process_items_ini.cpp:120-194. -/
def ini120_toks (a0 a1 : Str) : List Tok :=
  [.kw .bool_, .id a0, .op .scope, .id c!"read_from_file", .op .lpar, .id c!"std", .op .scope, .id c!"string",
   .kw .const_, .op .amp, .id c!"filename", .op .comma, .id a1, .op .amp, .id c!"struct_to_fill", .op .rpar,
   .op .lbrace, .kw .bool_, .id c!"rv", .op .lbrace, .op .rbrace, .op .semi, .id c!"std", .op .scope, .id c!"FILE",
   .op .star, .id c!"file", .op .lbrace, .op .rbrace, .op .semi, .id c!"file", .op .assign, .id c!"std", .op .scope,
   .id c!"fopen", .op .lpar, .id c!"filename", .op .dot, .id c!"c_str", .op .lpar, .op .rpar, .op .comma, .str c!"r",
   .op .rpar, .op .semi, .kw .if_, .op .lpar, .id c!"file", .op .ne, .kw .nullptr_, .op .rpar, .op .lbrace,
   .id c!"read_item_S", .op .star, .id c!"current_lookup", .op .assign, .op .amp, .id c!"m_lookup", .op .semi,
   .kw .const_, .kw .int_, .id c!"buflen", .op .assign, .num c!"80", .op .semi, .kw .char_, .id c!"buf", .op .lbrack,
   .id c!"buflen", .op .plus, .num c!"1", .op .rbrack, .op .semi, .kw .while_, .op .lpar, .kw .nullptr_, .op .ne,
   .id c!"std", .op .scope, .id c!"fgets", .op .lpar, .id c!"buf", .op .comma, .id c!"buflen", .op .comma, .id c!"file",
   .op .rpar, .op .rpar, .op .lbrace, .id c!"std", .op .scope, .id c!"string", .id c!"line", .op .lbrace, .id c!"buf",
   .op .rbrace, .op .semi, .id c!"size_t", .id c!"pos", .op .assign, .id c!"line", .op .dot, .id c!"find", .op .lpar,
   .chr c!"%", .op .rpar, .op .semi, .kw .if_, .op .lpar, .id c!"pos", .op .ne, .id c!"std", .op .scope, .id c!"string",
   .op .scope, .id c!"npos", .op .rpar, .op .lbrace, .id c!"line", .op .assign, .id c!"line", .op .dot, .id c!"substr",
   .op .lpar, .num c!"0", .op .comma, .id c!"pos", .op .rpar, .op .semi, .op .rbrace, .kw .if_, .op .lpar, .id c!"line",
   .op .dot, .id c!"length", .op .lpar, .op .rpar, .op .eq, .num c!"0", .op .rpar, .kw .continue_, .op .semi, .kw .if_,
   .op .lpar, .id c!"m_multiline_string_key", .op .dot, .id c!"length", .op .lpar, .op .rpar, .op .ne, .num c!"0",
   .op .and, .id c!"line", .op .lbrack, .num c!"0", .op .rbrack, .op .ne, .chr c!" ", .op .rpar, .op .lbrace,
   .id c!"current_lookup", .op .arrow, .id c!"items", .op .lbrack, .id c!"m_multiline_string_key", .op .rbrack,
   .op .assign, .id c!"m_multiline_string_value", .op .semi, .id c!"m_multiline_string_key", .op .assign, .str c!"",
   .op .semi, .id c!"m_multiline_string_value", .op .assign, .str c!"", .op .semi, .op .rbrace, .id c!"std", .op .scope,
   .id c!"smatch", .id c!"res", .op .semi, .id c!"std", .op .scope, .id c!"regex", .id c!"regex", .op .semi,
   .kw .switch_, .op .lpar, .id c!"line", .op .lbrack, .num c!"0", .op .rbrack, .op .rpar, .op .lbrace, .kw .case_,
   .chr c!"[", .op .colon, .id c!"regex", .op .assign, .str c!"\\[(.+)\\]", .op .semi, .kw .if_, .op .lpar, .id c!"std",
   .op .scope, .id c!"regex_search", .op .lpar, .id c!"line", .op .comma, .id c!"res", .op .comma, .id c!"regex",
   .op .rpar, .op .eq, .kw .true_, .op .rpar, .op .lbrace, .id c!"std", .op .scope, .id c!"string", .id c!"key",
   .op .assign, .id c!"res", .op .lbrack, .num c!"1", .op .rbrack, .op .dot, .id c!"str", .op .lpar, .op .rpar,
   .op .semi, .id c!"read_item_S", .id c!"new_item", .op .semi, .id c!"m_lookup", .op .dot, .id c!"under", .op .lbrack,
   .id c!"key", .op .rbrack, .op .assign, .id c!"new_item", .op .semi, .id c!"current_lookup", .op .assign, .op .amp,
   .id c!"m_lookup", .op .dot, .id c!"under", .op .lbrack, .id c!"key", .op .rbrack, .op .semi, .op .rbrace,
   .kw .break_, .op .semi, .kw .case_, .chr c!" ", .op .colon, .id c!"m_multiline_string_value", .op .plusAssign,
   .id c!"line", .op .semi, .kw .break_, .op .semi, .kw .default_, .op .colon, .id c!"regex", .op .assign,
   .str c!"(\\w+) (.+)", .op .semi, .kw .if_, .op .lpar, .id c!"std", .op .scope, .id c!"regex_search", .op .lpar,
   .id c!"line", .op .comma, .id c!"res", .op .comma, .id c!"regex", .op .rpar, .op .eq, .kw .true_, .op .rpar,
   .op .lbrace, .id c!"std", .op .scope, .id c!"string", .id c!"key", .op .assign, .id c!"res", .op .lbrack, .num c!"1",
   .op .rbrack, .op .dot, .id c!"str", .op .lpar, .op .rpar, .op .semi, .id c!"std", .op .scope, .id c!"string",
   .id c!"value", .op .assign, .id c!"res", .op .lbrack, .num c!"2", .op .rbrack, .op .dot, .id c!"str", .op .lpar,
   .op .rpar, .op .semi, .id c!"current_lookup", .op .arrow, .id c!"items", .op .lbrack, .id c!"key", .op .rbrack,
   .op .assign, .id c!"value", .op .semi, .op .rbrace, .kw .else_, .op .lbrace, .id c!"regex", .op .assign,
   .str c!"(\\w+)", .op .semi, .kw .if_, .op .lpar, .id c!"std", .op .scope, .id c!"regex_search", .op .lpar,
   .id c!"line", .op .comma, .id c!"res", .op .comma, .id c!"regex", .op .rpar, .op .eq, .kw .true_, .op .rpar,
   .op .lbrace, .id c!"m_multiline_string_key", .op .assign, .id c!"res", .op .lbrack, .num c!"1", .op .rbrack,
   .op .dot, .id c!"str", .op .lpar, .op .rpar, .op .semi, .id c!"m_multiline_string_value", .op .assign, .str c!"\n",
   .op .semi, .op .rbrace, .op .rbrace, .kw .break_, .op .semi, .op .rbrace, .op .rbrace, .id c!"std", .op .scope,
   .id c!"fclose", .op .lpar, .id c!"file", .op .rpar, .op .semi, .id c!"rv", .op .assign, .id (c!"do_rd_" ++ a1),
   .op .lpar, .str c!"", .op .comma, .id c!"struct_to_fill", .op .rpar, .op .semi, .op .rbrace, .kw .return_,
   .id c!"rv", .op .semi, .op .rbrace]

theorem ini120_scan {a0 a1 : Str} (h0 : Ident a0) (h1 : Ident a1) :
    scan isLetter wordTok .start (T.ini120 a0 a1) = (ini120_toks a0 a1, .start) :=
  IsTemplate.scanned (good2 h0 h1) (show IsTemplate [a0, a1] (T.ini120 [hole 0] [hole 1]) _ (ini120_toks [hole 0] [hole 1]) _ by
    template T.ini120)

/-- The function in `T.ini120 a0 a1`, ini/process_items_ini.cpp:120-194. -/
def ini120_fun (a0 a1 : Str) : Fun where
  ret := some (.prim .bool)
  name := [a0, c!"read_from_file"]
  params := [((.ref (.name [c!"std", c!"string"])), c!"filename"), ((.ref (.name [a1])), c!"struct_to_fill")]
  base := none
  body := [
    .decl (.prim .bool) c!"rv" none (some (.braces [])),
    .decl (.ptr (.name [c!"std", c!"FILE"])) c!"file" none (some (.braces [])),
    .expr (.assign (.id [c!"file"]) (.call (.id [c!"std", c!"fopen"]) [(.call (.mem (.id [c!"filename"]) c!"c_str") []), (.str c!"r")])),
    .when (.bin .ne (.id [c!"file"]) .null)
      (.block [
        .decl (.ptr (.name [c!"read_item_S"])) c!"current_lookup" none (some (.addr (.id [c!"m_lookup"]))),
        .decl (.prim .int) c!"buflen" none (some (.num c!"80")),
        .decl (.prim .char) c!"buf" (some (.bin .add (.id [c!"buflen"]) (.num c!"1"))) none,
        .while (.bin .ne .null (.call (.id [c!"std", c!"fgets"]) [(.id [c!"buf"]), (.id [c!"buflen"]), (.id [c!"file"])]))
          (.block [
            .decl (.name [c!"std", c!"string"]) c!"line" none (some (.braces [(.id [c!"buf"])])),
            .decl (.name [c!"size_t"]) c!"pos" none (some (.call (.mem (.id [c!"line"]) c!"find") [(.chr c!"%")])),
            .when (.bin .ne (.id [c!"pos"]) (.id [c!"std", c!"string", c!"npos"]))
              (.block [
                .expr (.assign (.id [c!"line"]) (.call (.mem (.id [c!"line"]) c!"substr") [(.num c!"0"), (.id [c!"pos"])]))]),
            .when (.bin .eq (.call (.mem (.id [c!"line"]) c!"length") []) (.num c!"0"))
              (.cont),
            .when (.bin .and (.bin .ne (.call (.mem (.id [c!"m_multiline_string_key"]) c!"length") []) (.num c!"0")) (.bin .ne (.index (.id [c!"line"]) (.num c!"0")) (.chr c!" ")))
              (.block [
                .expr (.assign (.index (.arrow (.id [c!"current_lookup"]) c!"items") (.id [c!"m_multiline_string_key"])) (.id [c!"m_multiline_string_value"])),
                .expr (.assign (.id [c!"m_multiline_string_key"]) (.str c!"")),
                .expr (.assign (.id [c!"m_multiline_string_value"]) (.str c!""))]),
            .decl (.name [c!"std", c!"smatch"]) c!"res" none none,
            .decl (.name [c!"std", c!"regex"]) c!"regex" none none,
            .switch (.index (.id [c!"line"]) (.num c!"0")) [
              .case (.chr c!"["),
              .expr (.assign (.id [c!"regex"]) (.str c!"\\[(.+)\\]")),
              .when (.bin .eq (.call (.id [c!"std", c!"regex_search"]) [(.id [c!"line"]), (.id [c!"res"]), (.id [c!"regex"])]) (.bool true))
                (.block [
                  .decl (.name [c!"std", c!"string"]) c!"key" none (some (.call (.mem (.index (.id [c!"res"]) (.num c!"1")) c!"str") [])),
                  .decl (.name [c!"read_item_S"]) c!"new_item" none none,
                  .expr (.assign (.index (.mem (.id [c!"m_lookup"]) c!"under") (.id [c!"key"])) (.id [c!"new_item"])),
                  .expr (.assign (.id [c!"current_lookup"]) (.addr (.index (.mem (.id [c!"m_lookup"]) c!"under") (.id [c!"key"]))))]),
              .brk,
              .case (.chr c!" "),
              .expr (.plusAssign (.id [c!"m_multiline_string_value"]) (.id [c!"line"])),
              .brk,
              .default,
              .expr (.assign (.id [c!"regex"]) (.str c!"(\\w+) (.+)")),
              .ite (.bin .eq (.call (.id [c!"std", c!"regex_search"]) [(.id [c!"line"]), (.id [c!"res"]), (.id [c!"regex"])]) (.bool true))
                (.block [
                  .decl (.name [c!"std", c!"string"]) c!"key" none (some (.call (.mem (.index (.id [c!"res"]) (.num c!"1")) c!"str") [])),
                  .decl (.name [c!"std", c!"string"]) c!"value" none (some (.call (.mem (.index (.id [c!"res"]) (.num c!"2")) c!"str") [])),
                  .expr (.assign (.index (.arrow (.id [c!"current_lookup"]) c!"items") (.id [c!"key"])) (.id [c!"value"]))])
                (.block [
                  .expr (.assign (.id [c!"regex"]) (.str c!"(\\w+)")),
                  .when (.bin .eq (.call (.id [c!"std", c!"regex_search"]) [(.id [c!"line"]), (.id [c!"res"]), (.id [c!"regex"])]) (.bool true))
                    (.block [
                      .expr (.assign (.id [c!"m_multiline_string_key"]) (.call (.mem (.index (.id [c!"res"]) (.num c!"1")) c!"str") [])),
                      .expr (.assign (.id [c!"m_multiline_string_value"]) (.str c!"\n"))])]),
              .brk]]),
        .expr (.call (.id [c!"std", c!"fclose"]) [(.id [c!"file"])]),
        .expr (.assign (.id [c!"rv"]) (.call (.id [(c!"do_rd_" ++ a1)]) [(.str c!""), (.id [c!"struct_to_fill"])]))]),
    .ret (.id [c!"rv"])]

theorem ini120_parse {ext : Bool} {a0 a1 : Str} (f : Nat) (r : List Tok) :
    pFun ext (f + 60) (ini120_toks a0 a1 ++ r) = some (ini120_fun a0 a1, r) := by kernel_rfl

/-- The tokens of `T.ini239 a0 a1`, ini/process_items_ini.cpp:239-250. -/
def ini239_toks (a0 a1 : Str) : List Tok :=
  [.kw .bool_, .id a0, .op .scope, .id c!"write_to_file", .op .lpar, .id c!"std", .op .scope, .id c!"string",
   .kw .const_, .op .amp, .id c!"filename", .op .comma, .id a1, .op .amp, .id c!"struct_to_read", .op .rpar,
   .op .lbrace, .kw .bool_, .id c!"rv", .op .lbrace, .op .rbrace, .op .semi, .id c!"m_file", .op .assign, .id c!"std",
   .op .scope, .id c!"fopen", .op .lpar, .id c!"filename", .op .dot, .id c!"c_str", .op .lpar, .op .rpar, .op .comma,
   .str c!"w", .op .rpar, .op .semi, .kw .if_, .op .lpar, .id c!"m_file", .op .ne, .kw .nullptr_, .op .rpar,
   .op .lbrace, .id c!"rv", .op .assign, .id (c!"do_wr_" ++ a1), .op .lpar, .str c!"", .op .comma, .op .amp,
   .id c!"struct_to_read", .op .rpar, .op .semi, .id c!"std", .op .scope, .id c!"fclose", .op .lpar, .id c!"m_file",
   .op .rpar, .op .semi, .op .rbrace, .kw .return_, .id c!"rv", .op .semi, .op .rbrace]

theorem ini239_scan {a0 a1 : Str} (h0 : Ident a0) (h1 : Ident a1) :
    scan isLetter wordTok .start (T.ini239 a0 a1) = (ini239_toks a0 a1, .start) :=
  IsTemplate.scanned (good2 h0 h1) (show IsTemplate [a0, a1] (T.ini239 [hole 0] [hole 1]) _ (ini239_toks [hole 0] [hole 1]) _ by
    template T.ini239)

/-- The function in `T.ini239 a0 a1`, ini/process_items_ini.cpp:239-250. -/
def ini239_fun (a0 a1 : Str) : Fun where
  ret := some (.prim .bool)
  name := [a0, c!"write_to_file"]
  params := [((.ref (.name [c!"std", c!"string"])), c!"filename"), ((.ref (.name [a1])), c!"struct_to_read")]
  base := none
  body := [
    .decl (.prim .bool) c!"rv" none (some (.braces [])),
    .expr (.assign (.id [c!"m_file"]) (.call (.id [c!"std", c!"fopen"]) [(.call (.mem (.id [c!"filename"]) c!"c_str") []), (.str c!"w")])),
    .when (.bin .ne (.id [c!"m_file"]) .null)
      (.block [
        .expr (.assign (.id [c!"rv"]) (.call (.id [(c!"do_wr_" ++ a1)]) [(.str c!""), (.addr (.id [c!"struct_to_read"]))])),
        .expr (.call (.id [c!"std", c!"fclose"]) [(.id [c!"m_file"])])]),
    .ret (.id [c!"rv"])]

theorem ini239_parse {ext : Bool} {a0 a1 : Str} (f : Nat) (r : List Tok) :
    pFun ext (f + 60) (ini239_toks a0 a1 ++ r) = some (ini239_fun a0 a1, r) := by kernel_rfl

end Stfx.Cpp
