import Verif.Run.Check
/-
Sample headers, with the classes a compiler makes of them and the code generated for them.
-/
set_option autoImplicit false
namespace Stfx.Run
open Stfx.Items Stfx.Parser Stfx.Gen Stfx.Lexer

/-- The tables generation starts from.  (Example, models no code.) -/
def tablesOf (fs : List (Str × Header)) : Info :=
  (((processFiles 0 (fs.map fun f => some f.1) [Info.empty]).bind (prepare 0)).getD ([], false)).1.headD Info.empty

/-- The structs file generated from headers.  (Example, models no code.) -/
def progOf (fs : List (Str × Header)) (k : Kind) (out : OutSpec) : List Item :=
  structsCpp k [] [] [] [] out (tablesOf fs).structs

/-- Check `Generated`.  (Example, models no code.) -/
def generatedb (fs : List (Str × Header)) : Bool :=
  (fs.all fun f => toksFile f.1 = some f.2.toks) &&
  decide ((fs.flatMap fun f => f.2.decls).map Decl.name).Nodup &&
  ((processFiles 0 (fs.map fun f => some f.1) [Info.empty]).bind (prepare 0) = some ([tablesOf fs], true))

theorem generated_of {fs : List (Str × Header)} (h : generatedb fs = true) (k : Kind) (out : OutSpec) :
    Generated fs k out (progOf fs k out) := by
  unfold generatedb at h
  simp only [Bool.and_eq_true, List.all_eq_true, decide_eq_true_eq] at h
  exact ⟨h.1.1, h.1.2, _, [], [], [], [], h.2, rfl⟩

/-- Settings of an output group without `only_read` and `no_special_delta`.  (Example, models no code.) -/
def plainOut : OutSpec := ⟨[], c!"enums", c!"structs", c!"R", c!"W", 0, false, false⟩

/-- Some library.  The conversions of floating point numbers are not those of tinyxml2.  (Example, models no code.) -/
def someLib : Lib := ⟨natText, natText, fun s => some (digitsVal s % 2 ^ 32), fun s => some (digitsVal s % 2 ^ 64), 500⟩

/-! ### Shapes -/

/-- (Example, models no code.) -/
def shapeText : Str :=
  c!"enum class Color{red,green=5};struct Point{int x{1};" ++ c!"unsigned int y{7};};struct Shape{std::string " ++
  c!"name{\"abc\"};long id{3};Color color{Color::red};" ++ c!"Point at;std::vector<Point> pts;};"

/-- (Example, models no code.) -/
def shapeDecls : Header where
  first := .enum true c!"Color" ⟨c!"red", none⟩ [⟨c!"green", some (.dec c!"5")⟩] false
  more := [
    .struct c!"Point" (.simple .int c!"x" (.val (.int c!"1"))) [.simple .unsignedInt c!"y" (.val (.int c!"7"))],
    .struct c!"Shape" (.simple .stdString c!"name" (.val (.string c!"\"abc\""))) [
      .simple .long c!"id" (.val (.int c!"3")), .named c!"Color" c!"color" (.val (.enumerator c!"Color::red")),
      .named c!"Point" c!"at" .absent, .vector c!"Point" c!"pts"]]

/-- (Example, models no code.) -/
def shapeFiles : List (Str × Header) := [(shapeText, shapeDecls)]

/-- (Example, models no code.) -/
def pointVal (x y : Int) : Val := .struct [(c!"x", .num x), (c!"y", .num y)]
/-- (Example, models no code.) -/
def shapeVal (name : Str) (id color : Int) (p : Val) (ps : List Val) : Val :=
  .struct [(c!"name", .str name), (c!"id", .num id), (c!"color", .num color), (c!"at", p), (c!"pts", .vec ps)]

/-- (Example, models no code.) -/
def shapeData : CData where
  cls := [
    (c!"Point", [⟨c!"x", .simple .int, some (.num 1)⟩, ⟨c!"y", .simple .unsignedInt, some (.num 7)⟩]),
    (c!"Shape", [⟨c!"name", .simple .stdString, some (.str c!"abc")⟩, ⟨c!"id", .simple .long, some (.num 3)⟩,
      ⟨c!"color", .enum c!"Color", some (.num 0)⟩, ⟨c!"at", .struct c!"Point", none⟩, ⟨c!"pts", .vec c!"Point", none⟩])]
  enm := [(c!"Color", ⟨c!"Color", true, [⟨c!"red", false, c!"-"⟩, ⟨c!"green", true, c!"5"⟩]⟩, [(c!"red", 0), (c!"green", 5)])]
  dflt := [(c!"Point", pointVal 1 7), (c!"Shape", shapeVal c!"abc" 3 0 (pointVal 1 7) [])]
  longBits := 64

theorem shape_generated (k : Kind) (out : OutSpec) : Generated shapeFiles k out (progOf shapeFiles k out) :=
  generated_of (by decide +kernel) k out
theorem shape_compiled : Compiled (shapeFiles.flatMap fun f => f.2.decls) shapeData.table :=
  CData.compiled (by decide +kernel)
theorem shape_top : TopStruct (shapeFiles.flatMap fun f => f.2.decls) c!"Shape" := topStruct_of (by decide +kernel)
theorem shape_noInits : NoStructInits (shapeFiles.flatMap fun f => f.2.decls) := noStructInits_of (by decide +kernel)

/-! ### A struct member with an initialiser -/

/-- (Example, models no code.) -/
def lineText : Str := c!"struct Point{int x{1};unsigned int y{7};};" ++ c!"struct Line{Point from{5};short w{2};};"

/-- (Example, models no code.) -/
def lineDecls : Header where
  first := .struct c!"Point" (.simple .int c!"x" (.val (.int c!"1"))) [.simple .unsignedInt c!"y" (.val (.int c!"7"))]
  more := [.struct c!"Line" (.named c!"Point" c!"from" (.val (.int c!"5"))) [.simple .short c!"w" (.val (.int c!"2"))]]

/-- (Example, models no code.) -/
def lineFiles : List (Str × Header) := [(lineText, lineDecls)]

/-- (Example, models no code.) -/
def lineVal (p : Val) (w : Int) : Val := .struct [(c!"from", p), (c!"w", .num w)]

/-- (Example, models no code.) -/
def lineData : CData where
  cls := [
    (c!"Point", [⟨c!"x", .simple .int, some (.num 1)⟩, ⟨c!"y", .simple .unsignedInt, some (.num 7)⟩]),
    (c!"Line", [⟨c!"from", .struct c!"Point", some (pointVal 5 7)⟩, ⟨c!"w", .simple .short, some (.num 2)⟩])]
  enm := []
  dflt := [(c!"Point", pointVal 1 7), (c!"Line", lineVal (pointVal 5 7) 2)]
  longBits := 64

theorem line_generated (k : Kind) (out : OutSpec) : Generated lineFiles k out (progOf lineFiles k out) :=
  generated_of (by decide +kernel) k out
theorem line_compiled : Compiled (lineFiles.flatMap fun f => f.2.decls) lineData.table :=
  CData.compiled (by decide +kernel)
theorem line_top : TopStruct (lineFiles.flatMap fun f => f.2.decls) c!"Line" := topStruct_of (by decide +kernel)

/-! ### A member without an initialiser -/

/-- (Example, models no code.) -/
def rawText : Str := c!"struct Raw{int c;bool b{true};};"
/-- (Example, models no code.) -/
def rawDecls : Header where
  first := .struct c!"Raw" (.simple .int c!"c" .absent) [.simple .bool c!"b" (.val .true_)]
  more := []
/-- (Example, models no code.) -/
def rawFiles : List (Str × Header) := [(rawText, rawDecls)]
/-- (Example, models no code.) -/
def rawVal (c : Val) (b : Bool) : Val := .struct [(c!"c", c), (c!"b", .bool b)]
/-- (Example, models no code.) -/
def rawData : CData where
  cls := [(c!"Raw", [⟨c!"c", .simple .int, none⟩, ⟨c!"b", .simple .bool, some (.bool true)⟩])]
  enm := []
  dflt := [(c!"Raw", rawVal .undef true)]
  longBits := 64

theorem raw_generated (k : Kind) (out : OutSpec) : Generated rawFiles k out (progOf rawFiles k out) :=
  generated_of (by decide +kernel) k out
theorem raw_compiled : Compiled (rawFiles.flatMap fun f => f.2.decls) rawData.table :=
  CData.compiled (by decide +kernel)
theorem raw_top : TopStruct (rawFiles.flatMap fun f => f.2.decls) c!"Raw" := topStruct_of (by decide +kernel)
theorem raw_noInits : NoStructInits (rawFiles.flatMap fun f => f.2.decls) := noStructInits_of (by decide +kernel)

end Stfx.Run
