/-
Prints lean/Verif/Cpp/TreesXml.lean and TreesIni.lean: the tokens and syntax trees of the statements in the templates of the generators.
The files it prints are checked by the kernel; this program is not trusted.

usage (in lean/): lake env lean --run ../tools/trees.txt xml > Verif/Cpp/TreesXml.lean
                  lake env lean --run ../tools/trees.txt ini > Verif/Cpp/TreesIni.lean
-/
import Verif.Cpp.Parse
import Verif.Cpp.Chunk
import Verif.Gen.Code
open Stfx Stfx.Cpp Stfx.Gen

def argOf (i : Nat) : String := if i < 4 then s!"a{i}" else "a2"

/-- A character in a literal. -/
def chr (c : Char) : String :=
  match c with
  | '\n' => "\\n" | '\t' => "\\t" | '"' => "\\\"" | '\\' => "\\\\" | c => toString c

/-- A text with holes as a term. -/
def strT (s : Str) : String := Id.run do
  let mut parts : List String := []
  let mut cur := ""
  for c in s do
    if isIdHole c || isTextHole c then
      if cur ≠ "" then parts := parts ++ [s!"c!\"{cur}\""]
      cur := ""
      parts := parts ++ [argOf (c.toNat - 0xE000)]
    else cur := cur ++ chr c
  if cur ≠ "" || parts = [] then parts := parts ++ [s!"c!\"{cur}\""]
  match parts with
  | [p] => return p
  | ps => return "(" ++ " ++ ".intercalate ps ++ ")"

def lastName (s : String) : String := (s.splitOn ".").getLast!

def reprS {α : Type} [Repr α] (a : α) : String := (toString (repr a)).replace "(" "" |>.replace ")" ""

def tokT : Tok → String
  | .kw k => s!".kw .{lastName (reprS k)}"
  | .id s => s!".id {strT s}"
  | .num s => s!".num {strT s}"
  | .str s => s!".str {strT s}"
  | .chr s => s!".chr {strT s}"
  | .op o => s!".op .{lastName (reprS o)}"
  | .dir => ".dir"

def qualT (q : List Str) : String := "[" ++ ", ".intercalate (q.map strT) ++ "]"

def tyT : Ty → String
  | .prim p => s!"(.prim .{lastName (reprS p)})"
  | .name q => s!"(.name {qualT q})"
  | .map k v => s!"(.map {tyT k} {tyT v})"
  | .ptr t => s!"(.ptr {tyT t})"
  | .ref t => s!"(.ref {tyT t})"
  | .auto => ".auto"

mutual
partial def exprT : Expr → String
  | .id q => s!"(.id {qualT q})"
  | .num s => s!"(.num {strT s})"
  | .str s => s!"(.str {strT s})"
  | .chr s => s!"(.chr {strT s})"
  | .bool b => s!"(.bool {b})"
  | .null => ".null"
  | .addr e => s!"(.addr {exprT e})"
  | .bin o a b => s!"(.bin .{lastName (reprS o)} {exprT a} {exprT b})"
  | .assign a b => s!"(.assign {exprT a} {exprT b})"
  | .plusAssign a b => s!"(.plusAssign {exprT a} {exprT b})"
  | .cond c a b => s!"(.cond {exprT c} {exprT a} {exprT b})"
  | .mem e n => s!"(.mem {exprT e} {strT n})"
  | .arrow e n => s!"(.arrow {exprT e} {strT n})"
  | .call f as => s!"(.call {exprT f} {exprsT as})"
  | .index a i => s!"(.index {exprT a} {exprT i})"
  | .cast p e => s!"(.cast .{lastName (reprS p)} {exprT e})"
  | .braces es => s!"(.braces {exprsT es})"
partial def exprsT (es : List Expr) : String := "[" ++ ", ".intercalate (es.map exprT) ++ "]"
end

def optT : Option Expr → String
  | none => "none"
  | some e => s!"(some {exprT e})"

mutual
partial def stmtT (ind : String) : Stmt → String
  | .expr e => s!".expr {exprT e}"
  | .decl t n a i => s!".decl {tyT t} {strT n} {optT a} {optT i}"
  | .block ss => s!".block {stmtsT ind ss}"
  | .when c s => s!".when {exprT c}\n{ind}  ({stmtT (ind ++ "  ") s})"
  | .ite c s t => s!".ite {exprT c}\n{ind}  ({stmtT (ind ++ "  ") s})\n{ind}  ({stmtT (ind ++ "  ") t})"
  | .while c s => s!".while {exprT c}\n{ind}  ({stmtT (ind ++ "  ") s})"
  | .forEach t n e s => s!".forEach {tyT t} {strT n} {exprT e}\n{ind}  ({stmtT (ind ++ "  ") s})"
  | .switch e ss => s!".switch {exprT e} {stmtsT ind ss}"
  | .case e => s!".case {exprT e}"
  | .default => ".default"
  | .brk => ".brk"
  | .cont => ".cont"
  | .ret e => s!".ret {exprT e}"
  | .try ss t hs => s!".try {stmtsT ind ss} {tyT t} {stmtsT ind hs}"
partial def stmtsT (ind : String) (ss : List Stmt) : String :=
  match ss with
  | [] => "[]"
  | ss => s!"[\n{ind}  " ++ s!",\n{ind}  ".intercalate (ss.map (stmtT (ind ++ "  "))) ++ "]"
end

/-- Break a list of tokens into lines. -/
def toksT (ts : List Tok) : String := Id.run do
  let mut out := "["
  let mut col := 4
  let mut first := true
  for t in ts do
    let s := tokT t
    if !first then
      out := out ++ ","
      if col + s.length > 120 then
        out := out ++ "\n   "
        col := 4
      else
        out := out ++ " "
    first := false
    out := out ++ s
    col := col + s.length + 2
  return out ++ "]"

/-- A template: its arguments, its text on holes, its definition and the term for it. -/
structure Tm where
  name : String
  args : List String
  text : Str
  dfn : String
  term : List String → String

def h0 : Str := [hole 0]
def h1 : Str := [hole 1]
def h4 : Str := [hole 4]

def argHole (a : String) : String := if a = "a0" then "[hole 0]" else if a = "a1" then "[hole 1]" else "[hole 4]"

def app (f : String) (as : List String) : String := as.foldl (fun s a => s ++ " " ++ a) f

def fillT (as : List String) : String :=
  match as with
  | ["a2"] => "[c!\"x\", c!\"x\", c!\"x\", c!\"x\", a2]"
  | ["a0", "a1", "a2"] => "[a0, a1, c!\"x\", c!\"x\", a2]"
  | as => "[" ++ ", ".intercalate as ++ "]"

def binders (as : List String) : String := if as = [] then "" else " (" ++ " ".intercalate as ++ " : Str)"

def hyps (as : List String) : String :=
  "".intercalate (as.map fun a => if a = "a2" then s!" (h2 : Plain {a})" else s!" (h{a.drop 1} : Ident {a})")

def good (as : List String) : String :=
  match as with
  | [] => "good0"
  | ["a0"] => "(good1 h0)"
  | ["a0", "a1"] => "(good2 h0 h1)"
  | ["a2"] => "(goodT h2)"
  | _ => "(good3 h0 h1 h2)"

def ib (as : List String) : String := if as = [] then "" else " {" ++ " ".intercalate as ++ " : Str}"

/-- The lines of /repo a template was copied from. -/
def cite (t : Tm) : IO String := do
  let ls := (← IO.FS.readFile "Verif/Gen/Templates.lean").splitOn "\n"
  let n := (t.dfn.splitOn ".").getLast!
  let mut doc := ""
  for l in ls do
    if l.startsWith "/-- " then doc := l
    if l.startsWith s!"def {n} " then return (((doc.drop 4).toString.splitOn ", to ").head!.splitOn ", arg").head!
  return "?"

/-- Tokens of a template and the proof that they are. -/
def printToks (t : Tm) : IO Unit := do
  let ts := (scan letterH wordTokH .start t.text).1
  IO.println s!"/-- The tokens of `{t.term t.args}`, {← cite t}. -/"
  IO.println s!"def {t.name}_toks{binders t.args} : List Tok :=\n  {toksT ts}\n"
  let holes := t.args.map argHole
  IO.println s!"theorem {t.name}_scan{ib t.args}{hyps t.args} :
    scan isLetter wordTok .start ({t.term t.args}) = ({app (t.name ++ "_toks") t.args}, .start) :=
  IsTemplate.scanned {good t.args} (show IsTemplate {fillT t.args} ({t.term holes}) _ ({app (t.name ++ "_toks") holes}) _ by
    template {t.dfn})\n"

/-- Statements. -/
def printChunk (ext : String) (t : Tm) : IO Unit := do
  let ts := (scan letterH wordTokH .start t.text).1
  match pMany (pStmt true 80) 80 (ts ++ [.op .rbrace]) with
  | some (ss, []) =>
    printToks t
    IO.println s!"/-- The statements of `{t.term t.args}`, {← cite t}. -/"
    IO.println s!"def {t.name}_tree{binders t.args} : List Stmt :=\n  {stmtsT "  " ss}\n"
    let eb := if ext = "ext" then " {ext : Bool}" else ""
    IO.println s!"theorem {t.name}_stmts{eb}{ib t.args} : IsStmts 40 {ext} ({app (t.name ++ "_toks") t.args}) ({app (t.name ++ "_tree") t.args}) := by stmts\n"
    IO.println s!"theorem {t.name}_chunk{eb}{ib t.args}{hyps t.args} : Chunk 40 {ext} ({t.term t.args}) ({app (t.name ++ "_tree") t.args}) :=
  ⟨_, {app (t.name ++ "_scan") (t.args.map fun a => s!"h{a.drop 1}")}, {t.name}_stmts⟩\n"
  | _ => IO.println s!"-- FAILED {t.name}"

/-- Functions. -/
def printFun (t : Tm) : IO Unit := do
  let ts := (scan letterH wordTokH .start t.text).1
  match pFun false 80 ts with
  | some (f, []) =>
    printToks t
    IO.println s!"/-- The function in `{t.term t.args}`, {← cite t}. -/"
    let ret := match f.ret with | none => "none" | some t => s!"some {tyT t}"
    let base := match f.base with | none => "none" | some q => s!"some {qualT q}"
    let ps := "[" ++ ", ".intercalate (f.params.map fun p => s!"({tyT p.1}, {strT p.2})") ++ "]"
    IO.println s!"def {t.name}_fun{binders t.args} : Fun where\n  ret := {ret}\n  name := {qualT f.name}\n  params := {ps}\n  base := {base}\n  body := {stmtsT "  " f.body}\n"
    IO.println s!"theorem {t.name}_parse \{ext : Bool}{ib t.args} (f : Nat) (r : List Tok) :
    pFun ext (f + 60) ({app (t.name ++ "_toks") t.args} ++ r) = some ({app (t.name ++ "_fun") t.args}, r) := by kernel_rfl\n"
  | _ => IO.println s!"-- FAILED {t.name}"

def mk (n : String) (as : List String) (s : Str) : Tm := ⟨n, as, s, s!"T.{n}", fun as => app s!"T.{n}" as⟩
def one (n : String) (f : Str → Str) : Tm := mk n ["a0"] (f h0)
def two (n : String) (f : Str → Str → Str) : Tm := mk n ["a0", "a1"] (f h0 h1)
def three (n : String) (f : Str → Str → Str → Str) : Tm := mk n ["a0", "a1", "a2"] (f h0 h1 h4)
def txt (n : String) (f : Str → Str) : Tm := mk n ["a2"] (f h4)
def zero (n : String) (s : Str) : Tm := mk n [] s
def conv (n : String) (ty : Stfx.Parser.SimpleTy) : Tm :=
  ⟨s!"ini354_{n}", ["a0"], T.ini354 h0 (iniConvert ty), "T.ini354", fun as => app "T.ini354" as ++ s!" (iniConvert .{n})"⟩

def head (imp what : String) : String := s!"import {imp}
/-
Generated by tools/trees.txt: {what}.  Each tree is proved to be the
one the grammar gives.
-/
set_option autoImplicit false
set_option maxRecDepth 4000
set_option linter.unusedVariables false
namespace Stfx.Cpp
open Stfx.Gen
"

def main (args : List String) : IO Unit := do
  match args with
  | ["xml"] =>
    IO.println (head "Verif.Cpp.Chunk\nimport Verif.Gen.Code" "tokens and syntax trees of the templates of\nprocess_items_xml.cpp and process_items_xml_attrib.cpp")
    for t in [one "xml232" T.xml232, one "xml239" T.xml239, one "xml246" T.xml246, one "xml253" T.xml253, one "xml260" T.xml260,
      one "xml267" T.xml267, one "xml278" T.xml278, one "xml289" T.xml289, one "xml300" T.xml300, one "xml311" T.xml311,
      one "xml351" T.xml351, two "xml361" T.xml361, two "xml370" T.xml370, one "xml385" T.xml385, one "xml390" T.xml390,
      one "attrib37" T.attrib37, one "attrib40" T.attrib40,
      one "attrib48" T.attrib48, one "attrib54" T.attrib54, one "attrib92" T.attrib92, zero "xml225" T.xml225, zero "attrib83" T.attrib83,
      one "xml420" T.xml420, one "xml437" T.xml437, one "xml444" T.xml444, one "xml456" T.xml456, one "xml463" T.xml463,
      one "xml475" T.xml475, one "xml482" T.xml482, one "xml523" T.xml523, one "xml530" T.xml530, two "xml540" T.xml540,
      two "xml549" T.xml549, one "xml562" T.xml562, one "xml567" T.xml567,
      one "attrib167" T.attrib167, one "attrib172" T.attrib172, one "attrib180" T.attrib180,
      one "attrib185" T.attrib185, one "attrib194" T.attrib194, one "attrib199" T.attrib199, one "attrib208" T.attrib208,
      one "attrib213" T.attrib213, one "attrib252" T.attrib252, one "attrib257" T.attrib257] do printChunk "ext" t
    for t in [one "attrib51" T.attrib51, one "attrib57" T.attrib57] do printChunk "true" t
    for t in [two "xml219" T.xml219, two "xml412" T.xml412, two "attrib22" T.attrib22, two "attrib147" T.attrib147, zero "xml396" T.xml396, zero "xml134" T.xml134,
      txt "xml50" T.xml50, txt "xml52" T.xml52, zero "xml53" T.xml53, zero "xml56" T.xml56, zero "xml60" T.xml60,
      txt "xml64" T.xml64, txt "xml68" T.xml68] do printToks t
    for t in [one "xml93" T.xml93, two "xml106" T.xml106, two "xml149" T.xml149, two "xml164" T.xml164] do printFun t
  | ["ini"] =>
    IO.println (head "Verif.Cpp.Chunk\nimport Verif.Gen.Code" "tokens and syntax trees of the templates of\nprocess_items_ini.cpp and process_items.cpp")
    for t in [conv "bool" .bool, conv "int" .int, conv "unsignedInt" .unsignedInt, conv "float" .float, conv "double" .double,
      conv "long" .long, conv "short" .short, conv "unsignedShort" .unsignedShort, conv "stdString" .stdString,
      conv "unsignedLong" .unsignedLong, one "ini369" T.ini369, zero "ini400" T.ini400, three "ini417" T.ini417,
      one "ini422" T.ini422, one "ini427" T.ini427, one "ini432" T.ini432, zero "ini305" T.ini305, zero "ini310" T.ini310,
      zero "ini313" T.ini313, zero "ini444" T.ini444,
      zero "ini462" T.ini462, zero "ini463" T.ini463, one "ini466" T.ini466, zero "ini468" T.ini468, one "ini483" T.ini483,
      one "ini489" T.ini489, one "ini508" T.ini508, one "ini514" T.ini514, one "ini555" T.ini555, one "ini562" T.ini562,
      three "ini571" T.ini571, one "ini582" T.ini582, one "ini587" T.ini587, one "ini592" T.ini592,
      one "base162" T.base162, zero "base170" T.base170, one "base186" T.base186] do printChunk "ext" t
    for t in [two "ini301" T.ini301, two "ini458" T.ini458, zero "ini306" T.ini306, zero "ini307" T.ini307,
      zero "ini311" T.ini311, zero "ini312" T.ini312, zero "ini381" T.ini381, zero "ini440" T.ini440, zero "ini442" T.ini442,
      zero "ini443" T.ini443, zero "ini445" T.ini445, zero "ini446" T.ini446, zero "ini208" T.ini208,
      zero "ini53" T.ini53, zero "ini59" T.ini59, zero "ini61" T.ini61,
      zero "base90" T.base90, zero "base95" T.base95, one "base146" T.base146, one "base148" T.base148,
      two "base154" T.base154, one "base158" T.base158, zero "base161" T.base161,
      one "base169" T.base169, one "base172" T.base172, two "base178" T.base178, one "base182" T.base182] do printToks t
    for t in [two "ini120" T.ini120, two "ini239" T.ini239] do printFun t
  | _ => pure ()
  IO.println "end Stfx.Cpp"
