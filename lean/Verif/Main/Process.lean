import Verif.Gen.Generate
/-
Writing the generated files: `process_items_C::process_items`, `process_all_enums`, `process_all_structs`,
and the main program /repo/src/main.cpp.
-/
set_option autoImplicit false
namespace Stfx.Main
open Stfx.Parser Stfx.Items Stfx.Gen

/-! ### Paths (std::filesystem::path, POSIX format) -/

/-- Last component, used in process_items.cpp:70-71, main.cpp:83. -/
def filename (p : Str) : Str := (p.reverse.takeWhile (· ≠ '/')).reverse

/-- `operator/=`, used in process_items.cpp:62-66, main.cpp:124, 185. -/
def join (a b : Str) : Str :=
  if b.head? = some '/' then b
  else if a = [] ∨ a.getLast? = some '/' then a ++ b
  else a ++ '/' :: b

/-- `extension()`: from the last dot of the last component, unless that dot is its first character
or the component is `..`, used in main.cpp:47 and by `replace_extension`. -/
def extension (p : Str) : Str :=
  let f := filename p
  if f = c!".." then []
  else
    let tail := (f.reverse.takeWhile (· ≠ '.')).reverse
    if tail.length + 1 < f.length then '.' :: tail else []

/-- `replace_extension(".h")`. -/
def replaceExtH (p : Str) : Str := p.take (p.length - (extension p).length) ++ c!".h"

/-- `parent_path()` of an absolute path that does not end in a separator, used in main.cpp:79, 115. -/
def parentPath (p : Str) : Str :=
  match (p.reverse.dropWhile (· ≠ '/')).tail with
  | [] => c!"/"
  | r => r.reverse

/-! ### The world -/

/-- What the operating system and the build decide.  Simplification: these answers do not change during
a run (process_items.cpp:56-86, main.cpp:36-46). -/
structure Env where
  /-- can the path be opened for writing? -/
  canWrite : Str → Bool
  /-- `create_directories` followed by `canonical`: the canonical path, or `none` if one of them throws -/
  makeDir : Str → Option Str
  /-- the file a path denotes (several paths can denote the same file) -/
  ident : Str → Str
  /-- `app_timestamp`, timestamp.cpp -/
  stamp : Str

/-- State of a run.  Simplification: console output is left out (main.cpp:67-238). -/
structure World where
  heap : Heap
  /-- contents of the files that can be opened for reading -/
  files : Str → Option Str
  /-- paths `fopen`ed with mode "w", successfully or not -/
  attempts : List Str

/-- How a run can end other than by returning (there is no `try` in main.cpp). -/
inductive Fault where
  /-- undefined behaviour -/
  | ub
  /-- an exception nobody catches: `std::terminate` -/
  | terminate
deriving DecidableEq, Repr

/-- Result of an action, main.cpp:20-238. -/
inductive Res (α : Type) where
  | ok (a : α) (w : World)
  | stop (f : Fault) (w : World)

/-- The state at the end, main.cpp:20-238. -/
def Res.world {α : Type} : Res α → World
  | .ok _ w => w
  | .stop _ w => w

/-- One action after the other, main.cpp:20-238. -/
def Res.bind {α β : Type} : Res α → (α → World → Res β) → Res β
  | .ok a w, f => f a w
  | .stop e w, _ => .stop e w

/-- Content of the file denoted by a path, items.cpp:48-68, main.cpp:107. -/
def World.read (w : World) (env : Env) (p : Str) : Option Str := w.files (env.ident p)

/-- `fopen(p, "w")`, process_items.cpp:76, 81, process_items_xml.cpp:39, 44, process_items_ini.cpp:39, 44. -/
def World.attempt (w : World) (p : Str) : World := { w with attempts := w.attempts ++ [p] }

/-- The file now has this content, process_items.cpp:75-136. -/
def World.put (w : World) (env : Env) (p content : Str) : World :=
  { w with files := fun q => if q = env.ident p then some content else w.files q }

/-- Opening a pair of files and writing them, process_items.cpp:75-136, process_items_xml.cpp:39-210,
process_items_ini.cpp:39-281: the .cpp file is opened, and so truncated, first.  Returns whether both could
be opened.  Simplifications: writing to an open file never fails; if both paths denote the same file its
content is the .h text. -/
def writePair (env : Env) (cpp h textCpp textH : Str) (w : World) : Bool × World :=
  let w := w.attempt cpp
  if env.canWrite cpp then
    let w := (w.put env cpp []).attempt h
    if env.canWrite h then (true, ((w.put env cpp textCpp).put env h textH)) else (false, w)
  else (false, w)

/-- The output directory, process_items.cpp:59-65: `none` if an exception is thrown. -/
def outDir (env : Env) (base : Str) (out : OutSpec) : Option Str :=
  if out.dir = [] then some base else env.makeDir (join base out.dir)

/-- Path of the .cpp file with root name `f`, process_items.cpp:66. -/
def cppPath (dir f : Str) : Str := join dir (f ++ c!".cpp")
/-- Path of the .h file, process_items.cpp:67. -/
def hPath (dir f : Str) : Str := replaceExtH (cppPath dir f)

/-- `process_all_enums`, process_items.cpp:56-138 (its return value is `true` even if a file can not be
opened). -/
def processAllEnums (env : Env) (base : Str) (inputs : List Str) (out : OutSpec) (i : Info) (w : World) : Res Bool :=
  match outDir env base out with
  | none => .stop .terminate w
  | some dir =>
    let cpp := cppPath dir out.enumFile
    let h := hPath dir out.enumFile
    .ok true (writePair env cpp h
      (fileText (enumsCpp env.stamp (filename cpp) (filename h) inputs i.enums))
      (fileText (enumsH env.stamp (filename h) inputs i.enums)) w).2

/-- `process_all_structs`, process_items_xml.cpp:17-211, process_items_ini.cpp:17-283. -/
def processAllStructs (env : Env) (k : Kind) (base : Str) (inputs : List Str) (out : OutSpec) (i : Info) (w : World) :
    Res Bool :=
  match outDir env base out with
  | none => .stop .terminate w
  | some dir =>
    let cpp := cppPath dir out.structsFile
    let h := hPath dir out.structsFile
    let r := writePair env cpp h
      (fileText (structsCpp k env.stamp (filename cpp) (filename h) inputs out i.structs))
      (fileText (structsH k env.stamp (filename h) inputs out i.structs)) w
    .ok (r.1 && structsOk k out i.structs) r.2

/-- `process_items_C::process_items`, process_items.cpp:28-53, on object `self`. -/
def processItems (env : Env) (k : Kind) (base : Str) (self : Nat) (inputs : List Str) (out : OutSpec) (w : World) :
    Res Bool :=
  match prepare self w.heap with
  | none => .stop .ub w
  | some (heap, ok1) =>
    match heap[self]? with
    | none => .stop .ub w
    | some i =>
      let w := { w with heap := heap }
      (if disabled out.enumFile then Res.ok true w else processAllEnums env base inputs out i w).bind fun ok2 w =>
      (if disabled out.structsFile then Res.ok true w else processAllStructs env k base inputs out i w).bind fun ok3 w =>
      .ok (ok1 && ok2 && ok3) w

/-! ### main.cpp -/

/-- `output_spec` with its default member initialisers, configuration/config_data.h:19-29. -/
def OutSpec.default : OutSpec :=
  { dir := [], enumFile := [], structsFile := [], readerClass := c!"xml_reader_C", writerClass := c!"xml_writer_C",
    fileType := 0, onlyRead := false, noDelta := false }

/-- The output specification used for a single header, main.cpp:81-85. -/
def headerSpec : OutSpec := { OutSpec.default with enumFile := c!"enums", structsFile := c!"structs" }

/-- `process_single_header`, main.cpp:67-97: the exit status.  The inner `ok` of line 77 shadows the outer
one, which is the one tested at the end. -/
def processSingleHeader (env : Env) (inPath : Str) (w : World) : Res Nat :=
  match processInputFile 0 (w.read env inPath) [Info.empty] with
  | none => .stop .ub w
  | some (heap, ok) =>
    let w := { w with heap := heap }
    if ok then
      (processItems env .attrib (parentPath inPath) 0 [filename inPath] headerSpec w).bind fun _ w => .ok 0 w
    else .ok 1 w

/-- `config` with its parts, configuration/config_data.h:31-53. -/
structure Config where
  commonIn : List Str
  commonOut : OutSpec
  nonCommon : List (List Str × OutSpec)
deriving DecidableEq, Repr

/-- Result of `reader.read_from_file(in_file, conf)`, configuration/structs.cpp. -/
inductive LoadRes where
  /-- the file is not well-formed XML -/
  | failed
  /-- undefined behaviour in the reader: a document without root element, a number that does not fit -/
  | ub
  | loaded (c : Config)
deriving DecidableEq, Repr

/-- The generator chosen by the switch statements, main.cpp:140-174 and 198-232. -/
def kindOf (t : Int) : Option Kind :=
  if t = 0 then some .attrib
  else if t = 1 then some .xml
  else if t = 2 then some .ini
  else if t = 3 then some .nIni
  else none

/-- One switch statement, main.cpp:139-174, 197-232. -/
def generate (env : Env) (base : Str) (self : Nat) (inputs : List Str) (out : OutSpec) (w : World) : Res Unit :=
  match kindOf out.fileType with
  | none => .ok () w
  | some k => (processItems env k base self inputs out w).bind fun _ w => .ok () w

/-- The loops reading input files into object `self`, main.cpp:120-135, 181-196. -/
def readInputs (env : Env) (base : Str) (self : Nat) (names : List Str) (w : World) : Res Unit :=
  match processFiles self (names.map fun n => w.read env (join base n)) w.heap with
  | none => .stop .ub w
  | some heap => .ok () { w with heap := heap }

/-- One turn of the loop over the output groups, main.cpp:179-232. -/
def runGroup (env : Env) (base : Str) (commonIn : List Str) (g : List Str × OutSpec) (w : World) : Res Unit :=
  match copyInfo 0 w.heap with
  | none => .stop .ub w
  | some heap =>
    let self := w.heap.length
    (readInputs env base self g.1 { w with heap := heap }).bind fun _ w =>
    (generate env base self (commonIn ++ g.1) g.2 w).bind fun _ w =>
    .ok () { w with heap := w.heap.dropLast }

/-- The loop over the output groups, main.cpp:177-233. -/
def runGroups (env : Env) (base : Str) (commonIn : List Str) : List (List Str × OutSpec) → World → Res Unit
  | [], w => .ok () w
  | g :: gs, w => (runGroup env base commonIn g w).bind fun _ w => runGroups env base commonIn gs w

/-- `process_stfx_file`, main.cpp:99-238: the exit status. -/
def processStfxFile (env : Env) (inFile : Str) (load : LoadRes) (w : World) : Res Nat :=
  match load with
  | .failed => .ok 1 w
  | .ub => .stop .ub w
  | .loaded c =>
    let base := parentPath inFile
    (readInputs env base 0 c.commonIn { w with heap := [Info.empty] }).bind fun _ w =>
    (generate env base 0 c.commonIn c.commonOut w).bind fun _ w =>
    (runGroups env base c.commonIn c.nonCommon w).bind fun _ w =>
    .ok 0 w

/-- What `exists` and `canonical` say about the argument, main.cpp:36-46. -/
inductive Located where
  | missing
  | threw
  | canonical (p : Str)
deriving DecidableEq, Repr

/-- `main`, main.cpp:20-65: the exit status.  `load` is what reading the file as configuration gives. -/
def main (env : Env) (arg : Option Str) (locate : Str → Located) (load : Str → LoadRes) (w : World) : Res Nat :=
  match arg with
  | none => .ok 1 w
  | some a =>
    match locate a with
    | .missing => .ok 1 w
    | .threw => .stop .terminate w
    | .canonical p =>
      if extension p = c!".stfx" then processStfxFile env p (load p) w
      else processSingleHeader env p w

end Stfx.Main
