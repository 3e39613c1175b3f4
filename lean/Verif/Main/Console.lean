import Verif.Main.Process
import Verif.Run.Num
/-
What a run prints on standard output: the calls `fmt::println (format, ...)` without a file in main.cpp, items.cpp
and creation/*.  Every function below lists the texts printed by one function of the program; an element is the
text of one call, without the line end `println` adds.  The functions follow the control flow of the functions of
Main/Process.lean and use them for the state in between.

Simplifications: what the parser writes on standard error (struct_yacc.y:199-208, see Parser/Message.lean) and what the
scanner prints on standard output (struct_lex.l:57 and the default rule, see Main/StreamRun.lean) are left out; a text counts as
printed even if the run ends abnormally before the buffer of `stdout` is written out; printing never fails.
-/
set_option autoImplicit false
namespace Stfx.Main
open Stfx.Lexer Stfx.Parser Stfx.Items Stfx.Gen

/-! ### items.cpp -/

/-- Printed by one call made by a semantic action on object `self`, items.cpp:76-79 and 113-116. -/
def callSays (self : Nat) (h : Heap) : Call → List Str
  | .enum name _ =>
    match h[self]? with
    | none => []
    | some i => if getItemType i name ≠ .unknown then [c!"ERROR process_enum : name '" ++ name ++ c!" already in use"] else []
  | .struct name =>
    match h[self]? with
    | none => []
    | some i => if getItemType i name ≠ .unknown then [c!"ERROR process_struct : name '" ++ name ++ c!" already in use"] else []
  | .enumLine .. => []
  | .simple .. => []
  | .complex .. => []

/-- Printed by the calls made during a parse, in order, Parser.cpp:771-975. -/
def callsSay (self : Nat) : List Call → Heap → List Str
  | [], _ => []
  | c :: cs, h => callSays self h c ++ (match applyCall self h c with
    | none => []
    | some h' => callsSay self cs h')

/-- Printed by `process_input_file`, items.cpp:48-68, for the file `path` with this content (`none`: it can not be
opened).  Simplification: if the scanner or the parser has undefined behaviour, what the calls before print is left
out. -/
def inputSays (self : Nat) (path : Str) (content : Option Str) (h : Heap) : List Str :=
  match content with
  | none => [c!"ERROR: could not open file for reading: " ++ path ++ c!"\n"]
  | some t => (c!"\nFile opened for input:\t\t" ++ path) ::
    (match toksFile t with
     | none => []
     | some toks =>
       match parse toks with
       | .accepted log => callsSay self log h
       | .rejected log _ _ => callsSay self log h
       | _ => [])

/-! ### creation/ -/

/-- Printed for one line of type enum, struct or vector by `process_struct_reader`, and the same by
`process_struct_writer`: process_items_xml.cpp:386, 391, 563, 568, process_items_xml_attrib.cpp:124, 129, 284, 289,
process_items_ini.cpp:423, 428, 433, 583, 588, 593. -/
def lineSays (k : Kind) (co : ComplexLine) : List Str :=
  match k, co.ty with
  | .ini, _ => []
  | .nIni, .vector => [c!"// vector " ++ co.name ++ c!"\t within structure NOT SUPPORTED by n_ini"]
  | _, .enumOrStruct => [c!"// enum_or_struct_E " ++ co.name ++ c!"\t NEEDS TO BE FIXED!!"]
  | _, .unknown => [c!"\t// WARNING FAILED TO PROCESS " ++ co.name]
  | _, _ => []

/-- Printed by `process_struct_reader`, and the same by `process_struct_writer`: process_items_xml.cpp:213-404,
406-578, process_items_xml_attrib.cpp:16-299, process_items_ini.cpp:284-603.  The messages for simple lines
(process_items_xml.cpp:323, 494, process_items_xml_attrib.cpp:61, 220, process_items_ini.cpp:351, 525) are in
unreachable branches: all values of `simple_item_type_E` have a branch of their own. -/
def structSays (k : Kind) (s : StructS) : List Str := s.complex.flatMap (lineSays k)

/-- Printed by the code that opens and writes a pair of files, process_items.cpp:75-136, process_items_xml.cpp:38-209,
process_items_ini.cpp:38-279; `inner` is printed while both are open. -/
def pairSays (env : Env) (what tabs cpp h : Str) (inner : List Str) : List Str :=
  if env.canWrite cpp then
    (c!"Opened " ++ what ++ c!" .cpp file :" ++ tabs ++ cpp) ::
    (if env.canWrite h then (c!"Opened " ++ what ++ c!" .h file :" ++ tabs ++ h) :: inner
     else [c!"\nERROR : Failed to open output file " ++ filename h])
  else [c!"\nERROR : Failed to open output file " ++ filename cpp]

/-- Printed by `process_all_enums`, process_items.cpp:56-138. -/
def enumsSay (env : Env) (base : Str) (out : OutSpec) : List Str :=
  match outDir env base out with
  | none => []
  | some dir => pairSays env c!"enum" c!"\t\t" (cppPath dir out.enumFile) (hPath dir out.enumFile) []

/-- The word in the message about an opened file, process_items_xml.cpp:42, 47, process_items_ini.cpp:42, 47. -/
def kindWord : Kind → Str
  | .xml => c!"xml struct"
  | .attrib => c!"xml struct"
  | .ini => c!"ini struct"
  | .nIni => c!"ini struct"

/-- Printed by `process_all_structs`, process_items_xml.cpp:17-211, process_items_ini.cpp:17-283: the messages of
the functions for every struct, first the readers, then the writers if there is a writer class. -/
def structsSay (env : Env) (k : Kind) (base : Str) (out : OutSpec) (i : Info) : List Str :=
  match outDir env base out with
  | none => []
  | some dir => pairSays env (kindWord k) c!"\t" (cppPath dir out.structsFile) (hPath dir out.structsFile)
      (i.structs.flatMap (fun p => structSays k p.2) ++
       (if out.onlyRead then [] else i.structs.flatMap (fun p => structSays k p.2)))

/-- Printed by `process_items`, process_items.cpp:28-53, on object `self`. -/
def processItemsSays (env : Env) (k : Kind) (base : Str) (self : Nat) (inputs : List Str) (out : OutSpec) (w : World) :
    List Str :=
  c!"\nStarting to create output." ::
  (match prepare self w.heap with
   | none => []
   | some (heap, _) =>
     match heap[self]? with
     | none => []
     | some i =>
       (if disabled out.enumFile then [c!"Not generating enum information at this point"] else enumsSay env base out) ++
       (match (if disabled out.enumFile then Res.ok true { w with heap := heap }
               else processAllEnums env base inputs out i { w with heap := heap }) with
        | .stop _ _ => []
        | .ok _ _ =>
          if disabled out.structsFile then [c!"Not generating struct information at this point"]
          else structsSay env k base out i))

/-! ### main.cpp -/

/-- A `bool` formatted with `{}`, main.cpp:88. -/
def boolText (b : Bool) : Str := if b then c!"true" else c!"false"

/-- A number formatted with `{}`, main.cpp:58, 62, 92. -/
def numText (n : Nat) : Str := Stfx.Run.natText n

/-- Printed by `process_single_header`, main.cpp:67-97.  Line 92 prints the value of `m_parse_rv`. -/
def headerSays (env : Env) (inPath : Str) (w : World) : List Str :=
  inputSays 0 inPath (w.read env inPath) [Info.empty] ++
  (match processInputFile 0 (w.read env inPath) [Info.empty] with
   | none => []
   | some (heap, ok) =>
     if ok then
       (c!"Successfully parsed file:\t" ++ inPath) ::
       (processItemsSays env .attrib (parentPath inPath) 0 [filename inPath] headerSpec { w with heap := heap } ++
        (match processItems env .attrib (parentPath inPath) 0 [filename inPath] headerSpec { w with heap := heap } with
         | .stop _ _ => []
         | .ok b _ => [c!"Processing items done. Success = " ++ boolText b]))
     else
       [c!"Failed to correctly parse '" ++ inPath ++ c!"' code " ++ numText ((heap[0]?.map (·.parseRv)).getD 0)])

/-- `fmt::formatter < serialization_type_E >`, configuration/enums.h:23-32, `stfx::s_from_e`, configuration/enums.cpp:16-28. -/
def typeText (t : Int) : Str :=
  if t = 0 then c!"xml_attrib"
  else if t = 1 then c!"xml"
  else if t = 2 then c!"ini"
  else if t = 3 then c!"n_ini"
  else if t = 4 then c!"json"
  else Stfx.Run.intText t

/-- Printed by the loops reading input files, main.cpp:120-135, 181-196: by each call of `process_input_file` and
about its result. -/
def readsSay (env : Env) (base : Str) (self : Nat) : List Str → World → List Str
  | [], _ => []
  | n :: ns, w =>
    inputSays self (join base n) (w.read env (join base n)) w.heap ++
    (match processInputFile self (w.read env (join base n)) w.heap with
     | none => []
     | some (heap, ok) =>
       (if ok then c!"Successfully parsed file:\t" ++ join base n else c!"ERROR : failed to process " ++ join base n) ::
       readsSay env base self ns { w with heap := heap })

/-- The message of the `default` branches, main.cpp:172, 230. -/
def unsupported (t : Int) : Str := c!"ERROR : output type " ++ typeText t ++ c!" not currently supported"

/-- Printed by one switch statement, main.cpp:139-174, 197-232; `named` is the type the message names. -/
def generateSays (env : Env) (base : Str) (self : Nat) (inputs : List Str) (out : OutSpec) (named : Int) (w : World) :
    List Str :=
  match kindOf out.fileType with
  | none => [unsupported named]
  | some k => processItemsSays env k base self inputs out w

/-- Printed by one turn of the loop over the output groups, main.cpp:177-233; the message of line 230 names the type
of the common output. -/
def groupSays (env : Env) (base : Str) (commonIn : List Str) (common : OutSpec) (g : List Str × OutSpec) (w : World) :
    List Str :=
  match copyInfo 0 w.heap with
  | none => []
  | some heap =>
    readsSay env base w.heap.length g.1 { w with heap := heap } ++
    (match readInputs env base w.heap.length g.1 { w with heap := heap } with
     | .stop _ _ => []
     | .ok _ w' => generateSays env base w.heap.length (commonIn ++ g.1) g.2 common.fileType w')

/-- Printed by the loop over the output groups, main.cpp:177-233. -/
def groupsSay (env : Env) (base : Str) (commonIn : List Str) (common : OutSpec) :
    List (List Str × OutSpec) → World → List Str
  | [], _ => []
  | g :: gs, w => groupSays env base commonIn common g w ++
    (match runGroup env base commonIn g w with
     | .stop _ _ => []
     | .ok _ w' => groupsSay env base commonIn common gs w')

/-- Printed by `process_stfx_file`, main.cpp:99-238. -/
def stfxSays (env : Env) (inFile : Str) (load : LoadRes) (w : World) : List Str :=
  match load with
  | .failed => [c!"failed to process " ++ inFile]
  | .ub => []
  | .loaded c =>
    readsSay env (parentPath inFile) 0 c.commonIn { w with heap := [Info.empty] } ++
    (match readInputs env (parentPath inFile) 0 c.commonIn { w with heap := [Info.empty] } with
     | .stop _ _ => []
     | .ok _ w1 =>
       [] :: (generateSays env (parentPath inFile) 0 c.commonIn c.commonOut c.commonOut.fileType w1 ++
       (match generate env (parentPath inFile) 0 c.commonIn c.commonOut w1 with
        | .stop _ _ => []
        | .ok _ w2 => groupsSay env (parentPath inFile) c.commonIn c.commonOut c.nonCommon w2)))

/-- The message about the arguments, main.cpp:28-32 and 38-43. -/
def usage (program : Str) : Str :=
  program ++ c!" <filename> :\n\nProgram that creates code that performs the translation of Structs To/From Xml file\n\n" ++
  c!"<filename> is <inputheader> headerfile or <setup>.stfx stfx configuration file.\n<filename> parameter must be given"

/-- The last message, main.cpp:56-63. -/
def verdict (rv : Nat) : Str :=
  if rv = 0 then c!"\nProcessing successful. Returning " ++ numText rv ++ c!" to caller"
  else c!"\nProcessing failed. Returning " ++ numText rv ++ c!" to caller"

/-- Printed by `main`, main.cpp:20-65; `program` is `argv[0]`. -/
def mainSays (env : Env) (program : Str) (arg : Option Str) (locate : Str → Located) (load : Str → LoadRes) (w : World) :
    List Str :=
  env.stamp ::
  (match arg with
   | none => [usage program]
   | some a =>
     match locate a with
     | .missing => [usage program ++ c!"\n<filename> '" ++ a ++ c!"' does NOT exist"]
     | .threw => []
     | .canonical p =>
       (if extension p = c!".stfx" then stfxSays env p (load p) w else headerSays env p w) ++
       (match (if extension p = c!".stfx" then processStfxFile env p (load p) w else processSingleHeader env p w) with
        | .stop _ _ => []
        | .ok rv _ => [verdict rv]))

end Stfx.Main
