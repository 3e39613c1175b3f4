import Verif.Main.Stream
/-
Everything a run prints on standard output, in order.  The functions follow those of Main/Console.lean, with `fileStream` for
the part that reads a file.
-/
set_option autoImplicit false
namespace Stfx.Main
open Stfx.Lexer Stfx.Parser Stfx.Items Stfx.Gen

/-- Messages only: functions that do not call the scanner, items.cpp:51-68, creation/process_items.cpp:28-138. -/
def lines (ms : List Str) : List Piece := ms.map .message

/-- `process_input_file`, items.cpp:48-68. -/
def inputStream (self : Nat) (path : Str) (content : Option Str) (h : Heap) : List Piece :=
  match content with
  | none => lines (inputSays self path none h)
  | some t => (fileStream self path t h).getD []

/-- `process_single_header`, main.cpp:67-97. -/
def headerStream (env : Env) (inPath : Str) (w : World) : List Piece :=
  inputStream 0 inPath (w.read env inPath) [Info.empty] ++
  (match processInputFile 0 (w.read env inPath) [Info.empty] with
   | none => []
   | some (heap, ok) => lines (
     if ok then
       (c!"Successfully parsed file:\t" ++ inPath) ::
       (processItemsSays env .attrib (parentPath inPath) 0 [filename inPath] headerSpec { w with heap := heap } ++
        (match processItems env .attrib (parentPath inPath) 0 [filename inPath] headerSpec { w with heap := heap } with
         | .stop _ _ => []
         | .ok b _ => [c!"Processing items done. Success = " ++ boolText b]))
     else
       [c!"Failed to correctly parse '" ++ inPath ++ c!"' code " ++ numText ((heap[0]?.map (·.parseRv)).getD 0)]))

/-- The loops reading input files, main.cpp:120-135, 181-196. -/
def readsStream (env : Env) (base : Str) (self : Nat) : List Str → World → List Piece
  | [], _ => []
  | n :: ns, w =>
    inputStream self (join base n) (w.read env (join base n)) w.heap ++
    (match processInputFile self (w.read env (join base n)) w.heap with
     | none => []
     | some (heap, ok) =>
       .message (if ok then c!"Successfully parsed file:\t" ++ join base n else c!"ERROR : failed to process " ++ join base n) ::
       readsStream env base self ns { w with heap := heap })

/-- One turn of the loop over the output groups, main.cpp:177-233. -/
def groupStream (env : Env) (base : Str) (commonIn : List Str) (common : OutSpec) (g : List Str × OutSpec) (w : World) :
    List Piece :=
  match copyInfo 0 w.heap with
  | none => []
  | some heap =>
    readsStream env base w.heap.length g.1 { w with heap := heap } ++
    (match readInputs env base w.heap.length g.1 { w with heap := heap } with
     | .stop _ _ => []
     | .ok _ w' => lines (generateSays env base w.heap.length (commonIn ++ g.1) g.2 common.fileType w'))

/-- The loop over the output groups, main.cpp:177-233. -/
def groupsStream (env : Env) (base : Str) (commonIn : List Str) (common : OutSpec) :
    List (List Str × OutSpec) → World → List Piece
  | [], _ => []
  | g :: gs, w => groupStream env base commonIn common g w ++
    (match runGroup env base commonIn g w with
     | .stop _ _ => []
     | .ok _ w' => groupsStream env base commonIn common gs w')

/-- `process_stfx_file`, main.cpp:99-238. -/
def stfxStream (env : Env) (inFile : Str) (load : LoadRes) (w : World) : List Piece :=
  match load with
  | .failed => lines [c!"failed to process " ++ inFile]
  | .ub => []
  | .loaded c =>
    readsStream env (parentPath inFile) 0 c.commonIn { w with heap := [Info.empty] } ++
    (match readInputs env (parentPath inFile) 0 c.commonIn { w with heap := [Info.empty] } with
     | .stop _ _ => []
     | .ok _ w1 =>
       lines ([] :: generateSays env (parentPath inFile) 0 c.commonIn c.commonOut c.commonOut.fileType w1) ++
       (match generate env (parentPath inFile) 0 c.commonIn c.commonOut w1 with
        | .stop _ _ => []
        | .ok _ w2 => groupsStream env (parentPath inFile) c.commonIn c.commonOut c.nonCommon w2))

/-- `main`, main.cpp:20-65; `program` is `argv[0]`. -/
def mainStream (env : Env) (program : Str) (arg : Option Str) (locate : Str → Located) (load : Str → LoadRes) (w : World) :
    List Piece :=
  .message env.stamp ::
  (match arg with
   | none => lines [usage program]
   | some a =>
     match locate a with
     | .missing => lines [usage program ++ c!"\n<filename> '" ++ a ++ c!"' does NOT exist"]
     | .threw => []
     | .canonical p =>
       (if extension p = c!".stfx" then stfxStream env p (load p) w else headerStream env p w) ++
       (match (if extension p = c!".stfx" then processStfxFile env p (load p) w else processSingleHeader env p w) with
        | .stop _ _ => []
        | .ok rv _ => lines [verdict rv]))

end Stfx.Main
