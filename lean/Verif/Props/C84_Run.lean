import Verif.Main.StreamRun
import Verif.Main.Facts
import Verif.Props.C84_Stream
import Verif.Props.C73_Console
/-
Property C84 for whole runs.
-/
set_option autoImplicit false
namespace Stfx.Main
open Stfx.Lexer Stfx.Parser Stfx.Items Stfx.Gen

theorem messages_lines (ms : List Str) : messages (lines ms) = ms := messages_messages ms

theorem pieces_messages (self : Nat) (es : List Event) (ls : List Lexeme) (h : Heap) :
    messages (piecesOf self es ls h) = callsSay self (callsOf es) h := by
  induction es generalizing ls h with
  | nil => rfl
  | cons e es ih =>
    cases e with
    | read => exact ih _ _
    | call c =>
      simp only [piecesOf, messages_append, messages_messages, callsOf, callsSay]
      cases applyCall self h c with
      | none => rfl
      | some h' => simp only [ih]

theorem file_messages (self : Nat) (path t : Str) (h : Heap) :
    ∃ ps, fileStream self path t h = some ps ∧ messages ps = inputSays self path (some t) h := by
  obtain ⟨ls, hls, _⟩ := C02_total_lossless t
  have hts : toksFile t = some (tokensOf ls) := by
    unfold toksFile toksFrom
    rw [show lexFrom LexSt.init t = some ls from hls]
    rfl
  refine ⟨_, by unfold fileStream; rw [hls], ?_⟩
  simp only [messages, pieces_messages]
  unfold inputSays parseEvents
  simp only [hts]
  rcases C09_total (tokensOf ls) with ⟨log, h1⟩ | ⟨log, t, rest, h1⟩
  · have e2 := events_calls (fuelFor (tokensOf ls)) (c := Cfg.init (tokensOf ls)) (Or.inl h1)
    rw [h1, show callsOf (events (fuelFor (tokensOf ls)) (Cfg.init (tokensOf ls))) = log from e2]
  · have e2 := events_calls (fuelFor (tokensOf ls)) (c := Cfg.init (tokensOf ls)) (Or.inr ⟨_, _, h1⟩)
    rw [h1, show callsOf (events (fuelFor (tokensOf ls)) (Cfg.init (tokensOf ls))) = log from e2]

theorem input_messages (self : Nat) (path : Str) (c : Option Str) (h : Heap) :
    messages (inputStream self path c h) = inputSays self path c h := by
  cases c with
  | none => exact messages_lines _
  | some t =>
    obtain ⟨ps, e1, e2⟩ := file_messages self path t h
    simp only [inputStream, e1, Option.getD_some, e2]

theorem reads_messages (env : Env) (base : Str) (self : Nat) (ns : List Str) (w : World) :
    messages (readsStream env base self ns w) = readsSay env base self ns w := by
  induction ns generalizing w with
  | nil => rfl
  | cons n ns ih =>
    simp only [readsStream, readsSay, messages_append, input_messages]
    congr 1
    cases processInputFile self (w.read env (join base n)) w.heap with
    | none => rfl
    | some r => simp only [messages, ih]

theorem group_messages (env : Env) (base : Str) (ci : List Str) (co : OutSpec) (g : List Str × OutSpec) (w : World) :
    messages (groupStream env base ci co g w) = groupSays env base ci co g w := by
  unfold groupStream groupSays
  cases copyInfo 0 w.heap with
  | none => rfl
  | some heap =>
    simp only [messages_append, reads_messages]
    congr 1
    cases readInputs env base w.heap.length g.1 { w with heap := heap } with
    | stop _ _ => rfl
    | ok _ w' => exact messages_lines _

theorem groups_messages (env : Env) (base : Str) (ci : List Str) (co : OutSpec) (gs : List (List Str × OutSpec)) (w : World) :
    messages (groupsStream env base ci co gs w) = groupsSay env base ci co gs w := by
  induction gs generalizing w with
  | nil => rfl
  | cons g gs ih =>
    simp only [groupsStream, groupsSay, messages_append, group_messages]
    congr 1
    cases runGroup env base ci g w with
    | stop _ _ => rfl
    | ok _ w' => exact ih _

theorem stfx_messages (env : Env) (f : Str) (load : LoadRes) (w : World) :
    messages (stfxStream env f load w) = stfxSays env f load w := by
  cases load with
  | failed => exact messages_lines _
  | ub => rfl
  | loaded c =>
    simp only [stfxStream, stfxSays, messages_append, reads_messages]
    congr 1
    cases readInputs env (parentPath f) 0 c.commonIn { w with heap := [Info.empty] } with
    | stop _ _ => rfl
    | ok _ w1 =>
      simp only [messages_append, messages_lines, List.cons_append]
      congr 2
      cases generate env (parentPath f) 0 c.commonIn c.commonOut w1 with
      | stop _ _ => rfl
      | ok _ w2 => exact groups_messages _ _ _ _ _ _

theorem header_messages (env : Env) (p : Str) (w : World) : messages (headerStream env p w) = headerSays env p w := by
  simp only [headerStream, headerSays, messages_append, input_messages]
  congr 1
  cases processInputFile 0 (w.read env p) [Info.empty] with
  | none => rfl
  | some r => exact messages_lines _

/-- The part of the output that reads one file, or a message of its own.  (Specification notion, models no code.) -/
inductive Part where
  | line (m : Str)
  | file (self : Nat) (path text : Str) (h : Heap) (ps : List Piece)

/-- Its pieces.  (Specification notion, models no code.) -/
def Part.pieces : Part → List Piece
  | .line m => [.message m]
  | .file _ _ _ _ ps => ps

/-- The part for a file is what `process_input_file` prints for its text, on tables that are in order.
(Specification notion, models no code.) -/
def Part.Ok : Part → Prop
  | .line _ => True
  | .file self path text h ps => HeapOk h ∧ self < h.length ∧ fileStream self path text h = some ps

/-- The output consists of such parts.  (Specification notion, models no code.) -/
def InParts (ps : List Piece) : Prop := ∃ parts : List Part, ps = parts.flatMap Part.pieces ∧ ∀ p ∈ parts, p.Ok

theorem InParts.nil : InParts [] := ⟨[], rfl, by simp⟩

theorem InParts.append {a b : List Piece} (ha : InParts a) (hb : InParts b) : InParts (a ++ b) := by
  obtain ⟨p, rfl, h1⟩ := ha
  obtain ⟨q, rfl, h2⟩ := hb
  refine ⟨p ++ q, by simp, fun x hx => ?_⟩
  rcases List.mem_append.1 hx with hx | hx
  · exact h1 x hx
  · exact h2 x hx

theorem InParts.lines (ms : List Str) : InParts (lines ms) := by
  refine ⟨ms.map .line, ?_, ?_⟩
  · unfold Main.lines
    induction ms with
    | nil => rfl
    | cons m ms ih => simp only [List.map_cons, List.flatMap_cons, ← ih]; rfl
  · intro p hp
    obtain ⟨m, _, rfl⟩ := List.mem_map.1 hp
    trivial

theorem input_parts {self : Nat} {h : Heap} (path : Str) (c : Option Str) (hok : HeapOk h) (hs : self < h.length) :
    InParts (inputStream self path c h) := by
  cases c with
  | none => exact InParts.lines _
  | some t =>
    obtain ⟨ps, e1, _⟩ := file_messages self path t h
    refine ⟨[.file self path t h ps], ?_, ?_⟩
    · simp [inputStream, e1, Part.pieces]
    · intro p hp
      rw [List.mem_singleton.1 hp]
      exact ⟨hok, hs, e1⟩

theorem reads_parts (env : Env) (base : Str) (self : Nat) (ns : List Str) {w : World} (hok : HeapOk w.heap)
    (hs : self < w.heap.length) : InParts (readsStream env base self ns w) := by
  induction ns generalizing w with
  | nil => exact InParts.nil
  | cons n ns ih =>
    unfold readsStream
    refine (input_parts _ _ hok hs).append ?_
    obtain ⟨h', b, e, ok', l'⟩ := processInputFile_ok hok hs (w.read env (join base n))
    rw [e]
    exact (InParts.lines [_]).append (ih (w := { w with heap := h' }) ok' (by simp only [l']; exact hs))

theorem group_parts (env : Env) (base : Str) (ci : List Str) (co : OutSpec) (g : List Str × OutSpec) {w : World}
    (hok : HeapOk w.heap) (hs : 0 < w.heap.length) : InParts (groupStream env base ci co g w) := by
  have hi : w.heap[0]? = some w.heap[0] := List.getElem?_eq_getElem hs
  generalize w.heap[0] = i at hi
  have hc : copyInfo 0 w.heap = some (w.heap ++ [i]) := by unfold copyInfo; rw [hi]; rfl
  unfold groupStream
  rw [hc]
  refine (reads_parts env base _ _ (w := { w with heap := w.heap ++ [i] }) (hok.copy hi) (by simp)).append ?_
  split
  · exact InParts.nil
  · exact InParts.lines _

theorem groups_parts (env : Env) (base : Str) (ci : List Str) (co : OutSpec) (gs : List (List Str × OutSpec)) {w : World}
    (hok : HeapOk w.heap) (hs : 0 < w.heap.length) : InParts (groupsStream env base ci co gs w) := by
  induction gs generalizing w with
  | nil => exact InParts.nil
  | cons g gs ih =>
    unfold groupsStream
    refine (group_parts env base ci co g hok hs).append ?_
    obtain ⟨_, h2, _, _⟩ := runGroup_spec hok hs env base ci g
    cases e : runGroup env base ci g w with
    | stop _ _ => exact InParts.nil
    | ok _ w' =>
      obtain ⟨ok', l'⟩ := h2 w' e
      exact ih ok' (by omega)

theorem empty_ok : HeapOk [Info.empty] := HeapOk.nil.new

/-- C84: in every run, the messages of the program are those of C73, and what is printed consists of single messages and of
what is printed for the files that are read (`C84_parts`, `C84_order`). -/
theorem C84_run (env : Env) (program : Str) (arg : Option Str) (locate : Str → Located) (load : Str → LoadRes) (w : World) :
    messages (mainStream env program arg locate load w) = mainSays env program arg locate load w ∧
    InParts (mainStream env program arg locate load w) := by
  unfold mainStream mainSays
  cases arg with
  | none => exact ⟨by simp only [messages, messages_lines], (InParts.lines [env.stamp]).append (InParts.lines _)⟩
  | some a =>
    simp only
    cases locate a with
    | missing => exact ⟨by simp only [messages, messages_lines], (InParts.lines [env.stamp]).append (InParts.lines _)⟩
    | threw => exact ⟨rfl, InParts.lines [env.stamp]⟩
    | canonical p =>
      simp only [messages, messages_append]
      refine ⟨?_, (InParts.lines [env.stamp]).append (InParts.append ?_ ?_)⟩
      · congr 1
        congr 1
        · by_cases hx : extension p = c!".stfx"
          · rw [if_pos hx, if_pos hx]; exact stfx_messages _ _ _ _
          · rw [if_neg hx, if_neg hx]; exact header_messages _ _ _
        · cases (if extension p = c!".stfx" then processStfxFile env p (load p) w else processSingleHeader env p w) with
          | stop _ _ => rfl
          | ok rv _ => exact messages_lines _
      · split
        · cases load p with
          | failed => exact InParts.lines _
          | ub => exact InParts.nil
          | loaded c =>
            unfold stfxStream
            refine (reads_parts _ _ _ _ (w := { w with heap := [Info.empty] }) empty_ok (by simp)).append ?_
            obtain ⟨heap, e1, ok1, l1, _⟩ := readInputs_spec (w := { w with heap := [Info.empty] }) (self := 0) empty_ok (by simp)
              env (parentPath p) c.commonIn
            rw [e1]
            refine (InParts.lines _).append ?_
            obtain ⟨_, ok2, l2, _, _⟩ := generate_spec (w := { w with heap := heap }) (self := 0) ok1
              (by simp only [l1]; simp) env (parentPath p) c.commonIn c.commonOut
            cases e : generate env (parentPath p) 0 c.commonIn c.commonOut { w with heap := heap } with
            | stop _ _ => exact InParts.nil
            | ok _ w2 =>
              rw [e] at ok2 l2
              exact groups_parts _ _ _ _ _ ok2 (by simp only [Res.world] at l2; rw [l2, l1]; simp)
        · unfold headerStream
          refine (input_parts _ _ empty_ok (by simp)).append ?_
          split
          · exact InParts.nil
          · exact InParts.lines _
      · split
        · exact InParts.nil
        · exact InParts.lines _

theorem scannerText_lines (ms : List Str) : scannerText (lines ms) = [] := scannerText_messages ms

/-- C84: what a loop over input files prints by the scanner, file by file. -/
theorem C84_reads (env : Env) (base : Str) (self : Nat) (ns : List Str) {w : World} (hok : HeapOk w.heap)
    (hs : self < w.heap.length) :
    some (scannerText (readsStream env base self ns w)) =
      ((ns.filterMap fun n => w.read env (join base n)).mapM fileEchoes).map List.flatten := by
  induction ns generalizing w with
  | nil => rfl
  | cons n ns ih =>
    obtain ⟨h', b, e, ok', l'⟩ := processInputFile_ok hok hs (w.read env (join base n))
    have hi := ih (w := { w with heap := h' }) ok' (by simp only [l']; exact hs)
    have hread : ∀ m, World.read { w with heap := h' } env (join base m) = w.read env (join base m) := fun _ => rfl
    simp only [hread] at hi
    simp only [readsStream, e, scannerText_append, scannerText, List.filterMap_cons]
    cases hc : w.read env (join base n) with
    | none => simp only [inputStream, scannerText_lines, List.nil_append]; exact hi
    | some t =>
      obtain ⟨ps, e1, e2, _⟩ := C84_parts self (join base n) t hok hs
      simp only [inputStream, e1, Option.getD_some, List.mapM_cons, e2, Option.bind_eq_bind, Option.bind_some]
      cases hm : List.mapM fileEchoes (List.filterMap (fun n => w.read env (join base n)) ns) with
      | none => rw [hm] at hi; cases hi
      | some ts =>
        rw [hm] at hi
        simp only [Option.map_some, Option.some.injEq] at hi
        simp [hi]

/-- The texts are those whose scanner output is `t`, one after the other.  (Specification notion, models no code.) -/
def Echoed (texts : List Str) (t : Str) : Prop := some t = (texts.mapM fileEchoes).map List.flatten

theorem Echoed.nil : Echoed [] [] := rfl

theorem Echoed.cons {w t u : Str} {ws : List Str} (h : fileEchoes w = some t) (hs : Echoed ws u) : Echoed (w :: ws) (t ++ u) := by
  unfold Echoed at hs ⊢
  rw [List.mapM_cons, h]
  cases hm : ws.mapM fileEchoes with
  | none => rw [hm] at hs; cases hs
  | some ts =>
    rw [hm] at hs
    simp only [Option.map_some, Option.some.injEq] at hs
    simp [hs]

theorem Echoed.append {ws : List Str} : ∀ {vs : List Str} {t u : Str}, Echoed vs t → Echoed ws u → Echoed (vs ++ ws) (t ++ u)
  | [], t, u, h, hs => by
    have : t = [] := by
      have h2 : some t = some [] := h
      cases h2
      rfl
    subst this
    exact hs
  | v :: vs, t, u, h, hs => by
    unfold Echoed at h
    rw [List.mapM_cons] at h
    cases hv : fileEchoes v with
    | none => rw [hv] at h; cases h
    | some x =>
      cases hm : vs.mapM fileEchoes with
      | none => rw [hv, hm] at h; cases h
      | some ts =>
        rw [hv, hm] at h
        have h2 : t = x ++ ts.flatten := by
          have h3 : some t = some (x :: ts).flatten := h
          cases h3
          rfl
        subst h2
        rw [List.cons_append, List.append_assoc]
        exact .cons hv (Echoed.append (by unfold Echoed; rw [hm]; rfl) hs)

/-- The texts of the files read in the loop over the output groups.  What is written for one group may be read for a later one.
(Specification notion, models no code.) -/
def groupTexts (env : Env) (base : Str) (ci : List Str) : List (List Str × OutSpec) → World → List Str
  | [], _ => []
  | g :: gs, w => (g.1.filterMap fun n => w.read env (join base n)) ++
    (match runGroup env base ci g w with
     | .stop _ _ => []
     | .ok _ w' => groupTexts env base ci gs w')

theorem groups_echoed (env : Env) (base : Str) (ci : List Str) (co : OutSpec) (gs : List (List Str × OutSpec)) {w : World}
    (hok : HeapOk w.heap) (hs : 0 < w.heap.length) :
    Echoed (groupTexts env base ci gs w) (scannerText (groupsStream env base ci co gs w)) := by
  induction gs generalizing w with
  | nil => exact .nil
  | cons g gs ih =>
    simp only [groupsStream, groupTexts, scannerText_append]
    refine Echoed.append ?_ ?_
    · have hi : w.heap[0]? = some w.heap[0] := List.getElem?_eq_getElem hs
      generalize w.heap[0] = i at hi
      have hc : copyInfo 0 w.heap = some (w.heap ++ [i]) := by unfold copyInfo; rw [hi]; rfl
      have h1 := C84_reads env base w.heap.length g.1 (w := { w with heap := w.heap ++ [i] }) (hok.copy hi) (by simp)
      simp only [groupStream, hc, scannerText_append]
      cases readInputs env base w.heap.length g.1 { w with heap := w.heap ++ [i] } with
      | stop _ _ => simp only [scannerText, List.append_nil]; exact h1
      | ok _ w' => simp only [scannerText_lines, List.append_nil]; exact h1
    · obtain ⟨_, h2, _, _⟩ := runGroup_spec hok hs env base ci g
      cases e : runGroup env base ci g w with
      | stop _ _ => exact .nil
      | ok _ w' =>
        obtain ⟨ok', l'⟩ := h2 w' e
        exact ih ok' (by omega)

theorem main_scanner {env : Env} {program a p : Str} {locate : Str → Located} {load : Str → LoadRes} {w : World}
    (ha : locate a = .canonical p) : scannerText (mainStream env program (some a) locate load w) =
      scannerText (if extension p = c!".stfx" then stfxStream env p (load p) w else headerStream env p w) := by
  simp only [mainStream, ha, scannerText, scannerText_append]
  cases (if extension p = c!".stfx" then processStfxFile env p (load p) w else processSingleHeader env p w) with
  | stop _ _ => exact List.append_nil _
  | ok rv _ => simp only [scannerText_lines, List.append_nil]

/-- C84: a run for a header prints by the scanner what C76 says for its text, nothing if it can not be opened. -/
theorem C84_header {env : Env} {program a p : Str} {locate : Str → Located} {load : Str → LoadRes} {w : World}
    (ha : locate a = .canonical p) (hx : extension p ≠ c!".stfx") :
    Echoed (w.read env p).toList (scannerText (mainStream env program (some a) locate load w)) := by
  rw [main_scanner ha, if_neg hx]
  simp only [headerStream, scannerText_append]
  have h1 : Echoed (w.read env p).toList (scannerText (inputStream 0 p (w.read env p) [Info.empty])) := by
    cases hr : w.read env p with
    | none => simp only [inputStream, scannerText_lines]; exact .nil
    | some t =>
      obtain ⟨ps, e1, e2, _⟩ := C84_parts 0 p t empty_ok (by simp)
      simp only [inputStream, e1, Option.getD_some, Option.toList_some]
      have := Echoed.cons e2 .nil
      rwa [List.append_nil] at this
  cases processInputFile 0 (w.read env p) [Info.empty] with
  | none => simp only [scannerText, List.append_nil]; exact h1
  | some x => simp only [scannerText_lines, List.append_nil]; exact h1

/-- C84: a run for a configuration prints by the scanner what C76 says for the texts of the files, those for the common output
first; the files of the groups are read if the common output did not end the run. -/
theorem C84_config {env : Env} {program a p : Str} {locate : Str → Located} {load : Str → LoadRes} {w : World} {c : Config}
    (ha : locate a = .canonical p) (hx : extension p = c!".stfx") (hl : load p = .loaded c) :
    ∃ heap, readInputs env (parentPath p) 0 c.commonIn { w with heap := [Info.empty] } = .ok () { w with heap := heap } ∧
    Echoed ((c.commonIn.filterMap fun n => w.read env (join (parentPath p) n)) ++
      (match generate env (parentPath p) 0 c.commonIn c.commonOut { w with heap := heap } with
       | .stop _ _ => []
       | .ok _ w2 => groupTexts env (parentPath p) c.commonIn c.nonCommon w2))
      (scannerText (mainStream env program (some a) locate load w)) := by
  obtain ⟨heap, e1, ok1, l1, _⟩ := readInputs_spec (w := { w with heap := [Info.empty] }) (self := 0) empty_ok (by simp)
    env (parentPath p) c.commonIn
  refine ⟨heap, e1, ?_⟩
  rw [main_scanner ha, if_pos hx, hl]
  simp only [stfxStream, e1, scannerText_append, scannerText_lines, List.nil_append]
  refine Echoed.append ?_ ?_
  · exact C84_reads env (parentPath p) 0 c.commonIn (w := { w with heap := [Info.empty] }) empty_ok (by simp)
  · obtain ⟨_, ok2, l2, _, _⟩ := generate_spec (w := { w with heap := heap }) (self := 0) ok1
      (by simp only [l1]; simp) env (parentPath p) c.commonIn c.commonOut
    cases e : generate env (parentPath p) 0 c.commonIn c.commonOut { w with heap := heap } with
    | stop _ _ => exact .nil
    | ok _ w2 =>
      rw [e] at ok2 l2
      exact groups_echoed _ _ _ _ _ ok2 (by simp only [Res.world] at l2; rw [l2, l1]; simp)

/-- A run for a header. -/
example : Echoed [c!"#if\nstruct A { int @ a; };\n"] (scannerText (mainStream orderEnv c!"stfx" (some c!"a.h") (fun _ => .canonical c!"/d/a.h")
    (fun _ => .failed) (orderWorld c!"#if\nstruct A { int @ a; };\n" []))) :=
  C84_header (p := c!"/d/a.h") rfl (by decide)

/-- The two files of a configuration; `#if` is all there is in the second. -/
example : scannerText (mainStream orderEnv c!"stfx" (some c!"x.stfx") (fun _ => .canonical c!"/d/x.stfx") (fun _ => .loaded jsonConfig)
      (orderWorld c!"struct A { int @ a; };\n" c!"#if\n")) =
    c!"@WARNING : [1, 1] ignoring pre-processor line : #if\n" := by decide +kernel

/-- A run with a configuration: directives, a name declared twice, a file with an error. -/
example : (mainStream orderEnv c!"stfx" (some c!"x.stfx") (fun _ => .canonical c!"/d/x.stfx") (fun _ => .loaded jsonConfig)
      (orderWorld c!"#pragma once\nstruct A { int a; };\n#if\nenum @ A { X };\n#endif\n" c!"#pragma once\n;\n#if\n")).map Piece.text =
    [c!"\n", c!"\nFile opened for input:\t\t/d/a.h\n", c!"WARNING : [1, 1] ignoring pre-processor line : #pragma once\n"] ++
    List.replicate 7 [] ++ [c!"WARNING : [3, 1] ignoring pre-processor line : #if\n", c!"@",
     c!"ERROR process_enum : name 'A already in use\n", [], [], [], [], c!"WARNING : [5, 1] ignoring pre-processor line : #endif\n",
     c!"Successfully parsed file:\t/d/a.h\n", c!"\n", c!"\nStarting to create output.\n",
     c!"Opened enum .cpp file :\t\t/d/enums.cpp\n", c!"Opened enum .h file :\t\t/d/enums.h\n",
     c!"Opened xml struct .cpp file :\t/d/structs.cpp\n", c!"Opened xml struct .h file :\t/d/structs.h\n",
     c!"\nFile opened for input:\t\t/d/b.h\n", c!"WARNING : [1, 1] ignoring pre-processor line : #pragma once\n",
     c!"ERROR : failed to process /d/b.h\n", c!"ERROR : output type xml_attrib not currently supported\n",
     c!"\nProcessing successful. Returning 0 to caller\n"] := by decide +kernel

end Stfx.Main
