import Verif.Cpp.UnitHash
/-
The generated files in a translation unit.
-/
set_option autoImplicit false
set_option maxRecDepth 4000
namespace Stfx.Cpp
open Stfx.Gen Stfx.Parser Stfx.Items

/-! ### Scanning the head of a generated file -/

/-- The directives of the generated files, process_items.cpp:87-106, process_items_xml.cpp:50-83, process_items_ini.cpp:50-89.  (Proof
notion.) -/
inductive GDir where
  | once
  | system (f : Str)
  | quoted (f : Str)
deriving DecidableEq, Repr

/-- The text of a directive after its `#`.  (Proof notion, models no code.) -/
def GDir.text : GDir → Str
  | .once => c!"pragma once"
  | .system f => c!"include <" ++ f ++ c!">"
  | .quoted f => c!"include \"" ++ f ++ c!"\""

/-- The text is the directives `gs`, besides comments and blank lines.  (Proof notion, models no code.) -/
def HeadIs (text : Str) (gs : List GDir) : Prop := pscan .start text = (gs.map fun g => PTok.dir g.text, .start)

/-- Proves `HeadIs` for fixed text by computation. -/
macro "head_rfl" : tactic => `(tactic| (unfold HeadIs; kernel_rfl))

theorem pscan_app (m : PMode) (a b : Str) :
    pscan m (a ++ b) = ((pscan m a).1 ++ (pscan (pscan m a).2 b).1, (pscan (pscan m a).2 b).2) := by
  induction a generalizing m with
  | nil => rfl
  | cons c a ih => simp only [List.cons_append, pscan, ih, List.append_assoc]

theorem HeadIs.append {a b : Str} {gs hs : List GDir} (ha : HeadIs a gs) (hb : HeadIs b hs) : HeadIs (a ++ b) (gs ++ hs) := by
  unfold HeadIs at *
  rw [pscan_app, ha]
  simp only [hb, List.map_append]

theorem HeadIs.flatMap {α : Type} {l : List α} {f : α → Str} {g : α → List GDir} (h : ∀ x ∈ l, HeadIs (f x) (g x)) :
    HeadIs (l.flatMap f) (l.flatMap g) := by
  induction l with
  | nil => rfl
  | cons x l ih =>
    rw [List.flatMap_cons, List.flatMap_cons]
    exact (h x List.mem_cons_self).append (ih fun y hy => h y (List.mem_cons_of_mem _ hy))

theorem pscan_line_head {a : Str} (h : '\n' ∉ a) : pscan .line (a ++ ['\n']) = ([], .start) := by
  induction a with
  | nil => decide
  | cons c a ih =>
    have hc : c ≠ '\n' := fun e => h (by simp [e])
    simp only [List.cons_append, pscan, pstep, if_neg hc, List.nil_append]
    exact ih fun e => h (List.mem_cons_of_mem _ e)

theorem pscan_dir_head {u a : Str} (h : '\n' ∉ a) : pscan (.dir u) (a ++ ['\n']) = ([.dir (u ++ a)], .start) := by
  induction a generalizing u with
  | nil => simp [pscan, pstep]
  | cons c a ih =>
    have hc : c ≠ '\n' := fun e => h (by simp [e])
    simp only [List.cons_append, pscan, pstep, if_neg hc, List.nil_append]
    rw [ih fun e => h (List.mem_cons_of_mem _ e)]
    simp

theorem head_comment {a : Str} (h : '\n' ∉ a) : HeadIs (c!"// " ++ a ++ c!"\n") [] := by
  show pscan .start (c!"// " ++ a ++ ['\n']) = _
  rw [List.append_assoc, pscan_app, show pscan .start c!"// " = ([], .line) by decide]
  simp only [pscan_line_head h]
  rfl

theorem head_quoted {a : Str} (h : '\n' ∉ a) : HeadIs (c!"#include \"" ++ a ++ c!"\"\n") [.quoted a] := by
  show pscan .start (c!"#include \"" ++ a ++ c!"\"\n") = _
  rw [show c!"#include \"" ++ a ++ c!"\"\n" = c!"#" ++ ((c!"include \"" ++ a ++ c!"\"") ++ ['\n']) by simp,
    pscan_app, show pscan .start c!"#" = ([], .dir []) by decide]
  simp only
  rw [pscan_dir_head (by simp [h])]
  rfl

theorem head_quoted2 {a : Str} (h : '\n' ∉ a) : HeadIs (c!"#include \"" ++ a ++ c!"\"\n\n") [.quoted a] := by
  have := (head_quoted h).append (b := c!"\n") (hs := []) (by head_rfl)
  simpa using this

theorem head_info {a : Str} (h : '\n' ∉ a) : HeadIs (stfxInfo a ++ c!"\n") [] := by
  have h1 : HeadIs (c!"//\n// Automatically generated using stfx\n// Do not directly edit this file, " ++
    c!"use stfx to re-create this file.\n//\n// License : MIT License\n//\n") [] := by head_rfl
  have := (h1.append (head_comment h)).append (b := c!"\n") (hs := []) (by head_rfl)
  simpa [stfxInfo] using this

/-- The file names and the stamp are on one line.  (Proof notion, models no code.) -/
structure OneLine (stamp nameCpp nameH : Str) (inputs : List Str) (enumFile : Str) : Prop where
  stamp : '\n' ∉ stamp
  cpp : '\n' ∉ nameCpp
  h : '\n' ∉ nameH
  inputs : ∀ f ∈ inputs, '\n' ∉ f
  enums : disabled enumFile = true ∨ '\n' ∉ enumFile

/-- The library headers a structs .cpp file includes.  (Proof notion, models no code.) -/
def libs (k : Kind) (onlyRead : Bool) : List GDir :=
  if k.isXml then [.system c!"string", .system c!"map", .system c!"stdexcept", .system c!"tinyxml2.h", .system c!"tixml2ex.h"]
  else [.system c!"string", .system c!"map", .system c!"regex", .system c!"stdexcept"] ++
    (if onlyRead then [] else [.system c!"fmt/format.h"])

/-- The directives of the structs .cpp file.  (Proof notion, models no code.) -/
def structsCppDirs (k : Kind) (nameH : Str) (inputs : List Str) (out : OutSpec) : List GDir :=
  .quoted nameH :: libs k out.onlyRead ++ (if disabled out.enumFile then [] else [.quoted (out.enumFile ++ c!".h")]) ++
    inputs.map .quoted

theorem head_inputs {inputs : List Str} {t : Str → Str} (h : ∀ f ∈ inputs, '\n' ∉ f)
    (ht : ∀ f, t f = c!"#include \"" ++ f ++ c!"\"\n") : HeadIs (fileText (inputs.map fun f => .raw (t f))) (inputs.map .quoted) := by
  have := HeadIs.flatMap (l := inputs) (f := t) (g := fun f => [.quoted f]) fun f hf => by
    rw [ht]; exact head_quoted (h f hf)
  have e : inputs.flatMap (fun f => [GDir.quoted f]) = inputs.map .quoted := by
    clear this h ht
    induction inputs <;> simp_all
  rw [e] at this
  simpa [fileText, List.flatMap_map, Item.text] using this

theorem fileText_app (a b : List Item) : fileText (a ++ b) = fileText a ++ fileText b := by
  simp [fileText]

theorem fileText_cons (a : Item) (b : List Item) : fileText (a :: b) = a.text ++ fileText b := rfl

theorem structsCpp_head {k : Kind} {stamp nameCpp nameH : Str} {inputs : List Str} {out : OutSpec}
    (h : OneLine stamp nameCpp nameH inputs out.enumFile) :
    HeadIs (fileText (structsCppHead k stamp nameCpp nameH inputs out)) (structsCppDirs k nameH inputs out) := by
  have he : HeadIs (if disabled out.enumFile then T.xml60 else T.xml64 (out.enumFile ++ c!".h"))
      (if disabled out.enumFile then [] else [.quoted (out.enumFile ++ c!".h")]) := by
    split
    · head_rfl
    · next hd =>
      exact head_quoted (a := out.enumFile ++ c!".h") (by simp [h.enums.resolve_left hd])
  have h1 : HeadIs (T.xml50 nameCpp) [] := head_comment h.cpp
  have h2 : HeadIs (T.xml51 (stfxInfo stamp)) [] := head_info h.stamp
  have h3 : HeadIs (T.xml52 nameH) [.quoted nameH] := head_quoted2 h.h
  have h4 := head_inputs (t := T.xml68) h.inputs fun f => by simp [T.xml68]
  have h3' := (h1.append h2).append h3
  unfold structsCppHead structsCppDirs libs
  cases hk : k.isXml
  · simp only [Bool.false_eq_true, if_false]
    have h5 : HeadIs T.ini53 [.system c!"string", .system c!"map", .system c!"regex", .system c!"stdexcept"] := by head_rfl
    have h6 : HeadIs (fileText (if out.onlyRead then [] else [.raw T.ini59])) (if out.onlyRead then [] else [.system c!"fmt/format.h"]) := by
      split <;> head_rfl
    have h7 : HeadIs T.ini61 [] := by head_rfl
    have i1 : HeadIs (T.ini50 nameCpp) [] := h1
    have i2 : HeadIs (T.ini51 (stfxInfo stamp)) [] := h2
    have i3 : HeadIs (T.ini52 nameH) [.quoted nameH] := h3
    have ie : HeadIs (if disabled out.enumFile then T.ini65 else T.ini69 (out.enumFile ++ c!".h"))
      (if disabled out.enumFile then [] else [.quoted (out.enumFile ++ c!".h")]) := he
    have i4 : HeadIs (fileText (inputs.map fun f => .raw (T.ini73 f))) (inputs.map .quoted) := h4
    have := ((((((i1.append i2).append i3).append h5).append h6).append h7).append ie).append i4
    simp only [fileText_app, fileText_cons, Item.text]
    simpa [fileText] using this
  · simp only [if_true]
    have h5 : HeadIs T.xml53 [.system c!"string", .system c!"map", .system c!"stdexcept"] := by head_rfl
    have h6 : HeadIs T.xml56 [.system c!"tinyxml2.h", .system c!"tixml2ex.h"] := by head_rfl
    have := (((h3'.append h5).append h6).append he).append h4
    simp only [fileText_app, fileText_cons, Item.text]
    simpa [fileText] using this

/-- The directives of the structs .h file.  (Proof notion, models no code.) -/
def structsHDirs (k : Kind) (inputs : List Str) : List GDir :=
  [.once, .system c!"string", .system (if k.isXml then c!"tinyxml2.h" else c!"map")] ++ inputs.map .quoted

theorem structsH_headIs {k : Kind} {stamp nameCpp nameH e : Str} {inputs : List Str}
    (h : OneLine stamp nameCpp nameH inputs e) :
    HeadIs (fileText (structsHHead k stamp nameH inputs)) (structsHDirs k inputs) := by
  have h2 : HeadIs (T.xml72 (stfxInfo stamp)) [] := head_info h.stamp
  have h4 := head_inputs (t := T.xml81) h.inputs fun f => by simp [T.xml81]
  have h4' : HeadIs (fileText (inputs.map fun f => .raw (T.ini87 f))) (inputs.map .quoted) := h4
  unfold structsHHead structsHDirs
  cases hk : k.isXml
  · simp only [Bool.false_eq_true, if_false]
    have h1 : HeadIs (T.ini76 nameH) [] := by
      have := (head_comment h.h).append (b := c!"\n") (hs := []) (by head_rfl)
      simpa [T.ini76] using this
    have h5 : HeadIs T.ini79 [.once, .system c!"string", .system c!"map"] := by head_rfl
    have h7 : HeadIs T.ini89 [] := by head_rfl
    have i2 : HeadIs (T.ini77 (stfxInfo stamp)) [] := h2
    have := (((h1.append i2).append h5).append h4').append h7
    simp only [fileText_app, fileText_cons, Item.text]
    simpa [fileText] using this
  · simp only [if_true]
    have h1 : HeadIs (T.xml71 nameH) [] := head_comment h.h
    have h5 : HeadIs T.xml74 [.once, .system c!"string", .system c!"tinyxml2.h"] := by head_rfl
    have h7 : HeadIs T.xml83 [] := by head_rfl
    have := (((h1.append h2).append h5).append h4).append h7
    simp only [fileText_app, fileText_cons, Item.text]
    simpa [fileText] using this

/-- The directives of the enums .h file.  (Proof notion, models no code.) -/
def enumsHDirs (inputs : List Str) : List GDir :=
  [.once, .system c!"string", .system c!"fmt/format.h"] ++ inputs.map .quoted

theorem enumsH_headIs {stamp nameCpp nameH e : Str} {inputs : List Str} (h : OneLine stamp nameCpp nameH inputs e) :
    HeadIs (fileText (enumsHHead stamp nameH inputs)) (enumsHDirs inputs) := by
  have h1 : HeadIs (T.base97 nameH) [] := head_comment h.h
  have h2 : HeadIs (T.base98 (stfxInfo stamp)) [] := head_info h.stamp
  have h3 : HeadIs T.base99 [.once] := by head_rfl
  have h5 : HeadIs T.base100 [.system c!"string"] := by head_rfl
  have h6 : HeadIs T.base101 [.system c!"fmt/format.h"] := by head_rfl
  have h4 := head_inputs (t := T.base104) h.inputs fun f => by simp [T.base104]
  have h7 : HeadIs T.base106 [] := by head_rfl
  unfold enumsHHead enumsHDirs
  have := ((((((h1.append h2).append h3).append h5).append h6)).append h4).append h7
  simp only [fileText_app, fileText_cons, Item.text]
  simpa [fileText] using this

/-- The directives of the enums .cpp file.  (Proof notion, models no code.) -/
def enumsCppDirs (nameH : Str) (inputs : List Str) : List GDir :=
  [.quoted nameH, .system c!"string", .system c!"map"] ++ inputs.map .quoted

theorem enumsCpp_headIs {stamp nameCpp nameH e : Str} {inputs : List Str} (h : OneLine stamp nameCpp nameH inputs e) :
    HeadIs (fileText (enumsCppHead stamp nameCpp nameH inputs)) (enumsCppDirs nameH inputs) := by
  have h1 : HeadIs (T.base87 nameCpp) [] := head_comment h.cpp
  have h2 : HeadIs (T.base88 (stfxInfo stamp)) [] := head_info h.stamp
  have h3 : HeadIs (T.base89 nameH) [.quoted nameH] := head_quoted2 h.h
  have h5 : HeadIs T.base90 [.system c!"string", .system c!"map"] := by head_rfl
  have h4 := head_inputs (t := T.base93) h.inputs fun f => by simp [T.base93]
  have h7 : HeadIs T.base95 [] := by head_rfl
  unfold enumsCppHead enumsCppDirs
  have := ((((h1.append h2).append h3).append h5).append h4).append h7
  simp only [fileText_app, fileText_cons, Item.text]
  simpa [fileText] using this

/-! ### Generated files as preprocessing tokens -/

/-- No directive is being read.  (Proof notion, models no code.) -/
def PMode.noDir : PMode → Bool
  | .dir _ => false
  | _ => true

theorem pfirst_noDir {c : Char} (h : c ≠ '#') : (pfirst c).noDir = true := by
  unfold pfirst
  (repeat' split) <;> first | rfl | contradiction

theorem wordTok_ne_dir (w : Str) : wordTok w ≠ .dir := by
  unfold wordTok
  split <;> simp

theorem pstep_noDir {m : PMode} {c : Char} (hm : m.noDir = true) (h : c ≠ '#') :
    (pstep m c).2.noDir = true ∧ ∀ p ∈ (pstep m c).1, p.toTok ≠ .dir := by
  have hf := pfirst_noDir h
  cases m with
  | dir u => cases hm
  | start => exact ⟨hf, by simp [pstep]⟩
  | strEsc w => simp only [pstep]; split <;> simp [PMode.noDir]
  | chrEsc w => simp only [pstep]; split <;> simp [PMode.noDir]
  | _ =>
    simp only [pstep]
    (repeat' split) <;> first
      | exact ⟨hf, by simp [PTok.toTok, wordTok_ne_dir, opTok]⟩
      | simp [PMode.noDir, PTok.toTok]

theorem pscan_noHash {m : PMode} {s : Str} (hm : m.noDir = true) (h : noHash s = true) : ∀ p ∈ (pscan m s).1, p.toTok ≠ .dir := by
  induction s generalizing m with
  | nil => intro v h; cases h
  | cons c s ih =>
    simp only [noHash, List.all_cons, Bool.and_eq_true, bne_iff_ne] at h
    have := pstep_noDir hm h.1
    intro v hv
    simp only [pscan, List.mem_append] at hv
    rcases hv with hv | hv
    · exact this.2 v hv
    · exact ih this.1 (by simpa [noHash] using h.2) v hv

/-- The tokens of a text without its directives.  C++ [lex.phases]. -/
def code (text : Str) : List Tok := ((lex text).getD []).filter (· ≠ .dir)

/-- A generated file: directives, then tokens. -/
theorem gen_pptoks {head body : Str} {gs : List GDir} {ts : List Tok} (hh : HeadIs head gs) (hb : noHash body = true)
    (hl : lex (head ++ body) = some ts) :
    ∃ pb, pptoks (head ++ body) = some (gs.map (fun g => .dir g.text) ++ pb) ∧ (∀ p ∈ pb, p.toTok ≠ .dir) ∧
      pb.map PTok.toTok = code (head ++ body) := by
  have hs : scan isLetter wordTok .start (head ++ body) = (ts, .start) := by
    unfold lex at hl
    split at hl
    · next ts' hs => cases hl; exact hs
    · cases hl
  obtain ⟨ps, h1, h2⟩ := pscan_of_scan hs
  have h3 := pptoks_of_scan hs h1
  rw [pscan_app, hh] at h1
  simp only [Prod.mk.injEq] at h1
  have hnd := pscan_noHash (m := .start) (s := body) rfl hb
  refine ⟨(pscan .start body).1, by rw [h3, ← h1.1], hnd, ?_⟩
  simp only [code, hl, Option.getD_some, ← h2, ← h1.1, List.map_append, List.filter_append]
  have e1 : (List.map PTok.toTok (gs.map fun g => PTok.dir g.text)).filter (· ≠ .dir) = [] := by
    simp [PTok.toTok]
  have e2 : (List.map PTok.toTok (pscan .start body).1).filter (· ≠ .dir) = List.map PTok.toTok (pscan .start body).1 := by
    rw [List.filter_eq_self]
    intro t ht
    obtain ⟨p, hp, rfl⟩ := List.mem_map.1 ht
    simpa using hnd p hp
  rw [e1, e2]
  rfl

/-! ### Executing the directives of a generated file -/

/-- What the directives at the start of a file do.  (Proof notion, models no code.) -/
def doHead (inc : Str → PState → Option (List Tok × PState)) (self : Str) : List GDir → PState → Option (List Tok × PState)
  | [], s => some ([], s)
  | .once :: gs, s => doHead inc self gs { s with once := self :: s.once }
  | .system _ :: gs, s => doHead inc self gs s
  | .quoted f :: gs, s => match inc f s with
    | some (a, s') => (doHead inc self gs s').map fun r => (a ++ r.1, r.2)
    | none => none

/-- The name in a directive does not end early.  (Proof notion, models no code.) -/
def GDir.ok : GDir → Bool
  | .once => true
  | .system f => !f.contains '>'
  | .quoted f => !f.contains '"'

theorem takeWhile_upto {p : Char → Bool} {f r : Str} {d : Char} (h : ∀ c ∈ f, p c = true) (hd : p d = false) :
    (f ++ d :: r).takeWhile p = f ∧ (f ++ d :: r).dropWhile p = d :: r := by
  induction f with
  | nil => simp [hd]
  | cons c f ih =>
    have hc := h c List.mem_cons_self
    have := ih fun c hc => h c (List.mem_cons_of_mem _ hc)
    simp [hc, this]

theorem dirName_quoted (f : Str) : dirName (GDir.quoted f).text = (c!"include", c!"\"" ++ f ++ c!"\"") := rfl
theorem dirName_system (f : Str) : dirName (GDir.system f).text = (c!"include", c!"<" ++ f ++ c!">") := rfl

theorem incOf_quoted {f : Str} (h : (GDir.quoted f).ok = true) : incOf (c!"\"" ++ f ++ c!"\"") = some (.quoted f) := by
  have h1 : ∀ c ∈ f, decide (c ≠ '"') = true := by
    intro c hc
    simp only [GDir.ok, Bool.not_eq_true', List.contains_eq_mem, decide_eq_false_iff_not] at h
    simp only [decide_eq_true_eq]
    rintro rfl
    exact h hc
  have := takeWhile_upto (r := []) (d := '"') h1 (by decide)
  show incOf ('"' :: (f ++ ['"'])) = _
  unfold incOf
  simp only [this]
  rfl

theorem incOf_system {f : Str} (h : (GDir.system f).ok = true) : incOf (c!"<" ++ f ++ c!">") = some .system := by
  have h1 : ∀ c ∈ f, decide (c ≠ '>') = true := by
    intro c hc
    simp only [GDir.ok, Bool.not_eq_true', List.contains_eq_mem, decide_eq_false_iff_not] at h
    simp only [decide_eq_true_eq]
    rintro rfl
    exact h hc
  have := takeWhile_upto (r := []) (d := '>') h1 (by decide)
  show incOf ('<' :: (f ++ ['>'])) = _
  unfold incOf
  simp only [this]
  rfl

theorem exec_dirs_head {inc : Str → PState → Option (List Tok × PState)} {self : Str} {gs : List GDir} {s : PState} {ps : List PTok}
    (h : ∀ g ∈ gs, g.ok = true) :
    execDirs inc self [] s (gs.map (fun g => .dir g.text) ++ ps) = match doHead inc self gs s with
      | some (a, s') => (execDirs inc self [] s' ps).map fun r => (a ++ r.1, r.2)
      | none => none := by
  induction gs generalizing s with
  | nil => simp [doHead]
  | cons g gs ih =>
    have ih' : ∀ s, _ := fun s => ih (s := s) fun g hg => h g (List.mem_cons_of_mem _ hg)
    have hg := h g List.mem_cons_self
    cases g with
    | once =>
      have e : execDirs inc self [] s (PTok.dir (GDir.once).text :: (gs.map (fun g => .dir g.text) ++ ps)) =
          execDirs inc self [] { s with once := self :: s.once } (gs.map (fun g => .dir g.text) ++ ps) := by
        have e1 : (dirName (GDir.once).text).1 ≠ c!"include" := by decide
        have e2 : dirOf (GDir.once).text = some .pragma := by decide
        have e3 : isOnce (GDir.once).text = true := by decide
        simp only [execDirs, if_neg e1, e2, e3]
        rfl
      rw [List.map_cons, List.cons_append, e, ih']
      rfl
    | system f =>
      have e : execDirs inc self [] s (PTok.dir (GDir.system f).text :: (gs.map (fun g => .dir g.text) ++ ps)) =
          execDirs inc self [] s (gs.map (fun g => .dir g.text) ++ ps) := by
        simp only [execDirs, dirName_system, if_true, incOf_system hg]
        rfl
      rw [List.map_cons, List.cons_append, e, ih']
      rfl
    | quoted f =>
      have e : execDirs inc self [] s (PTok.dir (GDir.quoted f).text :: (gs.map (fun g => .dir g.text) ++ ps)) = match inc f s with
          | some (a, s') => (execDirs inc self [] s' (gs.map (fun g => .dir g.text) ++ ps)).map fun r => (a ++ r.1, r.2)
          | none => none := by
        simp only [execDirs, dirName_quoted, if_true, incOf_quoted hg]
        rfl
      rw [List.map_cons, List.cons_append, e]
      simp only [doHead]
      cases inc f s with
      | none => rfl
      | some r =>
        obtain ⟨a, s'⟩ := r
        simp only [ih']
        cases doHead inc self gs s' with
        | none => rfl
        | some r =>
          obtain ⟨b, s''⟩ := r
          simp only [Option.map_some, Option.map_map, Function.comp_def, List.append_assoc]

theorem exec_body {inc : Str → PState → Option (List Tok × PState)} {self : Str} {s : PState} {pb : List PTok}
    (h1 : ∀ p ∈ pb, p.toTok ≠ .dir) (h2 : ∀ m ∈ s.macros, fresh m pb = true) :
    execDirs inc self [] s pb = some (pb.map PTok.toTok, s) := by
  induction pb with
  | nil => rfl
  | cons p pb ih =>
    have hr : ∀ m ∈ s.macros, fresh m pb = true := fun m hm => by
      have := h2 m hm
      simp only [fresh, List.all_cons, Bool.and_eq_true] at this
      exact this.2
    have ih' := ih (fun p hp => h1 p (List.mem_cons_of_mem _ hp)) hr
    cases p with
    | word w =>
      have hw : s.macros.contains w = false := by
        simp only [List.contains_eq_mem, decide_eq_false_iff_not]
        intro hm
        have := h2 w hm
        simp [fresh] at this
      simp only [execDirs, hw, ih']
      rfl
    | tok t =>
      simp only [execDirs, ih']
      rfl
    | dir u => exact absurd rfl (h1 _ List.mem_cons_self)

theorem fresh_append {m : Str} {a b : List PTok} (h : fresh m (a ++ b) = true) : fresh m b = true := by
  simp only [fresh, List.all_append, Bool.and_eq_true] at h
  exact h.2

theorem doHead_append {inc : Str → PState → Option (List Tok × PState)} {self : Str} {gs hs : List GDir} {s s' : PState} {a : List Tok}
    (h : doHead inc self gs s = some (a, s')) :
    doHead inc self (gs ++ hs) s = (doHead inc self hs s').map fun r => (a ++ r.1, r.2) := by
  induction gs generalizing s a with
  | nil =>
    simp only [doHead, Option.some.injEq, Prod.mk.injEq] at h
    obtain ⟨rfl, rfl⟩ := h
    simp
  | cons g gs ih =>
    cases g with
    | once => exact ih h
    | system f => exact ih h
    | quoted f =>
      simp only [List.cons_append, doHead] at h ⊢
      cases hi : inc f s with
      | none => rw [hi] at h; cases h
      | some r =>
        obtain ⟨b, s1⟩ := r
        rw [hi] at h
        simp only at h ⊢
        cases hd : doHead inc self gs s1 with
        | none => rw [hd] at h; cases h
        | some r =>
          obtain ⟨c, s2⟩ := r
          rw [hd] at h
          cases h
          rw [ih hd]
          cases doHead inc self hs s2 <;> simp

theorem doHead_inputs {inc : Str → PState → Option (List Tok × PState)} {self : Str} {fs : List Str} {s : PState} :
    doHead inc self (fs.map .quoted) s = inclAll inc fs s := by
  induction fs generalizing s with
  | nil => rfl
  | cons f fs ih =>
    simp only [List.map_cons, doHead, inclAll, ih]
    cases inc f s <;> rfl

/-- The inclusion of a generated file. -/
theorem incl_gen {find : Str → Option Str} {n : Nat} {self head body : Str} {gs : List GDir} {ts a : List Tok} {s s' : PState}
    (hf : find self = some (head ++ body)) (ho : self ∉ s.once) (hh : HeadIs head gs) (hb : noHash body = true)
    (hl : lex (head ++ body) = some ts) (hok : ∀ g ∈ gs, g.ok = true) (hd : doHead (incl find n) self gs s = some (a, s'))
    (hm : ∀ m ∈ s'.macros, ∀ ps, pptoks (head ++ body) = some ps → fresh m ps = true) :
    incl find (n + 1) self s = some (a ++ code (head ++ body), s') := by
  obtain ⟨pb, h1, h2, h3⟩ := gen_pptoks hh hb hl
  rw [incl.eq_def]
  simp only [List.contains_eq_mem, ho, decide_false, Bool.false_eq_true, if_false, hf, h1]
  rw [exec_dirs_head hok, hd]
  simp only
  rw [exec_body h2 fun m hm' => fresh_append (hm m hm' _ h1), h3]
  rfl

end Stfx.Cpp
