import Verif.Cpp.IniCheck
import Verif.Props.C51_C57_IniRead
/-
Property C63: running the text of the generated n_ini readers does what their model does.

The texts of the structs .cpp file and of the enums .cpp file are read as C++ (`Cpp/Parse.lean`) and run by the rules of C++
(`Cpp/Eval.lean`).  A call `read_from_file(filename, x)` of a reader object then opens the file, reads it in pieces of at most 79
characters, keeps the items found in the maps of the reader object, closes the file, and does with `x` what `iniRead`
(`Run/Ini.lean`) says, about which C39-C41 and C51-C57 speak; other objects of the program are not changed.

The exception: names of structs can be hidden by parameters, members and functions of the generated class.
-/
set_option autoImplicit false
set_option maxRecDepth 4000
namespace Stfx.Cpp
open Stfx.Lexer Stfx.Run Stfx.Parser Stfx.Items Stfx.Gen

/-- Where the data members of the object `read_from_file` is called on are, process_items_ini.cpp:47-67, 224-231: those of a reader at
`al`, `ak` and `av`, and those of a writer that inherits from it. -/
structure IniSelf (data : List (Str × Var)) (al ak av : Nat) : Prop where
  lookup : data.lookup c!"m_lookup" = some ⟨.item, ⟨al, []⟩⟩
  key : data.lookup c!"m_multiline_string_key" = some ⟨.str, ⟨ak, []⟩⟩
  value : data.lookup c!"m_multiline_string_value" = some ⟨.str, ⟨av, []⟩⟩
  other : ∀ n, n ∉ iniMembers → data.lookup n = none

/-- The object `q` is no part of the reader.  (Specification notion, models no code.) -/
def Apart (q : Place) (al ak av : Nat) : Prop := q.addr ≠ al ∧ q.addr ≠ ak ∧ q.addr ≠ av

/-- Enough fuel for the pieces of the file and the structs in the object.  (Specification notion, models no code.) -/
def IniDepth (text : Option Str) (old : Val) (fuel : Nat) : Prop := (∀ t, text = some t → t.length ≤ fuel) ∧ nesting old ≤ fuel

/-- What the call does in C++: the object `q` gets the value, the reader object gets its new state, the file is closed if it could be
opened, the result is returned; nothing else is changed.  (Specification notion, models no code.) -/
structure IniReadDone (r : R ((Bool × Val) × IniSt)) (opened : Bool) (al ak av : Nat) (q : Place) (s : St) (x : Res EV) : Prop where
  ok : ∀ b v st, r = .ok ((b, v), st) → ∃ R, x = .ok (.rv (.prim .bool) (.val (.bool b)))
      ⟨setAt R q v, s.vars, s.files ++ (if opened then [.closed] else []), s.out⟩ ∧ RdrMem al ak av R st ∧ Frame al ak av s.mem R
  ub : r = .ub → x = .ub
  stuck : r = .stuck → x = .stuck

/-- C63 as stated: a call of `read_from_file` does what the model says, whatever the structs.  (Specification notion, models no code.) -/
def C63_statement : Prop :=
  ∀ (fs : List (Str × Header)) (out : OutSpec) (prog : List Item) (E : Env), IniBuilt fs out prog E → NoClash E.T →
  E.T.EnumInts → E.I.Bits → ∀ (u : Bool) (n : Str), TopStruct (declsOf fs) n →
  ∀ (self : List (Str × Var)) (al ak av : Nat) (s : St) (t q : Place) (f : Str) (old : Val) (st : IniSt) (fuel : Nat), IniSelf self al ak av →
    getAt s.mem t = some (.str f) → getAt s.mem q = some old → RdrMem al ak av s.mem st → Apart q al ak av →
    CTable.WT E.T u (.struct n) old → IniDepth (E.text (cStr f)) old fuel →
    IniReadDone (iniRead E.T E.I prog n st (E.text (cStr f)) old) (E.text (cStr f)).isSome al ak av q s
      (callMethod E self (fuel + 2) out.readerClass c!"read_from_file" [.lv .str t, .lv (.struct n) q] s)

/-- Reading does what the model says, if no name is hidden. -/
theorem C63_read_partial {fs : List (Str × Header)} {out : OutSpec} {prog : List Item} {E : Env} (h : IniBuilt fs out prog E)
    (hc : IniReaderClear (declsOf fs) out) (hcl : NoClash E.T) (hE : E.T.EnumInts) (hL : E.I.Bits) {u : Bool} {n : Str}
    (hn : TopStruct (declsOf fs) n) {self : List (Str × Var)} {al ak av : Nat} (hs : IniSelf self al ak av) {s : St} {t q : Place} {f : Str} {old : Val}
    {st : IniSt} (ht : getAt s.mem t = some (.str f)) (hq : getAt s.mem q = some old) (hr : RdrMem al ak av s.mem st) (ha : Apart q al ak av)
    (hw : CTable.WT E.T u (.struct n) old) {fuel : Nat} (hd : IniDepth (E.text (cStr f)) old fuel) :
    IniReadDone (iniRead E.T E.I prog n st (E.text (cStr f)) old) (E.text (cStr f)).isSome al ak av q s
      (callMethod E self (fuel + 2) out.readerClass c!"read_from_file" [.lv .str t, .lv (.struct n) q] s) := by
  obtain ⟨hp, hF, ns, hnd, hm, htop, hsn⟩ := h.rdProgram hc
  have hsim := read_ini hp hF hs.other hs.lookup hs.key hs.value hnd hsn ((htop n).2 hn) hm ht hq hr ha.1 ha.2.1 ha.2.2 hw hd.2 hd.1
  rcases C52_typed h.gen h.compiled hcl hE hL hn hw st (E.text (cStr f)) with he | ⟨b, w, st', he, _⟩
  · rw [he] at hsim ⊢
    exact ⟨fun _ _ _ h => by (cases h), fun _ => hsim, fun h => by cases h⟩
  · rw [he] at hsim ⊢
    obtain ⟨R, h1, h2, h3, _⟩ := hsim
    refine ⟨fun b' w' st'' h => ?_, fun h => by (cases h), fun h => by cases h⟩
    cases h
    exact ⟨R, h1, h2, h3⟩

theorem RdrMem.setAt {al ak av : Nat} {R : List V} {st : IniSt} (h : RdrMem al ak av R st) {q : Place} {x : Val} (ha : Apart q al ak av) :
    RdrMem al ak av (Cpp.setAt R q x) st := by
  obtain ⟨I, U, h1, h2⟩ := h.item
  exact ⟨h.lk, h.lv, h.kv, ⟨I, U, by rw [setAt_ne ha.1, h1], h2⟩, by rw [setAt_ne ha.2.1, h.key], by rw [setAt_ne ha.2.2, h.value]⟩

/-- C52 for the text of the functions: a call is undefined behaviour or returns, with an object of the struct in the place given and a
reader object that can read again. -/
theorem C63_typed_partial {fs : List (Str × Header)} {out : OutSpec} {prog : List Item} {E : Env} (h : IniBuilt fs out prog E)
    (hc : IniReaderClear (declsOf fs) out) (hcl : NoClash E.T) (hE : E.T.EnumInts) (hL : E.I.Bits) {u : Bool} {n : Str}
    (hn : TopStruct (declsOf fs) n) {self : List (Str × Var)} {al ak av : Nat} (hs : IniSelf self al ak av) {s : St} {t q : Place} {f : Str} {old : Val}
    {st : IniSt} (ht : getAt s.mem t = some (.str f)) (hq : getAt s.mem q = some old) (hr : RdrMem al ak av s.mem st) (ha : Apart q al ak av)
    (hw : CTable.WT E.T u (.struct n) old) {fuel : Nat} (hd : IniDepth (E.text (cStr f)) old fuel) :
    callMethod E self (fuel + 2) out.readerClass c!"read_from_file" [.lv .str t, .lv (.struct n) q] s = .ub ∨
    ∃ b s' w st', callMethod E self (fuel + 2) out.readerClass c!"read_from_file" [.lv .str t, .lv (.struct n) q] s =
        .ok (.rv (.prim .bool) (.val (.bool b))) s' ∧ getAt s'.mem q = some w ∧ CTable.WT E.T u (.struct n) w ∧ RdrMem al ak av s'.mem st' ∧
      (∀ p : Place, p.addr ≠ q.addr → Apart p al ak av → getAt s'.mem p = getAt s.mem p) := by
  have h1 := C63_read_partial h hc hcl hE hL hn hs ht hq hr ha hw hd
  rcases C52_typed h.gen h.compiled hcl hE hL hn hw st (E.text (cStr f)) with he | ⟨b, w, st', he, hw'⟩
  · exact .inl (h1.ub he)
  · obtain ⟨R, h1, h2, h3⟩ := h1.ok _ _ _ he
    have hqR : getAt R q = some old := by rw [h3.getAt ha.1 ha.2.1 ha.2.2, hq]
    refine .inr ⟨b, _, w, st', h1, getAt_setAt hqR, hw', h2.setAt ha, fun p hp hpa => ?_⟩
    show getAt (setAt R q w) p = _
    rw [← h3.getAt hpa.1 hpa.2.1 hpa.2.2]
    unfold getAt
    rw [setAt_ne (Ne.symm hp)]

/-- A file that can not be opened changes nothing. -/
theorem C63_unopened_partial {fs : List (Str × Header)} {out : OutSpec} {prog : List Item} {E : Env} (h : IniBuilt fs out prog E)
    (hc : IniReaderClear (declsOf fs) out) {u : Bool} {n : Str}
    (hn : TopStruct (declsOf fs) n) {self : List (Str × Var)} {al ak av : Nat} (hs : IniSelf self al ak av) {s : St} {t q : Place} {f : Str} {old : Val}
    {st : IniSt} (ht : getAt s.mem t = some (.str f)) (hq : getAt s.mem q = some old) (hr : RdrMem al ak av s.mem st) (ha : Apart q al ak av)
    (hw : CTable.WT E.T u (.struct n) old) {fuel : Nat} (hd : nesting old ≤ fuel) (hx : E.text (cStr f) = none) :
    callMethod E self (fuel + 2) out.readerClass c!"read_from_file" [.lv .str t, .lv (.struct n) q] s = .ok (.rv (.prim .bool) (.val (.bool false))) s := by
  obtain ⟨hp, hF, ns, hnd, hm, htop, hsn⟩ := h.rdProgram hc
  have hsim := read_ini hp hF hs.other hs.lookup hs.key hs.value hnd hsn ((htop n).2 hn) hm ht hq hr ha.1 ha.2.1 ha.2.2 hw hd
    (by rw [hx]; intro _ h; cases h)
  have he : iniRead E.T E.I prog n st (E.text (cStr f)) old = .ok ((false, old), st) := by
    unfold iniRead
    rw [if_pos ((h.gen.nrdCode h.compiled).2 n hn), hx]
  rw [he] at hsim
  obtain ⟨R, h1, _, _, h4⟩ := hsim
  rw [h1, h4 hx, setAt_self hq, hx]
  simp

/-! ### Examples -/

/-- A file with a heading, items, a comment, an empty line and a value over two lines.  (Specification notion, models no code.) -/
def swIni : Str := c!"[sw]\nw -5 m\nm on\n% m\nb 7\n\nu \t 8"

/-- (Example, models no code.) -/
def swEnv (I : IniLib) : Env := iniEnv swFiles plainOut swData I fun f => if f = c!"f.ini" then some swIni else none

theorem sw_built (I : IniLib) (text : Str → Option Str) : IniBuilt swFiles plainOut (sampleProg swFiles .nIni plainOut) (iniEnv swFiles plainOut swData I text) :=
  iniBuilt_of (by decide +kernel)

theorem swEnv_built : IniBuilt swFiles plainOut (sampleProg swFiles .nIni plainOut) (swEnv smallIniLib) := iniBuilt_of (by decide +kernel)

theorem sw_clear : IniReaderClear (declsOf swFiles) plainOut := iniReaderClear_of (by decide +kernel)

/-- Memory with the name of a file, a reader, some number and an object.  (Specification notion, models no code.) -/
def iniMem (f : Str) (I U : List (Str × Val)) (v : Val) : St := ⟨[.val (.str f), .val (itemVal I U), .val (.str []), .val (.str []), .val (.num 77), .val v], [], [], []⟩
/-- The members of the reader.  (Specification notion, models no code.) -/
def iniSelf : List (Str × Var) := [(c!"m_lookup", ⟨.item, ⟨1, []⟩⟩), (c!"m_multiline_string_key", ⟨.str, ⟨2, []⟩⟩), (c!"m_multiline_string_value", ⟨.str, ⟨3, []⟩⟩)]

theorem iniSelf_ok : IniSelf iniSelf 1 2 3 := by
  refine ⟨by decide, by decide, by decide, fun n hn => ?_⟩
  simp only [iniMembers, List.mem_cons, List.not_mem_nil, or_false, not_or] at hn
  rw [iniSelf, lookup_cons_ne hn.1, lookup_cons_ne hn.2.1, lookup_cons_ne hn.2.2.1]
  rfl

/-- A new reader. -/
theorem iniMem_new (f : Str) (v : Val) : RdrMem 1 2 3 (iniMem f [] [] v).mem IniSt.init :=
  ⟨by decide, by decide, by decide, ⟨[], [], rfl, fun _ => rfl, fun _ => rfl⟩, rfl, rfl⟩

/-- Running the text on the file. -/
example : ∃ R, callMethod (swEnv smallIniLib) iniSelf 60 c!"R" c!"read_from_file" [.lv .str ⟨0, []⟩, .lv (.struct c!"Sws") ⟨5, []⟩] (iniMem c!"f.ini" [] [] (swVal 3 4 true 0)) =
      .ok (.rv (.prim .bool) (.val (.bool true))) ⟨setAt R ⟨5, []⟩ (swVal (-5) 8 true 1), [], [.closed], []⟩ ∧
    RdrMem 1 2 3 R ⟨[], [(c!"sw", [(c!"u", c!"\t 8"), (c!"b", c!"7"), (c!"m", c!"on"), (c!"w", c!"-5 m")])], some c!"sw", [], []⟩ ∧
    Frame 1 2 3 (iniMem c!"f.ini" [] [] (swVal 3 4 true 0)).mem R := by
  have h := C63_read_partial (u := false) swEnv_built sw_clear (CData.noClash (by decide +kernel))
    (CData.enumInts (by decide +kernel)) smallIniLib_bits sw_top iniSelf_ok (s := iniMem c!"f.ini" [] [] (swVal 3 4 true 0)) (t := ⟨0, []⟩) (q := ⟨5, []⟩) rfl rfl (iniMem_new _ _)
    (by unfold Apart; decide) (wtb_sound (T := swData.table) _ _ (by decide +kernel)) (fuel := 58) ⟨fun t h => by cases h; decide, by decide⟩
  have hr : iniRead (swEnv smallIniLib).T (swEnv smallIniLib).I (sampleProg swFiles .nIni plainOut) c!"Sws" IniSt.init ((swEnv smallIniLib).text (cStr c!"f.ini")) (swVal 3 4 true 0) =
      .ok ((true, swVal (-5) 8 true 1), ⟨[], [(c!"sw", [(c!"u", c!"\t 8"), (c!"b", c!"7"), (c!"m", c!"on"), (c!"w", c!"-5 m")])], some c!"sw", [], []⟩) := by decide +kernel
  exact h.ok _ _ _ hr

/-- Any file, for a new reader. -/
example (text : Str) : ∃ r, r = callMethod (iniEnv swFiles plainOut swData smallIniLib fun _ => some text) iniSelf (text.length + 9) c!"R" c!"read_from_file"
      [.lv .str ⟨0, []⟩, .lv (.struct c!"Sws") ⟨5, []⟩] (iniMem c!"f.ini" [] [] (swVal 3 4 true 0)) ∧
    (r = .ub ∨ ∃ b s w, r = .ok (.rv (.prim .bool) (.val (.bool b))) s ∧ getAt s.mem ⟨5, []⟩ = some w ∧ CTable.WT swData.table false (.struct c!"Sws") w ∧
      getAt s.mem ⟨4, []⟩ = some (.num 77)) := by
  refine ⟨_, rfl, ?_⟩
  rcases C63_typed_partial (u := false) (sw_built smallIniLib fun _ => some text) sw_clear (CData.noClash (by decide +kernel)) (CData.enumInts (by decide +kernel)) smallIniLib_bits
    sw_top iniSelf_ok (s := iniMem c!"f.ini" [] [] (swVal 3 4 true 0)) (t := ⟨0, []⟩) (q := ⟨5, []⟩) rfl rfl (iniMem_new _ _) (by unfold Apart; decide)
    (wtb_sound (T := swData.table) _ _ (by decide +kernel)) (fuel := text.length + 7)
    ⟨fun t h => by cases h; omega, Nat.le_trans (by decide : nesting (swVal 3 4 true 0) ≤ 7) (by omega)⟩ with h | ⟨b, s', w, _, h1, h2, h3, _, h5⟩
  · exact .inl h
  · exact .inr ⟨b, s', w, h1, h2, h3, (h5 ⟨4, []⟩ (by decide) (by unfold Apart; decide)).trans rfl⟩

/-- A file that is not there. -/
example : callMethod (swEnv smallIniLib) iniSelf 60 c!"R" c!"read_from_file" [.lv .str ⟨0, []⟩, .lv (.struct c!"Sws") ⟨5, []⟩] (iniMem c!"g.ini" [] [] (swVal 3 4 true 0)) =
    .ok (.rv (.prim .bool) (.val (.bool false))) (iniMem c!"g.ini" [] [] (swVal 3 4 true 0)) :=
  C63_unopened_partial (u := false) swEnv_built sw_clear sw_top iniSelf_ok (s := iniMem c!"g.ini" [] [] (swVal 3 4 true 0)) (t := ⟨0, []⟩) (q := ⟨5, []⟩) rfl rfl
    (iniMem_new _ _) (by unfold Apart; decide) (wtb_sound (T := swData.table) _ _ (by decide +kernel)) (fuel := 58) (by decide) (by decide)

/-! ### Hidden names -/

/-- A header with a struct of this name in another one.  (Example, models no code.) -/
def pathText (a : Str) : Str := c!"struct " ++ a ++ c!"{int x{1};};struct T{" ++ a ++ c!" m;};"
/-- (Example, models no code.) -/
def pathDecls (a : Str) : Header where
  first := .struct a (.simple .int c!"x" (.val (.int c!"1"))) []
  more := [.struct c!"T" (.named a c!"m" .absent) []]
/-- (Example, models no code.) -/
def pathFiles (a : Str) : List (Str × Header) := [(pathText a, pathDecls a)]
/-- (Example, models no code.) -/
def pathVal (x : Int) : Val := .struct [(c!"m", .struct [(c!"x", .num x)])]
/-- (Example, models no code.) -/
def pathData (a : Str) : CData where
  cls := [(a, [⟨c!"x", .simple .int, some (.num 1)⟩]), (c!"T", [⟨c!"m", .struct a, none⟩])]
  enm := []
  dflt := [(a, .struct [(c!"x", .num 1)]), (c!"T", pathVal 1)]
  longBits := 64
/-- (Example, models no code.) -/
def pathEnv (a : Str) : Env := iniEnv (pathFiles a) plainOut (pathData a) smallIniLib fun _ => some c!"[m]\nx 4"

/-- A struct named `path`: in `bool R::do_rd_path(std::string path, path& data)` the parameter hides the struct, which is no C++. -/
theorem C63_struct_path : callMethod (pathEnv c!"path") iniSelf 20 c!"R" c!"read_from_file" [.lv .str ⟨0, []⟩, .lv (.struct c!"T") ⟨5, []⟩]
    (iniMem c!"f.ini" [] [] (pathVal 2)) = .stuck := by kernel_rfl

/-- A struct named like the nested class `read_item_S` of the reader: in the class the name means the nested class. -/
theorem C63_struct_item : callMethod (pathEnv c!"read_item_S") iniSelf 20 c!"R" c!"read_from_file" [.lv .str ⟨0, []⟩, .lv (.struct c!"T") ⟨5, []⟩]
    (iniMem c!"f.ini" [] [] (pathVal 2)) = .stuck := by kernel_rfl

/-- With another name the same program reads the file. -/
example : callMethod (pathEnv c!"path_t") iniSelf 20 c!"R" c!"read_from_file" [.lv .str ⟨0, []⟩, .lv (.struct c!"T") ⟨5, []⟩] (iniMem c!"f.ini" [] [] (pathVal 2)) =
    .ok (.rv (.prim .bool) (.val (.bool true))) { iniMem c!"f.ini" [] [(c!"m", itemVal [(c!"x", .str c!"4")] [])] (pathVal 4) with files := [.closed] } := by kernel_rfl

/-- The statement is false. -/
theorem C63_refuted : ¬ C63_statement := by
  intro h
  have h1 := h (pathFiles c!"path") plainOut _ (pathEnv c!"path") (iniBuilt_of (by decide +kernel)) (CData.noClash (by decide +kernel)) (CData.enumInts (by decide +kernel))
    smallIniLib_bits false c!"T" (topStruct_of (by decide +kernel)) iniSelf 1 2 3 (iniMem c!"f.ini" [] [] (pathVal 2)) ⟨0, []⟩ ⟨5, []⟩ c!"f.ini" (pathVal 2) IniSt.init 18
    iniSelf_ok rfl rfl (iniMem_new _ _) (by unfold Apart; decide) (wtb_sound _ _ (by decide +kernel)) (by
      refine ⟨fun t ht => ?_, by decide⟩
      cases ht
      decide)
  have hr : ∃ st, iniRead (pathEnv c!"path").T (pathEnv c!"path").I (sampleProg (pathFiles c!"path") .nIni plainOut) c!"T" IniSt.init
      ((pathEnv c!"path").text (cStr c!"f.ini")) (pathVal 2) = .ok ((true, pathVal 4), st) := ⟨IniSt.init.load c!"[m]\nx 4", by decide +kernel⟩
  obtain ⟨st, hr⟩ := hr
  obtain ⟨R, h2, _⟩ := h1.ok _ _ _ hr
  cases h2.symm.trans C63_struct_path

end Stfx.Cpp
