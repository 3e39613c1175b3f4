import Verif.Cpp.Objects
import Verif.Props.C62_XmlWriteText
import Verif.Props.C64_IniWriteText
/-
Property C66: a program that includes the generated .h file can make readers and writers and use them.

The text of the structs .h file is read as C++ and gives the classes (C65); a program makes an object of one of the classes, calls
`read_from_file` or `write_to_file` on it, and the object goes out of scope:

    { some_reader r; return r.read_from_file(filename, x); }
    { some_writer w(delta_only); return w.write_to_file(filename, x); }

Nothing is assumed about the objects: base class, data members and their initial values are those the .h file declares, and the
constructors those of the .cpp file.  The block then does what the models `readFile`, `writeFile`, `iniRead` from the state of a new
reader, and `iniWrite` say, with `true` for `delta_only` if it is not given; `x` has the value read, and no other object of the program
is changed.  The exceptions are those of C61-C64.
-/
set_option autoImplicit false
set_option maxRecDepth 4000
namespace Stfx.Cpp
open Stfx.Lexer Stfx.Run Stfx.Parser Stfx.Items Stfx.Gen

/-- The arguments of the constructor of a writer: the flag, or none for the default.  (Specification notion, models no code.) -/
def WriterArgs (d : Bool) (args : List EV) : Prop := args = [.rv (.prim .bool) (.val (.bool d))] ∨ args = [] ∧ d = true

/-- What a block with a new n_ini reader does: the object `q` gets the value, the file is closed if it could be opened, the result is
returned; nothing else is changed.  (Specification notion, models no code.) -/
structure IniReadNew (r : R ((Bool × Val) × IniSt)) (opened : Bool) (q : Place) (s : St) (x : Res EV) : Prop where
  ok : ∀ b v st, r = .ok ((b, v), st) → x = .ok (.rv (.prim .bool) (.val (.bool b)))
      ⟨setAt s.mem q v, s.vars, s.files ++ (if opened then [.closed] else []), s.out⟩
  ub : r = .ub → x = .ub
  stuck : r = .stuck → x = .stuck

/-- What a block with a new n_ini writer does: the file has the text and is closed, or could not be opened, the result is returned;
nothing else is changed.  (Specification notion, models no code.) -/
structure IniWriteNew (r : R Str) (can : Bool) (f : Str) (s : St) (x : Res EV) : Prop where
  ok : ∀ text, can = true → r = .ok text → x = .ok (.rv (.prim .bool) (.val (.bool true)))
      ⟨s.mem, s.vars, s.files ++ [.closed], s.out ++ [(f, .text text)]⟩
  ub : can = true → r = .ub → x = .ub
  stuck : can = true → r = .stuck → x = .stuck
  closed : can = false → x = .ok (.rv (.prim .bool) (.val (.bool false))) s

section
variable {fs : List (Str × Header)} {k : Kind} {out : OutSpec} {prog : List Item} {E : Env} {cs : List Class}

/-! ### New objects -/

/-- A new XML reader has no data members. -/
theorem C66_xml_reader_partial (h : Linked fs k out prog E cs) (hk : k = .xml ∨ k = .attrib) (hc : ReaderClear (declsOf fs) out) (n : Nat) (s : St) :
    construct E cs (n + 1) out.readerClass [] s = .ok [] s := by
  have hx : k.isXml = true := by rcases hk with rfl | rfl <;> rfl
  exact h.make_reader (fun e => hc.cls (by simp [e])) (fun n m ms hd => .inl (hc.clsFuns n m ms hd)) (fun _ _ _ _ => .inr hx) hc.writer (init_xml_reader hx s)

/-- A new XML writer has `m_delta_only`, as given. -/
theorem C66_xml_writer_partial (h : Linked fs k out prog E cs) (hk : k = .xml ∨ k = .attrib) (ho : out.onlyRead = false) (hr : ReaderClear (declsOf fs) out)
    (hc : WriterClear (declsOf fs) out) {d : Bool} {args : List EV} (ha : WriterArgs d args) (n : Nat) (s : St) :
    construct E cs (n + 2) out.writerClass args s = .ok (WriterSelf s.mem.length) { s with mem := s.mem ++ [.val (.bool d)] } := by
  have hx : k.isXml = true := by rcases hk with rfl | rfl <;> rfl
  have := h.make_writer ho (fun e => hc.cls (by simp [e])) hc.clsFuns (hr.writer ho) (n := n) (a := s.mem.length) ha (C66_xml_reader_partial h hk hr n s) (init_xml_writer hx s) rfl (by simp)
  rw [this]
  simp [WriterSelf]

/-- A new n_ini reader has looked up nothing. -/
theorem C66_ini_reader_partial (h : Linked fs .nIni out prog E cs) (hc : IniReaderClear (declsOf fs) out) (n : Nat) (s : St) :
    construct E cs (n + 1) out.readerClass [] s =
      .ok (readerData s.mem.length) { s with mem := s.mem ++ [.val (itemVal [] []), .val (.str []), .val (.str [])] } :=
  h.make_reader (fun e => hc.cls (by simp [e])) (fun _ _ _ _ => .inr rfl) (fun n m ms hd => .inl (hc.clsFuns n m ms hd)) hc.writer
    (init_ini_reader (h.ini.rdProgram hc).2.1 s)

/-- A new n_ini writer is a new reader, with `m_delta_only` as given and no file. -/
theorem C66_ini_writer_partial (h : Linked fs .nIni out prog E cs) (ho : out.onlyRead = false) (hr : IniReaderClear (declsOf fs) out)
    (hc : IniWriterClear (declsOf fs) out) {d : Bool} {args : List EV} (ha : WriterArgs d args) (n : Nat) (s : St) :
    construct E cs (n + 2) out.writerClass args s = .ok (writerData (s.mem.length + 3) ++ readerData s.mem.length)
      { s with mem := s.mem ++ [.val (itemVal [] []), .val (.str []), .val (.str []), .val (.bool d), .null] } := by
  have := h.make_writer ho (fun e => hc.cls (by simp [e])) hc.clsFuns (hr.writer ho) (n := n) (a := s.mem.length + 3) ha (C66_ini_reader_partial h hr n s)
    (init_ini_writer _) (by simp [writerData]) (by simp)
  rw [this]
  simp [writerData, List.set_append]

/-! ### XML -/

/-- The end of the block: the object is gone.  (Proof notion, models no code.) -/
def leave (s : St) : Res EV → Res EV
  | .ok a s' => .ok a { s' with vars := s.vars, mem := s'.mem.take s.mem.length }
  | r => r

theorem onNew_ok {fuel : Nat} {cls f : Str} {cargs args : List EV} {s s1 : St} {self : List (Str × Var)}
    (hcan : canCall cs cls f = true) (hc : construct E cs fuel cls cargs s = .ok self s1) :
    onNew E cs fuel cls cargs f args s = leave s (callMethod E self fuel cls f args s1) := by
  simp only [onNew, if_pos hcan, scope, M.bind_run, hc, Res.ok_bind]
  cases callMethod E self fuel cls f args s1 <;> rfl

/-- A reader is made and reads. -/
theorem C66_xml_read_partial (h : Linked fs k out prog E cs) (hk : k = .xml ∨ k = .attrib)
    (hc : ReaderClear (declsOf fs) out) (hE : E.T.EnumInts) (hL : E.L.Bits) {u : Bool} (hu : E.T.Defined u) {n : Str}
    (hn : TopStruct (declsOf fs) n) {s : St} {t q : Place} {f : Str} {old : Val}
    (ht : getAt s.mem t = some (.str f)) (hq : getAt s.mem q = some old) (hw : CTable.WT E.T u (.struct n) old) {fuel : Nat}
    (hd : DocDepth (E.load (cStr f)) fuel) :
    ReadDone (readFile E.T E.L prog n (E.load (cStr f)) old) q s
      (onNew E cs (fuel + 2) out.readerClass [] c!"read_from_file" [.lv .str t, .lv (.struct n) q] s) := by
  have h1 := C61_read_partial (h.xml hk) hc hE hL hu hn (self := []) (.inl rfl) ht hq hw hd
  rw [onNew_ok (h.can_read hn) (C66_xml_reader_partial h hk hc (fuel + 1) s)]
  unfold ReadDone at h1 ⊢
  split at h1 <;> rw [h1] <;> try rfl
  simp only [leave, List.take_of_length_le (Nat.le_of_eq (setAt_length))]

/-- A writer is made and reads. -/
theorem C66_xml_read_writer_partial (h : Linked fs k out prog E cs) (hk : k = .xml ∨ k = .attrib) (ho : out.onlyRead = false)
    (hr : ReaderClear (declsOf fs) out) (hc : WriterClear (declsOf fs) out) (hl : k = .attrib ∨ E.T.longBits = 64) {d : Bool} {args : List EV} (ha : WriterArgs d args)
    (hE : E.T.EnumInts) (hL : E.L.Bits) {u : Bool} (hu : E.T.Defined u) {n : Str}
    (hn : TopStruct (declsOf fs) n) {s : St} {t q : Place} {f : Str} {old : Val}
    (ht : getAt s.mem t = some (.str f)) (hq : getAt s.mem q = some old) (hw : CTable.WT E.T u (.struct n) old) {fuel : Nat}
    (hd : DocDepth (E.load (cStr f)) fuel) :
    ReadDone (readFile E.T E.L prog n (E.load (cStr f)) old) q s
      (onNew E cs (fuel + 2) out.writerClass args c!"read_from_file" [.lv .str t, .lv (.struct n) q] s) := by
  have hs : ReaderSelf (WriterSelf s.mem.length) := .inr ⟨_, rfl⟩
  have h1 := C61_read_partial (h.xml hk) hr hE hL hu hn (self := WriterSelf s.mem.length) hs (s := { s with mem := s.mem ++ [.val (.bool d)] }) (getAt_append ht) (getAt_append hq) hw hd
  rw [onNew_ok (h.can_read_writer ho (hr.writer ho) hn) (C66_xml_writer_partial h hk ho hr hc ha fuel s), (h.xml hk).inherited ho hr hc hl hn hs.lookup]
  unfold ReadDone at h1 ⊢
  split at h1 <;> rw [h1] <;> try rfl
  simp only [leave, setAt_append (getAt_lt hq), List.take_left' (setAt_length)]

/-- A writer is made and writes. -/
theorem C66_xml_write_partial (h : Linked fs k out prog E cs) (hk : k = .xml ∨ k = .attrib) (ho : out.onlyRead = false)
    (hr : ReaderClear (declsOf fs) out) (hc : WriterClear (declsOf fs) out) (hl : k = .attrib ∨ E.T.longBits = 64) {d : Bool} {args : List EV} (ha : WriterArgs d args)
    {n : Str} (hn : TopStruct (declsOf fs) n) {u : Bool} {s : St} {t q : Place} {f : Str} {v : Val}
    (ht : getAt s.mem t = some (.str f)) (hq : getAt s.mem q = some v)
    (hw : CTable.WT E.T u (.struct n) v) {fuel : Nat} (hd : nesting v ≤ fuel) :
    WriteDone (writeFile E.T E.L prog d n v) (E.canSave (cStr f)) (cStr f) s
      (onNew E cs (fuel + 2) out.writerClass args c!"write_to_file" [.lv .str t, .lv (.struct n) q] s) := by
  have h1 := C62_write_partial (h.xml hk) ho hc hl hn (am := s.mem.length) (delta := d) (s := { s with mem := s.mem ++ [.val (.bool d)] }) (by simp)
    (getAt_append ht) (getAt_append hq) hw hd
  rw [onNew_ok (h.can_write ho (hr.writer ho) hn) (C66_xml_writer_partial h hk ho hr hc ha fuel s)]
  unfold WriteDone at h1 ⊢
  split at h1 <;> rw [h1] <;> try rfl
  simp [leave]

/-! ### n_ini -/

theorem readerData_ok (a : Nat) : IniSelf (readerData a) a (a + 1) (a + 2) := by
  refine ⟨rfl, rfl, rfl, fun n hn => ?_⟩
  simp only [iniMembers, List.mem_cons, List.not_mem_nil, or_false, not_or] at hn
  rw [readerData, lookup_cons_ne hn.1, lookup_cons_ne hn.2.1, lookup_cons_ne hn.2.2.1]
  rfl

theorem writerData_other (a : Nat) : ∀ n, n ∉ iniMembers → (writerData (a + 3) ++ readerData a).lookup n = none := by
  intro n hn
  simp only [iniMembers, List.mem_cons, List.not_mem_nil, or_false, not_or] at hn
  simp only [writerData, readerData, List.cons_append, List.nil_append]
  rw [lookup_cons_ne hn.2.2.2.1, lookup_cons_ne hn.2.2.2.2, lookup_cons_ne hn.1, lookup_cons_ne hn.2.1, lookup_cons_ne hn.2.2.1]
  rfl

theorem writerData_rd (a : Nat) : IniSelf (writerData (a + 3) ++ readerData a) a (a + 1) (a + 2) := ⟨rfl, rfl, rfl, writerData_other a⟩
theorem writerData_wr (a : Nat) : IniWrSelf (writerData (a + 3) ++ readerData a) (a + 3) (a + 4) := ⟨rfl, rfl, writerData_other a⟩

theorem new_rdrMem (m r : List V) : RdrMem m.length (m.length + 1) (m.length + 2) (m ++ .val (itemVal [] []) :: .val (.str []) :: .val (.str []) :: r) IniSt.init :=
  ⟨by omega, by omega, by omega, ⟨[], [], by simp, fun _ => rfl, fun _ => rfl⟩, by simp [IniSt.init], by simp [IniSt.init]⟩

/-- When the object is gone. -/
theorem take_frame {m r R : List V} {a b c : Nat} (ha : m.length ≤ a) (hb : m.length ≤ b) (hc : m.length ≤ c) (h : Frame a b c (m ++ r) R) {q : Place} (hq : q.addr < m.length) (v : Val) :
    (setAt R q v).take m.length = setAt m q v := by
  have h1 : R.take m.length = m := by
    apply List.ext_getElem?
    intro i
    rw [List.getElem?_take]
    split
    · rw [h.2 i (by omega) (by omega) (by omega), List.getElem?_append_left ‹_›]
    · rw [List.getElem?_eq_none (by omega)]
  have h2 := List.take_append_drop m.length R
  rw [h1] at h2
  rw [← h2, setAt_append hq, List.take_left' (setAt_length)]

/-- A reader is made and reads. -/
theorem C66_ini_read_partial (h : Linked fs .nIni out prog E cs) (hc : IniReaderClear (declsOf fs) out) (hcl : NoClash E.T) (hE : E.T.EnumInts) (hL : E.I.Bits) {u : Bool} {n : Str}
    (hn : TopStruct (declsOf fs) n) {s : St} {t q : Place} {f : Str} {old : Val} (ht : getAt s.mem t = some (.str f)) (hq : getAt s.mem q = some old)
    (hw : CTable.WT E.T u (.struct n) old) {fuel : Nat} (hd : IniDepth (E.text (cStr f)) old fuel) :
    IniReadNew (iniRead E.T E.I prog n IniSt.init (E.text (cStr f)) old) (E.text (cStr f)).isSome q s
      (onNew E cs (fuel + 2) out.readerClass [] c!"read_from_file" [.lv .str t, .lv (.struct n) q] s) := by
  have hlt := getAt_lt hq
  have h1 := C63_read_partial h.ini hc hcl hE hL hn (readerData_ok s.mem.length) (s := { s with mem := s.mem ++ [.val (itemVal [] []), .val (.str []), .val (.str [])] })
    (getAt_append ht) (getAt_append hq) (new_rdrMem _ _) ⟨by omega, by omega, by omega⟩ hw hd
  have h2 := onNew_ok (f := c!"read_from_file") (args := [.lv .str t, .lv (.struct n) q]) (h.can_read hn) (C66_ini_reader_partial h hc (fuel + 1) s)
  refine ⟨fun b v st hr => ?_, fun hr => ?_, fun hr => ?_⟩
  · obtain ⟨R, h3, _, h4⟩ := h1.ok b v st hr
    rw [h2, h3]
    simp only [leave, take_frame (Nat.le_refl _) (by omega) (by omega) h4 hlt]
  · rw [h2, h1.ub hr]; rfl
  · rw [h2, h1.stuck hr]; rfl

/-- A writer is made and reads. -/
theorem C66_ini_read_writer_partial (h : Linked fs .nIni out prog E cs) (ho : out.onlyRead = false) (hr : IniReaderClear (declsOf fs) out) (hc : IniWriterClear (declsOf fs) out)
    {d : Bool} {args : List EV} (ha : WriterArgs d args) (hcl : NoClash E.T) (hE : E.T.EnumInts) (hL : E.I.Bits) {u : Bool} {n : Str}
    (hn : TopStruct (declsOf fs) n) {s : St} {t q : Place} {f : Str} {old : Val} (ht : getAt s.mem t = some (.str f)) (hq : getAt s.mem q = some old)
    (hw : CTable.WT E.T u (.struct n) old) {fuel : Nat} (hd : IniDepth (E.text (cStr f)) old fuel) :
    IniReadNew (iniRead E.T E.I prog n IniSt.init (E.text (cStr f)) old) (E.text (cStr f)).isSome q s
      (onNew E cs (fuel + 2) out.writerClass args c!"read_from_file" [.lv .str t, .lv (.struct n) q] s) := by
  have hlt := getAt_lt hq
  have h1 := C63_read_partial h.ini hr hcl hE hL hn (writerData_rd s.mem.length)
    (s := { s with mem := s.mem ++ [.val (itemVal [] []), .val (.str []), .val (.str []), .val (.bool d), .null] })
    (getAt_append ht) (getAt_append hq) (new_rdrMem _ _) ⟨by omega, by omega, by omega⟩ hw hd
  have h2 := onNew_ok (f := c!"read_from_file") (args := [.lv .str t, .lv (.struct n) q]) (h.can_read_writer ho (hr.writer ho) hn) (C66_ini_writer_partial h ho hr hc ha fuel s)
  rw [h.ini.inherited ho hr hc hn (writerData_other _)] at h2
  refine ⟨fun b v st hr => ?_, fun hr => ?_, fun hr => ?_⟩
  · obtain ⟨R, h3, _, h4⟩ := h1.ok b v st hr
    rw [h2, h3]
    simp only [leave, take_frame (Nat.le_refl _) (by omega) (by omega) h4 hlt]
  · rw [h2, h1.ub hr]; rfl
  · rw [h2, h1.stuck hr]; rfl

/-- A writer is made and writes. -/
theorem C66_ini_write_partial (h : Linked fs .nIni out prog E cs) (ho : out.onlyRead = false) (hr : IniReaderClear (declsOf fs) out) (hc : IniWriterClear (declsOf fs) out)
    {d : Bool} {args : List EV} (ha : WriterArgs d args) {u : Bool} {n : Str}
    (hn : TopStruct (declsOf fs) n) {s : St} {t q : Place} {f : Str} {v : Val} (ht : getAt s.mem t = some (.str f)) (hq : getAt s.mem q = some v)
    (hw : CTable.WT E.T u (.struct n) v) {fuel : Nat} (hd : nesting v ≤ fuel) :
    IniWriteNew (iniWrite E.T E.I prog d n v) (E.canWrite (cStr f)) (cStr f) s
      (onNew E cs (fuel + 2) out.writerClass args c!"write_to_file" [.lv .str t, .lv (.struct n) q] s) := by
  have hlt := getAt_lt hq
  have h1 := C64_write_partial h.ini ho hc hn (writerData_wr s.mem.length) (delta := d)
    (s := { s with mem := s.mem ++ [.val (itemVal [] []), .val (.str []), .val (.str []), .val (.bool d), .null] })
    (getAt_append ht) (getAt_append hq) (by simp) (by simp) (by omega) (by omega) hw hd
  have h2 := onNew_ok (f := c!"write_to_file") (args := [.lv .str t, .lv (.struct n) q]) (h.can_write ho (hr.writer ho) hn) (C66_ini_writer_partial h ho hr hc ha fuel s)
  refine ⟨fun text hcw hr => ?_, fun hcw hr => ?_, fun hcw hr => ?_, fun hcw => ?_⟩
  · rw [h2, h1.ok text hcw hr]
    simp [leave, List.set_append]
  · rw [h2, h1.ub hcw hr]; rfl
  · rw [h2, h1.stuck hcw hr]; rfl
  · rw [h2, h1.closed hcw]
    simp [leave, List.set_append]

/-! ### Trips through a file -/

/-- Written by a new writer and read by a new reader: if the model says that the file gives `w` back, the first block saves a document,
and once `LoadFile` finds that document, the second block makes an object `w`. -/
theorem C66_xml_trip_partial (h : Linked fs k out prog E cs) (hk : k = .xml ∨ k = .attrib) (ho : out.onlyRead = false)
    (hr : ReaderClear (declsOf fs) out) (hc : WriterClear (declsOf fs) out) (hl : k = .attrib ∨ E.T.longBits = 64) {d : Bool} {args : List EV} (ha : WriterArgs d args)
    {n : Str} (hn : TopStruct (declsOf fs) n) {u : Bool} {s : St} {t q : Place} {f : Str} {v o w : Val}
    (ht : getAt s.mem t = some (.str f)) (hq : getAt s.mem q = some v)
    (hw : CTable.WT E.T u (.struct n) v) {fuel : Nat} (hd : nesting v ≤ fuel) (hcs : E.canSave (cStr f) = true) (hg : FileGives E.T E.L prog d n v o w) :
    ∃ root, onNew E cs (fuel + 2) out.writerClass args c!"write_to_file" [.lv .str t, .lv (.struct n) q] s =
        .ok (.rv (.prim .bool) (.val (.bool true))) { s with out := s.out ++ [(cStr f, .doc [root])] } ∧
      (E.load (cStr f) = loadSaved E.L root → ∀ (s' : St) (t' q' : Place), getAt s'.mem t' = some (.str f) → getAt s'.mem q' = some o →
        onNew E cs (fuel + 2) out.readerClass [] c!"read_from_file" [.lv .str t', .lv (.struct n) q'] s' =
          .ok (.rv (.prim .bool) (.val (.bool true))) { s' with mem := setAt s'.mem q' w }) := by
  obtain ⟨root, h1, h2⟩ := C62_trip_partial (h.xml hk) ho hr hc hl hn (am := s.mem.length) (delta := d) (s := { s with mem := s.mem ++ [.val (.bool d)] }) (by simp)
    (getAt_append ht) (getAt_append hq) hw hd hcs hg
  refine ⟨root, ?_, fun hload s' t' q' ht' hq' => ?_⟩
  · rw [onNew_ok (h.can_write ho (hr.writer ho) hn) (C66_xml_writer_partial h hk ho hr hc ha fuel s), h1]
    simp [leave]
  · rw [onNew_ok (h.can_read hn) (C66_xml_reader_partial h hk hr (fuel + 1) s'), h2 hload _ (.inl rfl) [] (.inl rfl) s' t' q' ht' hq']
    simp only [leave, List.take_of_length_le (Nat.le_of_eq setAt_length)]

/-- The same for n_ini files. -/
theorem C66_ini_trip_partial (h : Linked fs .nIni out prog E cs) (ho : out.onlyRead = false) (hr : IniReaderClear (declsOf fs) out) (hc : IniWriterClear (declsOf fs) out)
    {d : Bool} {args : List EV} (ha : WriterArgs d args) {u : Bool} {n : Str}
    (hn : TopStruct (declsOf fs) n) {s : St} {t q : Place} {f : Str} {v o w : Val} (ht : getAt s.mem t = some (.str f)) (hq : getAt s.mem q = some v)
    (hw : CTable.WT E.T u (.struct n) v) {fuel : Nat} (hd : nesting v ≤ fuel) (hcw : E.canWrite (cStr f) = true) {b : Bool}
    (hg : iniWriteRead E.T E.I prog d n v IniSt.init o = .ok (b, w)) :
    ∃ text, onNew E cs (fuel + 2) out.writerClass args c!"write_to_file" [.lv .str t, .lv (.struct n) q] s =
        .ok (.rv (.prim .bool) (.val (.bool true))) ⟨s.mem, s.vars, s.files ++ [.closed], s.out ++ [(cStr f, .text text)]⟩ ∧
      (E.text (cStr f) = some text → ∀ (s' : St) (t' q' : Place) (u' : Bool) (fuel' : Nat), getAt s'.mem t' = some (.str f) → getAt s'.mem q' = some o →
        CTable.WT E.T u' (.struct n) o → text.length ≤ fuel' → nesting o ≤ fuel' →
        onNew E cs (fuel' + 2) out.readerClass [] c!"read_from_file" [.lv .str t', .lv (.struct n) q'] s' =
          .ok (.rv (.prim .bool) (.val (.bool b))) ⟨setAt s'.mem q' w, s'.vars, s'.files ++ [.closed], s'.out⟩) := by
  have hlt := getAt_lt hq
  obtain ⟨text, h1, h2⟩ := C64_trip_partial h.ini ho hr hc hn (writerData_wr s.mem.length) (delta := d)
    (s := { s with mem := s.mem ++ [.val (itemVal [] []), .val (.str []), .val (.str []), .val (.bool d), .null] })
    (getAt_append ht) (getAt_append hq) (by simp) (by simp) (by omega) (by omega) hw hd hcw hg
  refine ⟨text, ?_, fun hx s' t' q' u' fuel' ht' hq' hw' hl' hd' => ?_⟩
  · rw [onNew_ok (h.can_write ho (hr.writer ho) hn) (C66_ini_writer_partial h ho hr hc ha fuel s), h1]
    simp [leave, List.set_append]
  · have hlt' := getAt_lt hq'
    obtain ⟨R, h3, h4⟩ := h2 hx _ (.inl rfl) _ _ _ _ (readerData_ok s'.mem.length) { s' with mem := s'.mem ++ [.val (itemVal [] []), .val (.str []), .val (.str [])] }
      t' q' u' fuel' (getAt_append ht') (getAt_append hq') (new_rdrMem _ _) ⟨by omega, by omega, by omega⟩ hw' hl' hd'
    rw [onNew_ok (h.can_read hn) (C66_ini_reader_partial h hr (fuel' + 1) s'), h3]
    simp only [leave, take_frame (Nat.le_refl _) (by omega) (by omega) h4 hlt']

/-! ### Programs -/

/-- The .h file that goes with the .cpp file of C61 and C62, in a program that knows of its classes what that file says. -/
theorem linked_xml (h : XmlBuilt fs k out prog E) {i : Info} (hi : (processFiles 0 (fs.map fun f => some f.1) [Info.empty]).bind (prepare 0) = some ([i], true))
    (hd : Described (twoClasses k out (i.structs.map Prod.snd)) E) : Linked fs k out prog E (twoClasses k out (i.structs.map Prod.snd)) where
  texts := h.texts
  distinct := h.distinct
  run := by
    obtain ⟨ext, i', stamp, fc, fh, inputs, pre, gs, post, h1, h2, h3, h4, h5, h6, h7, h8⟩ := h.run
    rw [hi] at h1
    cases h1
    refine ⟨ext, i, stamp, fc, fh, inputs, pre, gs, post, hi, h2, h3, h4, h5, h6, h7, h8, ?_⟩
    rw [structsH_parse h3.files h3.reader h3.writer h3.structs, twoClasses]
    cases out.onlyRead <;> rfl
  compiled := h.compiled
  enumerators := h.enumerators
  described := hd

/-- The same for C63 and C64. -/
theorem linked_ini (h : IniBuilt fs out prog E) {i : Info} (hi : (processFiles 0 (fs.map fun f => some f.1) [Info.empty]).bind (prepare 0) = some ([i], true))
    (hd : Described (twoClasses .nIni out (i.structs.map Prod.snd)) E) : Linked fs .nIni out prog E (twoClasses .nIni out (i.structs.map Prod.snd)) where
  texts := h.texts
  distinct := h.distinct
  run := by
    obtain ⟨ext, i', stamp, fc, fh, inputs, pre, gs, post, h1, h2, h3, h5, h6, h7, h8⟩ := h.run
    rw [hi] at h1
    cases h1
    refine ⟨ext, i, stamp, fc, fh, inputs, pre, gs, post, hi, h2, h3, .inr (fun h => by cases h), h5, h6, h7, h8, ?_⟩
    rw [structsH_parse h3.files h3.reader h3.writer h3.structs, twoClasses]
    cases out.onlyRead <;> rfl
  compiled := h.compiled
  enumerators := h.enumerators
  described := hd

/-- What the classes say about a program. -/
theorem described_of (ss : List StructS) (hw : out.onlyRead = false → out.writerClass ≠ out.readerClass)
    (hb : ∀ c, E.base c = if !out.onlyRead && c = out.writerClass then some out.readerClass else none)
    (hn : E.nested = if k.isXml then [] else [c!"read_item_S"]) : Described (twoClasses k out ss) E where
  base := by
    intro c hc
    have h1 : E.base out.readerClass = none := by
      rw [hb]
      cases ho : out.onlyRead
      · simp [Ne.symm (hw ho)]
      · rfl
    unfold twoClasses at hc
    cases ho : out.onlyRead
    · rw [ho] at hc
      simp only [List.mem_cons, List.not_mem_nil, or_false, Bool.false_eq_true, if_false] at hc
      rcases hc with rfl | rfl
      · exact h1
      · show E.base out.writerClass = some out.readerClass
        rw [hb, ho]
        simp
    · rw [ho] at hc
      simp only [List.mem_cons, List.not_mem_nil, or_false, if_true] at hc
      subst hc
      exact h1
  nested := by
    rw [hn, twoClasses_nested]
    cases k.isXml <;> rfl
  items := by
    intro p hp _
    rw [twoClasses_nested] at hp
    split at hp
    · cases hp
    · rw [List.mem_singleton] at hp
      subst hp
      exact ⟨rfl, by simp [itemFields]⟩

end

/-! ### Examples -/

/-- The classes of the .h file of the samples. -/
def sampleClasses (fs : List (Str × Header)) (k : Kind) (out : OutSpec) : List Class := twoClasses k out ((tablesOf fs).structs.map Prod.snd)

theorem shape_linked {k : Kind} (hk : k = .xml ∨ k = .attrib) (load : Str → Doc) :
    Linked shapeFiles k plainOut (sampleProg shapeFiles k plainOut) (xmlEnv shapeFiles k plainOut shapeData load) (sampleClasses shapeFiles k plainOut) :=
  linked_xml (built_of hk (by decide +kernel)) (i := tablesOf shapeFiles) (by decide +kernel) (described_of _ (by decide) (fun _ => rfl) (by rcases hk with rfl | rfl <;> rfl))

theorem conf_linked (text : Str → Option Str) (can : Str → Bool) :
    Linked confFiles .nIni plainOut (sampleProg confFiles .nIni plainOut) (iniEnv confFiles plainOut confData someIniLib text can) (sampleClasses confFiles .nIni plainOut) :=
  linked_ini (conf_built text can) (i := tablesOf confFiles) (by decide +kernel) (described_of _ (by decide) (fun _ => rfl) rfl)

/-- `{ R r; return r.read_from_file(...); }`, and the same with a writer. -/
example (cls : Str) (args : List EV) (hc : cls = c!"R" ∧ args = [] ∨ cls = c!"W" ∧ args = []) :
    onNew (shapeEnv .xml) (sampleClasses shapeFiles .xml plainOut) 9 cls args c!"read_from_file" [.lv .str ⟨0, []⟩, .lv (.struct c!"Shape") ⟨2, []⟩]
      (shapeMem c!"f.xml" (shapeVal c!"x" 2 0 (pointVal 1 7) [])) =
    .ok (.rv (.prim .bool) (.val (.bool true))) (shapeMem c!"f.xml" (shapeVal c!"x" 16 5 (pointVal 1 7) [pointVal 4 7, pointVal 1 7])) := by
  have hr : readFile (shapeEnv .xml).T (shapeEnv .xml).L (sampleProg shapeFiles .xml plainOut) c!"Shape" ((shapeEnv .xml).load (cStr c!"f.xml"))
      (shapeVal c!"x" 2 0 (pointVal 1 7) []) = .ok (true, shapeVal c!"x" 16 5 (pointVal 1 7) [pointVal 4 7, pointVal 1 7]) := by decide +kernel
  have hd : DocDepth ((shapeEnv .xml).load (cStr c!"f.xml")) 7 := by
    intro ks hk
    cases hk
    decide
  rcases hc with ⟨rfl, rfl⟩ | ⟨rfl, rfl⟩
  · have h := C66_xml_read_partial (E := shapeEnv .xml) (shape_linked (.inl rfl) _) (.inl rfl) shape_clear (CData.enumInts (by decide +kernel)) someLib_bits (CData.defined (u := false) (by decide +kernel))
      shape_top (s := shapeMem c!"f.xml" (shapeVal c!"x" 2 0 (pointVal 1 7) [])) (t := ⟨0, []⟩) (q := ⟨2, []⟩) rfl rfl (wtb_sound _ _ (by decide +kernel)) hd
    rw [hr] at h
    exact h
  · have h := C66_xml_read_writer_partial (E := shapeEnv .xml) (shape_linked (.inl rfl) _) (.inl rfl) rfl shape_clear shape_wclear (.inr rfl) (d := true) (args := []) (.inr ⟨rfl, rfl⟩)
      (CData.enumInts (by decide +kernel)) someLib_bits (CData.defined (u := false) (by decide +kernel))
      shape_top (s := shapeMem c!"f.xml" (shapeVal c!"x" 2 0 (pointVal 1 7) [])) (t := ⟨0, []⟩) (q := ⟨2, []⟩) rfl rfl (wtb_sound _ _ (by decide +kernel)) hd
    rw [hr] at h
    exact h

/-- `{ W w; return w.write_to_file(...); }` writes what is no default, `{ W w(false); ... }` everything. -/
example (delta : Bool) : onNew (shapeEnv .xml) (sampleClasses shapeFiles .xml plainOut) 9 c!"W" (if delta then [] else [.rv (.prim .bool) (.val (.bool false))]) c!"write_to_file"
      [.lv .str ⟨0, []⟩, .lv (.struct c!"Shape") ⟨2, []⟩] (shapeMem c!"f.xml" outShape) =
    .ok (.rv (.prim .bool) (.val (.bool true))) { shapeMem c!"f.xml" outShape with out := [(c!"f.xml", .doc [outShapeRoot delta])] } := by
  have h := C66_xml_write_partial (E := shapeEnv .xml) (shape_linked (.inl rfl) _) (.inl rfl) rfl shape_clear shape_wclear (.inr rfl) (d := delta)
    (args := if delta then [] else [.rv (.prim .bool) (.val (.bool false))]) (by cases delta <;> simp [WriterArgs]) shape_top (u := false)
    (s := shapeMem c!"f.xml" outShape) (t := ⟨0, []⟩) (q := ⟨2, []⟩) rfl rfl (wtb_sound _ _ (by decide +kernel)) (fuel := 7) (by decide +kernel)
  have hr : writeFile (shapeEnv .xml).T (shapeEnv .xml).L (sampleProg shapeFiles .xml plainOut) delta c!"Shape" outShape = .ok (outShapeRoot delta) := by
    cases delta <;> decide +kernel
  rw [hr] at h
  exact h

/-- An n_ini file that is written by a new writer and read by a new reader. -/
example (text : Str → Option Str) : ∃ x, onNew (iniEnv confFiles plainOut confData someIniLib text) (sampleClasses confFiles .nIni plainOut) 9 c!"W"
        [.rv (.prim .bool) (.val (.bool false))] c!"write_to_file" [.lv .str ⟨0, []⟩, .lv (.struct c!"Conf") ⟨1, []⟩] ⟨[.val (.str c!"f.ini"), .val someConf], [], [], []⟩ =
      .ok (.rv (.prim .bool) (.val (.bool true))) ⟨[.val (.str c!"f.ini"), .val someConf], [], [.closed], [(c!"f.ini", .text x)]⟩ ∧
    (text c!"f.ini" = some x → onNew (iniEnv confFiles plainOut confData someIniLib text) (sampleClasses confFiles .nIni plainOut) (x.length + 9) c!"R" [] c!"read_from_file"
        [.lv .str ⟨0, []⟩, .lv (.struct c!"Conf") ⟨1, []⟩] ⟨[.val (.str c!"f.ini"), .val (confVal (dbVal c!"b" 2 5) (dbVal c!"c" 3 5) (dbVal c!"d" 4 5))], [], [], []⟩ =
      .ok (.rv (.prim .bool) (.val (.bool true))) ⟨[.val (.str c!"f.ini"), .val someConf], [], [.closed], []⟩) := by
  have hb := conf_linked text fun _ => true
  obtain ⟨x, h1, h2⟩ := C66_ini_trip_partial hb rfl conf_rclear conf_wclear (d := false) (.inl rfl) conf_top (u := false)
    (s := ⟨[.val (.str c!"f.ini"), .val someConf], [], [], []⟩) (t := ⟨0, []⟩) (q := ⟨1, []⟩) (fuel := 7) rfl rfl someConf_wt (by decide +kernel) rfl
    (C41_full_partial hb.ini.gen rfl hb.compiled conf_top (Or.inl rfl) someConf_wt
      (iniFitsb_sound (T := confData.table) (p := fun n ty _ v => iniFitb confData.table someIniLib n ty v) (fun _ _ _ _ h => iniFitb_sound h) _ _ _ (by decide +kernel))
      _ (t := confVal (dbVal c!"b" 2 5) (dbVal c!"c" 3 5) (dbVal c!"d" 4 5)) (wtb_sound (T := confData.table) _ _ (by decide +kernel)))
  exact ⟨x, h1, fun hx => h2 hx ⟨[.val (.str c!"f.ini"), .val (confVal (dbVal c!"b" 2 5) (dbVal c!"c" 3 5) (dbVal c!"d" 4 5))], [], [], []⟩ ⟨0, []⟩ ⟨1, []⟩ false (x.length + 7) rfl rfl
    (wtb_sound (T := confData.table) _ _ (by decide +kernel)) (by omega) (Nat.le_trans (by decide +kernel : nesting (confVal (dbVal c!"b" 2 5) (dbVal c!"c" 3 5) (dbVal c!"d" 4 5)) ≤ 7) (by omega))⟩

/-- An XML file likewise. -/
example (load : Str → Doc) : ∃ root, onNew (xmlEnv shapeFiles .xml plainOut shapeData load) (sampleClasses shapeFiles .xml plainOut) 9 c!"W"
        [.rv (.prim .bool) (.val (.bool false))] c!"write_to_file" [.lv .str ⟨0, []⟩, .lv (.struct c!"Shape") ⟨2, []⟩] (shapeMem c!"f.xml" someShape) =
      .ok (.rv (.prim .bool) (.val (.bool true))) { shapeMem c!"f.xml" someShape with out := [(c!"f.xml", .doc [root])] } ∧
    (load c!"f.xml" = loadSaved someLib root →
      onNew (xmlEnv shapeFiles .xml plainOut shapeData load) (sampleClasses shapeFiles .xml plainOut) 9 c!"R" [] c!"read_from_file" [.lv .str ⟨0, []⟩, .lv (.struct c!"Shape") ⟨2, []⟩]
        (shapeMem c!"f.xml" (shapeVal c!"old" 9 9 (pointVal 0 0) [])) =
      .ok (.rv (.prim .bool) (.val (.bool true))) (shapeMem c!"f.xml" someShape)) := by
  have hb := shape_linked (.inl rfl) load
  obtain ⟨root, h1, h2⟩ := C66_xml_trip_partial hb (.inl rfl) rfl shape_clear shape_wclear (.inr rfl) (d := false) (.inl rfl) shape_top (u := false)
    (s := shapeMem c!"f.xml" someShape) (t := ⟨0, []⟩) (q := ⟨2, []⟩) (fuel := 7) rfl rfl someShape_wt (by decide +kernel) rfl
    (C32_element_full_partial (hb.xml (.inl rfl)).gen rfl hb.compiled shape_top (Or.inl rfl) someShape_wt (show nesting someShape ≤ 500 by decide +kernel) (someShape_fits _)
      (t := shapeVal c!"old" 9 9 (pointVal 0 0) []) (freshb_sound (T := shapeData.table) _ _ (by decide +kernel)))
  exact ⟨root, h1, fun hl => h2 hl (shapeMem c!"f.xml" (shapeVal c!"old" 9 9 (pointVal 0 0) [])) ⟨0, []⟩ ⟨2, []⟩ rfl rfl⟩

/-- Reading an n_ini file with a new reader or a new writer. -/
example (cls : Str) (hc : cls = c!"R" ∨ cls = c!"W") : onNew (swEnv smallIniLib) (sampleClasses swFiles .nIni plainOut) 60 cls []
      c!"read_from_file" [.lv .str ⟨0, []⟩, .lv (.struct c!"Sws") ⟨1, []⟩] ⟨[.val (.str c!"f.ini"), .val (swVal 3 4 true 0)], [], [], []⟩ =
    .ok (.rv (.prim .bool) (.val (.bool true))) ⟨[.val (.str c!"f.ini"), .val (swVal (-5) 8 true 1)], [], [.closed], []⟩ := by
  have hb : Linked swFiles .nIni plainOut (sampleProg swFiles .nIni plainOut) (swEnv smallIniLib) (sampleClasses swFiles .nIni plainOut) :=
    linked_ini swEnv_built (i := tablesOf swFiles) (by decide +kernel) (described_of _ (by decide) (fun _ => rfl) rfl)
  have hr : iniRead (swEnv smallIniLib).T (swEnv smallIniLib).I (sampleProg swFiles .nIni plainOut) c!"Sws" IniSt.init ((swEnv smallIniLib).text (cStr c!"f.ini")) (swVal 3 4 true 0) =
      .ok ((true, swVal (-5) 8 true 1), ⟨[], [(c!"sw", [(c!"u", c!"\t 8"), (c!"b", c!"7"), (c!"m", c!"on"), (c!"w", c!"-5 m")])], some c!"sw", [], []⟩) := by decide +kernel
  rcases hc with rfl | rfl
  · have h := C66_ini_read_partial hb sw_clear (CData.noClash (by decide +kernel)) (CData.enumInts (by decide +kernel)) smallIniLib_bits sw_top (u := false)
      (s := ⟨[.val (.str c!"f.ini"), .val (swVal 3 4 true 0)], [], [], []⟩) (t := ⟨0, []⟩) (q := ⟨1, []⟩) rfl rfl (wtb_sound (T := swData.table) _ _ (by decide +kernel)) (fuel := 58)
      ⟨fun t h => by cases h; decide, by decide⟩
    exact h.ok _ _ _ hr
  · have h := C66_ini_read_writer_partial hb rfl sw_clear (iniWriterClear_of (by decide +kernel)) (d := true) (args := []) (.inr ⟨rfl, rfl⟩) (CData.noClash (by decide +kernel))
      (CData.enumInts (by decide +kernel)) smallIniLib_bits sw_top (u := false)
      (s := ⟨[.val (.str c!"f.ini"), .val (swVal 3 4 true 0)], [], [], []⟩) (t := ⟨0, []⟩) (q := ⟨1, []⟩) rfl rfl (wtb_sound (T := swData.table) _ _ (by decide +kernel)) (fuel := 58)
      ⟨fun t h => by cases h; decide, by decide⟩
    exact h.ok _ _ _ hr

/-- A file that can not be opened for writing. -/
example (text : Str → Option Str) : onNew (iniEnv confFiles plainOut confData someIniLib text fun _ => false) (sampleClasses confFiles .nIni plainOut) 9 c!"W" []
      c!"write_to_file" [.lv .str ⟨0, []⟩, .lv (.struct c!"Conf") ⟨1, []⟩] ⟨[.val (.str c!"f.ini"), .val someConf], [], [], []⟩ =
    .ok (.rv (.prim .bool) (.val (.bool false))) ⟨[.val (.str c!"f.ini"), .val someConf], [], [], []⟩ :=
  (C66_ini_write_partial (conf_linked text fun _ => false) rfl conf_rclear conf_wclear (d := true) (args := []) (.inr ⟨rfl, rfl⟩) conf_top (u := false)
    (s := ⟨[.val (.str c!"f.ini"), .val someConf], [], [], []⟩) (t := ⟨0, []⟩) (q := ⟨1, []⟩) rfl rfl someConf_wt (fuel := 7) (by decide +kernel)).closed rfl

/-! ### Wrong headers and hidden names -/

/-- With the constructor declared private, or without its definition, there is no object, and a function that is not public is not called. -/
example : onNew (shapeEnv .xml) [⟨c!"R", none, [.access .priv, .fn ⟨false, none, c!"R", []⟩, .access .pub, .fn ⟨true, none, c!"read_from_file", []⟩]⟩] 9 c!"R" []
      c!"read_from_file" [.lv .str ⟨0, []⟩, .lv (.struct c!"Shape") ⟨2, []⟩] (shapeMem c!"g.xml" outShape) = .stuck ∧
    onNew (shapeEnv .xml) [⟨c!"R", none, [.access .pub, .fn ⟨false, none, c!"R", []⟩, .access .prot, .fn ⟨true, none, c!"read_from_file", []⟩]⟩] 9 c!"R" []
      c!"read_from_file" [.lv .str ⟨0, []⟩, .lv (.struct c!"Shape") ⟨2, []⟩] (shapeMem c!"g.xml" outShape) = .stuck ∧
    onNew { shapeEnv .xml with prog := [] } (sampleClasses shapeFiles .xml plainOut) 9 c!"R" [] c!"read_from_file"
      [.lv .str ⟨0, []⟩, .lv (.struct c!"Shape") ⟨2, []⟩] (shapeMem c!"g.xml" outShape) = .stuck := by
  refine ⟨?_, ?_, ?_⟩ <;> kernel_rfl

/-- C66 as stated, for XML readers: whatever the structs.  (Specification notion, models no code.) -/
def C66_statement : Prop :=
  ∀ (fs : List (Str × Header)) (k : Kind) (out : OutSpec) (prog : List Item) (E : Env) (cs : List Class), Linked fs k out prog E cs → k = .xml ∨ k = .attrib →
  E.T.EnumInts → E.L.Bits → ∀ u : Bool, E.T.Defined u → ∀ n, TopStruct (declsOf fs) n →
  ∀ (s : St) (t q : Place) (f : Str) (old : Val) (fuel : Nat), getAt s.mem t = some (.str f) → getAt s.mem q = some old → CTable.WT E.T u (.struct n) old →
    DocDepth (E.load (cStr f)) fuel →
    ReadDone (readFile E.T E.L prog n (E.load (cStr f)) old) q s
      (onNew E cs (fuel + 2) out.readerClass [] c!"read_from_file" [.lv .str t, .lv (.struct n) q] s)

/-- A struct named `el`. -/
theorem C66_struct_el : onNew (hiddenEnv c!"b" c!"el") (sampleClasses (hiddenFiles c!"b" c!"el") .xml plainOut) 9 c!"R" [] c!"read_from_file"
    [.lv .str ⟨0, []⟩, .lv (.struct c!"el") ⟨1, []⟩] (hiddenMem 2) = .stuck := by
  kernel_rfl

/-- The statement is false. -/
theorem C66_refuted : ¬ C66_statement := by
  intro h
  have h1 := h (hiddenFiles c!"b" c!"el") .xml plainOut _ (hiddenEnv c!"b" c!"el") _
    (linked_xml (built_of (.inl rfl) (by decide +kernel)) (i := tablesOf (hiddenFiles c!"b" c!"el")) (by decide +kernel) (described_of _ (by decide) (fun _ => rfl) rfl)) (.inl rfl)
    (CData.enumInts (by decide +kernel)) someLib_bits false
    (CData.defined (by decide +kernel)) c!"el" (topStruct_of (by decide +kernel)) (hiddenMem 2) ⟨0, []⟩ ⟨1, []⟩ c!"f.xml" (hiddenVal 2) 7 rfl rfl
    (wtb_sound _ _ (by decide +kernel)) (by
      intro ks hk
      cases hk
      decide)
  have hr : readFile (hiddenEnv c!"b" c!"el").T (hiddenEnv c!"b" c!"el").L (sampleProg (hiddenFiles c!"b" c!"el") .xml plainOut) c!"el"
      ((hiddenEnv c!"b" c!"el").load (cStr c!"f.xml")) (hiddenVal 2) = .ok (true, hiddenVal 4) := by decide +kernel
  rw [hr] at h1
  have h2 := (show onNew _ _ _ _ _ _ _ _ = _ from h1).symm.trans C66_struct_el
  cases h2

end Stfx.Cpp
