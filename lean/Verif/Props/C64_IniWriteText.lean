import Verif.Cpp.IniCheck
import Verif.Props.C39_C41_Ini
import Verif.Props.C62_XmlWriteText
import Verif.Props.C63_IniReadText
/-
Property C64: running the text of the generated n_ini writers does what their model does.

As in C63 the texts of the structs .cpp file and of the enums .cpp file are read as C++ and run by the rules of C++.  A call
`write_to_file(filename, x)` then opens the file, prints the text that `iniWrite` (`Run/Ini.lean`) says, about which C39-C41 speak,
and closes it; only the member `m_file` of the writer object is changed.  If the file can not be opened the call returns false.

The exception: names of structs can be hidden by parameters, variables, members and functions of the generated classes.
-/
set_option autoImplicit false
set_option maxRecDepth 4000
namespace Stfx.Cpp
open Stfx.Lexer Stfx.Run Stfx.Parser Stfx.Items Stfx.Gen

/-- Where the data members of the object `write_to_file` is called on are, process_items_ini.cpp:47-67, 224-231: `m_delta_only` at `am`
and `m_file` at `af`. -/
structure IniWrSelf (data : List (Str × Var)) (am af : Nat) : Prop where
  delta : data.lookup c!"m_delta_only" = some ⟨.prim .bool, ⟨am, []⟩⟩
  file : data.lookup c!"m_file" = some ⟨.ptr .file, ⟨af, []⟩⟩
  other : ∀ n, n ∉ iniMembers → data.lookup n = none

/-- What the call does in C++: the file has the text and is closed, or could not be opened, the result is returned, and nothing but
`m_file` is changed.  (Specification notion, models no code.) -/
structure IniWriteDone (r : R Str) (can : Bool) (f : Str) (af : Nat) (s : St) (x : Res EV) : Prop where
  ok : ∀ text, can = true → r = .ok text → x = .ok (.rv (.prim .bool) (.val (.bool true)))
      ⟨s.mem.set af (.file s.files.length), s.vars, s.files ++ [.closed], s.out ++ [(f, .text text)]⟩
  ub : can = true → r = .ub → x = .ub
  stuck : can = true → r = .stuck → x = .stuck
  closed : can = false → x = .ok (.rv (.prim .bool) (.val (.bool false))) { s with mem := s.mem.set af .null }

/-- C64 as stated: a call of `write_to_file` does what the model says, whatever the structs.  (Specification notion, models no code.) -/
def C64_statement : Prop :=
  ∀ (fs : List (Str × Header)) (out : OutSpec) (prog : List Item) (E : Env), IniBuilt fs out prog E → out.onlyRead = false →
  ∀ (u : Bool) (n : Str), TopStruct (declsOf fs) n →
  ∀ (self : List (Str × Var)) (am af : Nat) (delta : Bool) (s : St) (t q : Place) (f : Str) (v : Val) (fuel : Nat), IniWrSelf self am af →
    getAt s.mem t = some (.str f) → getAt s.mem q = some v → s.mem[am]? = some (.val (.bool delta)) → af < s.mem.length → af ≠ q.addr → af ≠ am →
    CTable.WT E.T u (.struct n) v → nesting v ≤ fuel →
    IniWriteDone (iniWrite E.T E.I prog delta n v) (E.canWrite (cStr f)) (cStr f) af s
      (callMethod E self (fuel + 2) out.writerClass c!"write_to_file" [.lv .str t, .lv (.struct n) q] s)

/-! ### When the model gives a text -/

/-- Never stuck, and no undefined behaviour if `p`.  (Specification notion, models no code.) -/
def Fine (p : Prop) {α : Type} (x : R α) : Prop := x ≠ .stuck ∧ (p → x ≠ .ub)

theorem Fine.ok {p : Prop} {α : Type} (a : α) : Fine p (R.ok a) := ⟨fun h => by (cases h), fun _ h => by cases h⟩

theorem Fine.bind {p : Prop} {α β : Type} {x : R α} {f : α → R β} (hx : Fine p x) (hf : ∀ a, x = .ok a → Fine p (f a)) : Fine p (x >>= f) := by
  cases x with
  | ok a => exact hf a rfl
  | ub => exact ⟨fun h => by (cases h), fun hp => absurd rfl (hx.2 hp)⟩
  | stuck => exact absurd rfl hx.1

theorem Fine.mapM {p : Prop} {α β : Type} {f : α → R β} {l : List α} (h : ∀ a ∈ l, Fine p (f a)) : Fine p (l.mapM f) := by
  induction l with
  | nil => exact .ok _
  | cons a l ih =>
    rw [List.mapM_cons]
    exact (h a (by simp)).bind fun b _ => (ih fun a ha => h a (by simp [ha])).bind fun bs _ => .ok _

section
variable {T : CTable} {L : IniLib} {prog : List Item}

theorem iniText_fine {p : Prop} {ty : SimpleTy} {u : Bool} (hp : p → u = false) {v : Val} (hv : CTable.WT T u (.simple ty) v) : Fine p (iniText L ty v) := by
  cases hv with
  | undef hu _ _ _ => exact ⟨by cases ty <;> (intro h; cases h), fun h => by rw [hp h] at hu; cases hu⟩
  | simple hs => cases ty <;> cases v <;> first | exact .ok _ | (simp [CTable.simpleVal] at hs; done)

theorem iniEnumText_fine {p : Prop} {e : Str} {u : Bool} (hp : p → u = false) {v : Val} (hv : CTable.WT T u (.enum e) v) : Fine p (iniEnumText T (some (.enum e)) v) := by
  cases hv with
  | undef hu _ _ _ => exact ⟨by (intro h; cases h), fun h => by rw [hp h] at hu; cases hu⟩
  | enum h _ _ =>
    simp only [iniEnumText, h]
    exact .ok _

theorem neq_fine {p : Prop} {ty : MTy} (hl : ty.isLeaf = true) {u : Bool} (hp : p → u = false) {d v : Val} (hv : CTable.WT T u ty v) (hd : CTable.WT T true ty d)
    (hu : p → d ≠ .undef) : Fine p (neq v d) := by
  refine ⟨neq_stuck hl hv hd, fun h => ?_⟩
  have hf := hp h
  subst hf
  obtain ⟨b, hb⟩ := neq_ok hl hv hd (hu h)
  rw [hb]
  intro h; cases h

/-- The writer functions on an object of the type. -/
theorem nwr_fine {g delta u : Bool} (hc : NCode T prog g) {p : Prop} (hp : p → u = false) (hi : p → (g && delta) = true → Initialised T) {ty : MTy} {v : Val}
    (hv : CTable.WT T u ty v) : ∀ c path, ty = .struct c → Fine p ((nwrVal T L prog delta v).wr c path) := by
  induction hv with
  | undef _ h1 h2 _ => intro c path h; exact absurd h (h1 c)
  | simple _ => intro c path h; cases h
  | enum _ _ _ => intro c path h; cases h
  | vec _ => intro c path h; cases h
  | @struct c ms fs hcls hfs hwt ih =>
    intro c' path hcc
    cases hcc
    have hnd := hc.good.nodup c ms hcls
    obtain ⟨ds, hds, hdn, hdl⟩ := dflt_struct hc.good hcls
    show Fine p (runNWr T L prog delta (nwrFields T L prog delta fs) c path)
    unfold runNWr
    rw [hc.wr c ms hcls]
    dsimp only
    rw [hds, show (Val.struct ds).fields = ds from rfl]
    refine Fine.bind (Fine.mapM fun w hw => ?_) fun _ _ => .ok _
    obtain ⟨q, hq, rfl⟩ := List.mem_map.1 hw
    obtain ⟨m, hm, rfl⟩ := mem_ordered.1 hq
    obtain ⟨v', hv'⟩ := lookup_isSome (hfs ▸ List.mem_map_of_mem hm : m.name ∈ fs.map Prod.fst)
    have hwt' := hwt m hm v' hv'
    have hgd : m.ty.isLeaf = true → Fine p (Run.guard g delta ((if g then ds else []).lookup m.name) v') := by
      intro hl
      cases hgt : (g && delta) with
      | false => rw [guard_full hgt]; exact .ok _
      | true =>
        have hg1 : g = true := by cases g <;> simp_all
        rw [if_pos hg1, hdl m hm, guard_delta hgt]
        exact neq_fine hl hp hwt' (dflt_wt hc.good hcls hds hm (hdl m hm)) fun h hu => hi h hgt c ms ds hcls hds m hm hl (by rw [hdl m hm, hu])
    have hf : Run.field (nwrFields T L prog delta fs) m.name = .ok (nwrVal T L prog delta v') := by
      unfold Run.field
      rw [nwrFields_lookup, hv']
      rfl
    have hmt := memberTy_of hcls hnd hm
    unfold lineNWr
    cases hty : m.ty with
    | simple ty =>
      simp only [nwrAct, hf, R.ok_bind, nwrVal_val]
      rw [hty] at hwt'
      refine (hgd (by rw [hty]; rfl)).bind fun b _ => ?_
      split
      · exact (iniText_fine hp hwt').bind fun _ _ => .ok _
      · exact .ok _
    | enum e =>
      simp only [nwrAct, hf, R.ok_bind, nwrVal_val, hmt, hty]
      rw [hty] at hwt'
      refine (hgd (by rw [hty]; rfl)).bind fun b _ => ?_
      split
      · exact (iniEnumText_fine hp hwt').bind fun _ _ => .ok _
      · exact .ok _
    | struct c' =>
      simp only [nwrAct, hf, R.ok_bind]
      exact ih m hm v' hv' c' _ hty
    | vec c' => exact .ok _

end

/-! ### The calls -/

section
variable {fs : List (Str × Header)} {out : OutSpec} {prog : List Item} {E : Env}

theorem iniWrite_fine (h : IniBuilt fs out prog E) (ho : out.onlyRead = false) {n : Str} (hn : TopStruct (declsOf fs) n) {delta u : Bool} {v : Val}
    (hw : CTable.WT E.T u (.struct n) v) : Fine (u = false ∧ (delta = true → Initialised E.T)) (iniWrite E.T E.I prog delta n v) := by
  obtain ⟨hcd, hrw⟩ := h.gen.ncode ho h.compiled
  unfold iniWrite
  rw [if_pos (hrw n hn).2]
  refine Fine.bind (nwr_fine hcd (fun h => h.1) (fun h hg => h.2 ?_) hw n [] rfl) fun _ _ => .ok _
  simp only [Bool.and_eq_true] at hg
  exact hg.2

/-- Writing does what the model says, if no name is hidden. -/
theorem C64_write_partial (h : IniBuilt fs out prog E) (ho : out.onlyRead = false) (hc : IniWriterClear (declsOf fs) out)
    {n : Str} (hn : TopStruct (declsOf fs) n) {self : List (Str × Var)} {am af : Nat} (hs : IniWrSelf self am af) {delta u : Bool} {s : St} {t q : Place} {f : Str} {v : Val}
    (ht : getAt s.mem t = some (.str f)) (hq : getAt s.mem q = some v) (hdl : s.mem[am]? = some (.val (.bool delta)))
    (haf : af < s.mem.length) (hqf : af ≠ q.addr) (hmf : af ≠ am) (hw : CTable.WT E.T u (.struct n) v) {fuel : Nat} (hd : nesting v ≤ fuel) :
    IniWriteDone (iniWrite E.T E.I prog delta n v) (E.canWrite (cStr f)) (cStr f) af s
      (callMethod E self (fuel + 2) out.writerClass c!"write_to_file" [.lv .str t, .lv (.struct n) q] s) := by
  obtain ⟨hp, ns, hnd, hm, _, htop, hsn⟩ := h.wrProgram ho hc
  have hn' := (htop n).2 hn
  have hm' := hm (List.ne_nil_of_mem hn')
  have hfine := iniWrite_fine (delta := delta) h ho hn hw
  have hsim := fun hcw => write_ini hp hs.other hs.delta hs.file hnd hsn hn' hm' ht hq hdl haf hqf hmf hw hcw hd
  refine ⟨fun text hcw hr => ?_, fun hcw hr => ?_, fun _ hr => absurd hr hfine.1, fun hcw => ?_⟩
  · have := hsim hcw
    rw [hr] at this
    exact this
  · have := hsim hcw
    rw [hr] at this
    exact this
  · exact write_closed hp hs.other hs.file hnd hsn hn' hm' ht haf hcw

/-- An object whose members have values is written, with all members if the writer is made so, or with those that differ from a default
object if all members of defaults have values. -/
theorem C64_written_partial (h : IniBuilt fs out prog E) (ho : out.onlyRead = false) (hc : IniWriterClear (declsOf fs) out)
    {n : Str} (hn : TopStruct (declsOf fs) n) {self : List (Str × Var)} {am af : Nat} (hs : IniWrSelf self am af) {delta : Bool} {s : St} {t q : Place} {f : Str} {v : Val}
    (ht : getAt s.mem t = some (.str f)) (hq : getAt s.mem q = some v) (hdl : s.mem[am]? = some (.val (.bool delta)))
    (haf : af < s.mem.length) (hqf : af ≠ q.addr) (hmf : af ≠ am) (hw : CTable.WT E.T false (.struct n) v) (hi : delta = true → Initialised E.T)
    {fuel : Nat} (hd : nesting v ≤ fuel) (hcw : E.canWrite (cStr f) = true) :
    ∃ text, iniWrite E.T E.I prog delta n v = .ok text ∧
      callMethod E self (fuel + 2) out.writerClass c!"write_to_file" [.lv .str t, .lv (.struct n) q] s = .ok (.rv (.prim .bool) (.val (.bool true)))
        ⟨s.mem.set af (.file s.files.length), s.vars, s.files ++ [.closed], s.out ++ [(cStr f, .text text)]⟩ := by
  have hfine := iniWrite_fine (delta := delta) h ho hn hw
  have h1 := C64_write_partial h ho hc hn hs ht hq hdl haf hqf hmf hw hd
  cases hr : iniWrite E.T E.I prog delta n v with
  | ok text => exact ⟨text, rfl, h1.ok text hcw hr⟩
  | ub => exact absurd hr (hfine.2 ⟨rfl, hi⟩)
  | stuck => exact absurd hr hfine.1

/-- The trip through a file for the text of the functions: if the model says that the file gives `w` and the result `b`, then
`write_to_file` makes a file, and once that file is found, `read_from_file` makes an object `w` and returns `b`: called on a reader or
on the writer, by the names of both classes. -/
theorem C64_trip_partial (h : IniBuilt fs out prog E) (ho : out.onlyRead = false) (hr : IniReaderClear (declsOf fs) out) (hc : IniWriterClear (declsOf fs) out)
    {n : Str} (hn : TopStruct (declsOf fs) n) {self : List (Str × Var)} {am af : Nat} (hs : IniWrSelf self am af) {delta u : Bool} {s : St} {t q : Place} {f : Str} {v o w : Val}
    (ht : getAt s.mem t = some (.str f)) (hq : getAt s.mem q = some v) (hdl : s.mem[am]? = some (.val (.bool delta)))
    (haf : af < s.mem.length) (hqf : af ≠ q.addr) (hmf : af ≠ am) (hw : CTable.WT E.T u (.struct n) v) {fuel : Nat} (hd : nesting v ≤ fuel)
    (hcw : E.canWrite (cStr f) = true) {st : IniSt} {b : Bool} (hg : iniWriteRead E.T E.I prog delta n v st o = .ok (b, w)) :
    ∃ text, callMethod E self (fuel + 2) out.writerClass c!"write_to_file" [.lv .str t, .lv (.struct n) q] s = .ok (.rv (.prim .bool) (.val (.bool true)))
        ⟨s.mem.set af (.file s.files.length), s.vars, s.files ++ [.closed], s.out ++ [(cStr f, .text text)]⟩ ∧
      (E.text (cStr f) = some text → ∀ (cls : Str), cls = out.readerClass ∨ cls = out.writerClass → ∀ (data : List (Str × Var)) (al ak av : Nat), IniSelf data al ak av →
        ∀ (s' : St) (t' q' : Place) (u' : Bool) (fuel' : Nat), getAt s'.mem t' = some (.str f) → getAt s'.mem q' = some o → RdrMem al ak av s'.mem st → Apart q' al ak av →
          CTable.WT E.T u' (.struct n) o → text.length ≤ fuel' → nesting o ≤ fuel' →
          ∃ R, callMethod E data (fuel' + 2) cls c!"read_from_file" [.lv .str t', .lv (.struct n) q'] s' =
            .ok (.rv (.prim .bool) (.val (.bool b))) ⟨setAt R q' w, s'.vars, s'.files ++ [.closed], s'.out⟩ ∧ Frame al ak av s'.mem R) := by
  unfold iniWriteRead at hg
  rw [R.bind_eq_ok] at hg
  obtain ⟨text, htext, hread⟩ := hg
  have h1 := C64_write_partial h ho hc hn hs ht hq hdl haf hqf hmf hw hd
  refine ⟨text, h1.ok text hcw htext, fun hf cls hcls data al ak av hs' s' t' q' u' fuel' ht' hq' hm' ha' hw' hl hd' => ?_⟩
  obtain ⟨⟨⟨b', w'⟩, st'⟩, hread, he⟩ := R.bind_eq_ok.1 hread
  cases he
  have hrd : ∃ R, callMethod E data (fuel' + 2) out.readerClass c!"read_from_file" [.lv .str t', .lv (.struct n) q'] s' =
      .ok (.rv (.prim .bool) (.val (.bool b))) ⟨setAt R q' w, s'.vars, s'.files ++ [.closed], s'.out⟩ ∧ Frame al ak av s'.mem R := by
    obtain ⟨hp, hF, ns, hnd, hm, htop, hsn⟩ := h.rdProgram hr
    have hsim := read_ini hp hF hs'.other hs'.lookup hs'.key hs'.value hnd hsn ((htop n).2 hn) hm ht' hq' hm' ha'.1 ha'.2.1 ha'.2.2 hw' hd'
      (fun x hx => by rw [hf] at hx; cases hx; exact hl)
    rw [hf, hread] at hsim
    obtain ⟨R, h1, _, h3, _⟩ := hsim
    exact ⟨R, h1, h3⟩
  rcases hcls with rfl | rfl
  · exact hrd
  · rw [h.inherited ho hr hc hn hs'.other]
    exact hrd

end

/-! ### Examples -/

theorem conf_built (text : Str → Option Str) (can : Str → Bool) :
    IniBuilt confFiles plainOut (sampleProg confFiles .nIni plainOut) (iniEnv confFiles plainOut confData someIniLib text can) := iniBuilt_of (by decide +kernel)

theorem conf_rclear : IniReaderClear (declsOf confFiles) plainOut := iniReaderClear_of (by decide +kernel)
theorem conf_wclear : IniWriterClear (declsOf confFiles) plainOut := iniWriterClear_of (by decide +kernel)

/-- The members of the writer, and of the reader it inherits from.  (Specification notion, models no code.) -/
def iniWrSelf : List (Str × Var) := iniSelf ++ [(c!"m_delta_only", ⟨.prim .bool, ⟨6, []⟩⟩), (c!"m_file", ⟨.ptr .file, ⟨7, []⟩⟩)]

theorem iniWrSelf_other : ∀ n, n ∉ iniMembers → iniWrSelf.lookup n = none := by
  intro n hn
  simp only [iniMembers, List.mem_cons, List.not_mem_nil, or_false, not_or] at hn
  simp only [iniWrSelf, iniSelf, List.cons_append, List.nil_append]
  rw [lookup_cons_ne hn.1, lookup_cons_ne hn.2.1, lookup_cons_ne hn.2.2.1, lookup_cons_ne hn.2.2.2.1, lookup_cons_ne hn.2.2.2.2]
  rfl

theorem iniWrSelf_wr : IniWrSelf iniWrSelf 6 7 := ⟨by decide, by decide, iniWrSelf_other⟩
theorem iniWrSelf_rd : IniSelf iniWrSelf 1 2 3 := ⟨by decide, by decide, by decide, iniWrSelf_other⟩

/-- Memory with the name of a file, a writer (its `m_delta_only` and `m_file` last), some number and an object.
(Specification notion, models no code.) -/
def iniWrMem (f : Str) (delta : Bool) (file : V) (v : Val) (files : List FileSt) (out : List (Str × Saved)) : St :=
  ⟨(iniMem f [] [] v).mem ++ [.val (.bool delta), file], [], files, out⟩

theorem iniWrMem_len {f : Str} {delta : Bool} {file : V} {v : Val} {files : List FileSt} {out : List (Str × Saved)} : 7 < (iniWrMem f delta file v files out).mem.length := by
  simp [iniWrMem, iniMem]

/-- An object with an uninitialised member.  (Specification notion, models no code.) -/
def rawConf : Val := confVal (dbVal c!"b" 2 5) (.struct [(c!"host", .str c!"h"), (c!"max_conn", .undef), (c!"level", .num 0)]) (dbVal c!"d" 4 5)

/-- A text for `someConf`.  (Example, models no code.) -/
def someConfText (delta : Bool) : Str :=
  c!"\n[opt]\n\n[opt.main db]\nhost [x] = y\nmax_conn -3\nlevel high\n\n[opt.spare]\n" ++ (if delta then c!"" else c!"host a\n") ++
  c!"max_conn 2147483647" ++ (if delta then c!"" else c!"\nlevel low") ++ c!"\n\n[other db]\nhost local host\nmax_conn 7\n" ++ c!"level -9\n"

/-- Writing an object. -/
example (delta : Bool) (text : Str → Option Str) : callMethod (iniEnv confFiles plainOut confData someIniLib text) iniWrSelf 9 c!"W" c!"write_to_file"
      [.lv .str ⟨0, []⟩, .lv (.struct c!"Conf") ⟨5, []⟩] (iniWrMem c!"f.ini" delta .null someConf [] []) =
    .ok (.rv (.prim .bool) (.val (.bool true))) (iniWrMem c!"f.ini" delta (.file 0) someConf [.closed] [(c!"f.ini", .text (someConfText delta))]) := by
  have h := C64_write_partial (conf_built text fun _ => true) rfl conf_wclear conf_top iniWrSelf_wr (u := false) (delta := delta) (s := iniWrMem c!"f.ini" delta .null someConf [] [])
    (t := ⟨0, []⟩) (q := ⟨5, []⟩) rfl rfl rfl iniWrMem_len (by decide) (by decide) someConf_wt (fuel := 7) (by decide +kernel)
  exact h.ok _ rfl (show iniWrite confData.table someIniLib _ delta _ _ = _ by cases delta <;> decide +kernel)

/-- A file that can not be opened. -/
example (delta : Bool) (text : Str → Option Str) : callMethod (iniEnv confFiles plainOut confData someIniLib text fun _ => false) iniWrSelf 9 c!"W" c!"write_to_file"
      [.lv .str ⟨0, []⟩, .lv (.struct c!"Conf") ⟨5, []⟩] (iniWrMem c!"f.ini" delta (.file 3) someConf [] []) =
    .ok (.rv (.prim .bool) (.val (.bool false))) (iniWrMem c!"f.ini" delta .null someConf [] []) := by
  have h := C64_write_partial (conf_built text fun _ => false) rfl conf_wclear conf_top iniWrSelf_wr (u := false) (delta := delta) (s := iniWrMem c!"f.ini" delta (.file 3) someConf [] [])
    (t := ⟨0, []⟩) (q := ⟨5, []⟩) rfl rfl rfl iniWrMem_len (by decide) (by decide) someConf_wt (fuel := 7) (by decide +kernel)
  exact h.closed rfl

/-- An object with an uninitialised member: reading the member is undefined behaviour. -/
example (delta : Bool) (text : Str → Option Str) : callMethod (iniEnv confFiles plainOut confData someIniLib text) iniWrSelf 9 c!"W" c!"write_to_file"
      [.lv .str ⟨0, []⟩, .lv (.struct c!"Conf") ⟨5, []⟩] (iniWrMem c!"f.ini" delta .null (rawConf) [] []) = .ub := by
  have h := C64_write_partial (conf_built text fun _ => true) rfl conf_wclear conf_top iniWrSelf_wr (u := true) (delta := delta) (s := iniWrMem c!"f.ini" delta .null rawConf [] [])
    (t := ⟨0, []⟩) (q := ⟨5, []⟩) rfl rfl rfl iniWrMem_len (by decide) (by decide) (wtb_sound (T := confData.table) _ _ (by decide +kernel)) (fuel := 7) (by decide +kernel)
  exact h.ub rfl (show iniWrite confData.table someIniLib _ delta _ _ = _ by cases delta <;> decide +kernel)

/-- All objects are written. -/
example (v : Val) (hv : CTable.WT confData.table false (.struct c!"Conf") v) (text : Str → Option Str) : ∃ x, callMethod (iniEnv confFiles plainOut confData someIniLib text)
      iniWrSelf (nesting v + 2) c!"W" c!"write_to_file" [.lv .str ⟨0, []⟩, .lv (.struct c!"Conf") ⟨5, []⟩] (iniWrMem c!"f.ini" false .null v [] []) =
    .ok (.rv (.prim .bool) (.val (.bool true))) (iniWrMem c!"f.ini" false (.file 0) v [.closed] [(c!"f.ini", .text x)]) := by
  obtain ⟨x, _, h⟩ := C64_written_partial (conf_built text fun _ => true) rfl conf_wclear conf_top iniWrSelf_wr (delta := false) (s := iniWrMem c!"f.ini" false .null v [] [])
    (t := ⟨0, []⟩) (q := ⟨5, []⟩) rfl rfl rfl iniWrMem_len (by decide) (by decide) hv (by simp) (Nat.le_refl _) rfl
  exact ⟨x, h⟩

/-- The trip: whatever else the files are, the same object is read from the file written, by the writer. -/
example (text : Str → Option Str) : ∃ x, callMethod (iniEnv confFiles plainOut confData someIniLib text) iniWrSelf 9 c!"W" c!"write_to_file"
        [.lv .str ⟨0, []⟩, .lv (.struct c!"Conf") ⟨5, []⟩] (iniWrMem c!"f.ini" false .null someConf [] []) =
      .ok (.rv (.prim .bool) (.val (.bool true))) (iniWrMem c!"f.ini" false (.file 0) someConf [.closed] [(c!"f.ini", .text x)]) ∧
    (text c!"f.ini" = some x → ∃ R, callMethod (iniEnv confFiles plainOut confData someIniLib text) iniWrSelf (x.length + 9) c!"W" c!"read_from_file"
        [.lv .str ⟨0, []⟩, .lv (.struct c!"Conf") ⟨5, []⟩] (iniWrMem c!"f.ini" true .null (confVal (dbVal c!"b" 2 5) (dbVal c!"c" 3 5) (dbVal c!"d" 4 5)) [] []) =
      .ok (.rv (.prim .bool) (.val (.bool true))) ⟨setAt R ⟨5, []⟩ someConf, [], [.closed], []⟩) := by
  have hb := conf_built text fun _ => true
  obtain ⟨x, h1, h2⟩ := C64_trip_partial hb rfl conf_rclear conf_wclear conf_top iniWrSelf_wr (delta := false) (u := false) (st := IniSt.init)
    (s := iniWrMem c!"f.ini" false .null someConf [] []) (t := ⟨0, []⟩) (q := ⟨5, []⟩) (fuel := 7) rfl rfl rfl iniWrMem_len (by decide) (by decide) someConf_wt (by decide +kernel) rfl
    (C41_full_partial hb.gen rfl hb.compiled conf_top (Or.inl rfl) someConf_wt
      (iniFitsb_sound (T := confData.table) (p := fun n ty _ v => iniFitb confData.table someIniLib n ty v) (fun _ _ _ _ h => iniFitb_sound h) _ _ _ (by decide +kernel))
      _ (t := confVal (dbVal c!"b" 2 5) (dbVal c!"c" 3 5) (dbVal c!"d" 4 5)) (wtb_sound (T := confData.table) _ _ (by decide +kernel)))
  refine ⟨x, h1, fun hx => ?_⟩
  obtain ⟨R, h3, _⟩ := h2 hx c!"W" (.inr rfl) iniWrSelf 1 2 3 iniWrSelf_rd (iniWrMem c!"f.ini" true .null (confVal (dbVal c!"b" 2 5) (dbVal c!"c" 3 5) (dbVal c!"d" 4 5)) [] [])
    ⟨0, []⟩ ⟨5, []⟩ false (x.length + 7) rfl rfl ⟨by decide, by decide, by decide, ⟨[], [], rfl, fun _ => rfl, fun _ => rfl⟩, rfl, rfl⟩ (by unfold Apart; decide)
    (wtb_sound (T := confData.table) _ _ (by decide +kernel)) (by omega) (Nat.le_trans (by decide +kernel : nesting (confVal (dbVal c!"b" 2 5) (dbVal c!"c" 3 5) (dbVal c!"d" 4 5)) ≤ 7) (by omega))
  exact ⟨R, h3⟩

/-! ### Hidden names -/

/-- A struct named `lower_path`: in `do_wr_lower_path` a variable of that name hides the struct. -/
theorem C64_struct_lower : callMethod (pathEnv c!"lower_path") iniWrSelf 9 c!"W" c!"write_to_file" [.lv .str ⟨0, []⟩, .lv (.struct c!"T") ⟨5, []⟩]
    (iniWrMem c!"f.ini" false .null (pathVal 2) [] []) = .stuck := by kernel_rfl

/-- With another name the same program writes the file. -/
example : callMethod (pathEnv c!"upper_path") iniWrSelf 9 c!"W" c!"write_to_file" [.lv .str ⟨0, []⟩, .lv (.struct c!"T") ⟨5, []⟩]
    (iniWrMem c!"f.ini" false .null (pathVal 2) [] []) = .ok (.rv (.prim .bool) (.val (.bool true)))
      (iniWrMem c!"f.ini" false (.file 0) (pathVal 2) [.closed] [(c!"f.ini", .text c!"\n[m]\nx 2\n")]) := by kernel_rfl

/-- The statement is false. -/
theorem C64_refuted : ¬ C64_statement := by
  intro h
  have h1 := h (pathFiles c!"lower_path") plainOut _ (pathEnv c!"lower_path") (iniBuilt_of (by decide +kernel)) rfl false c!"T" (topStruct_of (by decide +kernel)) iniWrSelf 6 7 false
    (iniWrMem c!"f.ini" false .null (pathVal 2) [] []) ⟨0, []⟩ ⟨5, []⟩ c!"f.ini" (pathVal 2) 7 iniWrSelf_wr rfl rfl rfl (by decide) (by decide) (by decide)
    (wtb_sound _ _ (by decide +kernel)) (by decide)
  have h2 := h1.ok c!"\n[m]\nx 2\n" rfl (by decide +kernel)
  cases h2.symm.trans C64_struct_lower

end Stfx.Cpp
