import Verif.Run.IniSamples
import Verif.Run.IniFile
import Verif.Props.C48_C49_Typed
/-
Property theorems C51-C57: reading any n_ini file whatever.

`fs` are header files, `prog` the structs file generated from them, `T` the classes the compiler makes of the headers and `L`
the conversions of floating point numbers, which are left open.  `st` is the state of the reader object: what it has kept of
files read before.  After reading, the reader is in state `st'` and `st'.under` are the sections it knows.
-/
set_option autoImplicit false
namespace Stfx.Run
open Stfx.Items Stfx.Parser Stfx.Gen Stfx.Lexer

/-! ### Samples -/

/-- (Example, models no code.) -/
def swText : Str := c!"enum Mode{off,on};struct Sw{short w{1};" ++ c!"unsigned int u{2};bool b{false};Mode m{Mode::off};" ++ c!"};struct Sws{Sw sw;};"

/-- (Example, models no code.) -/
def swDecls : Header where
  first := .enum false c!"Mode" ⟨c!"off", none⟩ [⟨c!"on", none⟩] false
  more := [
    .struct c!"Sw" (.simple .short c!"w" (.val (.int c!"1"))) [.simple .unsignedInt c!"u" (.val (.int c!"2")),
      .simple .bool c!"b" (.val .false_), .named c!"Mode" c!"m" (.val (.enumerator c!"Mode::off"))],
    .struct c!"Sws" (.named c!"Sw" c!"sw" .absent) []]

/-- (Example, models no code.) -/
def swFiles : List (Str × Header) := [(swText, swDecls)]

/-- (Example, models no code.) -/
def swVal (w u : Int) (b : Bool) (m : Int) : Val :=
  .struct [(c!"sw", .struct [(c!"w", .num w), (c!"u", .num u), (c!"b", .bool b), (c!"m", .num m)])]

/-- (Example, models no code.) -/
def swData : CData where
  cls := [
    (c!"Sw", [⟨c!"w", .simple .short, some (.num 1)⟩, ⟨c!"u", .simple .unsignedInt, some (.num 2)⟩,
      ⟨c!"b", .simple .bool, some (.bool false)⟩, ⟨c!"m", .enum c!"Mode", some (.num 0)⟩]),
    (c!"Sws", [⟨c!"sw", .struct c!"Sw", none⟩])]
  enm := [(c!"Mode", ⟨c!"Mode", false, [⟨c!"off", false, c!"-"⟩, ⟨c!"on", false, c!"-"⟩]⟩, [(c!"off", 0), (c!"on", 1)])]
  dflt := [(c!"Sw", .struct [(c!"w", .num 1), (c!"u", .num 2), (c!"b", .bool false), (c!"m", .num 0)]), (c!"Sws", swVal 1 2 false 0)]
  longBits := 64

theorem sw_generated (k : Kind) (out : OutSpec) : Generated swFiles k out (progOf swFiles k out) := generated_of (by decide +kernel) k out
theorem sw_compiled : Compiled (swFiles.flatMap fun f => f.2.decls) swData.table := CData.compiled (by decide +kernel)
theorem sw_top : TopStruct (swFiles.flatMap fun f => f.2.decls) c!"Sws" := topStruct_of (by decide +kernel)

/-- Some conversions of floating point numbers.  (Specification notion, models no code.) -/
def smallIniLib : IniLib := ⟨natText, natText, fun s => some (digitsVal s % 2 ^ 32), fun s => some (digitsVal s % 2 ^ 64)⟩

theorem smallIniLib_bits : smallIniLib.Bits where
  float s b h := by
    simp only [smallIniLib, Option.some.injEq] at h
    rw [← h]
    exact Nat.mod_lt _ (by decide)
  double s b h := by
    simp only [smallIniLib, Option.some.injEq] at h
    rw [← h]
    exact Nat.mod_lt _ (by decide)

theorem CData.noClash {D : CData} (h : (D.cls.all fun p => p.2.all fun m => !m.ty.isLeaf || (m.name ≠ c!"items" && m.name ≠ c!"data")) = true) :
    NoClash D.table := by
  intro c ms hc m hm hl
  have := List.all_eq_true.1 (List.all_eq_true.1 h _ (mem_of_lookup hc)) m hm
  rw [hl] at this
  simpa using this

theorem CData.enumsBeside {D : CData} (h : (D.cls.all fun p => !p.2.any (fun m => isEnumTy m.ty) || p.2.any (fun m => isSimpleTy m.ty)) = true) :
    EnumsBeside D.table := by
  intro c ms hc he
  have := List.all_eq_true.1 h _ (mem_of_lookup hc)
  dsimp only at this
  rw [he] at this
  simpa using this

theorem CData.singleKid {D : CData} (h : (D.cls.all fun p => p.2.all fun m => p.2.all fun m' =>
    !isStructTy m.ty || !isStructTy m'.ty || decide (m = m')) = true) : SingleKid D.table := by
  intro c ms hc m hm m' hm' h1 h2
  have := List.all_eq_true.1 (List.all_eq_true.1 (List.all_eq_true.1 h _ (mem_of_lookup hc)) m hm) m' hm'
  rw [h1, h2] at this
  simpa using this

section
variable {fs : List (Str × Header)} {out : OutSpec} {prog : List Item} {T : CTable} {L : IniLib}

/-- Reading a file, in all cases. -/
theorem iniRead_spec (hG : Generated fs .nIni out prog) (hT : Compiled (fs.flatMap fun f => f.2.decls) T) (hcl : NoClash T)
    {n : Str} (hn : TopStruct (fs.flatMap fun f => f.2.decls) n) {u : Bool} {t : Val} (ht : CTable.WT T u (.struct n) t) (st : IniSt) (text : Str) :
    ((∃ k n' s e, itemText (st.load text).under k n' = some s ∧ EnumBreaks T e s) ∧ iniRead T L prog n st (some text) t = .ub) ∨
    ∃ b w, iniRead T L prog n st (some text) t = .ok ((b, w), st.load text) ∧ NReads T L (st.load text).under [] n t b w := by
  obtain ⟨hc, hr⟩ := hG.nrdCode hT
  unfold iniRead
  rw [if_pos (hr n hn)]
  rcases nrd_spec (L := L) (u := u) (U := (st.load text).under) hc hcl (fun c cs hc m hm n hn => hG.enumDeclared hT hc hm hn)
    (B := ∃ k n' s e, itemText (st.load text).under k n' = some s ∧ EnumBreaks T e s)
    (fun k items n' s e h1 h2 h3 => ⟨k, n', s, e, by unfold itemText; rw [h1]; exact h2, h3⟩) ht n [] rfl with ⟨h1, h2⟩ | ⟨b, w, h1, h2⟩
  · refine Or.inl ⟨h1, ?_⟩
    dsimp only
    rw [h2]
    rfl
  · refine Or.inr ⟨b, w, ?_, h2⟩
    dsimp only
    rw [h1]
    rfl

theorem iniRead_ok (hG : Generated fs .nIni out prog) (hT : Compiled (fs.flatMap fun f => f.2.decls) T) (hcl : NoClash T)
    {n : Str} (hn : TopStruct (fs.flatMap fun f => f.2.decls) n) {u : Bool} {t : Val} (ht : CTable.WT T u (.struct n) t) {st st' : IniSt}
    {text : Str} {b : Bool} {w : Val} (h : iniRead T L prog n st (some text) t = .ok ((b, w), st')) :
    st' = st.load text ∧ NReads T L st'.under [] n t b w := by
  rcases iniRead_spec (L := L) hG hT hcl hn ht st text with ⟨_, h'⟩ | ⟨b', w', h', hr⟩
  · rw [h'] at h; cases h
  · rw [h'] at h
    cases h
    exact ⟨rfl, hr⟩

/-! ### C51 -/

/-- C51 as stated: reading reports success only if every value in the sections of the object could be converted.
(Specification notion, models no code.) -/
def AsStatedC51 : Prop :=
  ∀ (fs : List (Str × Header)) (out : OutSpec) (prog : List Item) (T : CTable) (L : IniLib) (n : Str) (st st' : IniSt) (text : Str) (t w : Val),
    Generated fs .nIni out prog → Compiled (fs.flatMap fun f => f.2.decls) T → NoClash T → TopStruct (fs.flatMap fun f => f.2.decls) n →
    CTable.WT T false (.struct n) t → iniRead T L prog n st (some text) t = .ok ((true, w), st') → ¬ HasBad T L st'.under [] n

/-- A text that is no number. -/
theorem not_number {s : Str} (h : scanDec s = none) (i : Int) : ¬ Number s i := by
  intro hn
  obtain ⟨p, hp, _⟩ := scanDec_iff.1 hn
  rw [hp] at h
  cases h

theorem conf_noClash : NoClash confData.table := CData.noClash (by decide +kernel)

/-- C51 is false: what is reported is the result of the last struct member; here `main_db` has a bad value, and `other_db` has none. -/
theorem C51_refuted : ¬ AsStatedC51 := by
  intro h
  refine h confFiles plainOut _ confData.table someIniLib c!"Conf" IniSt.init (IniSt.init.load c!"[opt.main db]\nmax_conn x\n") c!"[opt.main db]\nmax_conn x\n"
    (confData.table.dflt c!"Conf") (confData.table.dflt c!"Conf") (conf_generated _ _) conf_compiled conf_noClash conf_top
    (wtb_sound _ _ (by decide +kernel)) (by decide +kernel) ?_
  refine .inner (m := ⟨c!"opt", .struct c!"Opt", none⟩) rfl (by decide +kernel) rfl ?_
  refine .inner (m := ⟨c!"main_db", .struct c!"Db", none⟩) rfl (by decide +kernel) rfl ?_
  refine .here (m := ⟨c!"max_conn", .simple .int, some (.num 1)⟩) rfl (by decide +kernel) ⟨.int, c!"x", rfl, by decide +kernel, ?_⟩
  rintro v ⟨i, hi, _⟩
  exact not_number (by decide +kernel) i hi

/-- What is reported: reading returns false exactly if the file can not be opened, or if there is a bad value in the sections
of the last struct member, of its last struct member, and so on.  A file that can not be opened changes nothing. -/
theorem C51_exact (hG : Generated fs .nIni out prog) (hT : Compiled (fs.flatMap fun f => f.2.decls) T) (hcl : NoClash T)
    {n : Str} (hn : TopStruct (fs.flatMap fun f => f.2.decls) n) {u : Bool} {t : Val} (ht : CTable.WT T u (.struct n) t) (st : IniSt) :
    iniRead T L prog n st none t = .ok ((false, t), st) ∧
    ∀ (text : Str) (b : Bool) (w : Val) (st' : IniSt), iniRead T L prog n st (some text) t = .ok ((b, w), st') →
      (b = false ↔ Reported T L st'.under [] n) := by
  refine ⟨?_, fun text b w st' h => (iniRead_ok hG hT hcl hn ht h).2.result⟩
  unfold iniRead
  rw [if_pos ((hG.nrdCode hT).2 n hn)]

/-- Non-vacuity: in the file of the refutation nothing is reported. -/
example : ¬ Reported confData.table someIniLib (IniSt.init.load c!"[opt.main db]\nmax_conn x\n").under [] c!"Conf" := by
  have := (C51_exact (L := someIniLib) (conf_generated .nIni plainOut) conf_compiled conf_noClash conf_top (u := false) (t := confData.table.dflt c!"Conf")
    (wtb_sound _ _ (by decide +kernel)) IniSt.init).2 c!"[opt.main db]\nmax_conn x\n" true (confData.table.dflt c!"Conf")
    (IniSt.init.load c!"[opt.main db]\nmax_conn x\n") (by decide +kernel)
  simpa using this
example : Reported confData.table someIniLib (IniSt.init.load c!"[other db]\nmax_conn x\n").under [] c!"Conf" := by
  have := (C51_exact (L := someIniLib) (conf_generated .nIni plainOut) conf_compiled conf_noClash conf_top (u := false) (t := confData.table.dflt c!"Conf")
    (wtb_sound _ _ (by decide +kernel)) IniSt.init).2 c!"[other db]\nmax_conn x\n" false (confData.table.dflt c!"Conf")
    (IniSt.init.load c!"[other db]\nmax_conn x\n") (by decide +kernel)
  simpa using this

/-- C51 for structs with at most one struct member each; missing: other structs. -/
theorem C51_partial (hG : Generated fs .nIni out prog) (hT : Compiled (fs.flatMap fun f => f.2.decls) T) (hcl : NoClash T) (hs : SingleKid T)
    {n : Str} (hn : TopStruct (fs.flatMap fun f => f.2.decls) n) {u : Bool} {t : Val} (ht : CTable.WT T u (.struct n) t) {st st' : IniSt}
    {text : Str} {b : Bool} {w : Val} (h : iniRead T L prog n st (some text) t = .ok ((b, w), st')) :
    b = true ↔ ¬ HasBad T L st'.under [] n := by
  have hr := (iniRead_ok hG hT hcl hn ht h).2.result
  cases b with
  | true => exact ⟨fun _ hb => (by cases hr.2 (hb.reported hs)), fun _ => rfl⟩
  | false => exact ⟨fun h => (by cases h), fun hb => absurd (hr.1 rfl).hasBad hb⟩

theorem line_noClash : NoClash lineData.table := CData.noClash (by decide +kernel)
theorem line_wt (x y w : Int) (h : wtb lineData.table false (lineVal (pointVal x y) w) (.struct c!"Line") = true) :
    CTable.WT lineData.table false (.struct c!"Line") (lineVal (pointVal x y) w) := wtb_sound _ _ h

/-- Non-vacuity: a bad value is reported. -/
example : HasBad lineData.table someIniLib (IniSt.init.load c!"[from]\nx 4\ny \n").under [] c!"Line" ↔ False := by
  have := C51_partial (L := someIniLib) (line_generated .nIni plainOut) line_compiled line_noClash (CData.singleKid (by decide +kernel)) line_top
    (line_wt 5 7 2 (by decide +kernel)) (st := IniSt.init) (text := c!"[from]\nx 4\ny \n") (b := true) (w := lineVal (pointVal 4 7) 2)
    (st' := IniSt.init.load c!"[from]\nx 4\ny \n") (by decide +kernel)
  simpa using this
example : HasBad lineData.table someIniLib (IniSt.init.load c!"[from]\nx 4\ny a\n").under [] c!"Line" := by
  have := C51_partial (L := someIniLib) (line_generated .nIni plainOut) line_compiled line_noClash (CData.singleKid (by decide +kernel)) line_top
    (line_wt 5 7 2 (by decide +kernel)) (st := IniSt.init) (text := c!"[from]\nx 4\ny a\n") (b := false) (w := lineVal (pointVal 4 7) 2)
    (st' := IniSt.init.load c!"[from]\nx 4\ny a\n") (by decide +kernel)
  simpa using this

/-! ### C52 -/

/-- C52: whatever is in the file and whatever was read before, reading is undefined behaviour or gives an object of the declared
type. -/
theorem C52_typed (hG : Generated fs .nIni out prog) (hT : Compiled (fs.flatMap fun f => f.2.decls) T) (hcl : NoClash T) (hE : T.EnumInts)
    (hL : L.Bits) {n : Str} (hn : TopStruct (fs.flatMap fun f => f.2.decls) n) {u : Bool} {t : Val} (ht : CTable.WT T u (.struct n) t)
    (st : IniSt) (file : Option Str) :
    iniRead T L prog n st file t = .ub ∨ ∃ b w st', iniRead T L prog n st file t = .ok ((b, w), st') ∧ CTable.WT T u (.struct n) w := by
  cases file with
  | none =>
    refine Or.inr ⟨false, t, st, ?_, ht⟩
    unfold iniRead
    rw [if_pos ((hG.nrdCode hT).2 n hn)]
  | some text =>
    rcases iniRead_spec (L := L) hG hT hcl hn ht st text with ⟨_, h⟩ | ⟨b, w, h, hr⟩
    · exact Or.inl h
    · exact Or.inr ⟨b, w, _, h, hr.typed hL hE (fun c ms hc => (hT.good).nodup c ms hc) ht⟩

/-- Non-vacuity. -/
example (st : IniSt) (file : Option Str) : iniRead swData.table smallIniLib (progOf swFiles .nIni plainOut) c!"Sws" st file (swVal 3 4 true 1) = .ub ∨
    ∃ b w st', iniRead swData.table smallIniLib (progOf swFiles .nIni plainOut) c!"Sws" st file (swVal 3 4 true 1) = .ok ((b, w), st') ∧
      CTable.WT swData.table false (.struct c!"Sws") w :=
  C52_typed (sw_generated _ _) sw_compiled (CData.noClash (by decide +kernel)) (CData.enumInts (by decide +kernel)) smallIniLib_bits sw_top
    (wtb_sound _ _ (by decide +kernel)) st file
example : iniRead swData.table smallIniLib (progOf swFiles .nIni plainOut) c!"Sws" IniSt.init (some c!"[sw]\nw -5 m\nm on\n% m\nb 7\n\nu \t 8") (swVal 3 4 true 0) =
    .ok ((true, swVal (-5) 8 true 1), ⟨[], [(c!"sw", [(c!"u", c!"\t 8"), (c!"b", c!"7"), (c!"m", c!"on"), (c!"w", c!"-5 m")])], some c!"sw", [], []⟩) := by
  decide +kernel

/-! ### C53 -/

/-- C53 as stated: reading a file is never undefined behaviour.  (Specification notion, models no code.) -/
def AsStatedC53 : Prop :=
  ∀ (fs : List (Str × Header)) (out : OutSpec) (prog : List Item) (T : CTable) (L : IniLib) (n : Str) (st : IniSt) (text : Str) (t : Val),
    Generated fs .nIni out prog → Compiled (fs.flatMap fun f => f.2.decls) T → TopStruct (fs.flatMap fun f => f.2.decls) n →
    CTable.WT T false (.struct n) t → iniRead T L prog n st (some text) t ≠ .ub

/-- C53 is false: a number for an unscoped enum that can not hold it. -/
theorem C53_refuted : ¬ AsStatedC53 := fun h =>
  h swFiles plainOut _ swData.table smallIniLib c!"Sws" IniSt.init c!"[sw]\nm 2\n" (swVal 3 4 true 1) (sw_generated _ _) sw_compiled sw_top
    (wtb_sound _ _ (by decide +kernel)) (by decide +kernel)

/-- Unless an item is a number that some enum can not hold, reading is defined; missing: the others. -/
theorem C53_partial (hG : Generated fs .nIni out prog) (hT : Compiled (fs.flatMap fun f => f.2.decls) T) (hcl : NoClash T)
    {n : Str} (hn : TopStruct (fs.flatMap fun f => f.2.decls) n) {u : Bool} {t : Val} (ht : CTable.WT T u (.struct n) t) (st : IniSt) (text : Str)
    (hno : ∀ k n' s e, itemText (st.load text).under k n' = some s → ¬ EnumBreaks T e s) :
    ∃ b w, iniRead T L prog n st (some text) t = .ok ((b, w), st.load text) := by
  rcases iniRead_spec (L := L) hG hT hcl hn ht st text with ⟨⟨k, n', s, e, h1, h2⟩, _⟩ | ⟨b, w, h, _⟩
  · exact absurd h2 (hno k n' s e h1)
  · exact ⟨b, w, h⟩

/-- So reading is always defined if all enums are scoped. -/
theorem C53_scoped_partial (hG : Generated fs .nIni out prog) (hT : Compiled (fs.flatMap fun f => f.2.decls) T) (hcl : NoClash T)
    (hsc : ∀ n e val, T.enm n = some (e, val) → e.isClass = true)
    {n : Str} (hn : TopStruct (fs.flatMap fun f => f.2.decls) n) {u : Bool} {t : Val} (ht : CTable.WT T u (.struct n) t) (st : IniSt) (text : Str) :
    ∃ b w, iniRead T L prog n st (some text) t = .ok ((b, w), st.load text) := by
  refine C53_partial hG hT hcl hn ht st text fun k n' s e _ hb => ?_
  obtain ⟨e', val, he, _, i, _, hi, hh⟩ := hb
  unfold holds at hh
  rw [if_pos (hsc e e' val he)] at hh
  exact (by simpa using hh : ¬ inSigned 32 i) hi

/-- Non-vacuity. -/
example (st : IniSt) (text : Str) : ∃ b w, iniRead confData.table someIniLib (progOf confFiles .nIni plainOut) c!"Conf" st (some text)
    (confData.table.dflt c!"Conf") = .ok ((b, w), st.load text) := by
  refine C53_scoped_partial (conf_generated _ _) conf_compiled conf_noClash ?_ conf_top (u := false) (wtb_sound _ _ (by decide +kernel)) st text
  intro n e val he
  simp only [CData.table, Option.map_eq_some_iff] at he
  obtain ⟨q, hq, he⟩ := he
  have hm := mem_of_lookup hq
  simp only [confData, List.mem_singleton] at hm
  cases hm
  cases he
  rfl
example : ∃ b w, iniRead swData.table smallIniLib (progOf swFiles .nIni plainOut) c!"Sws" IniSt.init (some c!"[sw]\nm 1\n") (swVal 3 4 true 0) =
    .ok ((b, w), IniSt.init.load c!"[sw]\nm 1\n") := by
  refine C53_partial (sw_generated _ _) sw_compiled (CData.noClash (by decide +kernel)) sw_top (u := false) (wtb_sound _ _ (by decide +kernel)) _ _ ?_
  intro k n' s e hs hb
  have h1 : s = c!"1" := by
    rw [show (IniSt.init.load c!"[sw]\nm 1\n").under = [(c!"sw", [(c!"m", c!"1")])] by decide +kernel] at hs
    unfold itemText at hs
    simp only [List.lookup] at hs
    cases hk : k == c!"sw" with
    | false => rw [hk] at hs; cases hs
    | true =>
      rw [hk] at hs
      change (match n' == c!"m" with | true => some c!"1" | false => none) = some s at hs
      cases hn : n' == c!"m" with
      | false => rw [hn] at hs; cases hs
      | true => rw [hn] at hs; exact (Option.some.inj hs).symm
  subst h1
  obtain ⟨e', val, he, _, i, hi, _, hh⟩ := hb
  have : i = 1 := hi.unique (scanDec_iff.2 ⟨(false, 1), by decide +kernel, rfl⟩)
  subst this
  simp only [CData.table, Option.map_eq_some_iff] at he
  obtain ⟨q, hq, he⟩ := he
  have hm := mem_of_lookup hq
  simp only [swData, List.mem_singleton] at hm
  cases hm
  cases he
  exact absurd hh (by decide +kernel)

/-! ### C54 -/

/-- C54 as stated: every simple or enum member whose item can be converted has the value of the item after reading, and
members without item keep their values.  (Specification notion, models no code.) -/
def AsStatedC54 : Prop :=
  ∀ (fs : List (Str × Header)) (out : OutSpec) (prog : List Item) (T : CTable) (L : IniLib) (n : Str) (st st' : IniSt) (text : Str) (t w : Val)
    (b : Bool), Generated fs .nIni out prog → Compiled (fs.flatMap fun f => f.2.decls) T → NoClash T →
    TopStruct (fs.flatMap fun f => f.2.decls) n → CTable.WT T false (.struct n) t → iniRead T L prog n st (some text) t = .ok ((b, w), st') →
    EveryLeaf T st'.under (fun ty o t w => ¬ Refused T L ty o → After T L ty o t w) [] n t w

/-- What `EveryLeaf` says of a member of a member. -/
theorem EveryLeaf.leaf {U : List (Str × Items)} {P : MTy → Option Str → Val → Val → Prop} {path c c' : Str} {ts ws ts' ws' : List (Str × Val)}
    {ms ms' : List CMember} {m m' : CMember} {t w : Val} (h : EveryLeaf T U P path c (.struct ts) (.struct ws)) (h1 : T.cls c = some ms)
    (h2 : m ∈ ms) (h3 : m.ty = .struct c') (h4 : ts.lookup m.name = some (.struct ts')) (h5 : ws.lookup m.name = some (.struct ws'))
    (h6 : T.cls c' = some ms') (h7 : m' ∈ ms') (h8 : m'.ty.isLeaf = true) (h9 : ts'.lookup m'.name = some t) (h10 : ws'.lookup m'.name = some w) :
    P m'.ty (itemText U (lowerPath path (spaced m.name)) m'.name) t w := by
  cases h with
  | mk e _ _ _ _ hs =>
    rw [h1] at e
    cases e
    cases hs m h2 c' h3 _ _ h4 h5 with
    | mk e _ _ hl _ _ =>
      rw [h6] at e
      cases e
      exact hl m' h7 h8 t w h9 h10

/-- C54 is false: a bad value keeps the members after it from being read. -/
theorem C54_refuted : ¬ AsStatedC54 := by
  intro h
  have := (h swFiles plainOut _ swData.table someIniLib c!"Sws" IniSt.init (IniSt.init.load c!"[sw]\nw x\nu 9\n") c!"[sw]\nw x\nu 9\n"
    (swVal 3 4 true 1) (swVal 3 4 true 1) false (sw_generated _ _) sw_compiled (CData.noClash (by decide +kernel)) sw_top
    (wtb_sound _ _ (by decide +kernel)) (by decide +kernel)).leaf (m := ⟨c!"sw", .struct c!"Sw", none⟩)
    (m' := ⟨c!"u", .simple .unsignedInt, some (.num 2)⟩) rfl (by decide +kernel) rfl rfl rfl rfl (by decide +kernel) rfl rfl rfl
  have hs : itemText (IniSt.init.load c!"[sw]\nw x\nu 9\n").under (lowerPath [] (spaced c!"sw")) c!"u" = some c!"9" := by decide +kernel
  rw [hs] at this
  have h9 : Reads swData.table someIniLib .unsignedInt c!"9" (.num 9) := (iniConv_reads (by decide) _ _ _).1 (by decide +kernel)
  have ha := this (by rintro ⟨ty, s, h1, h2, h3⟩; cases h1; cases h2; exact h3 _ h9)
  exact absurd (Reads.unique (ty := .unsignedInt) (by decide) ha h9) (by decide +kernel)

/-- C54 is false: a struct without members of simple types. -/
theorem C54_refuted_enum : ¬ AsStatedC54 := by
  intro h
  have := (h oddFiles plainOut _ oddData.table someIniLib c!"Odd" IniSt.init (IniSt.init.load c!"[lone]\nl high\n") c!"[lone]\nl high\n"
    (oddVal 1 1 0 0) (oddVal 1 1 0 0) true (odd_generated _ _) odd_compiled (CData.noClash (by decide +kernel)) odd_top
    (wtb_sound _ _ (by decide +kernel)) (by decide +kernel)).leaf (m := ⟨c!"lone", .struct c!"Lone", none⟩)
    (m' := ⟨c!"l", .enum c!"Level", some (.num 0)⟩) rfl (by decide +kernel) rfl rfl rfl rfl (by decide +kernel) rfl rfl rfl
  have hs : itemText (IniSt.init.load c!"[lone]\nl high\n").under (lowerPath [] (spaced c!"lone")) c!"l" = some c!"high" := by decide +kernel
  rw [hs] at this
  have ha := this (by rintro ⟨ty, s, h1, _⟩; cases h1)
  have hb : EnumReads oddData.table c!"Level" c!"high" (.num 0) (.num 5) :=
    ⟨levelEnum.1, fun x => (levelEnum.2.lookup x).getD 0, rfl, Or.inl ⟨⟨⟨c!"high", true, c!"5"⟩, by decide +kernel, rfl⟩, by decide +kernel⟩⟩
  exact absurd (EnumReads.unique ha hb) (by decide +kernel)

/-- C54 for files without bad values, if structs with enum members have simple members; missing: the others. -/
theorem C54_partial (hG : Generated fs .nIni out prog) (hT : Compiled (fs.flatMap fun f => f.2.decls) T) (hcl : NoClash T) (hs : EnumsBeside T)
    {n : Str} (hn : TopStruct (fs.flatMap fun f => f.2.decls) n) {u : Bool} {t : Val} (ht : CTable.WT T u (.struct n) t) {st st' : IniSt}
    {text : Str} {b : Bool} {w : Val} (h : iniRead T L prog n st (some text) t = .ok ((b, w), st')) (hno : ¬ HasBad T L st'.under [] n) :
    EveryLeaf T st'.under (After T L) [] n t w :=
  (iniRead_ok hG hT hcl hn ht h).2.allRead hs hno

/-- In all cases members without item keep their values, and the others keep them or get those of their items. -/
theorem C54_kept (hG : Generated fs .nIni out prog) (hT : Compiled (fs.flatMap fun f => f.2.decls) T) (hcl : NoClash T)
    {n : Str} (hn : TopStruct (fs.flatMap fun f => f.2.decls) n) {u : Bool} {t : Val} (ht : CTable.WT T u (.struct n) t) {st st' : IniSt}
    {text : Str} {b : Bool} {w : Val} (h : iniRead T L prog n st (some text) t = .ok ((b, w), st')) :
    EveryLeaf T st'.under (fun ty o t w => w = t ∨ After T L ty o t w) [] n t w :=
  (iniRead_ok hG hT hcl hn ht h).2.kept (fun c ms hc => hT.good.nodup c ms hc) ht

/-- Exactly what is read: the members before a bad value, and with a bad value no nested structs (`NReads`); no other result
fits this description. -/
theorem C54_exact (hb : 32 ≤ T.longBits) (hG : Generated fs .nIni out prog) (hT : Compiled (fs.flatMap fun f => f.2.decls) T) (hcl : NoClash T)
    {n : Str} (hn : TopStruct (fs.flatMap fun f => f.2.decls) n) {u : Bool} {t : Val} (ht : CTable.WT T u (.struct n) t) {st : IniSt}
    {text : Str} (hdef : iniRead T L prog n st (some text) t ≠ .ub) (b : Bool) (w : Val) :
    iniRead T L prog n st (some text) t = .ok ((b, w), st.load text) ↔ NReads T L (st.load text).under [] n t b w := by
  constructor
  · exact fun h => (iniRead_ok hG hT hcl hn ht h).2
  · intro h
    rcases iniRead_spec (L := L) hG hT hcl hn ht st text with ⟨_, h'⟩ | ⟨b', w', h', hr⟩
    · exact absurd h' hdef
    · obtain ⟨rfl, rfl⟩ := h.unique hb (fun c ms hc => hT.good.nodup c ms hc) hr
      exact h'

theorem sw_enumsBeside : EnumsBeside swData.table := CData.enumsBeside (by decide +kernel)

/-- Non-vacuity. -/
example : ¬ HasBad swData.table someIniLib (IniSt.init.load c!"[sw]\nw -5 m\nm on\n").under [] c!"Sws" ∧
    EveryLeaf swData.table (IniSt.init.load c!"[sw]\nw -5 m\nm on\n").under (After swData.table someIniLib) [] c!"Sws" (swVal 3 4 true 0) (swVal (-5) 4 true 1) := by
  have hr : iniRead swData.table someIniLib (progOf swFiles .nIni plainOut) c!"Sws" IniSt.init (some c!"[sw]\nw -5 m\nm on\n") (swVal 3 4 true 0) =
    .ok ((true, swVal (-5) 4 true 1), IniSt.init.load c!"[sw]\nw -5 m\nm on\n") := by decide +kernel
  have hno := (C51_partial (sw_generated _ _) sw_compiled (CData.noClash (by decide +kernel)) (CData.singleKid (by decide +kernel)) sw_top
    (u := false) (wtb_sound _ _ (by decide +kernel)) hr).1 rfl
  exact ⟨hno, C54_partial (sw_generated _ _) sw_compiled (CData.noClash (by decide +kernel)) sw_enumsBeside sw_top (u := false)
    (wtb_sound _ _ (by decide +kernel)) hr hno⟩

/-- Members after a bad value keep their values; this is exactly what `NReads` says. -/
example : NReads swData.table someIniLib (IniSt.init.load c!"[sw]\nw 8\nu x\nb 0\n").under [] c!"Sws" (swVal 3 4 true 1) false (swVal 8 4 true 1) ∧
    EveryLeaf swData.table (IniSt.init.load c!"[sw]\nw 8\nu x\nb 0\n").under (fun ty o t w => w = t ∨ After swData.table someIniLib ty o t w) []
      c!"Sws" (swVal 3 4 true 1) (swVal 8 4 true 1) := by
  have hr : iniRead swData.table someIniLib (progOf swFiles .nIni plainOut) c!"Sws" IniSt.init (some c!"[sw]\nw 8\nu x\nb 0\n") (swVal 3 4 true 1) =
    .ok ((false, swVal 8 4 true 1), IniSt.init.load c!"[sw]\nw 8\nu x\nb 0\n") := by decide +kernel
  exact ⟨(C54_exact (by decide) (sw_generated _ _) sw_compiled (CData.noClash (by decide +kernel)) sw_top (u := false)
      (wtb_sound _ _ (by decide +kernel)) (by rw [hr]; simp) _ _).1 hr,
    C54_kept (sw_generated _ _) sw_compiled (CData.noClash (by decide +kernel)) sw_top (u := false) (wtb_sound _ _ (by decide +kernel)) hr⟩

/-! ### C55 -/

/-- The simple types of integers.  (Specification notion, models no code.) -/
def isIntTy (ty : SimpleTy) : Bool :=
  match ty with
  | .int | .long | .short | .unsignedInt | .unsignedShort | .unsignedLong => true
  | _ => false

/-- C55 as stated: if reading reports success, an integer member has the very number its item starts with, or its item is no number.
(Specification notion, models no code.) -/
def AsStatedC55 : Prop :=
  ∀ (fs : List (Str × Header)) (out : OutSpec) (prog : List Item) (T : CTable) (L : IniLib) (n : Str) (st st' : IniSt) (text : Str) (t w : Val),
    32 ≤ T.longBits → Generated fs .nIni out prog → Compiled (fs.flatMap fun f => f.2.decls) T → NoClash T → EnumsBeside T → SingleKid T →
    TopStruct (fs.flatMap fun f => f.2.decls) n → CTable.WT T false (.struct n) t → iniRead T L prog n st (some text) t = .ok ((true, w), st') →
    EveryLeaf T st'.under (fun ty o _ w => ∀ ty' s i, ty = .simple ty' → isIntTy ty' = true → o = some s → Number s i → w = .num i) [] n t w

theorem not_C55 {text : Str} {w : Val} {xs : List (Str × Val)} {m' : CMember} {ty : SimpleTy} {s : Str} {i : Int} {x : Val}
    (hw : w = .struct [(c!"sw", .struct xs)])
    (hr : iniRead swData.table someIniLib (progOf swFiles .nIni plainOut) c!"Sws" IniSt.init (some text) (swVal 3 4 true 1) =
      .ok ((true, w), IniSt.init.load text))
    (hm : ∃ ms', swData.table.cls c!"Sw" = some ms' ∧ m' ∈ ms') (hty : m'.ty = .simple ty) (hi : isIntTy ty = true)
    (ht : ∃ t, List.lookup m'.name [(c!"w", Val.num 3), (c!"u", .num 4), (c!"b", .bool true), (c!"m", .num 1)] = some t)
    (hx : xs.lookup m'.name = some x) (hs : itemText (IniSt.init.load text).under c!"sw" m'.name = some s) {p : Bool × Nat} (hn : scanDec s = some p) (hp : signed p = i)
    (hne : x ≠ .num i) : ¬ AsStatedC55 := by
  intro h
  subst hw
  obtain ⟨ms', h1, h2⟩ := hm
  obtain ⟨t, ht⟩ := ht
  exact hne ((h swFiles plainOut _ swData.table someIniLib c!"Sws" IniSt.init (IniSt.init.load text) text (swVal 3 4 true 1) _ (by decide)
    (sw_generated _ _) sw_compiled (CData.noClash (by decide +kernel)) sw_enumsBeside (CData.singleKid (by decide +kernel)) sw_top
    (wtb_sound _ _ (by decide +kernel)) hr).leaf (m := ⟨c!"sw", .struct c!"Sw", none⟩) (m' := m') rfl (by decide +kernel) rfl rfl rfl h1 h2
    (by rw [hty]; rfl) ht hx ty s i hty hi hs (scanDec_iff.2 ⟨p, hn, hp⟩))

/-- C55 is false: 70000 for a member of type short gives 4464. -/
theorem C55_refuted_short : ¬ AsStatedC55 :=
  not_C55 (text := c!"[sw]\nw 70000\n") (w := swVal 4464 4 true 1) (m' := ⟨c!"w", .simple .short, some (.num 1)⟩) rfl (by decide +kernel)
    ⟨_, rfl, by decide +kernel⟩ rfl rfl ⟨_, rfl⟩ rfl (s := c!"70000") (by decide +kernel) (i := 70000) (p := (false, 70000)) (by decide +kernel) rfl (by decide)

/-- C55 is false: -1 for a member of type unsigned int gives 4294967295. -/
theorem C55_refuted_unsigned : ¬ AsStatedC55 :=
  not_C55 (text := c!"[sw]\nu -1\n") (w := swVal 3 4294967295 true 1) (m' := ⟨c!"u", .simple .unsignedInt, some (.num 2)⟩) rfl (by decide +kernel)
    ⟨_, rfl, by decide +kernel⟩ rfl rfl ⟨_, rfl⟩ rfl (s := c!"-1") (by decide +kernel) (i := -1) (p := (true, 1)) (by decide +kernel) rfl (by decide)

/-- C55 for members of types int and long (and bool: whether the number is zero), at any depth; missing: the other types, whose
members get the number reduced to their range. -/
theorem C55_partial (hG : Generated fs .nIni out prog) (hT : Compiled (fs.flatMap fun f => f.2.decls) T) (hcl : NoClash T) (hs : EnumsBeside T)
    {n : Str} (hn : TopStruct (fs.flatMap fun f => f.2.decls) n) {u : Bool} {t : Val} (ht : CTable.WT T u (.struct n) t) {st st' : IniSt}
    {text : Str} {b : Bool} {w : Val} (h : iniRead T L prog n st (some text) t = .ok ((b, w), st')) (hno : ¬ HasBad T L st'.under [] n) :
    EveryLeaf T st'.under (fun ty o _ w => ∀ s i, o = some s → Number s i →
      ((ty = .simple .int ∨ ty = .simple .long) → w = .num i) ∧ (ty = .simple .bool → w = .bool (decide (i ≠ 0))) ∧
      (ty = .simple .short → ∃ j, w = .num j ∧ (2 : Int) ^ 16 ∣ i - j) ∧ (ty = .simple .unsignedShort → ∃ j, w = .num j ∧ (2 : Int) ^ 16 ∣ i - j) ∧
      (ty = .simple .unsignedInt → ∃ j, w = .num j ∧ (2 : Int) ^ 32 ∣ i - j) ∧
      (ty = .simple .unsignedLong → ∃ j, w = .num j ∧ (2 : Int) ^ T.longBits ∣ i - j)) [] n t w := by
  refine (C54_partial hG hT hcl hs hn ht h hno).imp ?_
  rintro ty o t w ha s i rfl hi
  refine ⟨?_, ?_, ?_, ?_, ?_, ?_⟩
  · rintro (rfl | rfl) <;> (obtain ⟨i', hi', _, rfl⟩ := ha; rw [hi.unique hi'])
  · rintro rfl; obtain ⟨i', hi', _, rfl⟩ := ha; rw [hi.unique hi']
  all_goals
    rintro rfl
    obtain ⟨i', j, hi', _, rfl, _, hd⟩ := ha
    rw [hi.unique hi']
    exact ⟨j, rfl, hd⟩

/-- Numbers that are out of the range of `int` (for members of types bool, int and short), of `long`, or of `unsigned long` are bad values. -/
theorem C55_refused {ty : SimpleTy} {s : Str} {i : Int} (hi : Number s i)
    (hr : match ty with
      | .bool | .int | .short => ¬ inSigned 32 i
      | .long => ¬ inSigned T.longBits i
      | .unsignedInt | .unsignedShort | .unsignedLong => (2 : Int) ^ T.longBits ≤ i.natAbs
      | _ => False) : Refused T L (.simple ty) (some s) := by
  refine ⟨ty, s, rfl, rfl, fun v hv => ?_⟩
  cases ty with
  | bool => obtain ⟨i', hi', h, _⟩ := hv; exact hr (hi.unique hi' ▸ h)
  | int => obtain ⟨i', hi', h, _⟩ := hv; exact hr (hi.unique hi' ▸ h)
  | long => obtain ⟨i', hi', h, _⟩ := hv; exact hr (hi.unique hi' ▸ h)
  | short => obtain ⟨i', _, hi', h, _⟩ := hv; exact hr (hi.unique hi' ▸ h)
  | unsignedInt => obtain ⟨i', _, hi', h, _⟩ := hv; rw [← hi.unique hi'] at h; exact absurd h (Int.not_lt.2 hr)
  | unsignedShort => obtain ⟨i', _, hi', h, _⟩ := hv; rw [← hi.unique hi'] at h; exact absurd h (Int.not_lt.2 hr)
  | unsignedLong => obtain ⟨i', _, hi', h, _⟩ := hv; rw [← hi.unique hi'] at h; exact absurd h (Int.not_lt.2 hr)
  | float => exact hr
  | double => exact hr
  | stdString => exact hr

/-- Non-vacuity. -/
example : Refused swData.table someIniLib (.simple .int) (some c!" 3000000000x") :=
  C55_refused (i := 3000000000) (scanDec_iff.2 ⟨(false, 3000000000), by decide +kernel, rfl⟩) (by decide)

/-! ### C56 -/

/-- C56 as stated: of a file made of section headings, items, multi-line items, empty lines and comments, a new reader
knows all items.  (Specification notion, models no code.) -/
def AsStatedC56 : Prop :=
  ∀ es : List Entry, (∀ e ∈ es, e.Good) → ∀ k b, sectionOf k es = some b →
    ∃ items, (IniSt.init.load (entriesText es)).under.lookup k = some items ∧ ∀ n, items.lookup n = itemOf n b

/-- C56 is false: a multi-line item at the end of the file. -/
theorem C56_refuted : ¬ AsStatedC56 := by
  intro h
  obtain ⟨items, h1, h2⟩ := h [.heading c!"log", .item c!"a" c!"1", .multi c!"text" [c!"x", c!"y"], .comment c!" end"] (by decide +kernel)
    c!"log" _ rfl
  have e : (IniSt.init.load (entriesText [.heading c!"log", .item c!"a" c!"1", .multi c!"text" [c!"x", c!"y"], .comment c!" end"])).under =
    [(c!"log", [(c!"a", c!"1")])] := by decide +kernel
  rw [e] at h1
  cases h1
  exact absurd (h2 c!"text") (by decide +kernel)

/-- Multi-line items at the end of the file, but for comments, are lost; of all others a reader knows what the file says, and it
keeps its other sections.  Missing: the former. -/
theorem C56_partial {es : List Entry} (h : ∀ e ∈ es, e.Good) (st : IniSt) (k n : Str) :
    itemText (st.load (entriesText es)).under k n = match sectionOf k (stored es) with
      | some b => itemOf n b
      | none => itemText st.under k n := by
  obtain ⟨h1, h2⟩ := load_entries h st k
  unfold itemText
  cases hs : sectionOf k (stored es) with
  | some b =>
    obtain ⟨items, h3, h4⟩ := h1 b hs
    rw [h3]
    exact h4 n
  | none => rw [h2 hs]

/-- So nothing is lost if the last entry that is no comment is no multi-line item. -/
theorem C56_closed_partial {es es' cs : List Entry} {e : Entry} (h : ∀ e ∈ es, e.Good) (hes : es = es' ++ e :: cs) (hm : e.isMulti = false)
    (he : e.isComment = false) (hc : ∀ e ∈ cs, e.isComment = true) (k : Str) :
    (∀ b, sectionOf k es = some b → ∃ items, (IniSt.init.load (entriesText es)).under.lookup k = some items ∧ ∀ n, items.lookup n = itemOf n b) ∧
    (sectionOf k es = none → (IniSt.init.load (entriesText es)).under.lookup k = none) := by
  have hst : stored es = es := by
    unfold stored
    have : es.reverse.dropWhile Entry.isComment = e :: es'.reverse := by
      subst hes
      simp only [List.reverse_append, List.reverse_cons, List.append_assoc]
      have : ∀ l : List Entry, (∀ e ∈ l, e.isComment = true) → ∀ r, (l ++ e :: r).dropWhile Entry.isComment = e :: r := by
        intro l
        induction l with
        | nil => intro _ r; simp [he]
        | cons a l ih =>
          intro hl r
          rw [List.cons_append, List.dropWhile_cons, if_pos (hl a List.mem_cons_self)]
          exact ih (fun x hx => hl x (List.mem_cons_of_mem _ hx)) r
      exact this _ (fun x hx => hc x (List.mem_reverse.1 hx)) _
    rw [this]
    dsimp only
    rw [hm]
    rfl
  have := load_entries h IniSt.init k
  rw [hst] at this
  exact this

/-- A file.  (Specification notion, models no code.) -/
def logEntries : List Entry := [.comment c!" settings", .item c!"lost" c!"1", .heading c!"log", .item c!"a" c!"1",
  .multi c!"text" [c!"x [y]", c!""], .comment c!"", .heading c!"a.b", .item c!"c" c!"% d".tail, .blank, .heading c!"log", .multi c!"t" [], .blank, .item c!"a" c!"[x]"]

/-- Non-vacuity. -/
example : (∀ e ∈ logEntries, e.Good) ∧ sectionOf c!"log" logEntries = some [.multi c!"t" [], .blank, .item c!"a" c!"[x]"] ∧
    entriesText logEntries = c!"% settings\nlost 1\n[log]\na 1\ntext\n x [y]\n \n%\n" ++ c!"[a.b]\nc  d\n\n[log]\nt\n\na [x]\n" ∧
    (IniSt.init.load (entriesText logEntries)).under = [(c!"log", [(c!"a", c!"[x]"), (c!"t", c!"\n")]), (c!"a.b", [(c!"c", c!" d")])] := by
  decide +kernel
example : sectionOf c!"log" (logEntries.take 7) = some [.item c!"a" c!"1", .multi c!"text" [c!"x [y]", c!""], .comment c!""] ∧
    itemOf c!"text" [.item c!"a" c!"1", .multi c!"text" [c!"x [y]", c!""], .comment c!""] = some c!"\n x [y]\n \n" ∧
    (IniSt.init.load (entriesText (logEntries.take 7))).under = [(c!"a.b", []), (c!"log", [(c!"text", c!"\n x [y]\n \n"), (c!"a", c!"1")])] := by
  decide +kernel

example (k : Str) := C56_closed_partial (es := logEntries) (es' := logEntries.take 12) (e := .item c!"a" c!"[x]") (cs := []) (by decide +kernel) (by decide +kernel)
  rfl rfl (by simp) k
example : itemText ((IniSt.init.load c!"[old]\nx 1\n").load (entriesText logEntries)).under c!"old" c!"x" = some c!"1" := by
  rw [C56_partial (by decide +kernel)]
  decide +kernel

/-! ### C57 -/

/-- C57 as stated: what is read depends on the file only, not on files read before.  (Specification notion, models no code.) -/
def AsStatedC57 : Prop :=
  ∀ (fs : List (Str × Header)) (out : OutSpec) (prog : List Item) (T : CTable) (L : IniLib) (n : Str) (before : List Str) (text : Str) (t : Val),
    Generated fs .nIni out prog → Compiled (fs.flatMap fun f => f.2.decls) T → TopStruct (fs.flatMap fun f => f.2.decls) n →
    CTable.WT T false (.struct n) t →
    (iniRead T L prog n (before.foldl IniSt.load IniSt.init) (some text) t >>= fun r => .ok r.1) =
      (iniRead T L prog n IniSt.init (some text) t >>= fun r => .ok r.1)

/-- C57 is false: a section of a file read before. -/
theorem C57_refuted : ¬ AsStatedC57 := by
  intro h
  have := h lineFiles plainOut _ lineData.table someIniLib c!"Line" [c!"[from]\nx 3\n"] c!"" (lineVal (pointVal 5 7) 2) (line_generated _ _)
    line_compiled line_top (line_wt 5 7 2 (by decide +kernel))
  exact absurd this (by decide +kernel)

/-- What a reader knows after reading a file: the sections in the file as if it had read no other file, and the other sections as before. -/
theorem C57_sections (st : IniSt) (text : Str) (k n : Str) :
    (st.load text).under.lookup k = ((IniSt.init.load text).under.lookup k).or (st.under.lookup k) ∧
    itemText (st.load text).under k n =
      (if ((IniSt.init.load text).under.lookup k).isSome then itemText (IniSt.init.load text).under k n else itemText st.under k n) := by
  refine ⟨load_sections st text k, ?_⟩
  unfold itemText
  rw [load_sections]
  cases (IniSt.init.load text).under.lookup k <;> rfl

/-- C57 if the file has all the sections that the reader knows; missing: the other case. -/
theorem C57_partial (n : Str) (st : IniSt) (text : Str) (t : Val)
    (h : ∀ k, (IniSt.init.load text).under.lookup k = none → st.under.lookup k = none) :
    (iniRead T L prog n st (some text) t >>= fun r => .ok r.1) = (iniRead T L prog n IniSt.init (some text) t >>= fun r => .ok r.1) := by
  have hU : ∀ k, (st.load text).under.lookup k = (IniSt.init.load text).under.lookup k := by
    intro k
    rw [load_sections]
    cases hk : (IniSt.init.load text).under.lookup k with
    | some x => rfl
    | none => rw [h k hk]; rfl
  unfold iniRead
  split
  · dsimp only
    rw [nrdVal_congr hU]
    cases nrdVal T L prog (IniSt.init.load text).under t n [] <;> rfl
  · rfl

/-- Non-vacuity: the same sections, and more. -/
example : (iniRead lineData.table someIniLib (progOf lineFiles .nIni plainOut) c!"Line" (IniSt.init.load c!"[from]\nx 3\ny 4\n") (some c!"[to]\n[from]\nx 1\n")
      (lineVal (pointVal 5 7) 2) >>= fun r => .ok r.1) = .ok (true, lineVal (pointVal 1 7) 2) := by
  rw [C57_partial]
  · decide +kernel
  · rw [show (IniSt.init.load c!"[to]\n[from]\nx 1\n").under = [(c!"from", [(c!"x", c!"1")]), (c!"to", [])] by decide +kernel,
      show (IniSt.init.load c!"[from]\nx 3\ny 4\n").under = [(c!"from", [(c!"y", c!"4"), (c!"x", c!"3")])] by decide +kernel]
    intro k hk
    rw [List.lookup_cons] at hk ⊢
    cases h : k == c!"from" with
    | true => rw [h] at hk; cases hk
    | false => rfl

end

end Stfx.Run
