import Verif.Run.IniSamples
/-
Property theorems C39-C41: n_ini files.

`fs` are header files, `prog` the structs file generated from them, `T` the classes the compiler makes of the headers and
`L` the conversions of floating point numbers, which are left open.
-/
set_option autoImplicit false
namespace Stfx.Run
open Stfx.Items Stfx.Parser Stfx.Gen Stfx.Lexer

/-! ### C39 -/

/-- C39: different members, at any depth, have different section names. -/
theorem C39_injective {p q : List Str} (hp : ∀ n ∈ p, Ident n) (hq : ∀ n ∈ q, Ident n) (h : p ≠ q) : sectionName p ≠ sectionName q :=
  fun e => h (sectionName_inj hp hq e)

example : (∀ n ∈ [c!"a_b", c!"c"], Ident n) ∧ (∀ n ∈ [c!"a", c!"b_c"], Ident n) ∧ [c!"a_b", c!"c"] ≠ [c!"a", c!"b_c"] ∧
    sectionName [c!"a_b", c!"c"] = c!"a b.c" := by decide +kernel

/-- C39 for files: the section headings of a written file are the section names of the struct members of the object, and
they are different. -/
theorem C39_headings {fs : List (Str × Header)} {out : OutSpec} {prog : List Item} {T : CTable} {L : IniLib} {delta : Bool}
    (hG : Generated fs .nIni out prog) (ho : out.onlyRead = false) (hT : Compiled (fs.flatMap fun f => f.2.decls) T)
    {n : Str} {v : Val} (hv : CTable.WT T false (.struct n) v) {text : Str} (h : iniWrite T L prog delta n v = .ok text) :
    ∃ ls, text = fileText ls ∧ headings ls = (structPaths v).map (fun p => c!"[" ++ sectionName p ++ c!"]") ∧ (headings ls).Nodup := by
  obtain ⟨hc, _⟩ := hG.ncode ho hT
  unfold iniWrite at h
  split at h
  · obtain ⟨ls, h1, h⟩ := R.bind_eq_ok.1 h
    cases h
    have hh := wr_headings hc hv rfl (pre := []) (by simp) (ls := ls) h1
    simp only [if_true, List.nil_append] at hh
    refine ⟨ls, rfl, hh, ?_⟩
    rw [hh]
    have hid := structPaths_ident hc.toNRdCode hv
    have hnd := structPaths_nodup hc.good hv
    generalize structPaths v = ps at hid hnd
    induction ps with
    | nil => exact List.nodup_nil
    | cons p ps ih =>
      rw [List.nodup_cons] at hnd
      rw [List.map_cons, List.nodup_cons]
      refine ⟨?_, ih (fun p hp => hid p (List.mem_cons_of_mem _ hp)) hnd.2⟩
      intro hm
      obtain ⟨q, hq, e⟩ := List.mem_map.1 hm
      have e' : sectionName q = sectionName p := by
        have := List.append_cancel_right e
        exact List.append_cancel_left this
      exact hnd.1 (sectionName_inj (hid q (List.mem_cons_of_mem _ hq)) (hid p List.mem_cons_self) e' ▸ hq)
  · cases h

/-- A value that is no default.  (Specification notion, models no code.) -/
def someConf : Val := confVal (dbVal c!"[x] = y" (-3) 5) (dbVal c!"a" 2147483647 0) (dbVal c!"local host" 7 (-9))

theorem someConf_wt : CTable.WT confData.table false (.struct c!"Conf") someConf := wtb_sound _ _ (by decide +kernel)

/-- Non-vacuity of C39. -/
example : ∃ text, iniWrite confData.table someIniLib (progOf confFiles .nIni plainOut) false c!"Conf" someConf = .ok text ∧
    structPaths someConf = [[c!"opt"], [c!"opt", c!"main_db"], [c!"opt", c!"spare"], [c!"other_db"]] := by
  refine ⟨c!"\n[opt]\n\n[opt.main db]\nhost [x] = y\nmax_conn -3\n" ++ c!"level high\n\n[opt.spare]\nhost a\nmax_conn 2147483647" ++
    c!"\nlevel low\n\n[other db]\nhost local host\nmax_conn 7\n" ++ c!"level -9\n", ?_, ?_⟩ <;> decide +kernel

/-! ### C40 -/

/-- Writing an object and reading the file into another one, with a reader in state `st`.  (Specification notion, models no code.) -/
def iniWriteRead (T : CTable) (L : IniLib) (prog : List Item) (delta : Bool) (n : Str) (v : Val) (st : IniSt) (t : Val) : R (Bool × Val) :=
  iniWrite T L prog delta n v >>= fun text => iniRead T L prog n st (some text) t >>= fun r => .ok r.1

/-- C40 as stated: after writing an object and reading the file into a default object, simple members of the top object have
the values that were written.  (Specification notion, models no code.) -/
def AsStatedC40 : Prop :=
  ∀ (fs : List (Str × Header)) (out : OutSpec) (prog : List Item) (T : CTable) (L : IniLib) (n : Str) (ms : List CMember)
    (vs ws : List (Str × Val)) (b : Bool), Generated fs .nIni out prog → out.onlyRead = false →
    Compiled (fs.flatMap fun f => f.2.decls) T → TopStruct (fs.flatMap fun f => f.2.decls) n → T.cls n = some ms →
    CTable.WT T false (.struct n) (.struct vs) →
    iniWriteRead T L prog false n (.struct vs) IniSt.init (T.dflt n) = .ok (b, .struct ws) →
    ∀ m ∈ ms, isSimpleTy m.ty = true → ws.lookup m.name = vs.lookup m.name

/-- C40 is false: the member `w` is lost (`from` is restored). -/
theorem C40_refuted : ¬ AsStatedC40 := by
  intro h
  have := h lineFiles plainOut _ lineData.table someIniLib c!"Line" _ [(c!"from", pointVal 3 4), (c!"w", .num 9)]
    [(c!"from", pointVal 3 4), (c!"w", .num 2)] true (line_generated _ _) rfl line_compiled line_top rfl (wtb_sound _ _ (by decide +kernel))
    (by decide +kernel) ⟨c!"w", .simple .short, some (.num 2)⟩ (by decide +kernel) rfl
  exact absurd this (by decide +kernel)

/-- Simple and enum members of the top object are never read: whatever files the reader has read before and whatever the file
contains, they keep the values they had. -/
theorem C40_never_read {fs : List (Str × Header)} {out : OutSpec} {prog : List Item} {T : CTable} {L : IniLib}
    (hG : Generated fs .nIni out prog) (hT : Compiled (fs.flatMap fun f => f.2.decls) T) {n : Str} {ms : List CMember}
    (hn : T.cls n = some ms) (before : List Str) {file : Option Str} {ts : List (Str × Val)} {b : Bool} {w : Val} {st : IniSt}
    (h : iniRead T L prog n (before.foldl IniSt.load IniSt.init) file (.struct ts) = .ok ((b, w), st)) :
    ∃ ws, w = .struct ws ∧ ∀ m ∈ ms, m.ty.isLeaf = true → ws.lookup m.name = ts.lookup m.name :=
  (top_unchanged (hG.nrdCode hT).1 hn (noTop_loads before) h).2

/-- What C40 is left with: a simple member of the top object comes back if and only if the target had its value already. -/
theorem C40_kept_partial {fs : List (Str × Header)} {out : OutSpec} {prog : List Item} {T : CTable} {L : IniLib} {delta : Bool}
    (hG : Generated fs .nIni out prog) (hT : Compiled (fs.flatMap fun f => f.2.decls) T) {n : Str} {ms : List CMember}
    (hn : T.cls n = some ms) (before : List Str) {vs ts ws : List (Str × Val)} {b : Bool}
    (h : iniWriteRead T L prog delta n (.struct vs) (before.foldl IniSt.load IniSt.init) (.struct ts) = .ok (b, .struct ws))
    {m : CMember} (hm : m ∈ ms) (hl : m.ty.isLeaf = true) : ws.lookup m.name = vs.lookup m.name ↔ ts.lookup m.name = vs.lookup m.name := by
  unfold iniWriteRead at h
  obtain ⟨text, _, h⟩ := R.bind_eq_ok.1 h
  obtain ⟨⟨⟨b', w⟩, st⟩, h2, h⟩ := R.bind_eq_ok.1 h
  cases h
  obtain ⟨ws', e, h3⟩ := C40_never_read hG hT hn before h2
  cases e
  rw [h3 m hm hl]

/-- Non-vacuity: after other files, with a file that names the member `w` at the top. -/
example : iniRead lineData.table someIniLib (progOf lineFiles .nIni plainOut) c!"Line" ([c!"w 3\n[from]\nx 2"].foldl IniSt.load IniSt.init)
    (some c!"w 7\n\n[from]\nx 5\n") (lineVal (pointVal 5 7) 2) =
    .ok ((true, lineVal (pointVal 5 7) 2), ⟨[(c!"w", c!"7")], [(c!"from", [(c!"x", c!"5")])], some c!"from", [], []⟩) := by decide +kernel

/-! ### C41 -/

/-- The provisos of C41: strings are not empty, not longer than some limit and contain no `%`, newline or NUL, and there are
no floating point members.  (Specification notion, models no code.) -/
def ProvisosC41 : MTy → Val → Prop
  | _, .str s => s ≠ [] ∧ s.length ≤ 40 ∧ '%' ∉ s ∧ '\n' ∉ s ∧ '\x00' ∉ s
  | _, .flt _ => False
  | _, .dbl _ => False
  | _, _ => True

/-- See the definition before it.  (Specification notion, models no code.) -/
def provisosC41b (v : Val) : Bool :=
  match v with
  | .str s => s ≠ [] && s.length ≤ 40 && decide ('%' ∉ s) && decide ('\n' ∉ s) && decide ('\x00' ∉ s)
  | .flt _ | .dbl _ => false
  | _ => true

/-- C41 as stated.  (Specification notion, models no code.) -/
def AsStatedC41 : Prop :=
  ∀ (fs : List (Str × Header)) (out : OutSpec) (prog : List Item) (T : CTable) (L : IniLib) (n : Str) (ms : List CMember) (v : Val),
    Generated fs .nIni out prog → out.onlyRead = false → Compiled (fs.flatMap fun f => f.2.decls) T →
    TopStruct (fs.flatMap fun f => f.2.decls) n → (∀ c ms, T.cls c = some ms → ∀ m ∈ ms, ∀ c', m.ty ≠ .vec c') →
    T.cls n = some ms → (∀ m ∈ ms, m.ty.isLeaf = false) → CTable.WT T false (.struct n) v → Leaves T ProvisosC41 (.struct n) v →
    iniWriteRead T L prog false n v IniSt.init (T.dflt n) = .ok (true, v)

theorem not_asStatedC41 {fs : List (Str × Header)} {D : CData} {n : Str} {v : Val} {ms : List CMember}
    (hG : Generated fs .nIni plainOut (progOf fs .nIni plainOut)) (hT : Compiled (fs.flatMap fun f => f.2.decls) D.table)
    (hn : TopStruct (fs.flatMap fun f => f.2.decls) n) (hvec : (D.cls.all fun c => c.2.all fun m => isSimpleTy m.ty || isEnumTy m.ty || isStructTy m.ty) = true)
    (hms : D.table.cls n = some ms) (htop : (ms.all fun m => !m.ty.isLeaf) = true)
    (hv : wtb D.table false v (.struct n) = true)
    (hp : leavesb D.table (fun _ _ v => provisosC41b v) v (.struct n) (D.table.dflt n) = true) {r : R (Bool × Val)}
    (hr : iniWriteRead D.table someIniLib (progOf fs .nIni plainOut) false n v IniSt.init (D.table.dflt n) = r) (hne : r ≠ .ok (true, v)) :
    ¬ AsStatedC41 := by
  intro h
  refine hne (hr ▸ h fs plainOut _ D.table someIniLib n ms v hG rfl hT hn ?_ hms ?_ (wtb_sound _ _ hv) ?_)
  · intro c ms hc m hm c' e
    rw [List.all_eq_true] at hvec
    have := hvec _ (mem_of_lookup hc)
    rw [List.all_eq_true] at this
    have := this m hm
    rw [e] at this
    cases this
  · intro m hm
    rw [List.all_eq_true] at htop
    simpa using htop m hm
  · refine (leavesb_sound (P := fun ty _ v => ProvisosC41 ty v) ?_ v _ _ hp).leaves hT.good
    intro ty d v h
    unfold provisosC41b at h
    unfold ProvisosC41
    cases v <;> simp_all

/-- C41 as stated is false: an enum member declared after a struct member is written into the section of that struct. -/
theorem C41_refuted : ¬ AsStatedC41 :=
  not_asStatedC41 (odd_generated _ _) odd_compiled odd_top (v := oddVal 2 3 5 0) (by decide +kernel) rfl (by decide +kernel)
    (by decide +kernel) (by decide +kernel) (r := .ok (true, oddVal 2 3 0 0)) (by decide +kernel) (by decide +kernel)

/-- Another reason: enum members of a struct without simple members are not looked up. -/
theorem C41_refuted_lone : ¬ AsStatedC41 :=
  not_asStatedC41 (odd_generated _ _) odd_compiled odd_top (v := oddVal 2 3 0 5) (by decide +kernel) rfl (by decide +kernel)
    (by decide +kernel) (by decide +kernel) (r := .ok (true, oddVal 2 3 0 0)) (by decide +kernel) (by decide +kernel)

/-- Another reason: strings are cut at carriage returns. -/
theorem C41_refuted_return : ¬ AsStatedC41 :=
  not_asStatedC41 (conf_generated _ _) conf_compiled conf_top (v := confVal (dbVal c!"x\ry" 1 0) (dbVal c!"a" 1 0) (dbVal c!"a" 1 0))
    (by decide +kernel) rfl (by decide +kernel) (by decide +kernel) (by decide +kernel)
    (r := .ok (true, confVal (dbVal c!"x" 1 0) (dbVal c!"a" 1 0) (dbVal c!"a" 1 0))) (by decide +kernel) (by decide +kernel)

/-- C41 for structs of the shape `IniShape` (enum members before struct members and next to a simple member), strings without
carriage returns, and lines of at most 78 characters.  Full files, read into any object by a reader in any state.  Floating
point members are covered if their texts are converted back. -/
theorem C41_full_partial {fs : List (Str × Header)} {out : OutSpec} {prog : List Item} {T : CTable} {L : IniLib}
    (hG : Generated fs .nIni out prog) (ho : out.onlyRead = false) (hT : Compiled (fs.flatMap fun f => f.2.decls) T)
    {n : Str} (hn : TopStruct (fs.flatMap fun f => f.2.decls) n) {delta : Bool} (hdelta : delta = false ∨ out.noDelta = true)
    {v : Val} (hv : CTable.WT T false (.struct n) v) (hf : IniFits T (fun n ty _ v => IniFit T L n ty v) [] n v)
    (st : IniSt) {t : Val} (ht : CTable.WT T true (.struct n) t) : iniWriteRead T L prog delta n v st t = .ok (true, v) := by
  obtain ⟨hc, hrw⟩ := hG.ncode ho hT
  obtain ⟨hr, hw⟩ := hrw n hn
  have hgd : ((!out.noDelta) && delta) = false := by
    rcases hdelta with h | h <;> simp [h]
  obtain ⟨text, h1, h2⟩ := ini_file hc hr hw (iniOk_full hT.good (hT.enumsOk hG.texts rfl) hgd hf ht hv)
  unfold iniWriteRead
  rw [h1, R.ok_bind, h2, R.ok_bind]

/-- The same for delta files, which are read into a default object: members have initialisers (struct members do not) and
those that equal their default with `==` are the same. -/
theorem C41_delta_partial {fs : List (Str × Header)} {out : OutSpec} {prog : List Item} {T : CTable} {L : IniLib}
    (hG : Generated fs .nIni out prog) (ho : out.onlyRead = false) (hnd : out.noDelta = false) (hT : Compiled (fs.flatMap fun f => f.2.decls) T)
    (hni : NoStructInits (fs.flatMap fun f => f.2.decls)) {n : Str} (hn : TopStruct (fs.flatMap fun f => f.2.decls) n)
    {v : Val} (hv : CTable.WT T false (.struct n) v) (hf : IniFits T (IniDelta T L) [] n v) (st : IniSt) :
    iniWriteRead T L prog true n v st (T.dflt n) = .ok (true, v) := by
  obtain ⟨hc, hrw⟩ := hG.ncode ho hT
  obtain ⟨hr, hw⟩ := hrw n hn
  obtain ⟨text, h1, h2⟩ := ini_file (delta := true) hc hr hw (iniOk_delta hT.good (hT.enumsOk hG.texts rfl) (hT.noStructInit hni) (by simp [hnd]) hf hv)
  unfold iniWriteRead
  rw [h1, R.ok_bind, h2, R.ok_bind]

/-- Non-vacuity of the full form, with a reader in the middle of a multi-line value. -/
example : iniWriteRead confData.table someIniLib (progOf confFiles .nIni plainOut) false c!"Conf" someConf
    ⟨[], [(c!"opt.spare", [(c!"host", c!"old")])], some c!"opt", c!"key", c!"\n x"⟩
    (confVal (dbVal c!"b" 2 5) (dbVal c!"c" 3 5) (dbVal c!"d" 4 5)) = .ok (true, someConf) :=
  C41_full_partial (conf_generated _ _) rfl conf_compiled conf_top (Or.inl rfl) someConf_wt
    (iniFitsb_sound (p := fun n ty _ v => iniFitb confData.table someIniLib n ty v) (fun _ _ _ _ h => iniFitb_sound h) _ _ _ (by decide +kernel))
    _ (wtb_sound _ _ (by decide +kernel))

/-- Non-vacuity of the delta form. -/
example : iniWriteRead confData.table someIniLib (progOf confFiles .nIni plainOut) true c!"Conf" someConf IniSt.init
    (confData.table.dflt c!"Conf") = .ok (true, someConf) :=
  C41_delta_partial (conf_generated _ _) rfl rfl conf_compiled conf_noInits conf_top someConf_wt
    (iniFitsb_sound (fun _ _ _ _ h => iniDeltab_sound h) _ _ _ (by decide +kernel)) _

/-- Strings with a newline can set other members: `host` contains a line for `max_conn`. -/
theorem C41_injection :
    iniWriteRead confData.table someIniLib (progOf confFiles .nIni plainOut) true c!"Conf"
      (confVal (dbVal c!"x\nlevel high" 1 0) (dbVal c!"a" 1 0) (dbVal c!"a" 1 0)) IniSt.init (confData.table.dflt c!"Conf") =
      .ok (true, confVal (dbVal c!"x" 1 5) (dbVal c!"a" 1 0) (dbVal c!"a" 1 0)) := by decide +kernel

/-- Lines that do not fit into the buffer are cut in two. -/
theorem C41_long_line :
    iniWriteRead confData.table someIniLib (progOf confFiles .nIni plainOut) true c!"Conf"
      (confVal (dbVal (List.replicate 74 'x' ++ c!"max_conn 9") 1 0) (dbVal c!"a" 1 0) (dbVal c!"a" 1 0)) IniSt.init
      (confData.table.dflt c!"Conf") =
      .ok (true, confVal (dbVal (List.replicate 74 'x') 9 0) (dbVal c!"a" 1 0) (dbVal c!"a" 1 0)) := by decide +kernel

end Stfx.Run
