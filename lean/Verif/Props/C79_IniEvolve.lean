import Verif.Run.IniEvolve
import Verif.Props.C39_C41_Ini
import Verif.Props.C51_C57_IniRead
import Verif.Props.C78_Evolve
/-
Property theorem C79: n_ini files written before a change of the headers are read by the program generated after it.

`fs` are the header files before and `fs'` after the change, `prog` and `prog'` the structs files generated from them, `T`
and `U` the classes the compiler makes of them.
-/
set_option autoImplicit false
namespace Stfx.Run
open Stfx.Items Stfx.Parser Stfx.Gen Stfx.Lexer

/-- The program of the old headers writes `v`; a new reader of the program of the new ones reads the file into `t`, reports
success and makes `w` of it.  (Specification notion, models no code.) -/
def IniReadByNext (T U : CTable) (L : IniLib) (prog prog' : List Item) (delta : Bool) (n : Str) (v t w : Val) : Prop :=
  (iniWrite T L prog delta n v >>= fun text => iniRead U L prog' n IniSt.init (some text) t >>= fun r => .ok r.1) = .ok (true, w)

/-- C79 as stated: if the old program reads its own file back, then the new program reads it as well, and gets the members
both versions have; the new members have their defaults.  (Specification notion, models no code.) -/
def IniSurvivesClaim (delta : Bool) : Prop :=
  ∀ (fs fs' : List (Str × Header)) (out out' : OutSpec) (prog prog' : List Item) (T U : CTable) (L : IniLib) (n : Str) (v : Val),
    Generated fs .nIni out prog → Generated fs' .nIni out' prog' → out.onlyRead = false →
    Compiled (fs.flatMap fun f => f.2.decls) T → Compiled (fs'.flatMap fun f => f.2.decls) U → T.longBits = U.longBits → NoClash U →
    TopStruct (fs.flatMap fun f => f.2.decls) n → TopStruct (fs'.flatMap fun f => f.2.decls) n →
    Compatible T U → CTable.WT T false (.struct n) v → iniWriteRead T L prog delta n v IniSt.init (T.dflt n) = .ok (true, v) →
    ∃ w, IniReadByNext T U L prog prog' delta n v (U.dflt n) w ∧ Carried T U (.struct n) (U.dflt n) v w

section
variable {fs fs' : List (Str × Header)} {out out' : OutSpec} {prog prog' : List Item} {T U : CTable} {L : IniLib}

theorem not_lost (ty : MTy) : ¬ LostIfMissing .nIni ty := by
  intro h
  unfold LostIfMissing at h
  split at h
  · cases h.1
  · exact h

/-- Reading what was written with another version of the headers. -/
theorem iniReadByNext (hG : Generated fs .nIni out prog) (hG' : Generated fs' .nIni out' prog')
    (ho : out.onlyRead = false) (hT : Compiled (fs.flatMap fun f => f.2.decls) T)
    (hU : Compiled (fs'.flatMap fun f => f.2.decls) U) (hcl : NoClash U) (hs : EnumsBeside U) {n : Str}
    (hn : TopStruct (fs.flatMap fun f => f.2.decls) n) (hn' : TopStruct (fs'.flatMap fun f => f.2.decls) n)
    {v t t' : Val} {delta : Bool} (hsend : IniOk T L (!out.noDelta) delta [] n t' v) (ht : CTable.WT U true (.struct n) t)
    {P : MTy → Val → Val → Val → Prop}
    (hP : ∀ ty d t v, ty.isLeaf = true → P ty d t v →
      (guard (!out.noDelta) delta (if !out.noDelta then some d else none) v = .ok true → ∀ s, iniLeafText T L ty v = .ok s →
        iniLeafConv U L ty s = .val v) ∧
      (guard (!out.noDelta) delta (if !out.noDelta then some d else none) v = .ok false → v = t))
    {d : Val} (ha : Aim T U .nIni P (.struct n) d t v) :
    ∃ w, IniReadByNext T U L prog prog' delta n v t w ∧ Carried T U (.struct n) t v w := by
  obtain ⟨hc, hrw⟩ := hG.ncode ho hT
  obtain ⟨hc', hr⟩ := hG'.nrdCode hU
  obtain ⟨text, h1, h2⟩ := ini_filed hc (hrw n hn).2 hsend.sends
  obtain ⟨w, h3, h4⟩ := ini_carried hT.good hc.ident hc' hcl hs hP ha n [] rfl ht h2
  refine ⟨w, ?_, h4⟩
  unfold IniReadByNext
  rw [h1, R.ok_bind]
  unfold iniRead
  rw [if_pos (hr n hn')]
  simp only [h3, R.ok_bind]

/-- C79 for full files and any object of the new program.  The object written is one that the old program reads back (C41):
nested structs of the right shape, strings and lines that fit.  In the new headers every struct with enum members has a simple
member, too; nothing else is asked of the members that are added, moved and removed. -/
theorem C79_full_partial (hG : Generated fs .nIni out prog) (hG' : Generated fs' .nIni out' prog')
    (ho : out.onlyRead = false) (hT : Compiled (fs.flatMap fun f => f.2.decls) T)
    (hU : Compiled (fs'.flatMap fun f => f.2.decls) U) (hb : T.longBits ≤ U.longBits) (hcl : NoClash U) (hs : EnumsBeside U)
    {n : Str} (hn : TopStruct (fs.flatMap fun f => f.2.decls) n) (hn' : TopStruct (fs'.flatMap fun f => f.2.decls) n)
    {delta : Bool} (hdelta : delta = false ∨ out.noDelta = true) (hcomp : Compatible T U) {v t : Val}
    (hv : CTable.WT T false (.struct n) v) (hf : IniFits T (fun n ty _ v => IniFit T L n ty v) [] n v)
    (ht : CTable.WT U true (.struct n) t) :
    ∃ w, IniReadByNext T U L prog prog' delta n v t w ∧ Carried T U (.struct n) t v w := by
  have hgd : ((!out.noDelta) && delta) = false := by rcases hdelta with h | h <;> simp [h]
  obtain ⟨ms, hms⟩ := wt_cls hv
  refine iniReadByNext hG hG' ho hT hU hcl hs hn hn'
    (iniOk_full hT.good (hT.enumsOk hG.texts rfl) hgd hf (hT.good.wt n ms hms) hv) ht ?_ (d := .undef)
    (aim_any hT.good hU.good (fun c ns hc m hm x hx => hU.typesKnown hc hm (Or.inl hx)) hcomp
      (fun _ _ _ _ _ _ _ _ => not_lost _) hv (hf.leaves hT.good) ht (fun x hx => by cases hx) (fun x hx => by cases hx))
  rintro ty d t v hlf ⟨hw, ⟨x, d', hq⟩, hen⟩
  rw [guard_full hgd]
  exact ⟨fun _ s hs => iniLeaf_grows hU.good (hU.enumsOk hG'.texts rfl) hb hlf hen hw hq.floatBack hs, fun h => by cases h⟩

/-- C79 for delta files, read into a default object, for changes that keep the defaults of the members. -/
theorem C79_delta_partial (hG : Generated fs .nIni out prog) (hG' : Generated fs' .nIni out' prog')
    (ho : out.onlyRead = false) (hnd : out.noDelta = false) (hT : Compiled (fs.flatMap fun f => f.2.decls) T)
    (hU : Compiled (fs'.flatMap fun f => f.2.decls) U) (hb : T.longBits ≤ U.longBits) (hcl : NoClash U) (hs : EnumsBeside U)
    (hni : NoStructInits (fs.flatMap fun f => f.2.decls)) (hni' : NoStructInits (fs'.flatMap fun f => f.2.decls))
    {n : Str} (hn : TopStruct (fs.flatMap fun f => f.2.decls) n) (hn' : TopStruct (fs'.flatMap fun f => f.2.decls) n)
    (hcomp : Compatible T U) (hdef : KeepsDefaults T U) {v : Val}
    (hv : CTable.WT T false (.struct n) v) (hf : IniFits T (IniDelta T L) [] n v) :
    ∃ w, IniReadByNext T U L prog prog' true n v (U.dflt n) w ∧ Carried T U (.struct n) (U.dflt n) v w := by
  have hgd : ((!out.noDelta) && true) = true := by simp [hnd]
  have hg : (!out.noDelta) = true := by simp [hnd]
  have hcls : ∃ ns, U.cls n = some ns := by
    obtain ⟨m, ms, hdecl⟩ := hn'.1
    obtain ⟨cs, hc, _⟩ := hU.cls n m ms hdecl
    exact ⟨cs, hc⟩
  obtain ⟨ns, hns⟩ := hcls
  refine iniReadByNext hG hG' ho hT hU hcl hs hn hn'
    (iniOk_delta hT.good (hT.enumsOk hG.texts rfl) (hT.noStructInit hni) hgd hf hv) (hU.good.wt n ns hns) ?_ (d := T.dflt n)
    (aim_default hT.good hU.good (hU.noStructInit hni') (fun c ns hc m hm x hx => hU.typesKnown hc hm (Or.inl hx))
      (fun c ns hc m hm x hx => hU.typesKnown hc hm (Or.inr hx)) hcomp hdef (fun _ _ _ _ _ _ _ _ => not_lost _) hv
      (hf.leavesD _) (fun h => by cases h) (fun _ => rfl) (fun x hx => by cases hx) (fun x hx => ?_))
  · rintro ty d t v hlf ⟨rfl, hwd, hw, ⟨x, hq⟩, hen⟩
    rw [if_pos hg, guard_delta hgd]
    refine ⟨?_, fun he => hq.leftOut (neq_false.1 he)⟩
    intro hne s hs
    exact iniLeaf_grows hU.good (hU.enumsOk hG'.texts rfl) hb hlf hen hw
      (hq.written (by rw [← neq_false, hne]; simp)).floatBack hs
  · rcases hx with hx | hx
    · cases hx
    · cases hx
      exact ⟨ns, hns⟩

end

/-! ### Examples and refutations -/

/-- The settings after some work on them: `Level` has grown, `Db` has lost a member, been put in another order and been given
another one, `Opt` and `Conf` have more members.  (Example, models no code.) -/
def laterText : Str :=
  c!"enum class Level{low,mid=3,high=5};struct Log{" ++ c!"bool on{true};Level level{Level::mid};};struct Db{" ++
  c!"Level level{Level::low};unsigned short port{80};" ++ c!"std::string host{\"a\"};};struct Opt{Log log;Db spare;" ++
  c!"Db main_db;};struct Conf{int version{2};" ++ c!"Opt opt;Db other_db;};"

/-- (Example, models no code.) -/
def laterDecls : Header where
  first := .enum true c!"Level" ⟨c!"low", none⟩ [⟨c!"mid", some (.dec c!"3")⟩, ⟨c!"high", some (.dec c!"5")⟩] false
  more := [
    .struct c!"Log" (.simple .bool c!"on" (.val .true_)) [.named c!"Level" c!"level" (.val (.enumerator c!"Level::mid"))],
    .struct c!"Db" (.named c!"Level" c!"level" (.val (.enumerator c!"Level::low"))) [
      .simple .unsignedShort c!"port" (.val (.int c!"80")), .simple .stdString c!"host" (.val (.string c!"\"a\""))],
    .struct c!"Opt" (.named c!"Log" c!"log" .absent) [.named c!"Db" c!"spare" .absent, .named c!"Db" c!"main_db" .absent],
    .struct c!"Conf" (.simple .int c!"version" (.val (.int c!"2"))) [.named c!"Opt" c!"opt" .absent,
      .named c!"Db" c!"other_db" .absent]]

/-- (Example, models no code.) -/
def laterFiles : List (Str × Header) := [(laterText, laterDecls)]

/-- (Example, models no code.) -/
def laterDb (l port : Int) (host : Str) : Val := .struct [(c!"level", .num l), (c!"port", .num port), (c!"host", .str host)]
/-- (Example, models no code.) -/
def laterConf (version : Int) (spare main other : Val) : Val :=
  .struct [(c!"version", .num version), (c!"opt", .struct [(c!"log", .struct [(c!"on", .bool true), (c!"level", .num 3)]),
    (c!"spare", spare), (c!"main_db", main)]), (c!"other_db", other)]

/-- (Example, models no code.) -/
def laterData : CData where
  cls := [
    (c!"Log", [⟨c!"on", .simple .bool, some (.bool true)⟩, ⟨c!"level", .enum c!"Level", some (.num 3)⟩]),
    (c!"Db", [⟨c!"level", .enum c!"Level", some (.num 0)⟩, ⟨c!"port", .simple .unsignedShort, some (.num 80)⟩,
      ⟨c!"host", .simple .stdString, some (.str c!"a")⟩]),
    (c!"Opt", [⟨c!"log", .struct c!"Log", none⟩, ⟨c!"spare", .struct c!"Db", none⟩, ⟨c!"main_db", .struct c!"Db", none⟩]),
    (c!"Conf", [⟨c!"version", .simple .int, some (.num 2)⟩, ⟨c!"opt", .struct c!"Opt", none⟩, ⟨c!"other_db", .struct c!"Db", none⟩])]
  enm := [(c!"Level", ⟨c!"Level", true, [⟨c!"low", false, c!"-"⟩, ⟨c!"mid", true, c!"3"⟩, ⟨c!"high", true, c!"5"⟩]⟩,
    [(c!"low", 0), (c!"mid", 3), (c!"high", 5)])]
  dflt := [(c!"Log", .struct [(c!"on", .bool true), (c!"level", .num 3)]), (c!"Db", laterDb 0 80 c!"a"),
    (c!"Opt", .struct [(c!"log", .struct [(c!"on", .bool true), (c!"level", .num 3)]), (c!"spare", laterDb 0 80 c!"a"),
      (c!"main_db", laterDb 0 80 c!"a")]),
    (c!"Conf", laterConf 2 (laterDb 0 80 c!"a") (laterDb 0 80 c!"a") (laterDb 0 80 c!"a"))]
  longBits := 64

theorem later_generated (k : Kind) (out : OutSpec) : Generated laterFiles k out (progOf laterFiles k out) :=
  generated_of (by decide +kernel) k out
theorem later_compiled : Compiled (laterFiles.flatMap fun f => f.2.decls) laterData.table := CData.compiled (by decide +kernel)
theorem later_top : TopStruct (laterFiles.flatMap fun f => f.2.decls) c!"Conf" := topStruct_of (by decide +kernel)
theorem later_compatible : Compatible confData.table laterData.table := compatible_of (by decide +kernel)

/-- Non-vacuity of C79 for full files, and of the notion of a compatible change. -/
example (t : Val) (ht : CTable.WT laterData.table true (.struct c!"Conf") t) :
    ∃ w, IniReadByNext confData.table laterData.table someIniLib (progOf confFiles .nIni plainOut) (progOf laterFiles .nIni plainOut)
      false c!"Conf" someConf t w ∧ Carried confData.table laterData.table (.struct c!"Conf") t someConf w :=
  C79_full_partial (conf_generated _ _) (later_generated _ _) rfl conf_compiled later_compiled (by decide)
    (CData.noClash (by decide +kernel)) (CData.enumsBeside (by decide +kernel)) conf_top later_top (Or.inl rfl) later_compatible
    someConf_wt
    (iniFitsb_sound (p := fun n ty _ v => iniFitb confData.table someIniLib n ty v) (fun _ _ _ _ h => iniFitb_sound h) _ _ _ (by decide +kernel))
    ht

/-- What the new program makes of that file, in an object with other values: hosts and levels are those of the file, the new
members stay as they were. -/
example : IniReadByNext confData.table laterData.table someIniLib (progOf confFiles .nIni plainOut) (progOf laterFiles .nIni plainOut)
    false c!"Conf" someConf (laterConf 7 (laterDb 3 81 c!"b") (laterDb 3 82 c!"b") (laterDb 3 83 c!"b"))
    (laterConf 7 (laterDb 0 81 c!"a") (laterDb 5 82 c!"[x] = y") (laterDb (-9) 83 c!"local host")) := by
  unfold IniReadByNext
  decide +kernel

/-- Non-vacuity of C79 for delta files. -/
example : ∃ w, IniReadByNext confData.table laterData.table someIniLib (progOf confFiles .nIni plainOut)
      (progOf laterFiles .nIni plainOut) true c!"Conf" someConf (laterData.table.dflt c!"Conf") w ∧
    Carried confData.table laterData.table (.struct c!"Conf") (laterData.table.dflt c!"Conf") someConf w :=
  C79_delta_partial (conf_generated _ _) (later_generated _ _) rfl rfl conf_compiled later_compiled (by decide)
    (CData.noClash (by decide +kernel)) (CData.enumsBeside (by decide +kernel)) conf_noInits (noStructInits_of (by decide +kernel))
    conf_top later_top later_compatible (keepsDefaults_of (by decide +kernel)) someConf_wt
    (iniFitsb_sound (fun _ _ _ _ h => iniDeltab_sound h) _ _ _ (by decide +kernel))

/-- A struct in a struct: `struct Db{int a{A};Level l{Level::low};};struct Conf{Db db;};`.  (Example, models no code.) -/
def dbFiles (a : Str) : List (Str × Header) :=
  [(c!"enum class Level{low,high=5};struct Db{int a{" ++ a ++ c!"};Level l{Level::low};};" ++ c!"struct Conf{Db db;};",
    ⟨.enum true c!"Level" ⟨c!"low", none⟩ [⟨c!"high", some (.dec c!"5")⟩] false,
    [.struct c!"Db" (.simple .int c!"a" (.val (.int a))) [.named c!"Level" c!"l" (.val (.enumerator c!"Level::low"))],
      .struct c!"Conf" (.named c!"Db" c!"db" .absent) []]⟩)]
/-- (Example, models no code.) -/
def dbData (a : Int) : CData where
  cls := [(c!"Db", [⟨c!"a", .simple .int, some (.num a)⟩, ⟨c!"l", .enum c!"Level", some (.num 0)⟩]),
    (c!"Conf", [⟨c!"db", .struct c!"Db", none⟩])]
  enm := [(c!"Level", levelEnum.1, levelEnum.2)]
  dflt := [(c!"Db", .struct [(c!"a", .num a), (c!"l", .num 0)]), (c!"Conf", .struct [(c!"db", .struct [(c!"a", .num a), (c!"l", .num 0)])])]
  longBits := 64

/-- The same without the number.  (Example, models no code.) -/
def bareFiles : List (Str × Header) :=
  [(c!"enum class Level{low,high=5};struct Db{" ++ c!"Level l{Level::low};};struct Conf{Db db;};",
    ⟨.enum true c!"Level" ⟨c!"low", none⟩ [⟨c!"high", some (.dec c!"5")⟩] false,
    [.struct c!"Db" (.named c!"Level" c!"l" (.val (.enumerator c!"Level::low"))) [],
      .struct c!"Conf" (.named c!"Db" c!"db" .absent) []]⟩)]
/-- (Example, models no code.) -/
def bareData : CData where
  cls := [(c!"Db", [⟨c!"l", .enum c!"Level", some (.num 0)⟩]), (c!"Conf", [⟨c!"db", .struct c!"Db", none⟩])]
  enm := [(c!"Level", levelEnum.1, levelEnum.2)]
  dflt := [(c!"Db", .struct [(c!"l", .num 0)]), (c!"Conf", .struct [(c!"db", .struct [(c!"l", .num 0)])])]
  longBits := 64

/-- A member of a nested struct that both versions have. -/
theorem Carried.nested {T U : CTable} {c c' x : Str} {ts fs ws : List (Str × Val)} {ms ns ms' ns' : List CMember}
    {m n m' n' : CMember}
    (h : Carried T U (.struct c) (.struct [(x, .struct ts)]) (.struct [(x, .struct fs)]) (.struct [(x, .struct ws)]))
    (h1 : T.cls c = some ms) (h2 : U.cls c = some ns) (hm : m ∈ ms) (hn : n ∈ ns) (he : n.name = m.name) (hx : m.name = x)
    (hty : m.ty = .struct c') (h1' : T.cls c' = some ms') (h2' : U.cls c' = some ns') (hm' : m' ∈ ms') (hn' : n' ∈ ns')
    (he' : n'.name = m'.name) (hl : m'.ty.isLeaf = true)
    {t v w : Val} (ht : ts.lookup m'.name = some t) (hv : fs.lookup m'.name = some v) (hw : ws.lookup m'.name = some w) : w = v := by
  cases h with
  | leaf hl => cases hl
  | struct a1 a2 _ _ _ h _ =>
    rw [h1] at a1
    cases a1
    rw [h2] at a2
    cases a2
    have := h m hm n hn he (.struct ts) (.struct fs) (.struct ws) (by simp [hx]) (by simp [hx]) (by simp [hx])
    rw [hty] at this
    exact this.member h1' h2' hm' hn' he' hl ht hv hw

/-- C79 as stated is false: an enum member that has lost the simple members beside it is not read. -/
theorem C79_enum_refuted : ¬ IniSurvivesClaim false := by
  intro h
  obtain ⟨w, h1, h2⟩ := h (dbFiles c!"1") bareFiles plainOut plainOut _ _ (dbData 1).table bareData.table someIniLib c!"Conf"
    (.struct [(c!"db", .struct [(c!"a", .num 1), (c!"l", .num 5)])]) (generated_of (by decide +kernel) _ _)
    (generated_of (by decide +kernel) _ _) rfl (CData.compiled (by decide +kernel)) (CData.compiled (by decide +kernel)) rfl
    (CData.noClash (by decide +kernel)) (topStruct_of (by decide +kernel)) (topStruct_of (by decide +kernel))
    (compatible_of (by decide +kernel)) (wtb_sound _ _ (by decide +kernel)) (by decide +kernel)
  have hr : IniReadByNext (dbData 1).table bareData.table someIniLib (progOf (dbFiles c!"1") .nIni plainOut)
      (progOf bareFiles .nIni plainOut) false c!"Conf" (.struct [(c!"db", .struct [(c!"a", .num 1), (c!"l", .num 5)])])
      (bareData.table.dflt c!"Conf") (.struct [(c!"db", .struct [(c!"l", .num 0)])]) := by
    unfold IniReadByNext
    decide +kernel
  unfold IniReadByNext at h1 hr
  rw [hr] at h1
  injection h1 with h1
  injection h1 with _ h1
  subst h1
  have := h2.nested (m := ⟨c!"db", .struct c!"Db", none⟩) (n := ⟨c!"db", .struct c!"Db", none⟩)
    (m' := ⟨c!"l", .enum c!"Level", some (.num 0)⟩) (n' := ⟨c!"l", .enum c!"Level", some (.num 0)⟩) rfl rfl (by simp) (by simp) rfl rfl rfl
    rfl rfl (by simp) (by simp) rfl rfl (t := .num 0) rfl rfl rfl
  cases this

/-- C79 as stated is false for delta files: a member that had its old default is left out, and is read with its new default. -/
theorem C79_delta_refuted : ¬ IniSurvivesClaim true := by
  intro h
  obtain ⟨w, h1, h2⟩ := h (dbFiles c!"1") (dbFiles c!"2") plainOut plainOut _ _ (dbData 1).table (dbData 2).table someIniLib c!"Conf"
    (.struct [(c!"db", .struct [(c!"a", .num 1), (c!"l", .num 5)])]) (generated_of (by decide +kernel) _ _)
    (generated_of (by decide +kernel) _ _) rfl (CData.compiled (by decide +kernel)) (CData.compiled (by decide +kernel)) rfl
    (CData.noClash (by decide +kernel)) (topStruct_of (by decide +kernel)) (topStruct_of (by decide +kernel))
    (compatible_of (by decide +kernel)) (wtb_sound _ _ (by decide +kernel)) (by decide +kernel)
  have hr : IniReadByNext (dbData 1).table (dbData 2).table someIniLib (progOf (dbFiles c!"1") .nIni plainOut)
      (progOf (dbFiles c!"2") .nIni plainOut) true c!"Conf" (.struct [(c!"db", .struct [(c!"a", .num 1), (c!"l", .num 5)])])
      ((dbData 2).table.dflt c!"Conf") (.struct [(c!"db", .struct [(c!"a", .num 2), (c!"l", .num 5)])]) := by
    unfold IniReadByNext
    decide +kernel
  unfold IniReadByNext at h1 hr
  rw [hr] at h1
  injection h1 with h1
  injection h1 with _ h1
  subst h1
  have := h2.nested (m := ⟨c!"db", .struct c!"Db", none⟩) (n := ⟨c!"db", .struct c!"Db", none⟩)
    (m' := ⟨c!"a", .simple .int, some (.num 1)⟩) (n' := ⟨c!"a", .simple .int, some (.num 2)⟩) rfl rfl (by simp) (by simp) rfl rfl rfl
    rfl rfl (by simp) (by simp) rfl rfl (t := .num 2) rfl rfl rfl
  injection this with this
  exact absurd this (by decide)

end Stfx.Run
