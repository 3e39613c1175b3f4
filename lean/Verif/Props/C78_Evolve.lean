import Verif.Run.XmlEvolve
import Verif.Props.C30_C33_Xml
/-
Property theorem C78: files written before a change of the headers are read by the program generated after it.

`fs` are the header files before and `fs'` after the change, `prog` and `prog'` the structs files generated from them, `T`
and `U` the classes the compiler makes of them.
-/
set_option autoImplicit false
namespace Stfx.Run
open Stfx.Items Stfx.Parser Stfx.Gen Stfx.Lexer

/-- The program of the old headers writes `v`; the program of the new ones reads the file into `t`, reports success and
makes `w` of it.  (Specification notion, models no code.) -/
def ReadByNext (T U : CTable) (L : Lib) (prog prog' : List Item) (delta : Bool) (n : Str) (v t w : Val) : Prop :=
  (writeFile T L prog delta n v >>= fun root => readFile U L prog' n (loadSaved L root) t) = .ok (true, w)

/-- C78 as stated: if the old program reads its own file back, then the new program reads it as well, and gets the members
both versions have; the new members have their defaults.  (Specification notion, models no code.) -/
def SurvivesClaim (k : Kind) (delta : Bool) : Prop :=
  ∀ (fs fs' : List (Str × Header)) (out out' : OutSpec) (prog prog' : List Item) (T U : CTable) (L : Lib) (n : Str) (v : Val),
    Generated fs k out prog → Generated fs' k out' prog' → out.onlyRead = false →
    Compiled (fs.flatMap fun f => f.2.decls) T → Compiled (fs'.flatMap fun f => f.2.decls) U →
    TopStruct (fs.flatMap fun f => f.2.decls) n → TopStruct (fs'.flatMap fun f => f.2.decls) n →
    Compatible T U → CTable.WT T false (.struct n) v → FileGives T L prog delta n v (T.dflt n) v →
    ∃ w, ReadByNext T U L prog prog' delta n v (U.dflt n) w ∧ Carried T U (.struct n) (U.dflt n) v w

/-- Members that the new version adds are not among those that are assigned an uninitialised variable if the attribute is
missing.  (Specification notion, models no code.) -/
def AddsSafely (k : Kind) (T U : CTable) : Prop :=
  ∀ c ms ns, T.cls c = some ms → U.cls c = some ns → ∀ n ∈ ns, n.name ∉ ms.map CMember.name → ¬ LostIfMissing k n.ty

/-- Simple and enum members both versions have keep their defaults.  (Specification notion, models no code.) -/
def KeepsDefaults (T U : CTable) : Prop :=
  ∀ c ms ns, T.cls c = some ms → U.cls c = some ns → ∀ m ∈ ms, ∀ n ∈ ns, n.name = m.name → m.ty.isLeaf = true →
    U.memberDflt n = T.memberDflt m

/-- What the object should be is determined. -/
theorem Carried.unique {T U : CTable} (hU : U.Good) {ty : MTy} {t v w : Val} (h : Carried T U ty t v w) :
    ∀ {w' : Val}, Carried T U ty t v w' → w' = w := by
  induction h with
  | @leaf ty t v hl =>
    intro w' h'
    cases h' with
    | leaf _ => rfl
    | struct _ _ _ _ _ _ _ => cases hl
    | vec _ _ => cases hl
  | @struct c ms ns ts fs ws hc hc' hts hfs hws hm hn ih =>
    intro w' h'
    cases h' with
    | leaf hl => cases hl
    | @struct _ ms1 ns1 _ _ ws' hc1 hc1' _ _ hws' hm' hn' =>
      rw [hc] at hc1
      cases hc1
      rw [hc'] at hc1'
      cases hc1'
      congr 1
      refine fields_ext (by rw [hws, hws']) (by rw [hws']; exact hU.nodup c ns hc') ?_
      intro x hx
      rw [hws'] at hx
      obtain ⟨n, hnn, rfl⟩ := List.mem_map.1 hx
      by_cases hin : n.name ∈ ms.map CMember.name
      · obtain ⟨m, hmm, he⟩ := List.mem_map.1 hin
        obtain ⟨a, ha⟩ := lookup_isSome (fs := ts) (n := n.name) (by rw [hts]; exact List.mem_map_of_mem hnn)
        obtain ⟨b, hb⟩ := lookup_isSome (fs := fs) (n := n.name) (by rw [hfs]; exact hin)
        obtain ⟨w1, hw1⟩ := lookup_isSome (fs := ws) (n := n.name) (by rw [hws]; exact List.mem_map_of_mem hnn)
        obtain ⟨w2, hw2⟩ := lookup_isSome (fs := ws') (n := n.name) (by rw [hws']; exact List.mem_map_of_mem hnn)
        rw [hw1, hw2]
        rw [← he] at ha hb hw1 hw2
        rw [ih m hmm n hnn he.symm a b w1 ha hb hw1 (hm' m hmm n hnn he.symm a b w2 ha hb hw2)]
      · rw [hn n hnn hin, hn' n hnn hin]
  | @vec c ts vs ws hlen hall ih =>
    intro w' h'
    cases h' with
    | leaf hl => cases hl
    | @vec _ _ _ ws' hlen' hall' =>
      congr 2
      refine List.ext_getElem? fun i => ?_
      by_cases hi : i < vs.length
      · have e1 : vs[i]? = some vs[i] := List.getElem?_eq_getElem hi
        have e2 : ws[i]? = some (ws[i]'(by omega)) := List.getElem?_eq_getElem _
        have e3 : ws'[i]? = some (ws'[i]'(by omega)) := List.getElem?_eq_getElem _
        rw [e2, e3]
        exact congrArg some (ih i _ _ e1 e2 (hall' i _ _ e1 e3))
      · rw [List.getElem?_eq_none (by omega), List.getElem?_eq_none (by omega)]

section
variable {fs fs' : List (Str × Header)} {k : Kind} {out out' : OutSpec} {prog prog' : List Item} {T U : CTable} {L : Lib}

theorem Compiled.typesKnown {ds : List Decl} (h : Compiled ds T) {c : Str} {cs : List CMember} (hc : T.cls c = some cs)
    {m : CMember} (hm : m ∈ cs) {x : Str} (hx : m.ty = .vec x ∨ m.ty = .struct x) : ∃ ns, T.cls x = some ns := by
  obtain ⟨m0, ms, hdecl⟩ := h.clsOnly c cs hc
  obtain ⟨cs', h1, h2⟩ := h.cls c m0 ms hdecl
  rw [hc] at h1
  cases h1
  have hmem : (m.name, m.ty, m.init.isSome) ∈ cs.map (fun c => (c.name, c.ty, c.init.isSome)) :=
    List.mem_map.2 ⟨m, hm, rfl⟩
  rw [h2, List.mem_map] at hmem
  obtain ⟨p, hp, he⟩ := hmem
  simp only [Prod.mk.injEq] at he
  obtain ⟨_, he2, _⟩ := he
  rw [← he2] at hx
  have key : ds.any (Decl.isStruct x) = true := by
    cases p with
    | simple ty n d => rcases hx with hx | hx <;> cases hx
    | vector el n =>
      rcases hx with hx | hx
      · cases hx; exact h.vecs c m0 ms hdecl x n hp
      · cases hx
    | named ty n d =>
      simp only [memberType] at hx
      by_cases hs : ds.any (Decl.isStruct ty) = true
      · rw [if_pos hs] at hx
        rcases hx with hx | hx
        · cases hx
        · cases hx; exact hs
      · rw [if_neg hs] at hx
        rcases hx with hx | hx <;> cases hx
  obtain ⟨a, as, ha⟩ := any_isStruct.1 key
  obtain ⟨ns, hns, _⟩ := h.cls x a as ha
  exact ⟨ns, hns⟩

/-- Reading what was written with another version of the headers. -/
theorem readByNext (hG : Generated fs k out prog) (hG' : Generated fs' k out' prog') (hk : k = .xml ∨ k = .attrib)
    (ho : out.onlyRead = false) (hT : Compiled (fs.flatMap fun f => f.2.decls) T)
    (hU : Compiled (fs'.flatMap fun f => f.2.decls) U) {n : Str} (hn' : TopStruct (fs'.flatMap fun f => f.2.decls) n)
    {v t : Val} {delta : Bool} (hv : CTable.WT T false (.struct n) v) (hd : nesting v ≤ L.maxDepth)
    (hw : ∃ root, writeFile T L prog delta n v = .ok root) {P : MTy → Val → Val → Val → Prop}
    (hP : ∀ ty d t v, ty.isLeaf = true → P ty d t v →
      (guard (!out.noDelta) delta (if !out.noDelta then some d else none) v = .ok true → ∀ s, leafText T L k ty v = .ok s →
        readLeaf U L ty t (back k s) = .ok v) ∧
      (guard (!out.noDelta) delta (if !out.noDelta then some d else none) v = .ok false → v = t ∧ ¬ LostIfMissing k ty))
    {d : Val} (ha : Aim T U k P (.struct n) d t v) :
    ∃ w, ReadByNext T U L prog prog' delta n v t w ∧ Carried T U (.struct n) t v w := by
  obtain ⟨hc, _⟩ := hG.code hk ho hT
  obtain ⟨hc', hr⟩ := hG'.rdCode hk hU
  obtain ⟨root, hroot⟩ := hw
  obtain ⟨as, ks, rfl, hwr⟩ := writeFile_wrote hc hv hroot
  obtain ⟨w, h1, h2⟩ := carried hT.good hc' hP ha hwr n
  refine ⟨w, ?_, h2⟩
  unfold ReadByNext
  rw [hroot, R.ok_bind]
  unfold loadSaved
  rw [if_pos (by have := writeFile_depth hroot; omega)]
  refine (readFile_root (hr n hn') (root := reload (.elem n as ks)) ?_).2 ⟨rfl, h1⟩
  rw [List.find?_cons, reload_isElem]
  rfl

/-- C78 for full files and any object of the new program: the object written consists of values that survive (C30, C32), and
for attribute XML no member of the types short, unsigned short, long and unsigned long is added. -/
theorem C78_full_partial (hG : Generated fs k out prog) (hG' : Generated fs' k out' prog') (hk : k = .xml ∨ k = .attrib)
    (ho : out.onlyRead = false) (hT : Compiled (fs.flatMap fun f => f.2.decls) T)
    (hU : Compiled (fs'.flatMap fun f => f.2.decls) U) {n : Str} (hn : TopStruct (fs.flatMap fun f => f.2.decls) n)
    (hn' : TopStruct (fs'.flatMap fun f => f.2.decls) n) {delta : Bool} (hdelta : delta = false ∨ out.noDelta = true)
    (hcomp : Compatible T U) (hadd : AddsSafely k T U) {v t : Val} (hv : CTable.WT T false (.struct n) v)
    (hd : nesting v ≤ L.maxDepth) (hl : Leaves T (fun ty v => Fits L ty v ∧ Visible k ty v) (.struct n) v)
    (ht : CTable.WT U true (.struct n) t) :
    ∃ w, ReadByNext T U L prog prog' delta n v t w ∧ Carried T U (.struct n) t v w := by
  have hgd : ((!out.noDelta) && delta) = false := by rcases hdelta with h | h <;> simp [h]
  have hw : ∃ root, writeFile T L prog delta n v = .ok root := by
    obtain ⟨ms, hms⟩ := wt_cls hv
    have := full_fresh hG hk ho hdelta hT hn hv hd hl (hT.freshDefaults n ms hms)
    unfold FileGives writeRead at this
    rw [R.bind_eq_ok] at this
    obtain ⟨root, h, _⟩ := this
    exact ⟨root, h⟩
  refine readByNext hG hG' hk ho hT hU hn' hv hd hw ?_ (d := .undef)
    (aim_any hT.good hU.good (fun c ns hc m hm x hx => hU.typesKnown hc hm (Or.inl hx)) hcomp hadd hv hl ht
      (fun x hx => by cases hx) (fun x hx => by cases hx))
  intro ty d t v hlf hp
  rw [guard_full hgd]
  refine ⟨?_, fun h => by cases h⟩
  intro _ s hs
  obtain ⟨s', h1, h2⟩ := leaf_back_grows (hT.enumsOk hG.texts rfl) (hU.enumsOk hG'.texts rfl) hlf hp.2.2 hp.1 hp.2.1.1 hp.2.1.2 t
  rw [hs] at h1
  cases h1
  exact h2

/-- In element XML nothing is asked of the members that are added. -/
theorem C78_element_partial (hG : Generated fs .xml out prog) (hG' : Generated fs' .xml out' prog')
    (ho : out.onlyRead = false) (hT : Compiled (fs.flatMap fun f => f.2.decls) T)
    (hU : Compiled (fs'.flatMap fun f => f.2.decls) U) {n : Str} (hn : TopStruct (fs.flatMap fun f => f.2.decls) n)
    (hn' : TopStruct (fs'.flatMap fun f => f.2.decls) n) {delta : Bool} (hdelta : delta = false ∨ out.noDelta = true)
    (hcomp : Compatible T U) {v t : Val} (hv : CTable.WT T false (.struct n) v)
    (hd : nesting v ≤ L.maxDepth) (hl : Leaves T (fun ty v => Fits L ty v ∧ Visible .xml ty v) (.struct n) v)
    (ht : CTable.WT U true (.struct n) t) :
    ∃ w, ReadByNext T U L prog prog' delta n v t w ∧ Carried T U (.struct n) t v w := by
  refine C78_full_partial hG hG' (Or.inl rfl) ho hT hU hn hn' hdelta hcomp ?_ hv hd hl ht
  intro c ms ns _ _ m _ _ h
  unfold LostIfMissing at h
  split at h
  · cases h.1
  · exact h

/-- C78 for files of either kind, read into a default object, for changes that keep the defaults of the members: the object
written is one that the old program reads back (C31-C33), and for attribute XML no member of the types short, unsigned short,
long and unsigned long is added. -/
theorem C78_default_partial (hG : Generated fs k out prog) (hG' : Generated fs' k out' prog') (hk : k = .xml ∨ k = .attrib)
    (ho : out.onlyRead = false) (hT : Compiled (fs.flatMap fun f => f.2.decls) T)
    (hU : Compiled (fs'.flatMap fun f => f.2.decls) U) (hni : NoStructInits (fs.flatMap fun f => f.2.decls))
    (hni' : NoStructInits (fs'.flatMap fun f => f.2.decls))
    {n : Str} (hn : TopStruct (fs.flatMap fun f => f.2.decls) n) (hn' : TopStruct (fs'.flatMap fun f => f.2.decls) n)
    (hcomp : Compatible T U) (hadd : AddsSafely k T U) (hdef : KeepsDefaults T U) {delta : Bool} {v : Val}
    (hv : CTable.WT T false (.struct n) v) (hd : nesting v ≤ L.maxDepth)
    (hl : LeavesD T (if (!out.noDelta && delta) = true then KeptDelta L k else KeptFull L k) (.struct n) (T.dflt n) v) :
    ∃ w, ReadByNext T U L prog prog' delta n v (U.dflt n) w ∧ Carried T U (.struct n) (U.dflt n) v w := by
  have hw : ∃ root, writeFile T L prog delta n v = .ok root := by
    have : FileGives T L prog delta n v (T.dflt n) v := by
      cases hg : (!out.noDelta && delta) with
      | true =>
        simp only [Bool.and_eq_true, Bool.not_eq_true'] at hg
        obtain ⟨hg1, rfl⟩ := hg
        simp only [hg1, Bool.not_false, Bool.and_true, if_true] at hl
        exact delta_default hG hk ho hg1 hT hni hn hv hd hl
      | false =>
        rw [hg, if_neg (by decide)] at hl
        refine full_default hG hk ho ?_ hT hni hn hv hd hl
        cases delta with
        | false => exact Or.inl rfl
        | true => exact Or.inr (by simpa using hg)
    unfold FileGives writeRead at this
    rw [R.bind_eq_ok] at this
    obtain ⟨root, h, _⟩ := this
    exact ⟨root, h⟩
  refine readByNext hG hG' hk ho hT hU hn' hv hd hw ?_
    (aim_default hT.good hU.good (hU.noStructInit hni') (fun c ns hc m hm x hx => hU.typesKnown hc hm (Or.inl hx))
      (fun c ns hc m hm x hx => hU.typesKnown hc hm (Or.inr hx)) hcomp hdef hadd hv hl (fun h => by cases h) (fun _ => rfl)
      (fun x hx => by cases hx) (fun x hx => ?_))
  · rintro ty d t v hlf ⟨rfl, hwd, hwv, hq, hen⟩
    have hback := fun hf hv => leaf_back_grows (L := L) (k := k) (hT.enumsOk hG.texts rfl) (hU.enumsOk hG'.texts rfl) hlf hen hwv hf hv t
    cases hg : (!out.noDelta && delta) with
    | false =>
      rw [hg, if_neg (by decide)] at hq
      rw [guard_full hg]
      refine ⟨?_, fun h => by cases h⟩
      intro _ s hs
      rcases hq with ⟨hf, hvis⟩ | ⟨hh, rfl⟩
      · obtain ⟨s', h1, h2⟩ := hback hf hvis
        rw [hs] at h1
        cases h1
        exact h2
      · unfold Hidden at hh
        split at hh
        · rename_i str
          obtain ⟨rfl, hb⟩ := hh
          have : s = cStr str := by
            have : R.ok (cStr str) = R.ok s := hs
            injection this with this
            exact this.symm
          subst this
          simp [back, hb, readLeaf, readSimple, assign, viaLocal]
        · cases hh
    | true =>
      rw [hg, if_pos rfl] at hq
      have hgt : (!out.noDelta) = true := by rw [Bool.and_eq_true] at hg; exact hg.1
      rw [if_pos hgt, guard_delta hg]
      refine ⟨?_, ?_⟩
      · intro hne s hs
        obtain ⟨hf, hvis⟩ := hq.written (by rw [← neq_false, hne]; simp)
        obtain ⟨s', h1, h2⟩ := hback hf hvis
        rw [hs] at h1
        cases h1
        exact h2
      · intro he
        exact hq.leftOut (neq_false.1 he)
  · rcases hx with hx | hx
    · cases hx
    · cases hx
      obtain ⟨m, ms, hdecl⟩ := hn'.1
      obtain ⟨cs, hc, _⟩ := hU.cls n m ms hdecl
      exact ⟨cs, hc⟩

end

/-! ### Examples and refutations -/

/-- Check `EnumGrows`.  (Proof notion, models no code.) -/
def enumGrowsb (D E : CData) (x : Str) : Bool :=
  match D.table.enm x, E.table.enm x with
  | some (e, val), some (e', val') => decide (e'.isClass = e.isClass) &&
      e.enums.all fun l => decide (val' l.name = val l.name) && e'.enums.any fun l' => decide (l'.name = l.name)
  | _, _ => false

/-- Check a relation of the members both tables have, and a condition on those that are added.  (Proof notion, models no code.) -/
def membersb (D E : CData) (p : CMember → CMember → Bool) (q : CMember → Bool) : Bool :=
  D.cls.all fun cm => match E.cls.lookup cm.1 with
    | none => true
    | some ns => ns.all fun n => (cm.2.all fun m => decide (n.name ≠ m.name) || p m n) &&
        (decide (n.name ∈ cm.2.map CMember.name) || q n)

theorem membersb_sound {D E : CData} {p : CMember → CMember → Bool} {q : CMember → Bool} (h : membersb D E p q = true) {c : Str}
    {ms ns : List CMember} (h1 : D.table.cls c = some ms) (h2 : E.table.cls c = some ns) {n : CMember} (hn : n ∈ ns) :
    (∀ m ∈ ms, n.name = m.name → p m n = true) ∧ (n.name ∉ ms.map CMember.name → q n = true) := by
  unfold membersb at h
  rw [List.all_eq_true] at h
  have := h (c, ms) (mem_of_lookup h1)
  rw [show E.cls.lookup c = some ns from h2] at this
  simp only [List.all_eq_true, Bool.and_eq_true, Bool.or_eq_true, decide_eq_true_eq] at this
  obtain ⟨a, b⟩ := this n hn
  refine ⟨fun m hm he => ?_, fun hni => ?_⟩
  · rcases a m hm with h | h
    · exact absurd he h
    · exact h
  · rcases b with h | h
    · exact absurd h hni
    · exact h

theorem compatible_of {D E : CData} (h : membersb D E (fun m n => decide (n.ty = m.ty) &&
    match m.ty with | .enum x => enumGrowsb D E x | _ => true) (fun _ => true) = true) : Compatible D.table E.table := by
  intro c ms ns h1 h2 m hm n hn he
  have := (membersb_sound h h1 h2 hn).1 m hm he
  simp only [Bool.and_eq_true, decide_eq_true_eq] at this
  refine ⟨this.1, ?_⟩
  intro x hx
  have := this.2
  rw [hx] at this
  dsimp only at this
  unfold enumGrowsb at this
  split at this
  · rename_i e val e' val' g1 g2
    simp only [Bool.and_eq_true, decide_eq_true_eq, List.all_eq_true, List.any_eq_true] at this
    exact ⟨e, val, e', val', g1, g2, this.1, this.2⟩
  · cases this

theorem addsSafely_of {D E : CData} {k : Kind} (h : membersb D E (fun _ _ => true) (fun n => decide (k = .xml) ||
    match n.ty with | .simple ty => !viaLocal ty | _ => true) = true) : AddsSafely k D.table E.table := by
  intro c ms ns h1 h2 n hn hni hlost
  have := (membersb_sound h h1 h2 hn).2 hni
  unfold LostIfMissing at hlost
  split at hlost
  · rename_i ty hty
    obtain ⟨rfl, hl⟩ := hlost
    rw [hty] at this
    rcases hl with rfl | rfl | rfl | rfl <;> revert this <;> decide
  · exact hlost

theorem keepsDefaults_of {D E : CData} (h : membersb D E (fun m n => !m.ty.isLeaf ||
    E.table.memberDflt n == D.table.memberDflt m) (fun _ => true) = true) : KeepsDefaults D.table E.table := by
  intro c ms ns h1 h2 m hm n hn he hl
  have := (membersb_sound h h1 h2 hn).1 m hm he
  rw [hl] at this
  simpa using this

/-- The shapes after some work on them: `Color` and `Point` have grown, `Shape` has lost its name, been put in another order
and been given more members.  (Example, models no code.) -/
def nextText : Str :=
  c!"enum class Color{red,green=5,blue};struct Point{" ++ c!"int z{9};int x{1};unsigned int y{7};};struct Shape{" ++
  c!"bool filled{true};std::vector<Point> pts;" ++ c!"Color color{Color::red};long id{3};Point size;Point at;};"

/-- (Example, models no code.) -/
def nextDecls : Header where
  first := .enum true c!"Color" ⟨c!"red", none⟩ [⟨c!"green", some (.dec c!"5")⟩, ⟨c!"blue", none⟩] false
  more := [
    .struct c!"Point" (.simple .int c!"z" (.val (.int c!"9"))) [.simple .int c!"x" (.val (.int c!"1")),
      .simple .unsignedInt c!"y" (.val (.int c!"7"))],
    .struct c!"Shape" (.simple .bool c!"filled" (.val .true_)) [.vector c!"Point" c!"pts",
      .named c!"Color" c!"color" (.val (.enumerator c!"Color::red")), .simple .long c!"id" (.val (.int c!"3")),
      .named c!"Point" c!"size" .absent, .named c!"Point" c!"at" .absent]]

/-- (Example, models no code.) -/
def nextFiles : List (Str × Header) := [(nextText, nextDecls)]

/-- (Example, models no code.) -/
def nextPoint (z x y : Int) : Val := .struct [(c!"z", .num z), (c!"x", .num x), (c!"y", .num y)]
/-- (Example, models no code.) -/
def nextShape (filled : Bool) (ps : List Val) (color id : Int) (size at_ : Val) : Val :=
  .struct [(c!"filled", .bool filled), (c!"pts", .vec ps), (c!"color", .num color), (c!"id", .num id), (c!"size", size), (c!"at", at_)]

/-- (Example, models no code.) -/
def nextData : CData where
  cls := [
    (c!"Point", [⟨c!"z", .simple .int, some (.num 9)⟩, ⟨c!"x", .simple .int, some (.num 1)⟩,
      ⟨c!"y", .simple .unsignedInt, some (.num 7)⟩]),
    (c!"Shape", [⟨c!"filled", .simple .bool, some (.bool true)⟩, ⟨c!"pts", .vec c!"Point", none⟩,
      ⟨c!"color", .enum c!"Color", some (.num 0)⟩, ⟨c!"id", .simple .long, some (.num 3)⟩,
      ⟨c!"size", .struct c!"Point", none⟩, ⟨c!"at", .struct c!"Point", none⟩])]
  enm := [(c!"Color", ⟨c!"Color", true, [⟨c!"red", false, c!"-"⟩, ⟨c!"green", true, c!"5"⟩, ⟨c!"blue", false, c!"-"⟩]⟩,
    [(c!"red", 0), (c!"green", 5), (c!"blue", 6)])]
  dflt := [(c!"Point", nextPoint 9 1 7), (c!"Shape", nextShape true [] 0 3 (nextPoint 9 1 7) (nextPoint 9 1 7))]
  longBits := 64

theorem next_generated (k : Kind) (out : OutSpec) : Generated nextFiles k out (progOf nextFiles k out) :=
  generated_of (by decide +kernel) k out
theorem next_compiled : Compiled (nextFiles.flatMap fun f => f.2.decls) nextData.table :=
  CData.compiled (by decide +kernel)
theorem next_top : TopStruct (nextFiles.flatMap fun f => f.2.decls) c!"Shape" := topStruct_of (by decide +kernel)
theorem next_noInits : NoStructInits (nextFiles.flatMap fun f => f.2.decls) := noStructInits_of (by decide +kernel)
theorem next_compatible : Compatible shapeData.table nextData.table := compatible_of (by decide +kernel)

/-- Non-vacuity of C78 for full files. -/
example (k : Kind) (hk : k = .xml ∨ k = .attrib) (t : Val) (ht : CTable.WT nextData.table true (.struct c!"Shape") t) :
    ∃ w, ReadByNext shapeData.table nextData.table someLib (progOf shapeFiles k plainOut) (progOf nextFiles k plainOut) false
      c!"Shape" someShape t w ∧ Carried shapeData.table nextData.table (.struct c!"Shape") t someShape w := by
  refine C78_full_partial (shape_generated _ _) (next_generated _ _) hk rfl shape_compiled next_compiled shape_top next_top
    (Or.inl rfl) next_compatible ?_ someShape_wt (by decide +kernel) ((someShape_fits someLib).imp ?_) ht
  · rcases hk with rfl | rfl
    · exact addsSafely_of (by decide +kernel)
    · exact addsSafely_of (by decide +kernel)
  · intro ty v h
    refine ⟨h.1, ?_⟩
    rcases hk with rfl | rfl
    · exact h.2
    · unfold Visible
      split
      · intro h; cases h
      · trivial

/-- What the new program makes of that file, in a default object: the name is gone, the rest is there, and the new members
have their defaults. -/
example : ReadByNext shapeData.table nextData.table someLib (progOf shapeFiles .attrib plainOut) (progOf nextFiles .attrib plainOut)
    false c!"Shape" someShape (nextData.table.dflt c!"Shape")
    (nextShape true [nextPoint 9 1 7, nextPoint 9 2 4000000000] 5 (-42) (nextPoint 9 1 7) (nextPoint 9 (-3) 7)) := by
  unfold ReadByNext
  decide +kernel

/-- The other way round the change is not compatible: `blue` is unknown to the old program. -/
example : ¬ Compatible nextData.table shapeData.table := by
  intro h
  obtain ⟨_, h⟩ := h c!"Shape" _ _ rfl rfl ⟨c!"color", .enum c!"Color", some (.num 0)⟩ (by decide +kernel)
    ⟨c!"color", .enum c!"Color", some (.num 0)⟩ (by decide +kernel) rfl
  obtain ⟨e, val, e', val', h1, h2, _, h3⟩ := h c!"Color" rfl
  injection h1 with h1
  injection h1 with h1 _
  injection h2 with h2
  injection h2 with h2 _
  subst h1 h2
  obtain ⟨_, l, hl, hne⟩ := h3 ⟨c!"blue", false, c!"-"⟩ (by decide +kernel)
  revert hne
  revert l
  decide +kernel

/-- Non-vacuity of C78 for delta files: almost everything is a default. -/
example : ∃ w, ReadByNext shapeData.table nextData.table someLib (progOf shapeFiles .xml plainOut) (progOf nextFiles .xml plainOut) true
    c!"Shape" (shapeVal c!"abc" 3 0 (pointVal 1 7) [pointVal 1 7, pointVal 2 7]) (nextData.table.dflt c!"Shape") w ∧
    Carried shapeData.table nextData.table (.struct c!"Shape") (nextData.table.dflt c!"Shape")
      (shapeVal c!"abc" 3 0 (pointVal 1 7) [pointVal 1 7, pointVal 2 7]) w :=
  C78_default_partial (shape_generated _ _) (next_generated _ _) (Or.inl rfl) rfl shape_compiled next_compiled shape_noInits
    next_noInits shape_top next_top next_compatible (addsSafely_of (by decide +kernel)) (keepsDefaults_of (by decide +kernel))
    (wtb_sound _ _ (by decide +kernel)) (by decide +kernel)
    (leavesb_sound (p := keptDeltab .xml) (fun _ _ _ h => by
      rw [if_pos (by decide)]
      exact keptDelta_of h) _ _ _ (by decide +kernel))

/-- `struct Note{std::string s;};` with a member of type short.  (Example, models no code.) -/
def notedFiles : List (Str × Header) :=
  [(c!"struct Note{std::string s;short w{2};};", ⟨.struct c!"Note" (.simple .stdString c!"s" .absent)
    [.simple .short c!"w" (.val (.int c!"2"))], []⟩)]
/-- (Example, models no code.) -/
def notedData : CData where
  cls := [(c!"Note", [⟨c!"s", .simple .stdString, none⟩, ⟨c!"w", .simple .short, some (.num 2)⟩])]
  enm := []
  dflt := [(c!"Note", .struct [(c!"s", .str []), (c!"w", .num 2)])]
  longBits := 32

/-- Non-vacuity of C78 for element XML: the old program reads files of the new one, and passes over the new member. -/
example (t : Val) (ht : CTable.WT noteData.table true (.struct c!"Note") t) :
    ∃ w, ReadByNext notedData.table noteData.table someLib (progOf notedFiles .xml plainOut) (progOf noteFiles .xml plainOut) false
      c!"Note" (.struct [(c!"s", .str c!"a"), (c!"w", .num 7)]) t w ∧
      Carried notedData.table noteData.table (.struct c!"Note") t (.struct [(c!"s", .str c!"a"), (c!"w", .num 7)]) w := by
  have hT : Compiled (notedFiles.flatMap fun f => f.2.decls) notedData.table := CData.compiled (by decide +kernel)
  refine C78_element_partial (generated_of (by decide +kernel) _ _) (generated_of (by decide +kernel) _ _) rfl hT
    (CData.compiled (by decide +kernel)) (topStruct_of (by decide +kernel)) (topStruct_of (by decide +kernel)) (Or.inl rfl)
    (compatible_of (by decide +kernel)) (wtb_sound _ _ (by decide +kernel)) (by decide +kernel) ?_ ht
  refine (leavesb_sound (p := fun ty _ v => fitsb ty v && visibleb .xml ty v)
    (P := fun ty _ v => Fits someLib ty v ∧ Visible .xml ty v) ?_ _ _ .undef (by decide +kernel)).leaves hT.good
  intro ty d v h
  rw [Bool.and_eq_true] at h
  exact ⟨fits_of h.1, visible_of h.2⟩

/-- The same struct with a default for its string.  (Example, models no code.) -/
def filledFiles : List (Str × Header) :=
  [(c!"struct Note{std::string s{\"x\"};};", ⟨.struct c!"Note" (.simple .stdString c!"s" (.val (.string c!"\"x\""))) [], []⟩)]
/-- (Example, models no code.) -/
def filledData : CData where
  cls := [(c!"Note", [⟨c!"s", .simple .stdString, some (.str c!"x")⟩])]
  enm := []
  dflt := [(c!"Note", .struct [(c!"s", .str c!"x")])]
  longBits := 32

/-- C78 as stated is false for attribute XML: if a member of type short or long is added, reading an old file is undefined
behaviour. -/
theorem C78_attrib_refuted : ¬ SurvivesClaim .attrib false := by
  intro h
  obtain ⟨w, h1, _⟩ := h noteFiles notedFiles plainOut plainOut _ _ noteData.table notedData.table someLib c!"Note"
    (.struct [(c!"s", .str c!"a")]) (generated_of (by decide +kernel) _ _) (generated_of (by decide +kernel) _ _) rfl
    (CData.compiled (by decide +kernel)) (CData.compiled (by decide +kernel)) (topStruct_of (by decide +kernel))
    (topStruct_of (by decide +kernel)) (compatible_of (by decide +kernel)) (wtb_sound _ _ (by decide +kernel))
    (by unfold FileGives; decide +kernel)
  have hub : (writeFile noteData.table someLib (progOf noteFiles .attrib plainOut) false c!"Note" (.struct [(c!"s", .str c!"a")]) >>=
      fun root => readFile notedData.table someLib (progOf notedFiles .attrib plainOut) c!"Note" (loadSaved someLib root)
        (notedData.table.dflt c!"Note")) = .ub := by decide +kernel
  unfold ReadByNext at h1
  rw [hub] at h1
  cases h1

/-- A member of a struct that both versions have. -/
theorem Carried.member {T U : CTable} {c : Str} {ts fs ws : List (Str × Val)}
    (h : Carried T U (.struct c) (.struct ts) (.struct fs) (.struct ws)) {ms ns : List CMember} (h1 : T.cls c = some ms)
    (h2 : U.cls c = some ns) {m n : CMember} (hm : m ∈ ms) (hn : n ∈ ns) (he : n.name = m.name) (hl : m.ty.isLeaf = true)
    {t v w : Val} (ht : ts.lookup m.name = some t) (hv : fs.lookup m.name = some v) (hw : ws.lookup m.name = some w) : w = v := by
  cases h with
  | leaf hl => cases hl
  | struct a1 a2 _ _ _ h _ =>
    rw [h1] at a1
    cases a1
    rw [h2] at a2
    cases a2
    have := h m hm n hn he t v w ht hv hw
    generalize m.ty = ty at this hl
    cases this with
    | leaf _ => rfl
    | struct _ _ _ _ _ _ _ => cases hl
    | vec _ _ => cases hl

/-- A change of a default changes what old files mean. -/
theorem changed_default {k : Kind} {delta : Bool} {v : Str}
    (hg : FileGives noteData.table someLib (progOf noteFiles k plainOut) delta c!"Note" (.struct [(c!"s", .str v)])
      (noteData.table.dflt c!"Note") (.struct [(c!"s", .str v)]))
    (hr : ReadByNext noteData.table filledData.table someLib (progOf noteFiles k plainOut) (progOf filledFiles k plainOut) delta
      c!"Note" (.struct [(c!"s", .str v)]) (filledData.table.dflt c!"Note") (.struct [(c!"s", .str c!"x")]))
    (hne : v ≠ c!"x") : ¬ SurvivesClaim k delta := by
  intro h
  obtain ⟨w, h1, h2⟩ := h noteFiles filledFiles plainOut plainOut _ _ noteData.table filledData.table someLib c!"Note"
    (.struct [(c!"s", .str v)]) (generated_of (by decide +kernel) _ _) (generated_of (by decide +kernel) _ _) rfl
    (CData.compiled (by decide +kernel)) (CData.compiled (by decide +kernel)) (topStruct_of (by decide +kernel))
    (topStruct_of (by decide +kernel)) (compatible_of (by decide +kernel))
    (.struct (ms := [⟨c!"s", .simple .stdString, none⟩]) rfl rfl (by
      intro m hm v' hl
      rw [List.mem_singleton] at hm
      subst hm
      cases hl
      exact .simple rfl)) hg
  unfold ReadByNext at h1 hr
  rw [hr] at h1
  injection h1 with h1
  injection h1 with _ h1
  subst h1
  have := h2.member (m := ⟨c!"s", .simple .stdString, none⟩) (n := ⟨c!"s", .simple .stdString, some (.str c!"x")⟩) rfl rfl
    (by simp) (by simp) rfl rfl (t := .str c!"x") rfl rfl rfl
  injection this with this
  exact hne this.symm

/-- C78 as stated is false for delta files: a member that had its old default is left out, and is read with its new default. -/
theorem C78_delta_refuted (k : Kind) (hk : k = .xml ∨ k = .attrib) : ¬ SurvivesClaim k true := by
  rcases hk with rfl | rfl
  · exact changed_default (v := []) (by unfold FileGives; decide +kernel) (by unfold ReadByNext; decide +kernel) (by decide)
  · exact changed_default (v := []) (by unfold FileGives; decide +kernel) (by unfold ReadByNext; decide +kernel) (by decide)

/-- C78 as stated is false for full files of element XML: an empty string, which had been the default, is read with its new
default. -/
theorem C78_element_refuted : ¬ SurvivesClaim .xml false :=
  changed_default (v := []) (by unfold FileGives; decide +kernel) (by unfold ReadByNext; decide +kernel) (by decide)

end Stfx.Run
