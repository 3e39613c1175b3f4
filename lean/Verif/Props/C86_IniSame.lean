import Verif.Props.C51_C57_IniRead
/-
C86: what an n_ini reader makes of a file depends on the items of the members only, not on their order or on anything else in the file.
-/
set_option autoImplicit false

namespace Stfx.Run
open Stfx.Items Stfx.Parser Stfx.Gen

section
variable {T : CTable} {L : IniLib} {prog : List Item} {fs : List (Str × Header)} {out : OutSpec}

/-- The object of type `c` with the section `path` has (or is) an object of type `d` with the section `q`.
(Specification notion, models no code.) -/
inductive Sect (T : CTable) : Str → Str → Str → Str → Prop
  | here {path c : Str} : Sect T path c path c
  | inner {path c c' q d : Str} {ms : List CMember} {m : CMember} : T.cls c = some ms → m ∈ ms → m.ty = .struct c' →
      Sect T (lowerPath path (spaced m.name)) c' q d → Sect T path c q d

/-- `n` is a simple or enum member of an object in the section `q` of files for structs `c`.  (Specification notion, models no code.) -/
def IsItem (T : CTable) (c q n : Str) : Prop :=
  ∃ d ms m, Sect T [] c q d ∧ T.cls d = some ms ∧ m ∈ ms ∧ m.ty.isLeaf = true ∧ m.name = n

theorem runLooks_same {c : Str} {items items' : Items} {ls : List Look} (h : ∀ l ∈ ls, items.lookup l.member = items'.lookup l.member)
    (fs : List (Str × Val)) : runLooks T L c items ls fs = runLooks T L c items' ls fs := by
  induction ls generalizing fs with
  | nil => rfl
  | cons l ls ih =>
    have ih := ih fun l hl => h l (List.mem_cons_of_mem _ hl)
    unfold runLooks
    rw [h l List.mem_cons_self]
    cases items'.lookup l.member with
    | none => exact ih fs
    | some s =>
      simp only
      cases lookConv T L c l s with
      | val v =>
        simp only
        cases modifyField l.member (fun _ => .ok v) fs with
        | ok fs' => exact ih fs'
        | ub => rfl
        | stuck => rfl
      | keep => exact ih fs
      | throws => rfl
      | ub => rfl
      | stuck => rfl

theorem runLooks_none {c : Str} {items : Items} {ls : List Look} (h : ∀ l ∈ ls, items.lookup l.member = none)
    (fs : List (Str × Val)) : runLooks T L c items ls fs = .ok (true, fs) := by
  induction ls with
  | nil => rfl
  | cons l ls ih =>
    unfold runLooks
    rw [h l List.mem_cons_self]
    exact ih fun l hl => h l (List.mem_cons_of_mem _ hl)

theorem runSection_same {U U' : List (Str × Items)} {c path : Str} {looks : Option (List Look)}
    (h : ∀ ls, looks = some ls → ∀ l ∈ ls, itemText U path l.member = itemText U' path l.member) (fs : List (Str × Val)) :
    runSection T L U c path looks fs = runSection T L U' c path looks fs := by
  cases looks with
  | none => rfl
  | some ls =>
    have h := h ls rfl
    unfold itemText at h
    unfold runSection
    simp only
    by_cases hcl : ls.any clash = true
    · rw [if_pos hcl, if_pos hcl]
    · rw [if_neg hcl, if_neg hcl]
      cases h1 : U.lookup path with
      | none =>
        cases h2 : U'.lookup path with
        | none => rfl
        | some b => exact (runLooks_none (fun l hl => by have := h l hl; rw [h1, h2] at this; exact this.symm) fs).symm
      | some a =>
        cases h2 : U'.lookup path with
        | none => exact runLooks_none (fun l hl => by have := h l hl; rw [h1, h2] at this; exact this) fs
        | some b => exact runLooks_same (fun l hl => by have := h l hl; rw [h1, h2] at this; exact this) fs

theorem runKids_same {subs subs' : List (Str × (Str → Str → R (Bool × Val)))} {path : Str} {body : List NRd}
    (h : ∀ n ty sp, NRd.child n ty sp ∈ body → (subs.lookup n).map (fun f => f ty (path ++ sp)) = (subs'.lookup n).map fun f => f ty (path ++ sp))
    (rv : Bool) (fs : List (Str × Val)) : runKids subs path body rv fs = runKids subs' path body rv fs := by
  induction body generalizing rv fs with
  | nil => rfl
  | cons r body ih =>
    have ih := ih fun n ty sp hm => h n ty sp (List.mem_cons_of_mem _ hm)
    cases r with
    | child n ty sp =>
      have h1 := h n ty sp List.mem_cons_self
      unfold runKids field
      cases h2 : subs.lookup n with
      | none =>
        cases h3 : subs'.lookup n with
        | none => rfl
        | some g => rw [h2, h3] at h1; cases h1
      | some f =>
        cases h3 : subs'.lookup n with
        | none => rw [h2, h3] at h1; cases h1
        | some g =>
          rw [h2, h3] at h1
          have h4 : f ty (path ++ sp) = g ty (path ++ sp) := Option.some.inj h1
          simp only [R.ok_bind, h4]
          cases g ty (path ++ sp) with
          | ub => rfl
          | stuck => rfl
          | ok r =>
            obtain ⟨b, v⟩ := r
            simp only [R.ok_bind]
            cases modifyField n (fun _ => .ok v) fs with
            | ub => rfl
            | stuck => rfl
            | ok fs' => exact ih b fs'
    | vector _ => exact ih rv fs
    | fixme _ => exact ih rv fs
    | warn _ => exact ih rv fs

/-- Reading depends on the items of the members. -/
theorem nrd_same (hc : NRdCode T prog) {U U' : List (Str × Items)} {u : Bool} {ty : MTy} {t : Val} (ht : CTable.WT T u ty t) :
    ∀ c path, ty = .struct c →
      (∀ q d ms m, Sect T path c q d → T.cls d = some ms → m ∈ ms → m.ty.isLeaf = true → itemText U q m.name = itemText U' q m.name) →
      nrdVal T L prog U t c path = nrdVal T L prog U' t c path := by
  induction ht with
  | undef _ h _ _ => intro c path e; exact absurd e (h c)
  | simple => intro c path e; cases e
  | enum => intro c path e; cases e
  | vec => intro c path e; cases e
  | @struct n ms ts hcls hnames _ ih =>
    intro c path e h
    cases e
    obtain ⟨dot, hbody, hdot⟩ := hc.rd _ ms hcls
    rw [nrdVal, nrdVal]
    unfold runNRd
    rw [hbody]
    dsimp only
    rw [looks_leafLines]
    simp only [kids_kidLines]
    have h1 := runSection_same (T := T) (L := L) (U := U) (U' := U') (c := n) (path := path)
      (looks := if ms.any (fun m => isSimpleTy m.ty) then some ((leafLines ms).filterMap lineLook) else none) (by
        intro ls hls l hl
        split at hls
        · cases hls
          obtain ⟨p, hp, e⟩ := looks_leafs l hl
          obtain ⟨m, hm, rfl, hlf⟩ := mem_leafLines hp
          rw [e]
          exact h path n ms m .here hcls hm hlf
        · cases hls) ts
    rw [h1]
    cases runSection T L U' n path (if ms.any (fun m => isSimpleTy m.ty) then some ((leafLines ms).filterMap lineLook) else none) ts with
    | ub => rfl
    | stuck => rfl
    | ok r =>
      obtain ⟨done, fs1⟩ := r
      simp only [R.ok_bind]
      cases done with
      | false => rfl
      | true =>
        simp only [if_true]
        rw [runKids_same (subs := nrdFields T L prog U ts) (subs' := nrdFields T L prog U' ts)]
        intro n' ty' sp hm'
        obtain ⟨q, hq, e⟩ := List.mem_filterMap.1 hm'
        obtain ⟨m, hm, rfl, c', hc'⟩ := mem_kidLines hq
        simp only [hc', lineNRd, Option.some.injEq, NRd.child.injEq] at e
        obtain ⟨rfl, rfl, rfl⟩ := e
        have hpath : (if (dot && decide (path ≠ [])) = true then path ++ c!"." else path) ++ spaced m.name = lowerPath path (spaced m.name) := by
          have : dot = true := hdot (by rw [List.any_eq_true]; exact ⟨m, hm, by rw [hc']; rfl⟩)
          rw [this]
          unfold lowerPath
          by_cases hp : path = [] <;> simp [hp]
        rw [hpath, nrdFields_lookup, nrdFields_lookup]
        cases hl : ts.lookup m.name with
        | none => rfl
        | some t =>
          simp only [Option.map_some, Option.some.injEq]
          exact ih m hm t hl c' _ hc' fun q d ms' m' hs => h q d ms' m' (.inner hcls hm hc' hs)

/-- C86: two readers that, after reading their files, have the same items for the members read the same object, or both have undefined
behaviour. -/
theorem C86_same (hG : Generated fs .nIni out prog) (hT : Compiled (fs.flatMap fun f => f.2.decls) T)
    {n : Str} (hn : TopStruct (fs.flatMap fun f => f.2.decls) n) {u : Bool} {t : Val} (ht : CTable.WT T u (.struct n) t) {st st' : IniSt}
    {text text' : Str} (h : ∀ q i, IsItem T n q i → itemText (st.load text).under q i = itemText (st'.load text').under q i) :
    (∀ b w, iniRead T L prog n st (some text) t = .ok ((b, w), st.load text) ↔
      iniRead T L prog n st' (some text') t = .ok ((b, w), st'.load text')) ∧
    (iniRead T L prog n st (some text) t = .ub ↔ iniRead T L prog n st' (some text') t = .ub) := by
  obtain ⟨hc, hr⟩ := hG.nrdCode hT
  have e := nrd_same (L := L) hc (U := (st.load text).under) (U' := (st'.load text').under) ht n [] rfl
    fun q d ms m h1 h2 h3 h4 => h q m.name ⟨d, ms, m, h1, h2, h3, h4, rfl⟩
  unfold iniRead
  simp only [if_pos (hr n hn), e]
  cases nrdVal T L prog (st'.load text').under t n [] with
  | ub => exact ⟨fun b w => ⟨fun h => (by cases h), fun h => (by cases h)⟩, Iff.rfl⟩
  | stuck => exact ⟨fun b w => ⟨fun h => (by cases h), fun h => (by cases h)⟩, Iff.rfl⟩
  | ok r =>
    refine ⟨fun b w => ?_, ⟨fun h => (by cases h), fun h => (by cases h)⟩⟩
    simp only [R.ok_bind, R.ok.injEq, Prod.mk.injEq, and_true]

/-! ### Files of sections -/

/-- The entries of a file of sections.  (Specification notion, models no code.) -/
def sectionEntries (ss : List (Str × List Entry)) : List Entry := ss.flatMap fun p => .heading p.1 :: p.2

/-- A file of sections: each has its own heading, the lines contain what they seem to, and the last item is not a multi-line one.
(Specification notion, models no code.) -/
structure Sections (ss : List (Str × List Entry)) : Prop where
  nodup : (ss.map Prod.fst).Nodup
  bodies : ∀ p ∈ ss, ∀ e ∈ p.2, e.isHeading = false
  good : ∀ e ∈ sectionEntries ss, e.Good
  ends : stored (sectionEntries ss) = sectionEntries ss

theorem sectionOf_body {b : List Entry} (h : ∀ e ∈ b, e.isHeading = false) (k : Str) (es : List Entry) : sectionOf k (b ++ es) = sectionOf k es := by
  induction b with
  | nil => rfl
  | cons e b ih =>
    have ih := ih fun e he => h e (List.mem_cons_of_mem _ he)
    have he := h e List.mem_cons_self
    cases e with
    | heading k' => cases he
    | item _ _ => exact ih
    | multi _ _ => exact ih
    | blank => exact ih
    | comment _ => exact ih

theorem takeWhile_body {b : List Entry} (h : ∀ e ∈ b, e.isHeading = false) (ss : List (Str × List Entry)) :
    (b ++ sectionEntries ss).takeWhile (fun e => !e.isHeading) = b := by
  induction b with
  | nil =>
    cases ss with
    | nil => rfl
    | cons p ss => rfl
  | cons e b ih =>
    rw [List.cons_append, List.takeWhile_cons, h e List.mem_cons_self, ih fun e he => h e (List.mem_cons_of_mem _ he)]
    rfl

theorem sectionOf_sections {ss : List (Str × List Entry)} (hnd : (ss.map Prod.fst).Nodup) (hb : ∀ p ∈ ss, ∀ e ∈ p.2, e.isHeading = false) (k : Str) :
    sectionOf k (sectionEntries ss) = ss.lookup k := by
  induction ss with
  | nil => rfl
  | cons p ss ih =>
    obtain ⟨k', b⟩ := p
    rw [List.map_cons, List.nodup_cons] at hnd
    have ih := ih hnd.2 fun p hp => hb p (List.mem_cons_of_mem _ hp)
    have h1 := hb (k', b) List.mem_cons_self
    rw [show sectionEntries ((k', b) :: ss) = .heading k' :: (b ++ sectionEntries ss) from by simp [sectionEntries]]
    unfold sectionOf
    rw [sectionOf_body h1, ih, takeWhile_body h1, List.lookup_cons]
    by_cases e : k' = k
    · subst e
      have : ss.lookup k' = none := by
        rw [List.lookup_eq_none_iff]
        intro p hp
        simp only [bne_iff_ne, ne_eq]
        intro e
        exact hnd.1 (List.mem_map.2 ⟨p, hp, by simp [e]⟩)
      rw [this]
      simp
    · have : (k == k') = false := by simp [Ne.symm e]
      rw [this]
      cases ss.lookup k with
      | none => simp [e]
      | some x => rfl

/-- The item `n` of the section `k`, for a reader that has read other files before.  (Specification notion, models no code.) -/
theorem item_sections {ss : List (Str × List Entry)} (h : Sections ss) (st : IniSt) (k n : Str) :
    itemText (st.load (entriesText (sectionEntries ss))).under k n = match ss.lookup k with
      | some b => itemOf n b
      | none => itemText st.under k n := by
  rw [C56_partial h.good st k n, h.ends, sectionOf_sections h.nodup h.bodies]
  rfl

theorem itemOf_eq (n : Str) (b : List Entry) : itemOf n b = ((b.filterMap Entry.nameValue).reverse).lookup n := by
  induction b with
  | nil => rfl
  | cons e b ih =>
    unfold itemOf
    rw [ih, List.filterMap_cons]
    cases he : e.nameValue with
    | none => simp only; cases (b.filterMap Entry.nameValue).reverse.lookup n <;> rfl
    | some p =>
      obtain ⟨m, s⟩ := p
      simp only [List.reverse_cons, List.lookup_append]
      cases (b.filterMap Entry.nameValue).reverse.lookup n with
      | some x => rfl
      | none =>
        simp only [Option.none_or, List.lookup_cons, List.lookup_nil]
        by_cases e : m = n
        · subst e; simp
        · have : (n == m) = false := by simp [Ne.symm e]
          rw [this]; simp [e]

theorem lookup_of_perm {α : Type} {as bs : List (Str × α)} (h : as.Perm bs) (hnd : (as.map Prod.fst).Nodup) (n : Str) :
    as.lookup n = bs.lookup n := by
  induction h with
  | nil => rfl
  | cons p _ ih =>
    rw [List.map_cons, List.nodup_cons] at hnd
    rw [List.lookup_cons, List.lookup_cons, ih hnd.2]
  | swap p q l =>
    simp only [List.map_cons, List.nodup_cons, List.mem_cons, not_or] at hnd
    have hne := hnd.1.1
    obtain ⟨a, s⟩ := p
    obtain ⟨b, s'⟩ := q
    simp only [List.lookup_cons]
    cases h1 : n == a <;> cases h2 : n == b <;> try rfl
    rw [beq_iff_eq] at h1 h2
    exact absurd (h2.symm.trans h1) hne
  | trans h1 _ ih1 ih2 => rw [ih1 hnd, ih2 ((h1.map Prod.fst).nodup_iff.1 hnd)]

/-- Sections with the same items, of one name each, in any order, among any comments and empty lines.
(Specification notion, models no code.) -/
def SameBody (b b' : List Entry) : Prop :=
  ((b.filterMap Entry.nameValue).map Prod.fst).Nodup ∧ (b.filterMap Entry.nameValue).Perm (b'.filterMap Entry.nameValue)

theorem SameBody.item {b b' : List Entry} (h : SameBody b b') (n : Str) : itemOf n b = itemOf n b' := by
  rw [itemOf_eq, itemOf_eq]
  refine lookup_of_perm (((List.reverse_perm _).trans h.2).trans (List.reverse_perm _).symm) ?_ n
  rw [List.map_reverse]
  exact (List.reverse_perm _).nodup_iff.2 h.1

/-- The return value and the object, or undefined behaviour.  (Specification notion, models no code.) -/
def IniAlike (T : CTable) (L : IniLib) (prog : List Item) (n : Str) (st : IniSt) (t : Val) (text text' : Str) : Prop :=
  (∀ b w, iniRead T L prog n st (some text) t = .ok ((b, w), st.load text) ↔ iniRead T L prog n st (some text') t = .ok ((b, w), st.load text')) ∧
  (iniRead T L prog n st (some text) t = .ub ↔ iniRead T L prog n st (some text') t = .ub)

/-- C86: files with the same sections in any order, and in each of them the same items in any order, are read alike; comments and
empty lines may stand anywhere. -/
theorem C86_order (hG : Generated fs .nIni out prog) (hT : Compiled (fs.flatMap fun f => f.2.decls) T)
    {n : Str} (hn : TopStruct (fs.flatMap fun f => f.2.decls) n) {u : Bool} {t : Val} (ht : CTable.WT T u (.struct n) t) (st : IniSt)
    {ss ss' : List (Str × List Entry)} (h : Sections ss) (h' : Sections ss') (hk : ∀ k, k ∈ ss.map Prod.fst ↔ k ∈ ss'.map Prod.fst)
    (hb : ∀ k b b', (k, b) ∈ ss → (k, b') ∈ ss' → SameBody b b') :
    IniAlike T L prog n st t (entriesText (sectionEntries ss)) (entriesText (sectionEntries ss')) := by
  refine C86_same hG hT hn ht fun q i _ => ?_
  rw [item_sections h, item_sections h']
  have hmem : ∀ (zs : List (Str × List Entry)) {b}, zs.lookup q = some b → (q, b) ∈ zs := by
    intro zs b hz
    obtain ⟨l1, l2, rfl, _⟩ := List.lookup_eq_some_iff.1 hz
    simp
  have hnone : ∀ (zs : List (Str × List Entry)), zs.lookup q = none → q ∉ zs.map Prod.fst := by
    intro zs hz hm
    obtain ⟨p, hp, rfl⟩ := List.mem_map.1 hm
    have := List.lookup_eq_none_iff.1 hz p hp
    simp at this
  cases h1 : ss.lookup q with
  | none =>
    cases h2 : ss'.lookup q with
    | none => rfl
    | some b' => exact absurd ((hk q).2 (List.mem_map_of_mem (hmem _ h2))) (hnone _ h1)
  | some b =>
    cases h2 : ss'.lookup q with
    | none => exact absurd ((hk q).1 (List.mem_map_of_mem (hmem _ h1))) (hnone _ h2)
    | some b' => exact (hb q b b' (hmem _ h1) (hmem _ h2)).item i

theorem lookup_insert_ne {α : Type} {as bs : List (Str × α)} {x n : Str} {s : α} (h : n ≠ x) :
    (as ++ (x, s) :: bs).lookup n = (as ++ bs).lookup n := by
  rw [List.lookup_append, List.lookup_append, List.lookup_cons]
  have : (n == x) = false := by simp [h]
  rw [this]

/-- C86: a section that belongs to no object is passed over. -/
theorem C86_unknown_section (hG : Generated fs .nIni out prog) (hT : Compiled (fs.flatMap fun f => f.2.decls) T)
    {n : Str} (hn : TopStruct (fs.flatMap fun f => f.2.decls) n) {u : Bool} {t : Val} (ht : CTable.WT T u (.struct n) t) (st : IniSt)
    {pre post : List (Str × List Entry)} {k : Str} {b : List Entry} (h : Sections (pre ++ (k, b) :: post)) (h' : Sections (pre ++ post))
    (hk : ∀ d, ¬ Sect T [] n k d) :
    IniAlike T L prog n st t (entriesText (sectionEntries (pre ++ (k, b) :: post))) (entriesText (sectionEntries (pre ++ post))) := by
  refine C86_same hG hT hn ht fun q i hi => ?_
  rw [item_sections h, item_sections h', lookup_insert_ne]
  rintro rfl
  obtain ⟨d, _, _, hd, _⟩ := hi
  exact hk d hd

/-- C86: an item that belongs to no member is passed over. -/
theorem C86_unknown_item (hG : Generated fs .nIni out prog) (hT : Compiled (fs.flatMap fun f => f.2.decls) T)
    {n : Str} (hn : TopStruct (fs.flatMap fun f => f.2.decls) n) {u : Bool} {t : Val} (ht : CTable.WT T u (.struct n) t) (st : IniSt)
    {pre post : List (Str × List Entry)} {k x s : Str} {a b : List Entry} {e : Entry} (he : e.nameValue = some (x, s))
    (h : Sections (pre ++ (k, a ++ e :: b) :: post)) (h' : Sections (pre ++ (k, a ++ b) :: post)) (hx : ¬ IsItem T n k x) :
    IniAlike T L prog n st t (entriesText (sectionEntries (pre ++ (k, a ++ e :: b) :: post))) (entriesText (sectionEntries (pre ++ (k, a ++ b) :: post))) := by
  refine C86_same hG hT hn ht fun q i hi => ?_
  rw [item_sections h, item_sections h']
  by_cases hq : q = k
  · subst hq
    have hi' : i ≠ x := by rintro rfl; exact hx hi
    rw [List.lookup_append, List.lookup_append, List.lookup_cons, List.lookup_cons]
    cases pre.lookup q with
    | some _ => rfl
    | none =>
      simp only [beq_self_eq_true, Option.none_or]
      rw [itemOf_eq, itemOf_eq]
      simp only [List.filterMap_append, List.filterMap_cons, he, List.reverse_append, List.reverse_cons, List.append_assoc, List.singleton_append]
      rw [lookup_insert_ne hi']
  · rw [lookup_insert_ne hq, lookup_insert_ne hq]

end

/-! ### Examples -/

/-- (Example, models no code.) -/
def sameOne : List (Str × List Entry) :=
  [(c!"opt.main db", [.item c!"host" c!"x y", .item c!"max_conn" c!"7", .blank]), (c!"other db", [.item c!"level" c!"high"])]
/-- The sections and items in another order.  (Example, models no code.) -/
def sameTwo : List (Str × List Entry) :=
  [(c!"other db", [.comment c!" spare", .item c!"level" c!"high"]), (c!"opt.main db", [.item c!"max_conn" c!"7", .item c!"host" c!"x y"])]
/-- A section and an item more.  (Example, models no code.) -/
def sameThree : List (Str × List Entry) :=
  [(c!"other db", [.item c!"color" c!"red", .item c!"level" c!"high"]), (c!"log", [.item c!"level" c!"low"])]

instance (ss : List (Str × List Entry)) : Decidable (Sections ss) :=
  decidable_of_iff ((ss.map Prod.fst).Nodup ∧ (∀ p ∈ ss, ∀ e ∈ p.2, e.isHeading = false) ∧ (∀ e ∈ sectionEntries ss, e.Good) ∧
    stored (sectionEntries ss) = sectionEntries ss) ⟨fun ⟨a, b, c, d⟩ => ⟨a, b, c, d⟩, fun ⟨a, b, c, d⟩ => ⟨a, b, c, d⟩⟩

instance (b b' : List Entry) : Decidable (SameBody b b') := by unfold SameBody; infer_instance

/-- The object is read from both files. -/
example : IniAlike confData.table someIniLib (progOf confFiles .nIni plainOut) c!"Conf" IniSt.init (confData.table.dflt c!"Conf")
    (entriesText (sectionEntries sameOne)) (entriesText (sectionEntries sameTwo)) := by
  refine C86_order (u := false) (conf_generated _ _) conf_compiled conf_top (wtb_sound _ _ (by decide +kernel)) _ (by decide +kernel) (by decide +kernel) ?_ ?_
  · intro k
    simp only [sameOne, sameTwo, List.map_cons, List.map_nil, List.mem_cons, List.not_mem_nil, or_false]
    exact or_comm
  · intro k b b' h1 h2
    have : ∀ p ∈ sameOne, ∀ p' ∈ sameTwo, p.1 = p'.1 → SameBody p.2 p'.2 := by decide +kernel
    exact this _ h1 _ h2 rfl
example : iniRead confData.table someIniLib (progOf confFiles .nIni plainOut) c!"Conf" IniSt.init
      (some (entriesText (sectionEntries sameTwo))) (confData.table.dflt c!"Conf") =
    .ok ((true, confVal (dbVal c!"x y" 7 0) (dbVal c!"a" 1 0) (dbVal c!"a" 1 5)), IniSt.init.load (entriesText (sectionEntries sameTwo))) := by
  decide +kernel

theorem Sect.step {T : CTable} {p c q d : Str} (h : Sect T p c q d) : (q = p ∧ d = c) ∨ ∃ m ∈ (T.cls c).getD [], ∃ c', m.ty = .struct c' ∧
    Sect T (lowerPath p (spaced m.name)) c' q d := by
  cases h with
  | here => exact .inl ⟨rfl, rfl⟩
  | @inner _ _ c' _ _ ms m h1 h2 h3 h4 => exact .inr ⟨m, by rw [h1]; exact h2, c', h3, h4⟩

/-- The sections of `Conf`. -/
theorem conf_sect {q d : Str} (h : Sect confData.table [] c!"Conf" q d) :
    (q, d) ∈ [(([] : Str), c!"Conf"), (c!"opt", c!"Opt"), (c!"opt.main db", c!"Db"), (c!"opt.spare", c!"Db"), (c!"other db", c!"Db")] := by
  have hdb : ∀ {p}, Sect confData.table p c!"Db" q d → q = p ∧ d = c!"Db" := by
    intro p h
    rcases h.step with h | ⟨m, hm, c', hc', _⟩
    · exact h
    · rcases List.mem_cons.1 hm with rfl | hm
      · cases hc'
      rcases List.mem_cons.1 hm with rfl | hm
      · cases hc'
      rcases List.mem_cons.1 hm with rfl | hm
      · cases hc'
      cases hm
  rcases h.step with ⟨rfl, rfl⟩ | ⟨m, hm, c', hc', h⟩
  · simp
  rcases List.mem_cons.1 hm with rfl | hm
  · cases hc'
    rcases h.step with ⟨rfl, rfl⟩ | ⟨m, hm, c', hc', h⟩
    · decide
    rcases List.mem_cons.1 hm with rfl | hm
    · cases hc'
      obtain ⟨rfl, rfl⟩ := hdb h
      decide
    rcases List.mem_cons.1 hm with rfl | hm
    · cases hc'
      obtain ⟨rfl, rfl⟩ := hdb h
      decide
    cases hm
  rcases List.mem_cons.1 hm with rfl | hm
  · cases hc'
    obtain ⟨rfl, rfl⟩ := hdb h
    decide
  cases hm

/-- The section `log` is passed over. -/
example : IniAlike confData.table someIniLib (progOf confFiles .nIni plainOut) c!"Conf" IniSt.init (confData.table.dflt c!"Conf")
    (entriesText (sectionEntries sameThree)) (entriesText (sectionEntries [(c!"other db", [.item c!"color" c!"red", .item c!"level" c!"high"])])) :=
  C86_unknown_section (u := false) (pre := [(c!"other db", [.item c!"color" c!"red", .item c!"level" c!"high"])]) (post := []) (k := c!"log")
    (conf_generated _ _) conf_compiled conf_top (wtb_sound _ _ (by decide +kernel)) _ (by decide +kernel) (by decide +kernel) (fun d h => by
      have := conf_sect h
      revert this
      simp)

/-- The item `color` is passed over. -/
example : IniAlike confData.table someIniLib (progOf confFiles .nIni plainOut) c!"Conf" IniSt.init (confData.table.dflt c!"Conf")
    (entriesText (sectionEntries sameThree)) (entriesText (sectionEntries [(c!"other db", [.item c!"level" c!"high"]), (c!"log", [.item c!"level" c!"low"])])) := by
  refine C86_unknown_item (u := false) (pre := []) (post := [(c!"log", [.item c!"level" c!"low"])]) (k := c!"other db") (a := []) (b := [.item c!"level" c!"high"])
    (e := .item c!"color" c!"red") (conf_generated _ _) conf_compiled conf_top (wtb_sound _ _ (by decide +kernel)) _ rfl (by decide +kernel) (by decide +kernel) ?_
  rintro ⟨d, ms, m, h1, h2, h3, _, h4⟩
  have hd : d = c!"Db" := by
    have := conf_sect h1
    simpa using this
  subst hd
  cases h2
  revert h4
  have : ∀ m ∈ (confData.table.cls c!"Db").getD [], m.name ≠ c!"color" := by decide +kernel
  exact this m h3

/-- Of items with one name the last counts, so their order matters. -/
example : (iniRead confData.table someIniLib (progOf confFiles .nIni plainOut) c!"Conf" IniSt.init
      (some c!"[other db]\nmax_conn 3\nmax_conn 4\n") (confData.table.dflt c!"Conf")) =
    .ok ((true, confVal (dbVal c!"a" 1 0) (dbVal c!"a" 1 0) (dbVal c!"a" 4 0)), IniSt.init.load c!"[other db]\nmax_conn 3\nmax_conn 4\n") := by
  decide +kernel

end Stfx.Run
