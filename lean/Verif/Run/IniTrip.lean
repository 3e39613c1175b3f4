import Verif.Run.IniCode
/-
Writing an object to an n_ini file and reading it back.
-/
set_option autoImplicit false
namespace Stfx.Run
open Stfx.Items Stfx.Parser Stfx.Gen

/-! ### Section names -/

theorem spaced_chars {n : Str} (h : Ident n) : ∀ c ∈ spaced n, pathChar c = true ∧ c ≠ '.' := by
  obtain ⟨_, _, _, _, hw⟩ := h
  intro c hc
  unfold spaced at hc
  obtain ⟨d, hd, rfl⟩ := List.mem_map.1 hc
  split
  · exact ⟨by decide, by decide⟩
  · exact ⟨by simp [pathChar, hw d hd], isWord_ne (hw d hd) (by decide)⟩

theorem spaced_ne {n : Str} (h : Ident n) : spaced n ≠ [] := by
  obtain ⟨c, r, rfl, _, _⟩ := h
  simp [spaced]

theorem map_inj_on {f : Char → Char} {n m : Str} (hf : ∀ c ∈ n, ∀ d ∈ m, f c = f d → c = d) (h : n.map f = m.map f) : n = m := by
  induction n generalizing m with
  | nil =>
    cases m with
    | nil => rfl
    | cons d m => cases h
  | cons c n ih =>
    cases m with
    | nil => cases h
    | cons d m =>
      simp only [List.map_cons, List.cons.injEq] at h
      rw [hf c List.mem_cons_self d List.mem_cons_self h.1,
        ih (fun x hx y hy => hf x (List.mem_cons_of_mem _ hx) y (List.mem_cons_of_mem _ hy)) h.2]

/-- Different identifiers stay different: they contain no blanks. -/
theorem spaced_inj {n m : Str} (hn : Ident n) (hm : Ident m) (h : spaced n = spaced m) : n = m := by
  obtain ⟨_, _, _, _, hn⟩ := hn
  obtain ⟨_, _, _, _, hm⟩ := hm
  refine map_inj_on ?_ h
  intro c hc d hd h0
  have h1 := isWord_ne (hn c hc) (d := ' ') (by decide)
  have h2 := isWord_ne (hm d hd) (d := ' ') (by decide)
  split at h0 <;> split at h0
  · simp_all
  · exact absurd h0.symm h2
  · exact absurd h0 h1
  · exact h0

/-- The sections at and below a path.  (Proof notion, models no code.) -/
def Under (path k : Str) : Prop := path = [] ∨ k = path ∨ ∃ r, k = path ++ '.' :: r

theorem lowerPath_ne {path n : Str} (hn : Ident n) : lowerPath path (spaced n) ≠ [] := by
  unfold lowerPath
  intro h
  exact spaced_ne hn (List.append_eq_nil_iff.1 h).2

theorem lowerPath_chars {path n : Str} (hp : ∀ c ∈ path, pathChar c = true) (hn : Ident n) :
    ∀ c ∈ lowerPath path (spaced n), pathChar c = true := by
  intro c hc
  unfold lowerPath at hc
  rcases List.mem_append.1 hc with hc | hc
  · split at hc
    · cases hc
    · rcases List.mem_append.1 hc with hc | hc
      · exact hp c hc
      · rw [List.mem_singleton.1 hc]; decide
  · exact (spaced_chars hn c hc).1

/-- Below a member means below the path. -/
theorem under_lower {path n k : Str} (hn : Ident n) (h : Under (lowerPath path (spaced n)) k) : Under path k := by
  by_cases hp : path = []
  · exact Or.inl hp
  refine Or.inr (Or.inr ?_)
  unfold lowerPath at h
  rw [if_neg hp] at h
  rcases h with h | h | ⟨r, h⟩
  · exact absurd (List.append_eq_nil_iff.1 h).2 (spaced_ne hn)
  · exact ⟨spaced n, by rw [h]; simp⟩
  · exact ⟨spaced n ++ '.' :: r, by rw [h]; simp⟩

/-- The section of the path itself is not below a member. -/
theorem not_under_self {path n : Str} (hp : path ≠ []) (hn : Ident n) : ¬ Under (lowerPath path (spaced n)) path := by
  unfold lowerPath
  rw [if_neg hp]
  rintro (h | h | ⟨r, h⟩)
  · exact spaced_ne hn (List.append_eq_nil_iff.1 h).2
  · have := congrArg List.length h
    simp at this
  · have := congrArg List.length h
    simp at this

/-- Sections below different members are different. -/
theorem under_inj {path n m k : Str} (hn : Ident n) (hm : Ident m) (h1 : Under (lowerPath path (spaced n)) k)
    (h2 : Under (lowerPath path (spaced m)) k) : n = m := by
  have key : ∀ {n : Str}, Ident n → Under (lowerPath path (spaced n)) k →
      (k.drop (if path = [] then [] else path ++ c!".").length).takeWhile (· ≠ '.') = spaced n := by
    intro n hn h
    have hc : ∀ c ∈ spaced n, (fun x : Char => decide (x ≠ '.')) c = true := by
      intro c hc
      simpa using (spaced_chars hn c hc).2
    unfold lowerPath at h
    rcases h with h | h | ⟨r, h⟩
    · exact absurd (List.append_eq_nil_iff.1 h).2 (spaced_ne hn)
    · rw [h, List.drop_left]
      exact takeWhile_all _ hc
    · rw [h, List.append_assoc, List.drop_left]
      exact takeWhile_append_stop hc (by decide) r
  exact spaced_inj hn hm ((key hn h1).symm.trans (key hm h2))

/-! ### Leaves -/

/-- Text of a simple or enum member.  (Proof notion, models no code.) -/
def iniLeafText (T : CTable) (L : IniLib) : MTy → Val → R Str
  | .simple ty, v => iniText L ty v
  | ty, v => iniEnumText T (some ty) v

/-- Conversion of a simple or enum member.  (Proof notion, models no code.) -/
def iniLeafConv (T : CTable) (L : IniLib) : MTy → Str → Conv
  | .simple ty, s => iniConv T L ty s
  | ty, s => iniEnum T (some ty) s

/-- The member `n` survives: it is not written and the target has its value, or its line fits and is converted back.
(Proof notion, models no code.) -/
def IniLeaf (T : CTable) (L : IniLib) (g delta : Bool) (n : Str) (ty : MTy) (d t v : Val) : Prop :=
  (guard g delta (if g then some d else none) v = .ok false ∧ t = v) ∨
  (guard g delta (if g then some d else none) v = .ok true ∧ ∃ s, iniLeafText T L ty v = .ok s ∧ LineText s ∧
    n.length + 1 + s.length ≤ 78 ∧ iniLeafConv T L ty s = .val v)

/-- See the definition before it.  (Proof notion, models no code.) -/
def isEnumTy : MTy → Bool
  | .enum _ => true
  | _ => false

/-- See the definition before it.  (Proof notion, models no code.) -/
def isStructTy : MTy → Bool
  | .struct _ => true
  | _ => false

/-- Structs whose members can be restored: no vectors, enum members declared before struct members and only next to
simple members, and no simple or enum member named like a variable of the generated function.  (Proof notion, models no code.) -/
structure IniShape (ms : List CMember) : Prop where
  ne : ms ≠ []
  order : (ms.filter fun m => !isSimpleTy m.ty) = (ms.filter fun m => isEnumTy m.ty) ++ ms.filter fun m => isStructTy m.ty
  enums : ms.any (fun m => isEnumTy m.ty) = true → ms.any (fun m => isSimpleTy m.ty) = true
  names : ∀ m ∈ ms, m.ty.isLeaf = true → m.name ≠ c!"items" ∧ m.name ≠ c!"data"

/-- Objects `v` that survive being written and read into `t`, at a path.  (Proof notion, models no code.) -/
inductive IniOk (T : CTable) (L : IniLib) (g delta : Bool) : Str → Str → Val → Val → Prop
  | mk {path c : Str} {ms : List CMember} {ds ts fs : List (Str × Val)} : T.cls c = some ms → T.dflt c = .struct ds →
      ts.map Prod.fst = ms.map CMember.name → fs.map Prod.fst = ms.map CMember.name → IniShape ms →
      path.length ≤ 76 → (path = [] → ∀ m ∈ ms, m.ty.isLeaf = false) →
      (∀ m ∈ ms, m.ty.isLeaf = true → ∀ d t v, ds.lookup m.name = some d → ts.lookup m.name = some t →
        fs.lookup m.name = some v → IniLeaf T L g delta m.name m.ty d t v) →
      (∀ m ∈ ms, ∀ c', m.ty = .struct c' → ∀ t v, ts.lookup m.name = some t → fs.lookup m.name = some v →
        IniOk T L g delta (lowerPath path (spaced m.name)) c' t v) →
      IniOk T L g delta path c (.struct ts) (.struct fs)

/-- The members that lines are written for.  (Proof notion, models no code.) -/
def leafLines (ms : List CMember) : List Line :=
  ((ms.filter fun m => isSimpleTy m.ty) ++ ms.filter fun m => isEnumTy m.ty).map fun m => (m.name, m.ty)
/-- The struct members.  (Proof notion, models no code.) -/
def kidLines (ms : List CMember) : List Line := (ms.filter fun m => isStructTy m.ty).map fun m => (m.name, m.ty)

theorem ordered_shape {ms : List CMember} (h : IniShape ms) : ordered ms = leafLines ms ++ kidLines ms := by
  unfold ordered leafLines kidLines
  rw [h.order]
  simp

theorem mem_leafLines {ms : List CMember} {p : Line} (h : p ∈ leafLines ms) : ∃ m ∈ ms, p = (m.name, m.ty) ∧ m.ty.isLeaf = true := by
  unfold leafLines at h
  obtain ⟨m, hm, rfl⟩ := List.mem_map.1 h
  rcases List.mem_append.1 hm with hm | hm
  · rw [List.mem_filter] at hm
    refine ⟨m, hm.1, rfl, ?_⟩
    cases hty : m.ty <;> simp_all [isSimpleTy, MTy.isLeaf]
  · rw [List.mem_filter] at hm
    refine ⟨m, hm.1, rfl, ?_⟩
    cases hty : m.ty <;> simp_all [isEnumTy, MTy.isLeaf]

theorem mem_kidLines {ms : List CMember} {p : Line} (h : p ∈ kidLines ms) : ∃ m ∈ ms, p = (m.name, m.ty) ∧ ∃ c, m.ty = .struct c := by
  unfold kidLines at h
  obtain ⟨m, hm, rfl⟩ := List.mem_map.1 h
  rw [List.mem_filter] at hm
  refine ⟨m, hm.1, rfl, ?_⟩
  cases hty : m.ty <;> simp_all [isStructTy]

theorem leaf_mem {ms : List CMember} {m : CMember} (hm : m ∈ ms) (hl : m.ty.isLeaf = true) : (m.name, m.ty) ∈ leafLines ms := by
  unfold leafLines
  refine List.mem_map.2 ⟨m, ?_, rfl⟩
  rw [List.mem_append, List.mem_filter, List.mem_filter]
  cases hty : m.ty <;> simp_all [isSimpleTy, isEnumTy, MTy.isLeaf]

theorem kid_mem {ms : List CMember} {m : CMember} (hm : m ∈ ms) {c : Str} (hl : m.ty = .struct c) : (m.name, m.ty) ∈ kidLines ms := by
  unfold kidLines
  refine List.mem_map.2 ⟨m, ?_, rfl⟩
  rw [List.mem_filter, hl]
  exact ⟨hm, rfl⟩

/-- Members are leaves or structs: no vectors. -/
theorem shape_cases {ms : List CMember} (h : IniShape ms) {m : CMember} (hm : m ∈ ms) :
    m.ty.isLeaf = true ∨ ∃ c, m.ty = .struct c := by
  cases hty : m.ty with
  | simple => exact Or.inl rfl
  | enum => exact Or.inl rfl
  | struct c => exact Or.inr ⟨c, rfl⟩
  | vec c =>
    have : m ∈ ms.filter fun m => !isSimpleTy m.ty := List.mem_filter.2 ⟨hm, by rw [hty]; rfl⟩
    rw [h.order, List.mem_append, List.mem_filter, List.mem_filter, hty] at this
    simp [isEnumTy, isStructTy] at this

theorem sublist_names {ms : List CMember} (hnd : (ms.map CMember.name).Nodup) (h : IniShape ms) :
    ((leafLines ms).map Prod.fst ++ (kidLines ms).map Prod.fst).Nodup := by
  have : ((ordered ms).map Prod.fst).Perm (ms.map CMember.name) := by
    unfold ordered
    rw [← List.map_append, List.map_map]
    exact (filter_perm _ ms).map _
  rw [ordered_shape h, List.map_append] at this
  exact this.nodup_iff.2 hnd

/-! ### Feeding lines -/

/-- The reader loop on complete lines.  (Proof notion, models no code.) -/
def feed (st : IniSt) (ls : List Str) : IniSt := (ls.map (· ++ c!"\n")).foldl IniSt.piece st

theorem feed_append (st : IniSt) (a b : List Str) : feed st (a ++ b) = feed (feed st a) b := by
  simp [feed, List.foldl_append]

theorem feed_cons (st : IniSt) (a : Str) (b : List Str) : feed st (a :: b) = feed (st.piece (a ++ c!"\n")) b := rfl

/-- Optional item lines.  (Proof notion, models no code.) -/
def optLines (p : Line) (o : Option Str) : List Str := (o.map (itemLine p.1)).toList

/-- Member lines fill the current section. -/
theorem feed_items {q : Str} {ps : List Line} {os : List (Option Str)}
    (h : All2 (fun p o => Ident p.1 ∧ ∀ s, o = some s → LineText s) ps os) (hnd : (ps.map Prod.fst).Nodup)
    {st : IniSt} {items : Items} (hk : st.key = []) (hcur : st.cur = some q) (hq : st.under.lookup q = some items)
    (hno : ∀ p ∈ ps, items.lookup p.1 = none) :
    ∃ items', (feed st ((ps.zip os).flatMap fun x => optLines x.1 x.2)).key = [] ∧
      (feed st ((ps.zip os).flatMap fun x => optLines x.1 x.2)).cur = some q ∧
      (feed st ((ps.zip os).flatMap fun x => optLines x.1 x.2)).under.lookup q = some items' ∧
      (∀ k, k ≠ q → (feed st ((ps.zip os).flatMap fun x => optLines x.1 x.2)).under.lookup k = st.under.lookup k) ∧
      All2 (fun p o => items'.lookup p.1 = o) ps os ∧ ∀ n, n ∉ ps.map Prod.fst → items'.lookup n = items.lookup n := by
  induction h generalizing st items with
  | nil => exact ⟨items, hk, hcur, hq, fun _ _ => rfl, .nil, fun _ _ => rfl⟩
  | @cons p o ps os hpo hrest ih =>
    rw [List.map_cons, List.nodup_cons] at hnd
    rw [List.zip_cons_cons, List.flatMap_cons]
    simp only [feed_append]
    have hstep : ∃ st' items1, feed st (optLines p o) = st' ∧ st'.key = [] ∧ st'.cur = some q ∧
        st'.under.lookup q = some items1 ∧ (∀ k, k ≠ q → st'.under.lookup k = st.under.lookup k) ∧
        items1.lookup p.1 = o ∧ ∀ n, n ≠ p.1 → items1.lookup n = items.lookup n := by
      cases o with
      | none => exact ⟨st, items, rfl, hk, hcur, hq, fun _ _ => rfl, hno p List.mem_cons_self, fun _ _ => rfl⟩
      | some s =>
        refine ⟨st.store p.1 s, put p.1 s items, ?_, ?_, ?_, ?_, ?_, put_self _ _ _, fun n hn => put_other hn _ _⟩
        · show (st.piece _) = _
          exact piece_item hk hpo.1 (hpo.2 s rfl)
        · unfold IniSt.store; rw [hcur]; exact hk
        · unfold IniSt.store; rw [hcur]
        · unfold IniSt.store; rw [hcur]; simp only [put_self, hq, Option.getD_some]
        · intro k hkq; unfold IniSt.store; rw [hcur]; exact put_other hkq _ _
    obtain ⟨st', items1, e, a1, a2, a3, a4, a5, a6⟩ := hstep
    rw [e]
    obtain ⟨items', b1, b2, b3, b4, b5, b6⟩ := ih hnd.2 a1 a2 a3 (by
      intro p' hp'
      rw [a6 p'.1 (fun he => hnd.1 (by rw [← he]; exact List.mem_map_of_mem hp'))]
      exact hno p' (List.mem_cons_of_mem _ hp'))
    refine ⟨items', b1, b2, b3, fun k hkq => (b4 k hkq).trans (a4 k hkq), .cons ?_ b5, ?_⟩
    · rw [b6 p.1 hnd.1, a5]
    · intro n hn
      rw [List.map_cons, List.mem_cons, not_or] at hn
      rw [b6 n hn.2, a6 n hn.1]

/-! ### Writing and reading -/

section
variable {T : CTable} {L : IniLib} {prog : List Item} {g delta : Bool}

theorem nwrFields_lookup (fs : List (Str × Val)) (n : Str) :
    (nwrFields T L prog delta fs).lookup n = (fs.lookup n).map (nwrVal T L prog delta) := by
  induction fs with
  | nil => rfl
  | cons p fs ih =>
    obtain ⟨m, v⟩ := p
    rw [nwrFields, List.lookup_cons, List.lookup_cons]
    cases n == m with
    | true => rfl
    | false => exact ih

theorem nrdFields_lookup (U : List (Str × Items)) (fs : List (Str × Val)) (n : Str) :
    (nrdFields T L prog U fs).lookup n = (fs.lookup n).map (nrdVal T L prog U) := by
  induction fs with
  | nil => rfl
  | cons p fs ih =>
    obtain ⟨m, v⟩ := p
    rw [nrdFields, List.lookup_cons, List.lookup_cons]
    cases n == m with
    | true => rfl
    | false => exact ih

theorem nwrVal_val (v : Val) : (nwrVal T L prog delta v).val = v := by cases v <;> rfl

/-- A leaf statement of the writer. -/
theorem nwrAct_leaf {c path : Str} {dd fs : List (Str × Val)} {p : Line} (hl : p.2.isLeaf = true)
    (hm : memberTy T c p.1 = some p.2) {v : Val} (hv : fs.lookup p.1 = some v) {b : Bool}
    (hg : guard g delta (dd.lookup p.1) v = .ok b) {s : Str} (hs : b = true → iniLeafText T L p.2 v = .ok s) :
    nwrAct T L delta c path dd (nwrFields T L prog delta fs) (lineNWr g p) =
      .ok (optLines p (if b then some s else none)) := by
  obtain ⟨n, ty⟩ := p
  have hf : field (nwrFields T L prog delta fs) n = .ok (nwrVal T L prog delta v) := by
    unfold field
    rw [nwrFields_lookup, hv]
    rfl
  cases ty with
  | struct => cases hl
  | vec => cases hl
  | simple ty =>
    simp only [lineNWr, nwrAct, hf, R.ok_bind, nwrVal_val]
    simp only at hg
    rw [hg]
    cases b with
    | false => rfl
    | true =>
      have := hs rfl
      simp only [iniLeafText] at this
      simp only [R.ok_bind, if_true, this]
      rfl
  | enum e =>
    simp only [lineNWr, nwrAct, hf, R.ok_bind, nwrVal_val]
    simp only at hg hm
    rw [hg]
    cases b with
    | false => rfl
    | true =>
      have := hs rfl
      simp only [iniLeafText] at this
      simp only [R.ok_bind, if_true, hm, this]
      rfl

theorem looks_leafs {ps : List Line} (l : Look) :
    l ∈ ps.filterMap lineLook → ∃ p ∈ ps, l.member = p.1 := by
  intro hl
  obtain ⟨p, hp, e⟩ := List.mem_filterMap.1 hl
  refine ⟨p, hp, ?_⟩
  obtain ⟨n, ty⟩ := p
  cases ty <;> simp [lineLook] at e <;> (subst e; rfl)

/-- The look-ups of the reader. -/
theorem runLooks_ok {c : Str} {items : Items} {ps : List Line} (hnd : (ps.map Prod.fst).Nodup)
    (vals : Str → Val) {ts : List (Str × Val)}
    (h : ∀ p ∈ ps, p.2.isLeaf = true ∧ memberTy T c p.1 = some p.2 ∧ ∃ t, ts.lookup p.1 = some t ∧
      ((items.lookup p.1 = none ∧ t = vals p.1) ∨
        ∃ s, items.lookup p.1 = some s ∧ iniLeafConv T L p.2 s = .val (vals p.1))) :
    ∃ fs, runLooks T L c items (ps.filterMap lineLook) ts = .ok (true, fs) ∧ fs.map Prod.fst = ts.map Prod.fst ∧
      (∀ p ∈ ps, fs.lookup p.1 = some (vals p.1)) ∧ ∀ n, n ∉ ps.map Prod.fst → fs.lookup n = ts.lookup n := by
  induction ps generalizing ts with
  | nil => exact ⟨ts, rfl, rfl, by simp, fun _ _ => rfl⟩
  | cons p ps ih =>
    rw [List.map_cons, List.nodup_cons] at hnd
    obtain ⟨hl, hm, t, ht, hcase⟩ := h p List.mem_cons_self
    have hlook : ∃ l, lineLook p = some l ∧ l.member = p.1 ∧ ∀ s, lookConv T L c l s = iniLeafConv T L p.2 s := by
      obtain ⟨n, ty⟩ := p
      cases ty with
      | struct => cases hl
      | vec => cases hl
      | simple ty => exact ⟨_, rfl, rfl, fun s => rfl⟩
      | enum e => exact ⟨_, rfl, rfl, fun s => by simp only [lookConv, iniLeafConv]; rw [hm]⟩
    obtain ⟨l, hl1, hl2, hl3⟩ := hlook
    rw [List.filterMap_cons_some hl1]
    have hstep : ∃ ts1, runLooks T L c items (l :: ps.filterMap lineLook) ts =
          runLooks T L c items (ps.filterMap lineLook) ts1 ∧ ts1.map Prod.fst = ts.map Prod.fst ∧
        ts1.lookup p.1 = some (vals p.1) ∧ ∀ n, n ≠ p.1 → ts1.lookup n = ts.lookup n := by
      rw [runLooks, hl2]
      rcases hcase with ⟨h1, h2⟩ | ⟨s, h1, h2⟩
      · rw [h1]
        exact ⟨ts, rfl, rfl, by rw [ht, h2], fun _ _ => rfl⟩
      · rw [h1]
        simp only [hl3, h2]
        obtain ⟨fs', a1, a2, a3, a4⟩ := modifyField_ok (f := fun _ => .ok (vals p.1)) ht rfl
        exact ⟨fs', by rw [a1]; rfl, a2, a3, a4⟩
    obtain ⟨ts1, e, b1, b2, b3⟩ := hstep
    rw [e]
    obtain ⟨fs, d1, d2, d3, d4⟩ := ih hnd.2 (ts := ts1) (by
      intro p' hp'
      obtain ⟨x1, x2, t', x3, x4⟩ := h p' (List.mem_cons_of_mem _ hp')
      exact ⟨x1, x2, t', by rw [b3 p'.1 (fun he => hnd.1 (by rw [← he]; exact List.mem_map_of_mem hp')), x3], x4⟩)
    refine ⟨fs, d1, d2.trans b1, ?_, ?_⟩
    · intro p' hp'
      rcases List.mem_cons.1 hp' with rfl | hp'
      · rw [d4 _ hnd.1, b2]
      · exact d3 p' hp'
    · intro n hn
      rw [List.map_cons, List.mem_cons, not_or] at hn
      rw [d4 n hn.2, b3 n hn.1]

/-- The struct members in the reader. -/
theorem runKids_ok {path : Str} {qs : List Line} (hnd : (qs.map Prod.fst).Nodup) (vals : Str → Val)
    {subs : List (Str × (Str → Str → R (Bool × Val)))} {ts : List (Str × Val)}
    (h : ∀ q ∈ qs, ∃ c f, q.2 = .struct c ∧ subs.lookup q.1 = some f ∧ f c (path ++ spaced q.1) = .ok (true, vals q.1) ∧
      ∃ t, ts.lookup q.1 = some t) :
    ∃ fs, runKids subs path (qs.filterMap lineNRd) true ts = .ok (true, fs) ∧ fs.map Prod.fst = ts.map Prod.fst ∧
      (∀ q ∈ qs, fs.lookup q.1 = some (vals q.1)) ∧ ∀ n, n ∉ qs.map Prod.fst → fs.lookup n = ts.lookup n := by
  induction qs generalizing ts with
  | nil => exact ⟨ts, rfl, rfl, by simp, fun _ _ => rfl⟩
  | cons q qs ih =>
    rw [List.map_cons, List.nodup_cons] at hnd
    obtain ⟨c, f, h1, h2, h3, t, ht⟩ := h q List.mem_cons_self
    have hl : lineNRd q = some (.child q.1 c (spaced q.1)) := by
      obtain ⟨n, ty⟩ := q
      simp only at h1
      subst h1
      rfl
    obtain ⟨ts1, a1, a2, a3, a4⟩ := modifyField_ok (f := fun _ => .ok (vals q.1)) ht rfl
    obtain ⟨fs, d1, d2, d3, d4⟩ := ih hnd.2 (ts := ts1) (by
      intro q' hq'
      obtain ⟨c', f', x1, x2, x3, t', x4⟩ := h q' (List.mem_cons_of_mem _ hq')
      exact ⟨c', f', x1, x2, x3, t', by rw [a4 q'.1 (fun he => hnd.1 (by rw [← he]; exact List.mem_map_of_mem hq')), x4]⟩)
    refine ⟨fs, ?_, d2.trans a2, ?_, ?_⟩
    · rw [List.filterMap_cons_some hl, runKids]
      simp only [field, h2, R.ok_bind, h3, a1, d1]
    · intro q' hq'
      rcases List.mem_cons.1 hq' with rfl | hq'
      · rw [d4 _ hnd.1, a3]
      · exact d3 q' hq'
    · intro n hn
      rw [List.map_cons, List.mem_cons, not_or] at hn
      rw [d4 n hn.2, a4 n hn.1]

/-- What writing an object at a path and reading it again does.  (Proof notion, models no code.) -/
def IniTripOk (T : CTable) (L : IniLib) (prog : List Item) (delta : Bool) (path c : Str) (t v : Val) : Prop :=
  ∃ ls, (nwrVal T L prog delta v).wr c path = .ok ([] :: ls) ∧ (∀ l ∈ ls, Short l) ∧
    ∀ st : IniSt, st.key = [] → (feed st ([] :: ls)).key = [] ∧
      (∀ k, ¬ Under path k → (feed st ([] :: ls)).under.lookup k = st.under.lookup k) ∧
      ∀ U : List (Str × Items), (∀ k, Under path k → U.lookup k = (feed st ([] :: ls)).under.lookup k) →
        nrdVal T L prog U t c path = .ok (true, v)

/-- Several struct members. -/
theorem kids_ok {path c : Str} {dd ts fs : List (Str × Val)} {qs : List Line} (hid : ∀ q ∈ qs, Ident q.1)
    (hnd : (qs.map Prod.fst).Nodup)
    (h : ∀ q ∈ qs, ∃ c' t v, q.2 = .struct c' ∧ ts.lookup q.1 = some t ∧ fs.lookup q.1 = some v ∧
      IniTripOk T L prog delta (lowerPath path (spaced q.1)) c' t v) :
    ∃ out, (qs.map (lineNWr g)).mapM (nwrAct T L delta c path dd (nwrFields T L prog delta fs)) = .ok out ∧
      (∀ l ∈ out.flatten, Short l) ∧ (qs ≠ [] → ∃ r, out.flatten = [] :: r) ∧
      ∀ st : IniSt, st.key = [] → (feed st out.flatten).key = [] ∧
        (∀ k, (∀ q ∈ qs, ¬ Under (lowerPath path (spaced q.1)) k) →
          (feed st out.flatten).under.lookup k = st.under.lookup k) ∧
        ∀ q ∈ qs, ∀ U : List (Str × Items),
          (∀ k, Under (lowerPath path (spaced q.1)) k → U.lookup k = (feed st out.flatten).under.lookup k) →
          ∃ c' t v, q.2 = .struct c' ∧ ts.lookup q.1 = some t ∧ fs.lookup q.1 = some v ∧
            nrdVal T L prog U t c' (lowerPath path (spaced q.1)) = .ok (true, v) := by
  induction qs with
  | nil => exact ⟨[], rfl, by simp, fun h => absurd rfl h, fun st hk => ⟨hk, fun _ _ => rfl, by simp⟩⟩
  | cons q qs ih =>
    rw [List.map_cons, List.nodup_cons] at hnd
    obtain ⟨c', t, v, h1, h2, h3, ls, w1, w2, w3⟩ := h q List.mem_cons_self
    obtain ⟨out, o1, o2, _, o4⟩ := ih (fun q hq => hid q (List.mem_cons_of_mem _ hq)) hnd.2
      (fun q hq => h q (List.mem_cons_of_mem _ hq))
    have hact : nwrAct T L delta c path dd (nwrFields T L prog delta fs) (lineNWr g q) = .ok ([] :: ls) := by
      obtain ⟨n, ty⟩ := q
      simp only at h1
      subst h1
      simp only [lineNWr, nwrAct, field, nwrFields_lookup, h3, Option.map_some, R.ok_bind]
      exact w1
    refine ⟨([] :: ls) :: out, ?_, ?_, fun _ => ⟨ls ++ out.flatten, rfl⟩, ?_⟩
    · rw [List.map_cons, mapM_cons, hact, R.ok_bind, o1]
      rfl
    · intro l hl
      rw [List.flatten_cons, List.mem_append] at hl
      rcases hl with hl | hl
      · rcases List.mem_cons.1 hl with rfl | hl
        · exact ⟨by simp, by simp⟩
        · exact w2 l hl
      · exact o2 l hl
    · intro st hk
      obtain ⟨a1, a2, a3⟩ := w3 st hk
      obtain ⟨b1, b2, b3⟩ := o4 _ a1
      rw [List.flatten_cons, feed_append]
      refine ⟨b1, ?_, ?_⟩
      · intro k hk
        rw [b2 k fun q hq => hk q (List.mem_cons_of_mem _ hq), a2 k (hk q List.mem_cons_self)]
      · intro q' hq' U hU
        rcases List.mem_cons.1 hq' with rfl | hq'
        · refine ⟨c', t, v, h1, h2, h3, a3 U ?_⟩
          intro k hk
          rw [hU k hk]
          refine b2 k ?_
          intro q hq hu
          have := under_inj (hid _ List.mem_cons_self) (hid q (List.mem_cons_of_mem _ hq)) hk hu
          exact hnd.1 (by rw [this]; exact List.mem_map_of_mem hq)
        · exact b3 q' hq' U hU

theorem ddLookup {ds : List (Str × Val)} {n : Str} {d : Val} (hd : ds.lookup n = some d) :
    (if g then ds else []).lookup n = if g then some d else none := by
  cases g with
  | true => exact hd
  | false => rfl

/-- The value a member has.  (Proof notion, models no code.) -/
def valOf (fs : List (Str × Val)) (n : Str) : Val := (fs.lookup n).getD .undef

theorem valOf_eq {fs : List (Str × Val)} {n : Str} {v : Val} (h : fs.lookup n = some v) : valOf fs n = v := by
  unfold valOf
  rw [h]
  rfl

theorem lookup_valOf {fs : List (Str × Val)} {n : Str} (h : n ∈ fs.map Prod.fst) : fs.lookup n = some (valOf fs n) := by
  obtain ⟨v, hv⟩ := lookup_isSome h
  rw [hv, valOf_eq hv]

theorem mapM_append_ok {α β : Type} {f : α → R β} {a b : List α} {x y : List β} (h1 : a.mapM f = .ok x) (h2 : b.mapM f = .ok y) :
    (a ++ b).mapM f = .ok (x ++ y) := by
  induction a generalizing x with
  | nil => cases h1; exact h2
  | cons c a ih =>
    rw [mapM_cons] at h1
    obtain ⟨z, h3, h1⟩ := R.bind_eq_ok.1 h1
    obtain ⟨zs, h4, h1⟩ := R.bind_eq_ok.1 h1
    cases h1
    rw [List.cons_append, mapM_cons, h3, R.ok_bind, ih h4]
    rfl

/-- The leaf lines of an object: optional texts that fit and are converted back. -/
theorem leafs_ok {c path : Str} {dd ts fs : List (Str × Val)} {ps : List Line}
    (h : ∀ p ∈ ps, p.2.isLeaf = true ∧ memberTy T c p.1 = some p.2 ∧ ∃ d t v, dd.lookup p.1 = (if g then some d else none) ∧
      ts.lookup p.1 = some t ∧ fs.lookup p.1 = some v ∧ IniLeaf T L g delta p.1 p.2 d t v) :
    ∃ os, (ps.map (lineNWr g)).mapM (nwrAct T L delta c path dd (nwrFields T L prog delta fs)) =
        .ok ((ps.zip os).map fun x => optLines x.1 x.2) ∧
      All2 (fun p o => (o = none ∧ ts.lookup p.1 = some (valOf fs p.1)) ∨
        ∃ s, o = some s ∧ LineText s ∧ p.1.length + 1 + s.length ≤ 78 ∧ iniLeafConv T L p.2 s = .val (valOf fs p.1)) ps os := by
  induction ps with
  | nil => exact ⟨[], rfl, .nil⟩
  | cons p ps ih =>
    obtain ⟨os, h1, h2⟩ := ih fun p hp => h p (List.mem_cons_of_mem _ hp)
    obtain ⟨a1, a2, d, t, v, a3, a4, a5, a6⟩ := h p List.mem_cons_self
    rcases a6 with ⟨g1, rfl⟩ | ⟨g1, s, g2, g3, g4, g5⟩
    · refine ⟨none :: os, ?_, .cons (Or.inl ⟨rfl, ?_⟩) h2⟩
      · rw [List.map_cons, mapM_cons, nwrAct_leaf (s := []) a1 a2 a5 (by rw [a3]; exact g1) (by simp), R.ok_bind, h1]
        rfl
      · rw [valOf_eq a5]; exact a4
    · refine ⟨some s :: os, ?_, .cons (Or.inr ⟨s, rfl, g3, g4, ?_⟩) h2⟩
      · rw [List.map_cons, mapM_cons, nwrAct_leaf (s := s) a1 a2 a5 (by rw [a3]; exact g1) (fun _ => g2), R.ok_bind, h1]
        rfl
      · rw [valOf_eq a5]; exact g5

theorem all2_mem {α β : Type} {P : α → β → Prop} {as : List α} {bs : List β} (h : All2 P as bs) {a : α} (ha : a ∈ as) :
    ∃ b, (a, b) ∈ as.zip bs ∧ P a b := by
  induction h with
  | nil => cases ha
  | cons hab _ ih =>
    rcases List.mem_cons.1 ha with rfl | ha
    · exact ⟨_, List.mem_cons_self, hab⟩
    · obtain ⟨b, h1, h2⟩ := ih ha
      exact ⟨b, List.mem_cons_of_mem _ h1, h2⟩

theorem all2_zip {α β : Type} {P : α → β → Prop} {as : List α} {bs : List β} (h : All2 P as bs) {a : α} {b : β}
    (ha : (a, b) ∈ as.zip bs) : P a b := by
  induction h with
  | nil => cases ha
  | cons hab _ ih =>
    rcases List.mem_cons.1 ha with h | ha
    · cases h; exact hab
    · exact ih ha

theorem all2_imp {α β : Type} {P Q : α → β → Prop} {as : List α} {bs : List β} (h : All2 P as bs)
    (hpq : ∀ a ∈ as, ∀ b, P a b → Q a b) : All2 Q as bs := by
  induction h with
  | nil => exact .nil
  | cons hab _ ih =>
    exact .cons (hpq _ List.mem_cons_self _ hab) (ih fun a ha => hpq a (List.mem_cons_of_mem _ ha))

/-- Writing an object at a path and reading the lines again. -/
theorem ini_ok (hc : NCode T prog g) {path c : Str} {t v : Val} (h : IniOk T L g delta path c t v)
    (hpath : ∀ x ∈ path, pathChar x = true) : IniTripOk T L prog delta path c t v := by
  induction h with
  | @mk path c ms ds ts fs h1 h2 h3 h4 hs hlen htop hleaf _ ih =>
    have hid := hc.ident c ms h1
    have hnd := hc.good.nodup c ms h1
    have hdn : ds.map Prod.fst = ms.map CMember.name := by
      obtain ⟨ds', e, hn, _⟩ := dflt_struct hc.good h1
      rw [h2] at e
      cases e
      exact hn
    have hmem : ∀ m ∈ ms, memberTy T c m.name = some m.ty := fun m hm => memberTy_of h1 hnd hm
    have hndl := sublist_names hnd hs
    rw [List.nodup_append] at hndl
    obtain ⟨ndl, ndk, hdis⟩ := hndl
    have inNames : ∀ m ∈ ms, m.name ∈ ms.map CMember.name := fun m hm => List.mem_map_of_mem hm
    -- the leaves
    obtain ⟨os, w1, w2⟩ := leafs_ok (T := T) (L := L) (prog := prog) (g := g) (delta := delta) (c := c) (path := path)
      (dd := if g then ds else []) (ts := ts) (fs := fs) (ps := leafLines ms) (by
        intro p hp
        obtain ⟨m, hm, rfl, hl⟩ := mem_leafLines hp
        obtain ⟨d, hd⟩ := lookup_isSome (by rw [hdn]; exact inNames m hm)
        obtain ⟨t, ht⟩ := lookup_isSome (by rw [h3]; exact inNames m hm)
        obtain ⟨v, hv⟩ := lookup_isSome (by rw [h4]; exact inNames m hm)
        exact ⟨hl, hmem m hm, d, t, v, ddLookup hd, ht, hv, hleaf m hm hl d t v hd ht hv⟩)
    -- the struct members
    obtain ⟨out, k1, k2, k3, k4⟩ := kids_ok (T := T) (L := L) (prog := prog) (g := g) (delta := delta) (c := c) (path := path)
      (dd := if g then ds else []) (ts := ts) (fs := fs) (qs := kidLines ms)
      (by intro q hq; obtain ⟨m, hm, rfl, _⟩ := mem_kidLines hq; exact hid m hm) ndk (by
        intro q hq
        obtain ⟨m, hm, rfl, c', hc'⟩ := mem_kidLines hq
        obtain ⟨t, ht⟩ := lookup_isSome (by rw [h3]; exact inNames m hm)
        obtain ⟨v, hv⟩ := lookup_isSome (by rw [h4]; exact inNames m hm)
        exact ⟨c', t, v, hc', ht, hv, ih m hm c' hc' t v ht hv (lowerPath_chars hpath (hid m hm))⟩)
    have hwr : (nwrVal T L prog delta (.struct fs)).wr c path =
        .ok (heading path ++ (((leafLines ms).zip os).flatMap (fun x => optLines x.1 x.2) ++ out.flatten)) := by
      rw [nwrVal]
      simp only [runNWr, hc.wr c ms h1, h2, Val.fields, ordered_shape hs, List.map_append]
      rw [mapM_append_ok w1 k1, R.ok_bind, List.flatten_append, List.flatMap_def]
      rfl
    -- reading: what is needed of the sections
    have hread : ∀ U : List (Str × Items),
        (path ≠ [] → ∃ items, U.lookup path = some items ∧ All2 (fun p o => items.lookup p.1 = o) (leafLines ms) os) →
        (∀ q ∈ kidLines ms, ∃ c' t v, q.2 = .struct c' ∧ ts.lookup q.1 = some t ∧ fs.lookup q.1 = some v ∧
            nrdVal T L prog U t c' (lowerPath path (spaced q.1)) = .ok (true, v)) →
        nrdVal T L prog U (.struct ts) c path = .ok (true, .struct fs) := by
      intro U hU hK
      obtain ⟨dot, hrd, hdot⟩ := hc.rd c ms h1
      have hlooks : (ordered ms).filterMap lineLook = (leafLines ms).filterMap lineLook := by
        rw [ordered_shape hs, List.filterMap_append]
        have : (kidLines ms).filterMap lineLook = [] := by
          rw [List.filterMap_eq_nil_iff]
          intro q hq
          obtain ⟨m, _, rfl, c', hc'⟩ := mem_kidLines hq
          simp only [hc', lineLook]
        rw [this, List.append_nil]
      have hkids : (ordered ms).filterMap lineNRd = (kidLines ms).filterMap lineNRd := by
        rw [ordered_shape hs, List.filterMap_append]
        have : (leafLines ms).filterMap lineNRd = [] := by
          rw [List.filterMap_eq_nil_iff]
          intro q hq
          obtain ⟨m, _, rfl, hl⟩ := mem_leafLines hq
          cases hty : m.ty <;> simp_all [MTy.isLeaf, lineNRd]
        rw [this, List.nil_append]
      rw [hlooks, hkids] at hrd
      -- the section
      have hsec : ∃ fs1, runSection T L U c path
            (if ms.any (fun m => isSimpleTy m.ty) then some ((leafLines ms).filterMap lineLook) else none) ts = .ok (true, fs1) ∧
          fs1.map Prod.fst = ts.map Prod.fst ∧ (∀ p ∈ leafLines ms, fs1.lookup p.1 = some (valOf fs p.1)) ∧
          ∀ n, n ∉ (leafLines ms).map Prod.fst → fs1.lookup n = ts.lookup n := by
        by_cases hany : ms.any (fun m => isSimpleTy m.ty) = true
        · have hpne : path ≠ [] := by
            intro hp
            obtain ⟨m, hm, hm2⟩ := List.any_eq_true.1 hany
            have := htop hp m hm
            cases hty : m.ty <;> simp_all [isSimpleTy, MTy.isLeaf]
          obtain ⟨items, hi1, hi2⟩ := hU hpne
          have hclash : ((leafLines ms).filterMap lineLook).any clash = false := by
            rw [List.any_eq_false]
            intro l hl
            obtain ⟨p, hp, e⟩ := looks_leafs l hl
            obtain ⟨m, hm, rfl, hm2⟩ := mem_leafLines hp
            have := hs.names m hm hm2
            simp only at e
            simp [clash, e, this.1, this.2]
          rw [if_pos hany]
          simp only [runSection, hclash, hi1, Bool.false_eq_true, if_false]
          refine runLooks_ok ndl (valOf fs) ?_
          intro p hp
          obtain ⟨o, ho1, ho2⟩ := all2_mem w2 hp
          have ho3 := all2_zip hi2 ho1
          obtain ⟨m, hm, rfl, hl⟩ := mem_leafLines hp
          obtain ⟨t, ht⟩ := lookup_isSome (by rw [h3]; exact inNames m hm)
          refine ⟨hl, hmem m hm, t, ht, ?_⟩
          rcases ho2 with ⟨rfl, b1⟩ | ⟨s, rfl, _, _, b1⟩
          · left
            refine ⟨ho3, ?_⟩
            rw [ht] at b1
            exact Option.some.inj b1
          · exact Or.inr ⟨s, ho3, b1⟩
        · rw [if_neg hany]
          refine ⟨ts, rfl, rfl, ?_, fun _ _ => rfl⟩
          intro p hp
          exfalso
          obtain ⟨m, hm, rfl, hl⟩ := mem_leafLines hp
          have hne : ms.any (fun m => isEnumTy m.ty) ≠ true := fun he => hany (hs.enums he)
          rw [ne_eq, List.any_eq_true] at hne
          rw [List.any_eq_true] at hany
          cases hty : m.ty with
          | simple ty => exact hany ⟨m, hm, by rw [hty]; rfl⟩
          | enum e => exact hne ⟨m, hm, by rw [hty]; rfl⟩
          | struct => rw [hty] at hl; cases hl
          | vec => rw [hty] at hl; cases hl
      obtain ⟨fs1, s1, s2, s3, s4⟩ := hsec
      obtain ⟨fs2, r1, r2, r3, r4⟩ := runKids_ok (path := if dot && decide (path ≠ []) then path ++ c!"." else path) ndk (valOf fs)
        (subs := nrdFields T L prog U ts) (ts := fs1) (by
          intro q hq
          obtain ⟨c', t, v, q1, q2, q3, q4⟩ := hK q hq
          have hd : dot = true := by
            refine hdot (List.any_eq_true.2 ?_)
            obtain ⟨m, hm, rfl, c', hc'⟩ := mem_kidLines hq
            exact ⟨m, hm, by rw [hc']; rfl⟩
          refine ⟨c', nrdVal T L prog U t, q1, ?_, ?_, ?_⟩
          · rw [nrdFields_lookup, q2]; rfl
          · rw [valOf_eq q3, ← q4, hd]
            unfold lowerPath
            by_cases hp : path = []
            · simp [hp]
            · simp [hp]
          · have : q.1 ∈ fs1.map Prod.fst := by
              rw [s2, h3]
              obtain ⟨m, hm, rfl, _⟩ := mem_kidLines hq
              exact inNames m hm
            exact lookup_isSome this)
      have hfs : fs2 = fs := by
        refine fields_ext (by rw [r2, s2, h3, h4]) (by rw [r2, s2, h3]; exact hnd) ?_
        intro n hn
        rw [r2, s2, h3] at hn
        obtain ⟨m, hm, rfl⟩ := List.mem_map.1 hn
        have hv := lookup_valOf (fs := fs) (n := m.name) (by rw [h4]; exact inNames m hm)
        rcases shape_cases hs hm with hl | ⟨c', hc'⟩
        · have hin := leaf_mem hm hl
          rw [r4 _ (fun hk => hdis _ (List.mem_map_of_mem (f := Prod.fst) hin) _ hk rfl), s3 _ hin, hv]
        · rw [r3 _ (kid_mem hm hc'), hv]
      rw [nrdVal]
      simp only [runNRd, hrd]
      rw [s1, R.ok_bind]
      simp only [if_true]
      rw [r1, R.ok_bind, hfs]
      rfl
    have hshortKids := k2
    by_cases hp : path = []
    · -- the top: only struct members
      have hnil : leafLines ms = [] := by
        refine List.eq_nil_iff_forall_not_mem.2 ?_
        intro p hp'
        obtain ⟨m, hm, _, hl⟩ := mem_leafLines hp'
        rw [htop hp m hm] at hl
        cases hl
      have hkne : kidLines ms ≠ [] := by
        obtain ⟨m, hm⟩ := List.exists_mem_of_ne_nil _ hs.ne
        rcases shape_cases hs hm with hl | ⟨c', hc'⟩
        · rw [htop hp m hm] at hl; cases hl
        · exact List.ne_nil_of_mem (kid_mem hm hc')
      obtain ⟨r, hr⟩ := k3 hkne
      have e : heading path ++ (((leafLines ms).zip os).flatMap (fun x => optLines x.1 x.2) ++ out.flatten) = [] :: r := by
        rw [hnil, heading, if_pos hp, List.zip_nil_left, List.flatMap_nil, hr]
        rfl
      rw [e] at hwr
      refine ⟨r, hwr, ?_, ?_⟩
      · intro l hl
        exact k2 l (by rw [hr]; exact List.mem_cons_of_mem _ hl)
      · intro st hk
        rw [← hr]
        obtain ⟨b1, b2, b3⟩ := k4 st hk
        refine ⟨b1, fun k hk => absurd (Or.inl hp) hk, ?_⟩
        intro U hU
        refine hread U (fun h => absurd hp h) ?_
        intro q hq
        exact b3 q hq U fun k _ => hU k (Or.inl hp)
    · have hhead : heading path = [[], '[' :: (path ++ [']'])] := by rw [heading, if_neg hp]
      refine ⟨('[' :: (path ++ [']'])) :: (((leafLines ms).zip os).flatMap (fun x => optLines x.1 x.2) ++ out.flatten), ?_, ?_, ?_⟩
      · rw [hwr, hhead]; rfl
      · intro l hl
        rcases List.mem_cons.1 hl with rfl | hl
        · refine ⟨?_, by simp; omega⟩
          · intro hm
            rcases List.mem_cons.1 hm with hm | hm
            · exact absurd hm (by decide)
            rcases List.mem_append.1 hm with hm | hm
            · exact pathChar_ne (hpath _ hm) (by decide) rfl
            · exact absurd (List.mem_singleton.1 hm) (by decide)
        rcases List.mem_append.1 hl with hl | hl
        · obtain ⟨⟨p, o⟩, hpo, hl⟩ := List.mem_flatMap.1 hl
          have hw := all2_zip w2 hpo
          rcases hw with ⟨rfl, _⟩ | ⟨s, rfl, b1, b2, _⟩
          · cases hl
          · have hl := List.mem_singleton.1 hl
            subst hl
            obtain ⟨m, hm, rfl, _⟩ := mem_leafLines (List.of_mem_zip hpo).1
            refine ⟨?_, by simp [itemLine]; simp only at b2; omega⟩
            · intro hin
              rcases List.mem_append.1 hin with hin | hin
              · obtain ⟨_, _, _, _, hw⟩ := hid m hm
                exact isWord_ne (hw _ hin) (by decide) rfl
              · rcases List.mem_cons.1 hin with hin | hin
                · exact absurd hin (by decide)
                · exact b1.nl hin
        · exact k2 l hl
      · intro st hk
        rw [feed_cons, feed_cons]
        have e1 : st.piece ([] ++ c!"\n") = st := by
          show st.piece c!"\n" = st
          rw [piece_empty, flush_id hk]
        rw [e1, piece_heading hk hp hpath, feed_append]
        obtain ⟨items, f1, f2, f3, f4, f5, f6⟩ := feed_items (q := path) (ps := leafLines ms) (os := os)
          (all2_imp w2 (by
            intro p hp' o ho
            obtain ⟨m, hm, rfl, _⟩ := mem_leafLines hp'
            refine ⟨hid m hm, ?_⟩
            rintro s rfl
            rcases ho with ⟨ho, _⟩ | ⟨s', ho, b1, _⟩
            · cases ho
            · cases ho; exact b1)) ndl
          (st := { st with under := put path [] st.under, cur := some path }) (items := []) hk rfl (put_self _ _ _)
          (fun _ _ => rfl)
        generalize feed { st with under := put path [] st.under, cur := some path }
          (((leafLines ms).zip os).flatMap fun x => optLines x.1 x.2) = st1 at f1 f2 f3 f4 ⊢
        obtain ⟨b1, b2, b3⟩ := k4 st1 f1
        refine ⟨b1, ?_, ?_⟩
        · intro k hku
          have hkp : k ≠ path := fun he => hku (Or.inr (Or.inl he))
          rw [b2 k, f4 k hkp]
          · exact put_other hkp _ _
          · intro q hq hu
            obtain ⟨m, hm, rfl, _⟩ := mem_kidLines hq
            exact hku (under_lower (hid m hm) hu)
        · intro U hU
          refine hread U ?_ ?_
          · intro _
            refine ⟨items, ?_, f5⟩
            rw [hU path (Or.inr (Or.inl rfl)), b2 path, f3]
            intro q hq
            obtain ⟨m, hm, rfl, _⟩ := mem_kidLines hq
            exact not_under_self hp (hid m hm)
          · intro q hq
            refine b3 q hq U ?_
            intro k hku
            obtain ⟨m, hm, rfl, _⟩ := mem_kidLines hq
            exact hU k (under_lower (hid m hm) hku)

theorem flush_key (st : IniSt) : (st.flush '\n').key = [] := by
  unfold IniSt.flush
  by_cases h : st.key = []
  · rw [if_neg (by simp [h]), h]
  · rw [if_pos ⟨h, by decide⟩]

/-- Writing a file and reading it with a reader in any state. -/
theorem ini_file (hc : NCode T prog g) {c : Str} {t v : Val} (hr : hasReadFile prog c = true)
    (hw : hasWriteFile prog c = true) (h : IniOk T L g delta [] c t v) :
    ∃ text, iniWrite T L prog delta c v = .ok text ∧ ∀ st, iniRead T L prog c st (some text) t = .ok ((true, v), st.load text) := by
  obtain ⟨ls, h1, h2, h3⟩ := ini_ok hc h (by simp)
  refine ⟨fileText ([] :: ls), ?_, ?_⟩
  · unfold iniWrite
    rw [if_pos hw, h1, R.ok_bind]
  · intro st
    unfold iniRead
    rw [if_pos hr]
    simp only
    have hload : st.load (fileText ([] :: ls)) = feed (IniSt.flush { st with cur := none } '\n') ([] :: ls) := by
      unfold IniSt.load
      rw [filePieces_lines (by
        intro l hl
        rcases List.mem_cons.1 hl with rfl | hl
        · exact ⟨by simp, by simp⟩
        · exact h2 l hl)]
      show feed { st with cur := none } ([] :: ls) = _
      rw [feed_cons, feed_cons]
      show feed (IniSt.piece { st with cur := none } c!"\n") ls = feed ((IniSt.flush { st with cur := none } '\n').piece c!"\n") ls
      rw [piece_empty, piece_empty, flush_id (flush_key { st with cur := none })]
    obtain ⟨_, _, b3⟩ := h3 (IniSt.flush { st with cur := none } '\n') (flush_key _)
    rw [b3 (st.load (fileText ([] :: ls))).under (by intro k _; rw [hload]), R.ok_bind]

end
end Stfx.Run
