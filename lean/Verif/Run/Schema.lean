import Verif.Run.XmlFile
import Verif.Props.C16_C19_Resolve
/-
From header files to the generated code and to the classes the C++ compiler sees in the same files.
-/
set_option autoImplicit false
namespace Stfx.Run
open Stfx.Items Stfx.Parser Stfx.Gen Stfx.Lexer

/-! ### Names -/

/-- The text of a name token is an identifier. -/
theorem name_ident {w : Str} {ts : List Token} (h : toksFile w = some ts) {t : Token} (ht : t ∈ ts)
    (hk : t.kind = .name) : Ident t.text := by
  unfold toksFile toksFrom at h
  rw [Option.map_eq_some_iff] at h
  obtain ⟨ls, hl, rfl⟩ := h
  have hs := scanSpec_of_lex hl
  unfold tokensOf at ht
  rw [List.mem_filterMap] at ht
  obtain ⟨l, hm, hlt⟩ := ht
  unfold Lexeme.token? at hlt
  rw [Option.map_eq_some_iff] at hlt
  obtain ⟨k, hk1, rfl⟩ := hlt
  simp only at hk
  subst hk
  have hr : l.rule = 30 := by
    unfold actKind at hk1
    split at hk1 <;> first | assumption | cases hk1
  have hx : (30, l.text) ∈ ls.map fun l => (l.rule, l.text) := List.mem_map.2 ⟨l, hm, by rw [hr]⟩
  have hid : IsIdent l.text := by
    clear hl hm hk1
    generalize (ls.map fun l => (l.rule, l.text)) = xs at hs hx
    generalize LexSt.init.sc = sc at hs
    generalize LexSt.init.bol = bol at hs
    induction hs with
    | done => cases hx
    | @step sc bol w r n ls hm _ ih =>
      rcases List.mem_cons.1 hx with e | e
      · simp only [Prod.mk.injEq] at e
        obtain ⟨rfl, e⟩ := e
        have := (cand_iff.1 hm.cand).2.2
        rw [e]
        cases sc <;> simpa [ruleLang] using this
      · exact ih e
  have : actText l.rule l.text = l.text := by simp [actText, hr]
  show Ident (actText l.rule l.text)
  rw [this]
  obtain ⟨c, u, e, h1, h2⟩ := hid
  refine ⟨c, u, e, ?_, ?_⟩
  · simp only [isIdStart, Bool.or_eq_true, Bool.and_eq_true, decide_eq_true_eq, beq_iff_eq] at h1
    simp only [isDigit, Bool.and_eq_false_iff, decide_eq_false_iff_not]
    rcases h1 with h1 | rfl
    · omega
    · decide
  · intro d hd
    rw [e] at hd
    have hd : isIdChar d = true := by
      rcases List.mem_cons.1 hd with rfl | hd
      · exact isIdStart_idChar h1
      · exact h2 d hd
    simp only [isIdChar, isIdStart, isDig, Bool.or_eq_true, Bool.and_eq_true, decide_eq_true_eq, beq_iff_eq] at hd
    simp only [isWord, isDigit, Bool.or_eq_true, Bool.and_eq_true, decide_eq_true_eq]
    rcases hd with ((h | h) | h) | h
    · exact Or.inl (Or.inl (Or.inr h))
    · exact Or.inl (Or.inr h)
    · exact Or.inr h
    · exact Or.inl (Or.inl (Or.inl h))

/-- Names of enumerators are. -/
theorem enumerator_ident {w : Str} {hd : Header} (h : toksFile w = some hd.toks) {c : Bool} {n : Str} {x : Enumerator}
    {xs : List Enumerator} {t : Bool} (hm : Decl.enum c n x xs t ∈ hd.decls) {e : Enumerator} (he : e ∈ x :: xs) :
    Ident e.name := by
  refine name_ident h (t := ⟨.name, e.name⟩) ?_ rfl
  unfold Header.toks
  rw [List.mem_flatMap]
  refine ⟨_, hm, ?_⟩
  have key : (⟨.name, e.name⟩ : Token) ∈ enumeratorsToks t x xs := by
    clear hm h
    induction xs generalizing x with
    | nil =>
      rw [List.mem_singleton] at he
      subst he
      unfold enumeratorsToks Enumerator.toks
      cases e.value <;> simp
    | cons y ys ih =>
      unfold enumeratorsToks
      rcases List.mem_cons.1 he with rfl | he
      · unfold Enumerator.toks
        cases e.value <;> simp
      · exact List.mem_append_right _ (List.mem_cons_of_mem _ (ih he))
  simp only [Decl.toks, List.cons_append, List.mem_cons, List.mem_append]
  right; left; right; right; right
  exact key

/-- See the definition before it.  (Specification notion, models no code.) -/
def _root_.Stfx.Parser.Member.name : Member → Str
  | .simple _ n _ | .named _ n _ | .vector _ n => n

/-- So are names of members. -/
theorem member_ident {w : Str} {hd : Header} (h : toksFile w = some hd.toks) {n : Str} {x : Member} {xs : List Member}
    (hm : Decl.struct n x xs ∈ hd.decls) {e : Member} (he : e ∈ x :: xs) : Ident e.name := by
  refine name_ident h (t := ⟨.name, e.name⟩) ?_ rfl
  unfold Header.toks
  rw [List.mem_flatMap]
  refine ⟨_, hm, ?_⟩
  have key : (⟨.name, e.name⟩ : Token) ∈ e.toks := by
    cases e <;> simp [Member.toks, Member.name]
  simp only [Decl.toks, List.cons_append]
  refine List.mem_cons_of_mem _ (List.mem_cons_of_mem _ (List.mem_cons_of_mem _ (List.mem_append_left _ ?_)))
  exact List.mem_flatMap.2 ⟨e, he, key⟩

/-! ### The classes of a header -/

/-- Does a declaration declare the struct `n`?  (Specification notion, models no code.) -/
def _root_.Stfx.Parser.Decl.isStruct (n : Str) : Decl → Bool
  | .struct n' _ _ => n' = n
  | .enum .. => false

/-- Has the member a default member initialiser?  (Specification notion, models no code.) -/
def _root_.Stfx.Parser.Member.hasInit : Member → Bool
  | .simple _ _ d | .named _ _ d => d ≠ .absent
  | .vector .. => false

/-- The type of a member, given all declarations: a name that is no struct is an enum, process_items_xml.cpp:227-395. -/
def memberType (ds : List Decl) : Member → MTy
  | .simple ty _ _ => .simple ty
  | .named ty _ _ => if ds.any (Decl.isStruct ty) then .struct ty else .enum ty
  | .vector el _ => .vec el

/-- The class table is what a C++ compiler makes of the declarations.  The values of enumerators and default member
initialisers are left open; the rules of C++ that matter are in `CTable.Good` and here: enumerators of an enum have
distinct names, elements of vectors are declared structs, and vectors inside of objects initialised with `{}` or
`{value}` are empty (there is no way to initialise a vector from one value), the includes of
process_items_xml.cpp:66-69 and process_items.cpp:92-94. -/
structure Compiled (ds : List Decl) (T : CTable) : Prop where
  good : T.Good
  cls : ∀ n m ms, Decl.struct n m ms ∈ ds → ∃ cs, T.cls n = some cs ∧
    cs.map (fun c => (c.name, c.ty, c.init.isSome)) = (m :: ms).map fun m => (m.name, memberType ds m, m.hasInit)
  clsOnly : ∀ n cs, T.cls n = some cs → ∃ m ms, Decl.struct n m ms ∈ ds
  enm : ∀ c n x xs t, Decl.enum c n x xs t ∈ ds → ∃ val, T.enm n = some (⟨n, c, (x :: xs).map lineOf⟩, val)
  enmOnly : ∀ n e val, T.enm n = some (e, val) → ∃ c x xs t, Decl.enum c n x xs t ∈ ds ∧ e = ⟨n, c, (x :: xs).map lineOf⟩
  enumerators : ∀ c n x xs t, Decl.enum c n x xs t ∈ ds → ((x :: xs).map Enumerator.name).Nodup
  vecs : ∀ n m ms, Decl.struct n m ms ∈ ds → ∀ el v, Member.vector el v ∈ m :: ms → ds.any (Decl.isStruct el) = true
  fresh : ∀ n cs, T.cls n = some cs → ∀ c ∈ cs, ∀ v, c.init = some v → Fresh T c.ty v

/-- No member of struct type has an initialiser.  (Specification notion, models no code.) -/
def NoStructInits (ds : List Decl) : Prop :=
  ∀ n m ms, Decl.struct n m ms ∈ ds → ∀ ty v d, Member.named ty v d ∈ m :: ms → ds.any (Decl.isStruct ty) = true → d = .absent

section
variable {ds : List Decl} {T : CTable}

theorem wt_cls {u : Bool} {n : Str} {v : Val} (h : CTable.WT T u (.struct n) v) : ∃ ms, T.cls n = some ms := by
  cases h with
  | undef _ h _ _ => exact absurd rfl (h n)
  | struct h _ _ => exact ⟨_, h⟩

theorem Compiled.freshDefaults (h : Compiled ds T) : T.FreshDefaults := by
  intro c ms hc
  have hw := h.good.wt c ms hc
  generalize hv : T.dflt c = v at hw
  generalize hty : MTy.struct c = ty at hw
  induction hw generalizing c ms with
  | undef _ h _ _ => subst hty; exact absurd rfl (h c)
  | simple h => cases hty
  | enum _ _ _ => cases hty
  | vec _ => cases hty
  | @struct n ms' fs hc' hn hfs ih =>
    injection hty with hty
    subst hty
    rw [hc] at hc'
    cases hc'
    refine .struct hc hn ?_
    intro m hm v hl
    obtain ⟨ds', h1, h2, h3⟩ := dflt_struct h.good hc
    rw [h1] at hv
    injection hv with hv
    subst hv
    rw [h3 m hm] at hl
    injection hl with hl
    subst hl
    unfold CTable.memberDflt
    cases hi : m.init with
    | some v => exact h.fresh c _ hc m hm v hi
    | none =>
      dsimp only
      cases hty : m.ty with
      | simple ty => exact .leaf rfl
      | enum n => exact .leaf rfl
      | vec n => exact .vec
      | struct n =>
        have hd : T.memberDflt m = T.dflt n := by
          unfold CTable.memberDflt
          rw [hi, hty]
          rfl
        have hsub := hfs m hm _ (h3 m hm)
        rw [hd, hty] at hsub
        obtain ⟨ms', hms'⟩ := wt_cls hsub
        have := ih m hm _ (h3 m hm) n ms' hms' hd.symm hty.symm
        rw [hd, hty] at this
        exact this

theorem Compiled.noStructInit (h : Compiled ds T) (hd : NoStructInits ds) : T.NoStructInit := by
  intro c cs hc m hm hl
  obtain ⟨m0, ms, hdecl⟩ := h.clsOnly c cs hc
  obtain ⟨cs', h1, h2⟩ := h.cls c m0 ms hdecl
  rw [hc] at h1
  cases h1
  have hmem : (m.name, m.ty, m.init.isSome) ∈ cs.map (fun c => (c.name, c.ty, c.init.isSome)) :=
    List.mem_map.2 ⟨m, hm, rfl⟩
  rw [h2, List.mem_map] at hmem
  obtain ⟨p, hp, he⟩ := hmem
  simp only [Prod.mk.injEq] at he
  obtain ⟨_, he2, he3⟩ := he
  rw [← he2] at hl
  cases p with
  | simple ty n d => cases hl
  | vector el n =>
    have : m.init.isSome = false := he3.symm
    simpa using this
  | named ty n d =>
    by_cases hs : ds.any (Decl.isStruct ty) = true
    · have := hd c m0 ms hdecl ty n d hp hs
      subst this
      have : m.init.isSome = false := he3.symm
      simpa using this
    · simp [memberType, hs, MTy.isLeaf] at hl

theorem Compiled.enumsOk (h : Compiled ds T) {fs : List (Str × Header)} (hw : ∀ f ∈ fs, toksFile f.1 = some f.2.toks)
    (hds : ds = fs.flatMap fun f => f.2.decls) : T.EnumsOk := by
  intro n e val he
  obtain ⟨c, x, xs, t, hm, rfl⟩ := h.enmOnly n e val he
  have hln : ∀ y : Enumerator, (lineOf y).name = y.name := by intro y; unfold lineOf; cases y.value <;> rfl
  have hmap : ((x :: xs).map lineOf).map EnumLine.name = (x :: xs).map Enumerator.name := by
    rw [List.map_map]
    exact List.map_congr_left fun y _ => hln y
  refine ⟨by show (((x :: xs).map lineOf).map EnumLine.name).Nodup; rw [hmap]; exact h.enumerators c n x xs t hm, ?_⟩
  intro l hl
  obtain ⟨y, hy, rfl⟩ := List.mem_map.1 hl
  rw [hln]
  rw [hds, List.mem_flatMap] at hm
  obtain ⟨f, hf, hm⟩ := hm
  exact enumerator_ident (hw f hf) hm hy

end

/-! ### Generation -/

/-- stfx reads header files `fs` (texts, with what they declare), with no common part before them, and generates the
structs file `prog` of kind `k` from them: `process_input_file` for each file, then the steps of `process_items`
(process_items.cpp:29-76), the first two of which succeed. -/
structure Generated (fs : List (Str × Header)) (k : Kind) (out : OutSpec) (prog : List Item) : Prop where
  texts : ∀ f ∈ fs, toksFile f.1 = some f.2.toks
  distinct : ((fs.flatMap fun f => f.2.decls).map Decl.name).Nodup
  run : ∃ (i : Info) (stamp fc fh : Str) (inputs : List Str), (processFiles 0 (fs.map fun f => some f.1) [Info.empty]).bind (prepare 0) = some ([i], true) ∧
    prog = structsCpp k stamp fc fh inputs out i.structs

/-- A struct that no struct uses as member or element type.  (Specification notion, models no code.) -/
def TopStruct (ds : List Decl) (n : Str) : Prop :=
  (∃ m ms, Decl.struct n m ms ∈ ds) ∧
  ∀ n' m ms, Decl.struct n' m ms ∈ ds → ∀ p ∈ m :: ms, memberType ds p ≠ .struct n ∧ memberType ds p ≠ .vec n

/-- Is the member of a simple type?  (Specification notion, models no code.) -/
def _root_.Stfx.Parser.Member.isSimple : Member → Bool
  | .simple .. => true
  | .named .. | .vector .. => false

/-- Members recorded in two lists. -/
theorem lines_eq {β : Type} (f : SimpleLine → β) (g : ComplexLine → β) (h : Member → β) (ms : List Member)
    (h1 : ∀ m ∈ ms, ∀ l, simpleOf m = some l → f l = h m) (h2 : ∀ m ∈ ms, ∀ l, complexOf m = some l → g l = h m) :
    (ms.filterMap simpleOf).map f ++ (ms.filterMap complexOf).map g =
      (ms.filter Member.isSimple ++ ms.filter fun m => !m.isSimple).map h := by
  rw [List.map_append]
  congr 1
  · induction ms with
    | nil => rfl
    | cons m ms ih =>
      have ih := ih (fun m' hm => h1 m' (List.mem_cons_of_mem _ hm)) (fun m' hm => h2 m' (List.mem_cons_of_mem _ hm))
      have e1 := h1 m List.mem_cons_self
      cases m with
      | simple ty n d =>
        rw [List.filterMap_cons_some (f := simpleOf) rfl, List.filter_cons_of_pos rfl, List.map_cons, List.map_cons, e1 _ rfl, ih]
      | named ty n d => rw [List.filterMap_cons_none rfl, List.filter_cons_of_neg (by simp [Member.isSimple]), ih]
      | vector el n => rw [List.filterMap_cons_none rfl, List.filter_cons_of_neg (by simp [Member.isSimple]), ih]
  · induction ms with
    | nil => rfl
    | cons m ms ih =>
      have ih := ih (fun m' hm => h1 m' (List.mem_cons_of_mem _ hm)) (fun m' hm => h2 m' (List.mem_cons_of_mem _ hm))
      have e2 := h2 m List.mem_cons_self
      cases m with
      | simple ty n d => rw [List.filterMap_cons_none rfl, List.filter_cons_of_neg (by simp [Member.isSimple]), ih]
      | named ty n d =>
        rw [List.filterMap_cons_some (f := complexOf) rfl, List.filter_cons_of_pos rfl, List.map_cons, List.map_cons, e2 _ rfl,
          ih]
      | vector el n =>
        rw [List.filterMap_cons_some (f := complexOf) rfl, List.filter_cons_of_pos rfl, List.map_cons, List.map_cons, e2 _ rfl,
          ih]

theorem filter_perm {α : Type} (p : α → Bool) (l : List α) : (l.filter p ++ l.filter fun x => !p x).Perm l := by
  induction l with
  | nil => exact .nil
  | cons a l ih =>
    cases h : p a with
    | true =>
      rw [List.filter_cons_of_pos h, List.filter_cons_of_neg (by simp [h])]
      exact .cons _ ih
    | false =>
      rw [List.filter_cons_of_neg (by simp [h]), List.filter_cons_of_pos (by simp [h])]
      exact List.perm_middle.trans (.cons _ ih)

theorem mem_keys {α : Type} {m : SMap α} {n : Str} : n ∈ m.keys ↔ ∃ s, m.find? n = some s := by
  constructor
  · intro h
    cases hf : m.find? n with
    | none => exact absurd h (SMap.find?_none_iff.1 hf)
    | some s => exact ⟨s, rfl⟩
  · rintro ⟨s, h⟩
    apply Classical.byContradiction
    intro hn
    rw [SMap.find?_none_iff.2 hn] at h
    cases h

section
variable {fs : List (Str × Header)} {k : Kind} {out : OutSpec} {prog : List Item} {T : CTable}

theorem tables_of (ht : ∀ f ∈ fs, toksFile f.1 = some f.2.toks) (hd : ((fs.flatMap fun f => f.2.decls).map Decl.name).Nodup) {i' : Info}
    (h : (processFiles 0 (fs.map fun f => some f.1) [Info.empty]).bind (prepare 0) = some ([i'], true)) :
    ∃ i, Reading [i] ∧ prepare 0 [i] = some ([i'], true) ∧
      (∀ n s, i.structs.find? n = some s ↔ ∃ m ms, Decl.struct n m ms ∈ fs.flatMap (fun f => f.2.decls) ∧
        s = ⟨n, (m :: ms).filterMap simpleOf, (m :: ms).filterMap complexOf, 0⟩) ∧
      (∀ n e, i.enums.find? n = some e ↔ ∃ c x xs t, Decl.enum c n x xs t ∈ fs.flatMap (fun f => f.2.decls) ∧
        e = ⟨n, c, (x :: xs).map lineOf⟩) := by
  obtain ⟨i, g1, g2, g3, _⟩ := C12_tables fs ht hd
  rw [g1, Option.bind_some] at h
  exact ⟨i, reading_files (Reading.new .start) g1, h, g2, g3⟩
where
  reading_files {h h' : Heap} {ts : List (Option Str)} (hr : Reading h) (hp : processFiles 0 ts h = some h') : Reading h' := by
    induction ts generalizing h with
    | nil => cases hp; exact hr
    | cons t ts ih =>
      unfold processFiles at hp
      rw [Option.bind_eq_some_iff] at hp
      obtain ⟨r, hr1, hp⟩ := hp
      obtain ⟨h1, b⟩ := r
      exact ih (.file hr hr1) hp

theorem Generated.tables (h : Generated fs k out prog) :
    ∃ i i' stamp fc fh inputs, prog = structsCpp k stamp fc fh inputs out i'.structs ∧
      Reading [i] ∧ prepare 0 [i] = some ([i'], true) ∧
      (∀ n s, i.structs.find? n = some s ↔ ∃ m ms, Decl.struct n m ms ∈ fs.flatMap (fun f => f.2.decls) ∧
        s = ⟨n, (m :: ms).filterMap simpleOf, (m :: ms).filterMap complexOf, 0⟩) ∧
      (∀ n e, i.enums.find? n = some e ↔ ∃ c x xs t, Decl.enum c n x xs t ∈ fs.flatMap (fun f => f.2.decls) ∧
        e = ⟨n, c, (x :: xs).map lineOf⟩) := by
  obtain ⟨i', stamp, fc, fh, inputs, h1, h2⟩ := h.run
  obtain ⟨i, hi⟩ := tables_of h.texts h.distinct h1
  exact ⟨i, i', stamp, fc, fh, inputs, h2, hi⟩

theorem any_isStruct {ds : List Decl} {n : Str} : ds.any (Decl.isStruct n) = true ↔ ∃ m ms, Decl.struct n m ms ∈ ds := by
  rw [List.any_eq_true]
  constructor
  · rintro ⟨d, hd, h⟩
    cases d with
    | enum => cases h
    | struct n' m ms =>
      simp only [Decl.isStruct, decide_eq_true_eq] at h
      subst h
      exact ⟨m, ms, hd⟩
  · rintro ⟨m, ms, h⟩
    exact ⟨_, h, by simp [Decl.isStruct]⟩

/-- What the tables hold when the files are generated. -/
theorem tables_all (ht : ∀ f ∈ fs, toksFile f.1 = some f.2.toks) (hd : ((fs.flatMap fun f => f.2.decls).map Decl.name).Nodup) {i' : Info}
    (h : (processFiles 0 (fs.map fun f => some f.1) [Info.empty]).bind (prepare 0) = some ([i'], true)) :
    ((∀ n s, (n, s) ∈ i'.structs → s.name = n) ∧ i'.structs.keys.Nodup ∧
      (∀ n s, i'.structs.find? n = some s → ∃ m ms, Decl.struct n m ms ∈ fs.flatMap (fun f => f.2.decls)) ∧
      ∀ c n x xs t, Decl.enum c n x xs t ∈ fs.flatMap (fun f => f.2.decls) → i'.enums.find? n = some ⟨n, c, (x :: xs).map lineOf⟩) ∧
    (∀ n m ms, Decl.struct n m ms ∈ fs.flatMap (fun f => f.2.decls) → ∃ s, i'.structs.find? n = some s ∧ Resolved s ∧
      lines s = ((m :: ms).filter Member.isSimple ++ (m :: ms).filter fun m => !m.isSimple).map
        fun m => (m.name, memberType (fs.flatMap fun f => f.2.decls) m)) ∧
    ∀ n, n ∈ tops i'.structs ↔ TopStruct (fs.flatMap fun f => f.2.decls) n := by
  obtain ⟨i, h2, h3, h4, h5⟩ := tables_of ht hd h
  generalize hds : (fs.flatMap fun f => f.2.decls) = ds at h4 h5
  have hfirst := C16_first_run h2 (i := i) (i' := i') rfl h3 rfl
  have hi' : i' = (findTop (fixup i).1).1 := by
    simp only [prepare, List.getElem?_cons_zero, Option.bind_eq_bind, Option.bind_some, Option.some.injEq,
      Prod.mk.injEq, List.set_cons_zero, List.cons.injEq, and_true] at h3
    exact h3.1.symm
  have hks : ∀ n, n ∈ i.structs.keys ↔ ds.any (Decl.isStruct n) = true := by
    intro n
    rw [any_isStruct, mem_keys]
    constructor
    · rintro ⟨s, hs⟩
      obtain ⟨m, ms, hd, _⟩ := (h4 n s).1 hs
      exact ⟨m, ms, hd⟩
    · rintro ⟨m, ms, hd⟩
      exact ⟨_, (h4 n _).2 ⟨m, ms, hd, rfl⟩⟩
  have hnamed : ∀ n m ms, Decl.struct n m ms ∈ ds → ∀ ty v d, Member.named ty v d ∈ m :: ms →
      ((fixupLine i ⟨.enumOrStruct, ty, v⟩).ty = .enum ∨ (fixupLine i ⟨.enumOrStruct, ty, v⟩).ty = .struct) ∧
      lineTy (fixupLine i ⟨.enumOrStruct, ty, v⟩) = memberType ds (.named ty v d) := by
    intro n m ms hd ty v d hm
    have := hfirst.2.1 rfl n _ ⟨.enumOrStruct, ty, v⟩ ((h4 n _).2 ⟨m, ms, hd, rfl⟩)
      (List.mem_filterMap.2 ⟨_, hm, rfl⟩) (by simp)
    simp only [memberType, ← hks]
    by_cases hs : ty ∈ i.structs.keys
    · obtain ⟨s, hs'⟩ := mem_keys.1 hs
      rw [if_pos hs]
      simp [fixupLine, getItemType, hs', lineTy]
    · rw [if_neg hs]
      obtain ⟨e, he⟩ := mem_keys.1 (this.resolve_left hs)
      simp [fixupLine, getItemType, SMap.find?_none_iff.2 hs, he, lineTy]
  refine ⟨?_, ?_, ?_⟩
  · have hh : History [i'] := .generate h2.history h3
    have ht := hh.ok.tab 0 i' rfl
    refine ⟨fun n s hs => ht.nameS _ _ (ht.sortedS.find?_of_mem hs), ?_, fun n s hs => ?_, fun c n x xs t hd => ?_⟩
    · refine List.Pairwise.imp ?_ ((SMap.sorted_iff_keys _).1 ht.sortedS)
      rintro a b h rfl
      rw [sLt_irrefl] at h
      cases h
    · rw [hi', prep_find] at hs
      cases hf : i.structs.find? n with
      | none => rw [hf] at hs; cases hs
      | some s' =>
        obtain ⟨m, ms, hd, _⟩ := (h4 n s').1 hf
        exact ⟨m, ms, hd⟩
    · rw [hi']
      exact (h5 n _).2 ⟨c, x, xs, t, hd, rfl⟩
  · intro n m ms hd
    have hf := (h4 n _).2 ⟨m, ms, hd, rfl⟩
    refine ⟨_, by rw [hi', prep_find, hf]; rfl, ?_, ?_⟩
    · intro co hco
      obtain ⟨co0, hco0, rfl⟩ := List.mem_map.1 hco
      obtain ⟨p, hp, hpc⟩ := List.mem_filterMap.1 hco0
      cases p with
      | simple => cases hpc
      | named ty v d =>
        simp only [complexOf, Option.some.injEq] at hpc
        subst hpc
        rcases (hnamed n m ms hd ty v d hp).1 with e | e
        · exact Or.inl e
        · exact Or.inr (Or.inl e)
      | vector el v =>
        simp only [complexOf, Option.some.injEq] at hpc
        subst hpc
        exact Or.inr (Or.inr rfl)
    · unfold Run.lines
      dsimp only
      rw [List.map_map]
      refine lines_eq _ _ _ _ ?_ ?_
      · intro p hp l hl
        cases p with
        | simple ty v d =>
          simp only [simpleOf, Option.some.injEq] at hl
          subst hl
          rfl
        | named => cases hl
        | vector => cases hl
      · intro p hp l hl
        cases p with
        | simple => cases hl
        | named ty v d =>
          simp only [complexOf, Option.some.injEq] at hl
          subst hl
          simp only [Function.comp, fixupLine_name, (hnamed n m ms hd ty v d hp).2, Member.name]
        | vector el v =>
          simp only [complexOf, Option.some.injEq] at hl
          subst hl
          rfl
  · intro n
    have he := (C18_first_run h2 (i := i) (i' := i') rfl h3 rfl .attrib [] [] [] [] ⟨[], [], [], [], [], 0, false, false⟩ n).1
    have he' := (entryPoints_tops .attrib [] [] [] [] ⟨[], [], [], [], [], 0, false, false⟩ i'.structs n).1
    refine he'.symm.trans (he.trans ?_)
    dsimp only
    rw [hks, any_isStruct]
    unfold TopStruct Used
    refine and_congr_right fun hex => ?_
    constructor
    · intro hno n' m ms hd p hp
      constructor
      · intro he
        cases p with
        | simple => cases he
        | vector => cases he
        | named ty v d =>
          have : ty = n := by
            simp only [memberType] at he
            split at he
            · injection he
            · cases he
          subst this
          exact hno ⟨n', _, _, (h4 n' _).2 ⟨m, ms, hd, rfl⟩, List.mem_filterMap.2 ⟨_, hp, rfl⟩, rfl⟩
      · intro he
        cases p with
        | simple => cases he
        | named ty v d => simp only [memberType] at he; split at he <;> cases he
        | vector el v =>
          injection he with he
          subst he
          exact hno ⟨n', _, _, (h4 n' _).2 ⟨m, ms, hd, rfl⟩, List.mem_filterMap.2 ⟨_, hp, rfl⟩, rfl⟩
    · rintro hall ⟨n', s, co, hs, hco, rfl⟩
      obtain ⟨m, ms, hd, rfl⟩ := (h4 n' s).1 hs
      obtain ⟨p, hp, hpc⟩ := List.mem_filterMap.1 hco
      obtain ⟨a, b⟩ := hall n' m ms hd p hp
      cases p with
      | simple => cases hpc
      | named ty v d =>
        simp only [complexOf, Option.some.injEq] at hpc
        subst hpc
        apply a
        simp [memberType, any_isStruct.2 hex]
      | vector el v =>
        simp only [complexOf, Option.some.injEq] at hpc
        subst hpc
        exact b rfl

theorem Generated.lines (h : Generated fs k out prog) :
    ∃ (i : Info) (stamp fc fh : Str) (inputs : List Str), prog = structsCpp k stamp fc fh inputs out i.structs ∧
      (∀ n s, (n, s) ∈ i.structs → s.name = n) ∧
      (∀ n m ms, Decl.struct n m ms ∈ fs.flatMap (fun f => f.2.decls) → ∃ s, i.structs.find? n = some s ∧ Resolved s ∧
        lines s = ((m :: ms).filter Member.isSimple ++ (m :: ms).filter fun m => !m.isSimple).map
          fun m => (m.name, memberType (fs.flatMap fun f => f.2.decls) m)) ∧
      ∀ n, n ∈ tops i.structs ↔ TopStruct (fs.flatMap fun f => f.2.decls) n := by
  obtain ⟨i, stamp, fc, fh, inputs, h1, h2⟩ := h.run
  obtain ⟨h3, h4⟩ := tables_all h.texts h.distinct h1
  exact ⟨i, stamp, fc, fh, inputs, h2, h3.1, h4⟩

/-- The generated code is code for the classes of the headers. -/
theorem Generated.code (h : Generated fs k out prog) (hk : k = .xml ∨ k = .attrib) (ho : out.onlyRead = false)
    (hT : Compiled (fs.flatMap fun f => f.2.decls) T) :
    Code T prog k (!out.noDelta) ∧ ∀ n, TopStruct (fs.flatMap fun f => f.2.decls) n →
      hasReadFile prog n = true ∧ hasWriteFile prog n = true := by
  obtain ⟨i, stamp, fc, fh, inputs, rfl, h2, h3, h4⟩ := h.lines
  refine ⟨code_of_gen (S := i.structs) ⟨hT.good, ?_⟩ hk ho h2, ?_⟩
  · intro c cs hc
    obtain ⟨m, ms, hd⟩ := hT.clsOnly c cs hc
    obtain ⟨cs', e1, e2⟩ := hT.cls c m ms hd
    rw [hc] at e1
    cases e1
    obtain ⟨s, g1, g2, g3⟩ := h3 c m ms hd
    refine ⟨s, g1, g2, ?_⟩
    have : cs.map (fun m => (m.name, m.ty)) =
        (m :: ms).map fun m => (m.name, memberType (fs.flatMap fun f => f.2.decls) m) := by
      have := congrArg (List.map fun p : Str × MTy × Bool => (p.1, p.2.1)) e2
      simpa only [List.map_map, Function.comp_def] using this
    rw [this, g3]
    exact (filter_perm _ _).map _
  · intro n hn
    have := (h4 n).2 hn
    exact ⟨(hasReadFile_gen n).2 this, (hasWriteFile_gen ho n).2 this⟩

end

end Stfx.Run
