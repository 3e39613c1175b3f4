import Verif.Run.Schema
import Verif.Run.Samples
/-
C83: the functions generated for a type depend on its own declaration only.
-/
set_option autoImplicit false

namespace Stfx.Run
open Stfx.Items Stfx.Parser Stfx.Gen Stfx.Lexer

/-! ### Functions and lines -/

/-- Name and type of a simple line.  (Proof notion, models no code.) -/
def simpleLine? (p : Str × MTy) : Option (Str × SimpleTy) :=
  match p.2 with
  | .simple ty => some (p.1, ty)
  | _ => none

/-- The complex line for a name and a type.  (Proof notion, models no code.) -/
def complexLine? (p : Str × MTy) : Option ComplexLine :=
  match p.2 with
  | .simple _ => none
  | .enum t => some ⟨.enum, t, p.1⟩
  | .struct t => some ⟨.struct, t, p.1⟩
  | .vec t => some ⟨.vector, t, p.1⟩

theorem lines_simple (s : StructS) : (lines s).filterMap simpleLine? = s.simple.map fun l => (l.name, l.ty) := by
  have h2 : (s.complex.map fun co => (co.name, lineTy co)).filterMap simpleLine? = [] := by
    rw [List.filterMap_eq_nil_iff]
    intro p hp
    obtain ⟨co, _, rfl⟩ := List.mem_map.1 hp
    cases co with
    | mk ty t n => cases ty <;> rfl
  have h1 : ∀ ls : List SimpleLine, (ls.map fun l => ((l.name, MTy.simple l.ty) : Str × MTy)).filterMap simpleLine? = ls.map fun l => (l.name, l.ty) := by
    intro ls
    induction ls with
    | nil => rfl
    | cons l ls ih => simp only [List.map_cons, List.filterMap_cons, simpleLine?, ih]
  unfold lines
  rw [List.filterMap_append, h2, h1, List.append_nil]

theorem lines_complex {s : StructS} (h : Resolved s) : (lines s).filterMap complexLine? = s.complex := by
  have h1 : (s.simple.map fun l => ((l.name, MTy.simple l.ty) : Str × MTy)).filterMap complexLine? = [] := by
    rw [List.filterMap_eq_nil_iff]
    intro p hp
    obtain ⟨l, _, rfl⟩ := List.mem_map.1 hp
    rfl
  have h2 : ∀ cs : List ComplexLine, (∀ co ∈ cs, co.ty = .enum ∨ co.ty = .struct ∨ co.ty = .vector) →
      (cs.map fun co => (co.name, lineTy co)).filterMap complexLine? = cs := by
    intro cs hc
    induction cs with
    | nil => rfl
    | cons co cs ih =>
      have ih := ih fun x hx => hc x (List.mem_cons_of_mem _ hx)
      have h3 : complexLine? (co.name, lineTy co) = some co := by
        cases co with
        | mk ty t n =>
          rcases hc _ List.mem_cons_self with e | e | e <;> (simp only at e; subst e; rfl)
      rw [List.map_cons, List.filterMap_cons_some h3, ih]
  unfold lines
  rw [List.filterMap_append, h1, h2 _ h, List.nil_append]

theorem functions_lines {s s' : StructS} (hr : Resolved s) (hr' : Resolved s') (hn : s.name = s'.name) (h : lines s = lines s') (k : Kind) (c : Str)
    (nd : Bool) : readerDef k c s = readerDef k c s' ∧ writerDef k c nd s = writerDef k c nd s' := by
  have h1 : s.simple.map (fun l => (l.name, l.ty)) = s'.simple.map fun l => (l.name, l.ty) := by
    rw [← lines_simple, ← lines_simple, h]
  have h2 : s.complex = s'.complex := by rw [← lines_complex hr, ← lines_complex hr', h]
  have h3 : ∀ {β : Type} (f : Str × SimpleTy → β), s.simple.map (fun l => f (l.name, l.ty)) = s'.simple.map fun l => f (l.name, l.ty) := by
    intro β f
    have := congrArg (List.map f) h1
    simpa only [List.map_map, Function.comp_def] using this
  have h4 : (s.simple = []) = (s'.simple = []) := by
    have := congrArg List.length h1
    simp only [List.length_map] at this
    rw [← List.length_eq_zero_iff, ← List.length_eq_zero_iff, this]
  have h5 : hasChildren s = hasChildren s' := by unfold hasChildren; rw [h2]
  cases k with
  | ini => exact ⟨rfl, rfl⟩
  | xml =>
    simp only [readerDef, writerDef, h2, hn, h3 fun p => Rd.elem p.2 p.1, h3 fun p => Wr.elem (!nd) p.2 p.1, and_self]
  | attrib =>
    simp only [readerDef, writerDef, h2, h5, hn, h3 fun p => Rd.attr p.2 p.1, h3 fun p => Wr.attr (!nd) p.2 p.1, and_self]
  | nIni =>
    simp only [readerDef, writerDef, h2, h4, h5, hn, h3 fun p => Look.simple p.2 p.1, h3 fun p => NWr.line (!nd) p.2 p.1, and_self]

/-! ### Functions of a file -/

/-- The item is the definition of the reader or writer function of a struct.  (Specification notion, models no code.) -/
def IsFunctionOf (n : Str) (it : Item) : Prop := ∃ c, it.readerDefined = some (c, n) ∨ it.writerDefined = some (c, n)

theorem readerDef_names {k : Kind} {c : Str} {s : StructS} {it : Item} (h : it ∈ readerDef k c s) : it.readerDefined = some (c, s.name) := by
  cases k <;> simp only [readerDef, List.mem_singleton, List.not_mem_nil] at h <;> (subst h; rfl)

theorem writerDef_names {k : Kind} {c : Str} {nd : Bool} {s : StructS} {it : Item} (h : it ∈ writerDef k c nd s) :
    it.writerDefined = some (c, s.name) := by
  cases k <;> simp only [writerDef, List.mem_singleton, List.not_mem_nil] at h <;> (subst h; rfl)

theorem not_both {it : Item} {x y : Str × Str} (h : it.readerDefined = some x) : it.writerDefined ≠ some y := by
  cases it <;> first | (intro e; cases e; done) | cases h

theorem find_of_mem {α : Type} {S : SMap α} (hk : S.keys.Nodup) {n : Str} {s : α} (h : (n, s) ∈ S) : S.find? n = some s := by
  induction S with
  | nil => cases h
  | cons p S ih =>
    obtain ⟨k, v⟩ := p
    rw [SMap.find?_cons]
    have hk : k ∉ SMap.keys S ∧ (SMap.keys S).Nodup := List.nodup_cons.1 hk
    rcases List.mem_cons.1 h with e | e
    · cases e
      simp
    · have : n ≠ k := by
        rintro rfl
        exact hk.1 (List.mem_map.2 ⟨_, e, rfl⟩)
      simp [this, this.symm, ih hk.2 e]

theorem mem_functions {k : Kind} {stamp fc fh : Str} {inputs : List Str} {out : OutSpec} {S : SMap StructS} {n : Str} {it : Item}
    (hi : IsFunctionOf n it) (hS : ∀ n s, (n, s) ∈ S → s.name = n) (hk : S.keys.Nodup) : it ∈ structsCpp k stamp fc fh inputs out S ↔
      ∃ s, S.find? n = some s ∧ (it ∈ readerDef k out.readerClass s ∨ (out.onlyRead = false ∧ it ∈ writerDef k out.writerClass out.noDelta s)) := by
  obtain ⟨c, hc⟩ := hi
  have hno : ∀ x : Item, x.readerDefined = none → x.writerDefined = none → it ≠ x := by
    rintro x h1 h2 rfl
    rw [h1, h2] at hc
    rcases hc with e | e <;> cases e
  have hhead : it ∉ structsCppHead k stamp fc fh inputs out := fun h =>
    (head_raw k stamp fc fh inputs out it h).elim fun t e => hno (.raw t) rfl rfl e
  have hrd : it ∈ (S.map Prod.snd).flatMap (readerDef k out.readerClass) ↔ ∃ s, S.find? n = some s ∧ it ∈ readerDef k out.readerClass s := by
    rw [List.mem_flatMap]
    constructor
    · rintro ⟨s, hs, h⟩
      obtain ⟨⟨n', s'⟩, hm, rfl⟩ := List.mem_map.1 hs
      have h1 := readerDef_names h
      rcases hc with e | e
      · rw [h1] at e
        cases e
        have h2 := hS _ _ hm
        simp only at h h2 ⊢
        subst h2
        exact ⟨s', find_of_mem hk hm, h⟩
      · exact absurd e (not_both h1)
    · rintro ⟨s, hs, h⟩
      exact ⟨s, List.mem_map.2 ⟨_, SMap.find?_some_mem hs, rfl⟩, h⟩
  have hwr : it ∈ (S.map Prod.snd).flatMap (writerDef k out.writerClass out.noDelta) ↔
      ∃ s, S.find? n = some s ∧ it ∈ writerDef k out.writerClass out.noDelta s := by
    rw [List.mem_flatMap]
    constructor
    · rintro ⟨s, hs, h⟩
      obtain ⟨⟨n', s'⟩, hm, rfl⟩ := List.mem_map.1 hs
      have h1 := writerDef_names h
      rcases hc with e | e
      · exact absurd h1 (not_both e)
      · rw [h1] at e
        cases e
        have h2 := hS _ _ hm
        simp only at h h2 ⊢
        subst h2
        exact ⟨s', find_of_mem hk hm, h⟩
    · rintro ⟨s, hs, h⟩
      exact ⟨s, List.mem_map.2 ⟨_, SMap.find?_some_mem hs, rfl⟩, h⟩
  have hrf : it ∉ ((S.map Prod.snd).filter isTop).map (fun s => Item.defReadFile k out.readerClass s.name) := by
    intro h
    obtain ⟨s, _, e⟩ := List.mem_map.1 h
    exact hno _ rfl rfl e.symm
  have hwf : it ∉ ((S.map Prod.snd).filter isTop).map (fun s => Item.defWriteFile k out.writerClass s.name) := by
    intro h
    obtain ⟨s, _, e⟩ := List.mem_map.1 h
    exact hno _ rfl rfl e.symm
  unfold structsCpp
  simp only [List.mem_append, List.mem_singleton, hhead, hrf, hrd, hno (.readerCtor k out.readerClass) rfl rfl, hno (.raw _) rfl rfl, false_or, or_false]
  cases ho : out.onlyRead with
  | true =>
    simp only [if_true, List.not_mem_nil, or_false, Bool.true_eq_false, false_and]
  | false =>
    simp only [Bool.false_eq_true, if_false, List.mem_append, List.mem_singleton, hwf, hwr, hno (.writerCtor k out.writerClass out.readerClass) rfl rfl,
      hno (.raw _) rfl rfl, false_or, or_false, true_and]
    constructor
    · rintro (⟨s, h1, h2⟩ | ⟨s, h1, h2⟩)
      · exact ⟨s, h1, Or.inl h2⟩
      · exact ⟨s, h1, Or.inr h2⟩
    · rintro ⟨s, h1, h2 | h2⟩
      · exact Or.inl ⟨s, h1, h2⟩
      · exact Or.inr ⟨s, h1, h2⟩

/-! ### C83 -/

section
variable {fs fs' : List (Str × Header)} {k : Kind} {out out' : OutSpec} {prog prog' : List Item}

/-- Settings that the functions of structs depend on are the same.  (Specification notion, models no code.) -/
structure SameStyle (out out' : OutSpec) : Prop where
  reader : out.readerClass = out'.readerClass
  writer : out.writerClass = out'.writerClass
  onlyRead : out.onlyRead = out'.onlyRead
  noDelta : out.noDelta = out'.noDelta

/-- C83, structs: two runs, on whatever headers, that both declare a struct with the same simple members and the same other members (in the
same order, initialisers apart), of types that are structs in both or enums in both, generate the same reader and writer functions for it. -/
theorem C83_local (hG : Generated fs k out prog) (hG' : Generated fs' k out' prog') (ho : SameStyle out out') {n : Str} {m m' : Member}
    {ms ms' : List Member} (hd : Decl.struct n m ms ∈ fs.flatMap fun f => f.2.decls) (hd' : Decl.struct n m' ms' ∈ fs'.flatMap fun f => f.2.decls)
    (hm : (((m :: ms).filter Member.isSimple).map fun p => (p.name, memberType (fs.flatMap fun f => f.2.decls) p)) =
      ((m' :: ms').filter Member.isSimple).map fun p => (p.name, memberType (fs'.flatMap fun f => f.2.decls) p))
    (hc : (((m :: ms).filter fun p => !p.isSimple).map fun p => (p.name, memberType (fs.flatMap fun f => f.2.decls) p)) =
      ((m' :: ms').filter fun p => !p.isSimple).map fun p => (p.name, memberType (fs'.flatMap fun f => f.2.decls) p))
    {it : Item} (hit : IsFunctionOf n it) : it ∈ prog ↔ it ∈ prog' := by
  obtain ⟨i, stamp, fc, fh, inputs, h1, rfl⟩ := hG.run
  obtain ⟨i', stamp', fc', fh', inputs', h1', rfl⟩ := hG'.run
  obtain ⟨⟨a1, a2, _⟩, a3, _⟩ := tables_all hG.texts hG.distinct h1
  obtain ⟨⟨b1, b2, _⟩, b3, _⟩ := tables_all hG'.texts hG'.distinct h1'
  obtain ⟨s, e1, e2, e3⟩ := a3 n m ms hd
  obtain ⟨s', e1', e2', e3'⟩ := b3 n m' ms' hd'
  have hl : lines s = lines s' := by rw [e3, e3', List.map_append, List.map_append, hm, hc]
  have hn : s.name = s'.name := (a1 _ _ (SMap.find?_some_mem e1)).trans (b1 _ _ (SMap.find?_some_mem e1')).symm
  rw [mem_functions hit a1 a2, mem_functions hit b1 b2, e1, e1', ho.reader, ho.writer, ho.onlyRead, ho.noDelta]
  simp only [Option.some.injEq, exists_eq_left']
  rw [(functions_lines e2 e2' hn hl k out'.readerClass out'.noDelta).1, (functions_lines e2 e2' hn hl k out'.writerClass out'.noDelta).2]

/-- Types of members are the same in more declarations, if they are declared. -/
theorem memberType_more {ds ds' : List Decl} (hsub : ∀ d ∈ ds, d ∈ ds') (hnd : (ds'.map Decl.name).Nodup) {p : Member}
    (hp : ∀ ty v d, p = .named ty v d → ∃ x ∈ ds, x.name = ty) : memberType ds p = memberType ds' p := by
  cases p with
  | simple _ _ _ => rfl
  | vector _ _ => rfl
  | named ty v d =>
    simp only [memberType]
    by_cases h : ds.any (Decl.isStruct ty) = true
    · obtain ⟨m, ms, hm⟩ := any_isStruct.1 h
      rw [if_pos h, if_pos (any_isStruct.2 ⟨m, ms, hsub _ hm⟩)]
    · rw [if_neg h, if_neg]
      intro h'
      obtain ⟨m, ms, hm⟩ := any_isStruct.1 h'
      obtain ⟨x, hx, hxn⟩ := hp ty v d rfl
      have := eq_of_name hnd (hsub x hx) hm (hxn.trans rfl)
      subst this
      exact h (any_isStruct.2 ⟨m, ms, hx⟩)
where
  eq_of_name {ds : List Decl} (h : (ds.map Decl.name).Nodup) {x y : Decl} (hx : x ∈ ds) (hy : y ∈ ds) (e : x.name = y.name) : x = y := by
    induction ds with
    | nil => cases hx
    | cons d ds ih =>
      have h : d.name ∉ ds.map Decl.name ∧ (ds.map Decl.name).Nodup := List.nodup_cons.1 h
      rcases List.mem_cons.1 hx with e1 | h1 <;> rcases List.mem_cons.1 hy with e2 | h2
      · rw [e1, e2]
      · exact absurd (List.mem_map.2 ⟨y, h2, by rw [← e, e1]⟩) h.1
      · exact absurd (List.mem_map.2 ⟨x, h1, by rw [e, e2]⟩) h.1
      · exact ih h.2 h1 h2

/-- Types of members of structs are declared, if generation succeeds. -/
theorem Generated.declared (hG : Generated fs k out prog) {n : Str} {m : Member} {ms : List Member}
    (hd : Decl.struct n m ms ∈ fs.flatMap fun f => f.2.decls) {ty v : Str} {d : Default} (hp : Member.named ty v d ∈ m :: ms) :
    ∃ x ∈ fs.flatMap fun f => f.2.decls, x.name = ty := by
  obtain ⟨i', stamp, fc, fh, inputs, h1, _⟩ := hG.run
  obtain ⟨i, h2, h3, h4, h5⟩ := tables_of hG.texts hG.distinct h1
  have := (C16_first_run h2 (i := i) (i' := i') rfl h3 rfl).2.1 rfl n _ ⟨.enumOrStruct, ty, v⟩ ((h4 n _).2 ⟨m, ms, hd, rfl⟩)
    (List.mem_filterMap.2 ⟨_, hp, rfl⟩) (by simp)
  rcases this with h | h
  · obtain ⟨s, hs⟩ := mem_keys.1 h
    obtain ⟨m', ms', hm, _⟩ := (h4 _ _).1 hs
    exact ⟨_, hm, rfl⟩
  · obtain ⟨e, he⟩ := mem_keys.1 h
    obtain ⟨c, x, xs, t, hm, _⟩ := (h5 _ _).1 he
    exact ⟨_, hm, rfl⟩

/-- C83, structs: if declarations are added to headers, in whatever place, the functions of the structs that were there stay the same. -/
theorem C83_add (hG : Generated fs k out prog) (hG' : Generated fs' k out' prog') (ho : SameStyle out out')
    (hsub : ∀ d ∈ fs.flatMap fun f => f.2.decls, d ∈ fs'.flatMap fun f => f.2.decls) {n : Str} {m : Member} {ms : List Member}
    (hd : Decl.struct n m ms ∈ fs.flatMap fun f => f.2.decls) {it : Item} (hit : IsFunctionOf n it) : it ∈ prog ↔ it ∈ prog' := by
  have key : ∀ p ∈ m :: ms, (p.name, memberType (fs.flatMap fun f => f.2.decls) p) = (p.name, memberType (fs'.flatMap fun f => f.2.decls) p) := by
    intro p hp
    rw [memberType_more hsub hG'.distinct]
    rintro ty v d rfl
    exact hG.declared hd hp
  refine C83_local hG hG' ho hd (hsub _ hd) ?_ ?_ hit
  · exact List.map_congr_left fun p hp => key p ((List.mem_filter.1 hp).1)
  · exact List.map_congr_left fun p hp => key p ((List.mem_filter.1 hp).1)

/-- C83, entry points: a struct keeps them exactly if no added struct uses it, and gets none it had not before.  Missing: that it always
keeps them, which is false (`C83_entry_refuted`). -/
theorem C83_entry_partial (hG : Generated fs k out prog) (hG' : Generated fs' k out' prog')
    (hsub : ∀ d ∈ fs.flatMap fun f => f.2.decls, d ∈ fs'.flatMap fun f => f.2.decls) {n : Str} {m : Member} {ms : List Member}
    (hd : Decl.struct n m ms ∈ fs.flatMap fun f => f.2.decls) :
    hasReadFile prog' n = true ↔ hasReadFile prog n = true ∧ ∀ n' m' ms', Decl.struct n' m' ms' ∈ fs'.flatMap (fun f => f.2.decls) →
      Decl.struct n' m' ms' ∉ fs.flatMap (fun f => f.2.decls) → ∀ p ∈ m' :: ms',
        memberType (fs'.flatMap fun f => f.2.decls) p ≠ .struct n ∧ memberType (fs'.flatMap fun f => f.2.decls) p ≠ .vec n := by
  have h1 : hasReadFile prog n = true ↔ TopStruct (fs.flatMap fun f => f.2.decls) n := by
    obtain ⟨i, stamp, fc, fh, inputs, rfl, _, _, h4⟩ := hG.lines
    rw [hasReadFile_gen, h4]
  have h2 : hasReadFile prog' n = true ↔ TopStruct (fs'.flatMap fun f => f.2.decls) n := by
    obtain ⟨i, stamp, fc, fh, inputs, rfl, _, _, h4⟩ := hG'.lines
    rw [hasReadFile_gen, h4]
  have key : ∀ n' m' ms', Decl.struct n' m' ms' ∈ fs.flatMap (fun f => f.2.decls) → ∀ p ∈ m' :: ms',
      memberType (fs.flatMap fun f => f.2.decls) p = memberType (fs'.flatMap fun f => f.2.decls) p := by
    intro n' m' ms' hd' p hp
    rw [memberType_more hsub hG'.distinct]
    rintro ty v d rfl
    exact hG.declared hd' hp
  rw [h1, h2]
  constructor
  · rintro ⟨_, h⟩
    refine ⟨⟨⟨m, ms, hd⟩, ?_⟩, fun n' m' ms' hd' _ => h n' m' ms' hd'⟩
    intro n' m' ms' hd' p hp
    rw [key n' m' ms' hd' p hp]
    exact h n' m' ms' (hsub _ hd') p hp
  · rintro ⟨⟨_, ha⟩, hb⟩
    refine ⟨⟨m, ms, hsub _ hd⟩, ?_⟩
    intro n' m' ms' hd' p hp
    by_cases hin : Decl.struct n' m' ms' ∈ fs.flatMap (fun f => f.2.decls)
    · rw [← key n' m' ms' hin p hp]
      exact ha n' m' ms' hin p hp
    · exact hb n' m' ms' hd' hin p hp

/-! ### Enums -/

/-- The item is the definition of one of the two functions of an enum.  (Specification notion, models no code.) -/
def IsConversionOf (n : Str) (it : Item) : Prop := it.sFromEDef = some n ∨ it.sToEDef = some n

theorem mem_conversions {stamp fc fh : Str} {inputs : List Str} {E : SMap EnumS} {n : Str} {it : Item} (hi : IsConversionOf n it)
    (hE : ∀ n e, (n, e) ∈ E → e.name = n) (hk : E.keys.Nodup) :
    it ∈ enumsCpp stamp fc fh inputs E ↔ ∃ e, E.find? n = some e ∧ (it = .defSFromE e ∨ it = .defSToE e) := by
  have hno : ∀ t, it ≠ .raw t := by
    rintro t rfl
    rcases hi with e | e <;> cases e
  unfold enumsCpp
  simp only [List.mem_append, List.mem_cons, List.not_mem_nil, List.mem_map, hno, or_false, false_or, List.mem_flatMap]
  constructor
  · rintro (⟨f, _, e⟩ | ⟨⟨n', e⟩, hm, h⟩)
    · exact absurd e.symm (hno _)
    · have h2 := hE _ _ hm
      simp only at h
      have : n = n' := by
        rcases h with rfl | rfl <;> rcases hi with h3 | h3 <;>
          first | (cases h3; done) | (rw [← h2]; exact (Option.some.inj h3).symm)
      subst this
      exact ⟨e, find_of_mem hk hm, h⟩
  · rintro ⟨e, h1, h2⟩
    exact Or.inr ⟨_, SMap.find?_some_mem h1, h2⟩

/-- stfx reads header files `fs` and generates the enums file `items` from them, process_items.cpp:29-113; compare `Generated`. -/
structure GeneratedEnums (fs : List (Str × Header)) (items : List Item) : Prop where
  texts : ∀ f ∈ fs, toksFile f.1 = some f.2.toks
  distinct : ((fs.flatMap fun f => f.2.decls).map Decl.name).Nodup
  run : ∃ (i : Info) (stamp fc fh : Str) (inputs : List Str), (processFiles 0 (fs.map fun f => some f.1) [Info.empty]).bind (prepare 0) = some ([i], true) ∧
    items = enumsCpp stamp fc fh inputs i.enums

theorem GeneratedEnums.mem {items : List Item} (h : GeneratedEnums fs items) {n : Str} {it : Item} (hi : IsConversionOf n it) :
    it ∈ items ↔ ∃ c x xs t, Decl.enum c n x xs t ∈ fs.flatMap (fun f => f.2.decls) ∧
      (it = .defSFromE ⟨n, c, (x :: xs).map lineOf⟩ ∨ it = .defSToE ⟨n, c, (x :: xs).map lineOf⟩) := by
  obtain ⟨i', stamp, fc, fh, inputs, h1, rfl⟩ := h.run
  obtain ⟨i, h2, h3, _, h5⟩ := tables_of h.texts h.distinct h1
  have hi' : i'.enums = i.enums := by
    simp only [prepare, List.getElem?_cons_zero, Option.bind_eq_bind, Option.bind_some, Option.some.injEq,
      Prod.mk.injEq, List.set_cons_zero, List.cons.injEq, and_true] at h3
    rw [← h3.1]
    rfl
  have ht := h2.history.ok.tab 0 i rfl
  have hk : i.enums.keys.Nodup := by
    refine List.Pairwise.imp ?_ ((SMap.sorted_iff_keys _).1 ht.sortedE)
    rintro a b h rfl
    rw [sLt_irrefl] at h
    cases h
  rw [hi', mem_conversions hi (fun n e he => ht.nameE _ _ (ht.sortedE.find?_of_mem he)) hk]
  constructor
  · rintro ⟨e, h6, h7⟩
    obtain ⟨c, x, xs, t, h8, rfl⟩ := (h5 _ _).1 h6
    exact ⟨c, x, xs, t, h8, h7⟩
  · rintro ⟨c, x, xs, t, h8, h7⟩
    exact ⟨_, (h5 _ _).2 ⟨c, x, xs, t, h8, rfl⟩, h7⟩

/-- C83, enums: two runs on headers that declare an enum with enumerators of the same names in the same order (values apart), `enum class` in
both or in none, generate the same texts for the two functions of it. -/
theorem C83_enum {items items' : List Item} (hG : GeneratedEnums fs items) (hG' : GeneratedEnums fs' items') {c : Bool} {n : Str}
    {x x' : Enumerator} {xs xs' : List Enumerator} {t t' : Bool} (hd : Decl.enum c n x xs t ∈ fs.flatMap fun f => f.2.decls)
    (hd' : Decl.enum c n x' xs' t' ∈ fs'.flatMap fun f => f.2.decls)
    (hx : (x :: xs).map Enumerator.name = (x' :: xs').map Enumerator.name) {it : Item} (hit : it ∈ items) (hi : IsConversionOf n it) :
    ∃ it' ∈ items', it'.text = it.text ∧ it'.sFromEDef = it.sFromEDef ∧ it'.sToEDef = it.sToEDef := by
  obtain ⟨c1, x1, xs1, t1, h1, h2⟩ := (hG.mem hi).1 hit
  have := memberType_more.eq_of_name hG.distinct h1 hd rfl
  cases this
  have hl : ∀ f : Str → Str, ∀ ys : List Enumerator, (ys.map lineOf).flatMap (fun l => f l.name) = (ys.map Enumerator.name).flatMap f := by
    intro f ys
    induction ys with
    | nil => rfl
    | cons y ys ih =>
      simp only [List.map_cons, List.flatMap_cons, ih]
      unfold lineOf
      cases y.value <;> rfl
  have hcong : ∀ f : Str → Str, ((x :: xs).map lineOf).flatMap (fun l => f l.name) = ((x' :: xs').map lineOf).flatMap fun l => f l.name := by
    intro f
    rw [hl, hl, hx]
  rcases h2 with rfl | rfl
  · refine ⟨.defSFromE ⟨n, c, (x' :: xs').map lineOf⟩, (hG'.mem (Or.inl rfl)).2 ⟨c, x', xs', t', hd', Or.inl rfl⟩, ?_, rfl, rfl⟩
    have := hcong fun s => if c then T.base154 n s else T.base158 s
    simp only [Item.text]
    unfold fromLine
    simp only
    rw [this]
  · refine ⟨.defSToE ⟨n, c, (x' :: xs').map lineOf⟩, (hG'.mem (Or.inr rfl)).2 ⟨c, x', xs', t', hd', Or.inr rfl⟩, ?_, rfl, rfl⟩
    have := hcong fun s => if c then T.base178 n s else T.base182 s
    simp only [Item.text]
    unfold toLine
    simp only
    rw [this]

end

/-! ### Examples -/

/-- (Example, models no code.) -/
def pageFiles : List (Str × Header) :=
  (c!"struct Page{int n;Line l;};", ⟨.struct c!"Page" (.simple .int c!"n" .absent) [.named c!"Line" c!"l" .absent], []⟩) :: lineFiles

theorem page_generated (k : Kind) (out : OutSpec) : Generated pageFiles k out (progOf pageFiles k out) :=
  generated_of (by decide +kernel) k out

/-- C83 is false for entry points: a struct that uses a struct is added. -/
theorem C83_entry_refuted : ¬ ∀ (fs fs' : List (Str × Header)) (k : Kind) (out : OutSpec) (prog prog' : List Item) (n : Str),
    Generated fs k out prog → Generated fs' k out prog' → (∀ d ∈ fs.flatMap fun f => f.2.decls, d ∈ fs'.flatMap fun f => f.2.decls) →
    hasReadFile prog n = true → hasReadFile prog' n = true := by
  intro h
  have := h lineFiles pageFiles .xml plainOut _ _ c!"Line" (line_generated _ _) (page_generated _ _) (by decide +kernel) (by decide +kernel)
  revert this
  decide +kernel

/-- The reader of `Point` in n_ini code.  (Example, models no code.) -/
def pointReader : Item := .defNRd c!"R" c!"Point" (some [.simple .int c!"x", .simple .unsignedInt c!"y"]) false []

/-- Non-vacuity of `C83_local`: `Point` in two unrelated headers. -/
example (it : Item) (h : IsFunctionOf c!"Point" it) :
    it ∈ progOf shapeFiles .attrib plainOut ↔ it ∈ progOf lineFiles .attrib { plainOut with enumFile := c!"-" } :=
  C83_local (shape_generated .attrib plainOut) (line_generated .attrib { plainOut with enumFile := c!"-" }) ⟨rfl, rfl, rfl, rfl⟩ (n := c!"Point") (m := .simple .int c!"x" (.val (.int c!"1")))
    (m' := .simple .int c!"x" (.val (.int c!"1"))) (ms := [.simple .unsignedInt c!"y" (.val (.int c!"7"))])
    (ms' := [.simple .unsignedInt c!"y" (.val (.int c!"7"))]) (by decide +kernel) (by decide +kernel) (by decide +kernel) (by decide +kernel) h

/-- Non-vacuity of `C83_add`. -/
example : pointReader ∈ progOf pageFiles .nIni plainOut :=
  (C83_add (line_generated .nIni plainOut) (page_generated .nIni plainOut) ⟨rfl, rfl, rfl, rfl⟩ (by decide +kernel) (n := c!"Point")
    (m := .simple .int c!"x" (.val (.int c!"1"))) (ms := [.simple .unsignedInt c!"y" (.val (.int c!"7"))]) (by decide +kernel)
    ⟨c!"R", Or.inl rfl⟩).1 (by decide +kernel)

/-- Non-vacuity of `C83_entry_partial`: what was not an entry point does not become one. -/
example : hasReadFile (progOf pageFiles .nIni plainOut) c!"Point" = false := by
  have := C83_entry_partial (line_generated .nIni plainOut) (page_generated .nIni plainOut) (by decide +kernel) (n := c!"Point")
    (m := .simple .int c!"x" (.val (.int c!"1"))) (ms := [.simple .unsignedInt c!"y" (.val (.int c!"7"))]) (by decide +kernel)
  cases h : hasReadFile (progOf pageFiles .nIni plainOut) c!"Point" with
  | false => rfl
  | true =>
    have h1 := (this.1 h).1
    revert h1
    decide +kernel

/-- (Example, models no code.) -/
def hueFiles : List (Str × Header) :=
  [(c!"struct A{int a;};enum class Color{red=7,green,};", ⟨.struct c!"A" (.simple .int c!"a" .absent) [],
    [.enum true c!"Color" ⟨c!"red", some (.dec c!"7")⟩ [⟨c!"green", none⟩] true]⟩)]

theorem enums_of {fs : List (Str × Header)} (h : generatedb fs = true) : GeneratedEnums fs (enumsCpp [] [] [] [] (tablesOf fs).enums) := by
  obtain ⟨h1, h2, h3⟩ := h2 h
  exact ⟨h1, h2, _, [], [], [], [], h3, rfl⟩
where
  h2 {fs : List (Str × Header)} (h : generatedb fs = true) : (∀ f ∈ fs, toksFile f.1 = some f.2.toks) ∧
      ((fs.flatMap fun f => f.2.decls).map Decl.name).Nodup ∧
      (processFiles 0 (fs.map fun f => some f.1) [Info.empty]).bind (prepare 0) = some ([tablesOf fs], true) := by
    unfold generatedb at h
    simp only [Bool.and_eq_true, List.all_eq_true, decide_eq_true_eq] at h
    exact ⟨h.1.1, h.1.2, h.2⟩

/-- Non-vacuity of `C83_enum`: other values, the same functions. -/
example : ∃ it' ∈ enumsCpp [] [] [] [] (tablesOf hueFiles).enums,
    it'.text = (Item.defSToE ⟨c!"Color", true, [⟨c!"red", false, c!"-"⟩, ⟨c!"green", true, c!"5"⟩]⟩).text ∧
      it'.sFromEDef = none ∧ it'.sToEDef = some c!"Color" :=
  C83_enum (enums_of (fs := shapeFiles) (by decide +kernel)) (enums_of (fs := hueFiles) (by decide +kernel)) (c := true) (n := c!"Color") (x := ⟨c!"red", none⟩)
    (xs := [⟨c!"green", some (.dec c!"5")⟩]) (t := false) (x' := ⟨c!"red", some (.dec c!"7")⟩) (xs' := [⟨c!"green", none⟩]) (t' := true) (by decide +kernel)
    (by decide +kernel) rfl (it := .defSToE ⟨c!"Color", true, [⟨c!"red", false, c!"-"⟩, ⟨c!"green", true, c!"5"⟩]⟩) (by decide +kernel) (Or.inr rfl)

end Stfx.Run
