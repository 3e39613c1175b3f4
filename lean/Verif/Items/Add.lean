import Verif.Items.Facts
/-
What a declaration with a new name, or with a name in use, does to the tables.
-/
namespace Stfx.Items
open Stfx.Parser Stfx.Lexer

/-- The name a declaration declares.  (Proof notion, models no code.) -/
def _root_.Stfx.Parser.Decl.name : Decl → Str
  | .enum _ n _ _ _ => n
  | .struct n _ _ => n

/-- The enumerator as recorded: explicit value text, `-` without one.  (Proof notion, models no code.) -/
def lineOf (e : Enumerator) : EnumLine :=
  match e.value with
  | none => ⟨e.name, false, c!"-"⟩
  | some v => ⟨e.name, true, v.text⟩

/-- A member of simple type as recorded.  (Proof notion, models no code.) -/
def simpleOf : Member → Option SimpleLine
  | .simple ty n d => some ⟨ty, n, d.text⟩
  | _ => none

/-- A member of named or vector type as recorded.  (Proof notion, models no code.) -/
def complexOf : Member → Option ComplexLine
  | .simple .. => none
  | .named ty n _ => some ⟨.enumOrStruct, ty, n⟩
  | .vector el n => some ⟨.vector, el, n⟩

/-- The record of an enum declaration.  (Proof notion, models no code.) -/
def _root_.Stfx.Parser.Decl.enumRec : Decl → Option EnumS
  | .enum c n e es _ => some ⟨n, c, (e :: es).map lineOf⟩
  | .struct .. => none

/-- The record of a struct declaration.  (Proof notion, models no code.) -/
def _root_.Stfx.Parser.Decl.structRec : Decl → Option StructS
  | .enum .. => none
  | .struct n m ms => some ⟨n, (m :: ms).filterMap simpleOf, (m :: ms).filterMap complexOf, 0⟩

/-- An object after a declaration with a new name.  (Proof notion, models no code.) -/
def Info.add (self : Nat) (i : Info) : Decl → Info
  | .enum c n e es _ => { i with
      enums := i.enums.insert n ⟨n, c, (e :: es).map lineOf⟩
      curEnum := some ⟨self, n⟩, curStruct := none }
  | .struct n m ms => { i with
      structs := i.structs.insert n ⟨n, (m :: ms).filterMap simpleOf, (m :: ms).filterMap complexOf, 0⟩
      curStruct := some ⟨self, n⟩, curEnum := none }

theorem set_self {h : Heap} {j : Nat} {i : Info} (hi : h[j]? = some i) : h.set j i = h := by
  obtain ⟨hlt, rfl⟩ := List.getElem?_eq_some_iff.1 hi
  exact List.set_getElem_self hlt

theorem applyCalls_append (self : Nat) (a b : List Call) (h : Heap) :
    applyCalls self (a ++ b) h = (applyCalls self a h).bind (applyCalls self b) := by
  induction a generalizing h with
  | nil => rfl
  | cons c cs ih =>
    simp only [List.cons_append, applyCalls]
    cases applyCall self h c with
    | none => rfl
    | some h' => exact ih h'

theorem enumerator_call (self : Nat) (e : Enumerator) (h : Heap) :
    applyCall self h e.call = processEnumLine self (lineOf e) h := by
  unfold Enumerator.call lineOf
  cases e.value <;> rfl

theorem insert_modify {α : Type} {m : SMap α} (hs : SMap.Sorted m) (k : Str) (v : α) (f : α → α) :
    (m.insert k v).modify k f = m.insert k (f v) := by
  refine SMap.Sorted.ext ((hs.insert _ _).modify _ _) (hs.insert _ _) fun k' => ?_
  rw [SMap.find?_modify, SMap.find?_insert, SMap.find?_insert]
  split <;> simp_all

/-- Enumerators appended to the current enum of the object itself. -/
theorem enumLines_own {self : Nat} {h : Heap} {i : Info} (hlt : self < h.length) {n : Str} {c : Bool}
    (hs : SMap.Sorted i.enums) (es : List Enumerator) (pre : List EnumLine) (q : Option Ptr) :
    applyCalls self (es.map Enumerator.call)
      (h.set self { i with enums := i.enums.insert n ⟨n, c, pre⟩, curEnum := some ⟨self, n⟩, curStruct := q }) =
    some (h.set self { i with enums := i.enums.insert n ⟨n, c, pre ++ es.map lineOf⟩,
                              curEnum := some ⟨self, n⟩, curStruct := q }) := by
  induction es generalizing pre with
  | nil => simp [applyCalls]
  | cons e es ih =>
    simp only [List.map_cons, applyCalls, enumerator_call]
    unfold processEnumLine
    simp only [List.getElem?_set_self hlt, Option.bind_eq_bind, Option.bind_some, SMap.find?_insert, if_pos]
    rw [insert_modify hs]
    simp only [List.set_set]
    rw [ih]
    simp

/-- Members appended to the current struct of the object itself. -/
theorem structLines_own {self : Nat} {h : Heap} {i : Info} (hlt : self < h.length) {n : Str} {inc : Nat}
    (hs : SMap.Sorted i.structs) (ms : List Member) (a : List SimpleLine) (b : List ComplexLine) (q : Option Ptr) :
    applyCalls self (ms.map Member.call)
      (h.set self { i with structs := i.structs.insert n ⟨n, a, b, inc⟩, curStruct := some ⟨self, n⟩, curEnum := q }) =
    some (h.set self { i with
      structs := i.structs.insert n ⟨n, a ++ ms.filterMap simpleOf, b ++ ms.filterMap complexOf, inc⟩,
      curStruct := some ⟨self, n⟩, curEnum := q }) := by
  induction ms generalizing a b with
  | nil => simp [applyCalls]
  | cons m ms ih =>
    simp only [List.map_cons, applyCalls]
    cases m with
    | simple ty nm d =>
      simp only [Member.call, applyCall, processSimple]
      simp only [List.getElem?_set_self hlt, Option.bind_eq_bind, Option.bind_some, SMap.find?_insert, if_pos]
      rw [insert_modify hs]
      simp only [List.set_set]
      rw [ih]
      simp [simpleOf, complexOf, List.filterMap_cons]
    | named ty nm d =>
      simp only [Member.call, applyCall, processComplex]
      simp only [List.getElem?_set_self hlt, Option.bind_eq_bind, Option.bind_some, SMap.find?_insert, if_pos]
      rw [insert_modify hs]
      simp only [List.set_set]
      rw [ih]
      simp [simpleOf, complexOf, List.filterMap_cons]
    | vector ty nm =>
      simp only [Member.call, applyCall, processComplex]
      simp only [List.getElem?_set_self hlt, Option.bind_eq_bind, Option.bind_some, SMap.find?_insert, if_pos]
      rw [insert_modify hs]
      simp only [List.set_set]
      rw [ih]
      simp [simpleOf, complexOf, List.filterMap_cons]

/-- A declaration whose name is new to the object. -/
theorem apply_new {self : Nat} {h : Heap} {i : Info} (hi : h[self]? = some i) (ht : TabOk i) (d : Decl)
    (hn : getItemType i d.name = .unknown) :
    applyCalls self d.calls h = some (h.set self (i.add self d)) := by
  have hlt : self < h.length := (List.getElem?_eq_some_iff.1 hi).1
  cases d with
  | enum c n e es t =>
    simp only [Decl.name] at hn
    simp only [Decl.calls, applyCalls, applyCall, processEnum, hi, hn, Option.bind_eq_bind, Option.bind_some,
      ne_eq, not_true_eq_false, if_false]
    rw [enumLines_own hlt ht.sortedE]
    rfl
  | struct n m ms =>
    simp only [Decl.name] at hn
    simp only [Decl.calls, applyCalls, applyCall, processStruct, hi, hn, Option.bind_eq_bind, Option.bind_some,
      ne_eq, not_true_eq_false, if_false]
    rw [structLines_own hlt ht.sortedS]
    rfl

theorem TabOk.add {i : Info} (ht : TabOk i) (self : Nat) {d : Decl} (hn : getItemType i d.name = .unknown) :
    TabOk (i.add self d) := by
  cases d with
  | enum c n e es t => exact ht.addEnum hn rfl _
  | struct n m ms => exact ht.addStruct hn rfl _

theorem add_structs (self : Nat) (i : Info) (d : Decl) (k : Str) :
    (i.add self d).structs.find? k = if d.name = k ∧ d.structRec.isSome then d.structRec else i.structs.find? k := by
  cases d with
  | enum c n e es t => simp [Info.add, Decl.structRec]
  | struct n m ms => simp [Info.add, Decl.structRec, Decl.name, SMap.find?_insert]

theorem add_enums (self : Nat) (i : Info) (d : Decl) (k : Str) :
    (i.add self d).enums.find? k = if d.name = k ∧ d.enumRec.isSome then d.enumRec else i.enums.find? k := by
  cases d with
  | struct n m ms => simp [Info.add, Decl.enumRec]
  | enum c n e es t => simp [Info.add, Decl.enumRec, Decl.name, SMap.find?_insert]

theorem add_unknown {self : Nat} {i : Info} {d : Decl} {k : Str} (hk : d.name ≠ k)
    (hn : getItemType i k = .unknown) : getItemType (i.add self d) k = .unknown := by
  rw [unknown_iff] at hn ⊢
  rw [add_structs, add_enums]
  simp [hk, hn]

/-- Declarations with pairwise different new names. -/
theorem apply_news {self : Nat} {h : Heap} {i : Info} (hi : h[self]? = some i) (ht : TabOk i) (ds : List Decl)
    (hd : (ds.map Decl.name).Nodup) (hn : ∀ d ∈ ds, getItemType i d.name = .unknown) :
    applyCalls self (ds.flatMap Decl.calls) h = some (h.set self (ds.foldl (Info.add self) i)) := by
  induction ds generalizing h i with
  | nil =>
    simp only [List.flatMap_nil, applyCalls, List.foldl_nil]
    rw [set_self hi]
  | cons d ds ih =>
    have hlt : self < h.length := (List.getElem?_eq_some_iff.1 hi).1
    rw [List.flatMap_cons, applyCalls_append, apply_new hi ht d (hn d (by simp)), Option.bind_some]
    rw [List.map_cons, List.nodup_cons] at hd
    rw [ih (List.getElem?_set_self hlt) (ht.add self (hn d (by simp))) hd.2]
    · simp
    · intro d' hd'
      refine add_unknown ?_ (hn d' (by simp [hd']))
      intro e
      exact hd.1 (by rw [e]; exact List.mem_map_of_mem hd')

theorem foldl_add_ok (self : Nat) {i : Info} (ht : TabOk i) (ds : List Decl)
    (hd : (ds.map Decl.name).Nodup) (hn : ∀ d ∈ ds, getItemType i d.name = .unknown) :
    TabOk (ds.foldl (Info.add self) i) := by
  induction ds generalizing i with
  | nil => exact ht
  | cons d ds ih =>
    rw [List.map_cons, List.nodup_cons] at hd
    refine ih (ht.add self (hn d (by simp))) hd.2 ?_
    intro d' hd'
    refine add_unknown ?_ (hn d' (by simp [hd']))
    intro e
    exact hd.1 (by rw [e]; exact List.mem_map_of_mem hd')

theorem foldl_add_structs (self : Nat) (i : Info) (ds : List Decl) (hd : (ds.map Decl.name).Nodup)
    (k : Str) :
    (ds.foldl (Info.add self) i).structs.find? k =
      match (ds.find? fun d => decide (d.name = k)).bind Decl.structRec with
      | some s => some s
      | none => i.structs.find? k := by
  induction ds generalizing i with
  | nil => rfl
  | cons d ds ih =>
    rw [List.map_cons, List.nodup_cons] at hd
    rw [List.foldl_cons, ih _ hd.2, List.find?_cons, add_structs]
    by_cases e : d.name = k
    · have hnone : ds.find? (fun d => decide (d.name = k)) = none := by
        rw [List.find?_eq_none]
        intro x hx hxk
        simp at hxk
        exact hd.1 (by rw [e, ← hxk]; exact List.mem_map_of_mem hx)
      rw [hnone]
      simp only [e, decide_true, Option.bind_none, Option.bind_some]
      cases d.structRec <;> simp
    · simp [e]

theorem foldl_add_enums (self : Nat) (i : Info) (ds : List Decl) (hd : (ds.map Decl.name).Nodup)
    (k : Str) :
    (ds.foldl (Info.add self) i).enums.find? k =
      match (ds.find? fun d => decide (d.name = k)).bind Decl.enumRec with
      | some s => some s
      | none => i.enums.find? k := by
  induction ds generalizing i with
  | nil => rfl
  | cons d ds ih =>
    rw [List.map_cons, List.nodup_cons] at hd
    rw [List.foldl_cons, ih _ hd.2, List.find?_cons, add_enums]
    by_cases e : d.name = k
    · have hnone : ds.find? (fun d => decide (d.name = k)) = none := by
        rw [List.find?_eq_none]
        intro x hx hxk
        simp at hxk
        exact hd.1 (by rw [e, ← hxk]; exact List.mem_map_of_mem hx)
      rw [hnone]
      simp only [e, decide_true, Option.bind_none, Option.bind_some]
      cases d.enumRec <;> simp
    · simp [e]

/-! ### Declarations whose name is in use -/

/-- A repeated declaration has exactly the effect of its lines. -/
theorem apply_dup {self : Nat} {h : Heap} {i : Info} (hi : h[self]? = some i) (d : Decl)
    (hn : getItemType i d.name ≠ .unknown) :
    applyCalls self d.calls h = applyCalls self d.calls.tail h := by
  cases d with
  | enum c n e es t =>
    simp only [Decl.name] at hn
    simp [Decl.calls, applyCalls, applyCall, processEnum, hi, hn]
  | struct n m ms =>
    simp only [Decl.name] at hn
    simp [Decl.calls, applyCalls, applyCall, processStruct, hi, hn]

/-- Enumerators go to the enum the current pointer names. -/
theorem enumLines_at {self : Nat} {h : Heap} {i o : Info} (hi : h[self]? = some i) {p : Ptr}
    (hp : i.curEnum = some p) (ho : h[p.obj]? = some o) {r : EnumS} (hr : o.enums.find? p.key = some r)
    (hs : SMap.Sorted o.enums) (es : List Enumerator) :
    applyCalls self (es.map Enumerator.call) h =
      some (h.set p.obj { o with enums := o.enums.modify p.key fun e => { e with enums := e.enums ++ es.map lineOf } }) := by
  have hlt : p.obj < h.length := (List.getElem?_eq_some_iff.1 ho).1
  induction es generalizing h i o r with
  | nil =>
    have : o.enums.modify p.key (fun e => { e with enums := e.enums ++ List.map lineOf [] }) = o.enums := by
      refine SMap.Sorted.ext (hs.modify _ _) hs fun k => ?_
      rw [SMap.find?_modify]
      split
      · cases o.enums.find? k <;> simp
      · rfl
    rw [this]
    simp only [List.map_nil, applyCalls]
    rw [set_self ho]
  | cons e es ih =>
    simp only [List.map_cons, applyCalls, enumerator_call]
    unfold processEnumLine
    simp only [hi, hp, ho, hr, Option.bind_eq_bind, Option.bind_some]
    generalize hnew : { o with enums := o.enums.modify p.key fun e' => { e' with enums := e'.enums ++ [lineOf e] } } = o'
    have hi' : ∃ i', (h.set p.obj o')[self]? = some i' ∧ i'.curEnum = some p := by
      by_cases e' : p.obj = self
      · refine ⟨o', by rw [← e']; exact List.getElem?_set_self hlt, ?_⟩
        rw [e', hi] at ho
        cases ho
        rw [← hnew]; exact hp
      · exact ⟨i, by rw [List.getElem?_set, if_neg e']; exact hi, hp⟩
    obtain ⟨i', h1, h2⟩ := hi'
    rw [ih h1 h2 (List.getElem?_set_self hlt) (r := { r with enums := r.enums ++ [lineOf e] })
      (by rw [← hnew]; simp [SMap.find?_modify, hr]) (by rw [← hnew]; dsimp only; exact SMap.Sorted.modify hs _ _) (by simpa using hlt)]
    rw [List.set_set]
    congr 2
    rw [← hnew]
    simp only [Info.mk.injEq, true_and, and_true]
    refine SMap.Sorted.ext ((hs.modify _ _).modify _ _) (hs.modify _ _) fun k => ?_
    simp only [SMap.find?_modify]
    split
    · cases o.enums.find? k <;> simp
    · rfl

/-- Members go to the struct the current pointer names. -/
theorem structLines_at {self : Nat} {h : Heap} {i o : Info} (hi : h[self]? = some i) {p : Ptr}
    (hp : i.curStruct = some p) (ho : h[p.obj]? = some o) {r : StructS} (hr : o.structs.find? p.key = some r)
    (hs : SMap.Sorted o.structs) (ms : List Member) :
    applyCalls self (ms.map Member.call) h =
      some (h.set p.obj { o with structs := o.structs.modify p.key fun s =>
        { s with simple := s.simple ++ ms.filterMap simpleOf, complex := s.complex ++ ms.filterMap complexOf } }) := by
  have hlt : p.obj < h.length := (List.getElem?_eq_some_iff.1 ho).1
  induction ms generalizing h i o r with
  | nil =>
    have : o.structs.modify p.key (fun s => { s with simple := s.simple ++ List.filterMap simpleOf [], complex := s.complex ++ List.filterMap complexOf [] }) = o.structs := by
      refine SMap.Sorted.ext (hs.modify _ _) hs fun k => ?_
      rw [SMap.find?_modify]
      split
      · cases o.structs.find? k <;> simp
      · rfl
    rw [this]
    simp only [List.map_nil, applyCalls]
    rw [set_self ho]
  | cons m ms ih =>
    simp only [List.map_cons, applyCalls]
    have key : ∀ (f g : StructS → StructS), (∀ s, g s = f s) →
        (∀ s, ({ f s with simple := (f s).simple ++ ms.filterMap simpleOf, complex := (f s).complex ++ ms.filterMap complexOf } : StructS)
          = { s with simple := s.simple ++ (m :: ms).filterMap simpleOf, complex := s.complex ++ (m :: ms).filterMap complexOf }) →
        applyCalls self (ms.map Member.call) (h.set p.obj { o with structs := o.structs.modify p.key g }) =
        some (h.set p.obj { o with structs := o.structs.modify p.key fun s =>
          { s with simple := s.simple ++ (m :: ms).filterMap simpleOf, complex := s.complex ++ (m :: ms).filterMap complexOf } }) := by
      intro f g hg hf
      have hgf : g = f := funext hg
      rw [hgf]
      generalize hnew : { o with structs := o.structs.modify p.key f } = o'
      have hi' : ∃ i', (h.set p.obj o')[self]? = some i' ∧ i'.curStruct = some p := by
        by_cases e' : p.obj = self
        · refine ⟨o', by rw [← e']; exact List.getElem?_set_self hlt, ?_⟩
          rw [e', hi] at ho
          cases ho
          rw [← hnew]; exact hp
        · exact ⟨i, by rw [List.getElem?_set, if_neg e']; exact hi, hp⟩
      obtain ⟨i', h1, h2⟩ := hi'
      rw [ih h1 h2 (List.getElem?_set_self hlt) (r := f r)
        (by rw [← hnew]; simp [SMap.find?_modify, hr]) (by rw [← hnew]; dsimp only; exact SMap.Sorted.modify hs _ _) (by simpa using hlt)]
      rw [List.set_set]
      congr 2
      rw [← hnew]
      simp only [Info.mk.injEq, true_and, and_true]
      refine SMap.Sorted.ext ((hs.modify _ _).modify _ _) (hs.modify _ _) fun k => ?_
      simp only [SMap.find?_modify]
      split
      · cases o.structs.find? k with
        | none => rfl
        | some s => simp only [Option.map_some]; rw [hf]
      · rfl
    cases m with
    | simple ty nm d =>
      simp only [Member.call, applyCall, processSimple, hi, hp, ho, hr, Option.bind_eq_bind, Option.bind_some]
      exact key _ _ (fun _ => rfl) (fun s => by simp [simpleOf, complexOf, List.filterMap_cons])
    | named ty nm d =>
      simp only [Member.call, applyCall, processComplex, hi, hp, ho, hr, Option.bind_eq_bind, Option.bind_some]
      exact key _ _ (fun _ => rfl) (fun s => by simp [simpleOf, complexOf, List.filterMap_cons])
    | vector ty nm =>
      simp only [Member.call, applyCall, processComplex, hi, hp, ho, hr, Option.bind_eq_bind, Option.bind_some]
      exact key _ _ (fun _ => rfl) (fun s => by simp [simpleOf, complexOf, List.filterMap_cons])

/-- Without a current enum the enumerators are dropped. -/
theorem enumLines_none {self : Nat} {h : Heap} {i : Info} (hi : h[self]? = some i) (hp : i.curEnum = none)
    (es : List Enumerator) : applyCalls self (es.map Enumerator.call) h = some h := by
  induction es with
  | nil => rfl
  | cons e es ih =>
    simp only [List.map_cons, applyCalls, enumerator_call]
    simp only [processEnumLine, hi, hp, Option.bind_eq_bind, Option.bind_some]
    exact ih

theorem structLines_none {self : Nat} {h : Heap} {i : Info} (hi : h[self]? = some i) (hp : i.curStruct = none)
    (ms : List Member) : applyCalls self (ms.map Member.call) h = some h := by
  induction ms with
  | nil => rfl
  | cons m ms ih =>
    simp only [List.map_cons, applyCalls]
    cases m <;> simp only [Member.call, applyCall, processSimple, processComplex, hi, hp, Option.bind_eq_bind, Option.bind_some] <;> exact ih

end Stfx.Items
