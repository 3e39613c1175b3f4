import Verif.Items.Items
import Verif.Parser.Ast
/-
Invariants of the name tables, and what a header with new names adds to them.
-/
namespace Stfx.Items
open Stfx.Parser Stfx.Lexer

/-- Well-formed tables of one object.  (Proof notion, models no code.) -/
structure TabOk (i : Info) : Prop where
  sortedS : SMap.Sorted i.structs
  sortedE : SMap.Sorted i.enums
  nameS : ∀ k s, i.structs.find? k = some s → s.name = k
  nameE : ∀ k e, i.enums.find? k = some e → e.name = k
  disj : ∀ k, i.structs.find? k = none ∨ i.enums.find? k = none
  oneCur : i.curStruct = none ∨ i.curEnum = none

/-- The current pointers of object `j` are valid and point to an object that is not younger.  (Proof notion, models no code.) -/
structure PtrOk (h : Heap) (j : Nat) (i : Info) : Prop where
  s : ∀ p, i.curStruct = some p → p.obj ≤ j ∧ ∃ o s, h[p.obj]? = some o ∧ o.structs.find? p.key = some s
  e : ∀ p, i.curEnum = some p → p.obj ≤ j ∧ ∃ o s, h[p.obj]? = some o ∧ o.enums.find? p.key = some s

/-- Well-formed heaps.  (Proof notion, models no code.) -/
structure HeapOk (h : Heap) : Prop where
  tab : ∀ (j : Nat) (i : Info), h[j]? = some i → TabOk i
  ptr : ∀ (j : Nat) (i : Info), h[j]? = some i → PtrOk h j i

/-- An object's names only grow.  (Proof notion, models no code.) -/
def Grows (i i' : Info) : Prop :=
  (∀ k s, i.structs.find? k = some s → ∃ s', i'.structs.find? k = some s') ∧
  (∀ k s, i.enums.find? k = some s → ∃ s', i'.enums.find? k = some s')

theorem Grows.refl (i : Info) : Grows i i := ⟨fun _ s h => ⟨s, h⟩, fun _ s h => ⟨s, h⟩⟩

theorem getElem?_set' {h : Heap} {j k : Nat} {i' x : Info} (hx : (h.set j i')[k]? = some x) :
    (j = k ∧ x = i' ∧ j < h.length) ∨ (j ≠ k ∧ h[k]? = some x) := by
  rw [List.getElem?_set] at hx
  by_cases e : j = k
  · left
    rw [if_pos e] at hx
    split at hx
    · cases hx; exact ⟨e, rfl, by assumption⟩
    · cases hx
  · right
    rw [if_neg e] at hx
    exact ⟨e, hx⟩

/-- Replacing one object by one with at least the same names keeps the other pointers valid. -/
theorem PtrOk.set {h : Heap} {j k : Nat} {i i' x : Info} (hi : h[j]? = some i) (hg : Grows i i')
    (hp : PtrOk h k x) : PtrOk (h.set j i') k x := by
  have hlt : j < h.length := (List.getElem?_eq_some_iff.1 hi).1
  constructor
  · intro p hpp
    obtain ⟨h1, o, s, h2, h3⟩ := hp.s p hpp
    refine ⟨h1, ?_⟩
    by_cases e : j = p.obj
    · rw [← e, hi] at h2
      cases h2
      obtain ⟨s', hs'⟩ := hg.1 _ _ h3
      exact ⟨i', s', by rw [← e]; simp [hlt], hs'⟩
    · exact ⟨o, s, by rw [List.getElem?_set, if_neg e]; exact h2, h3⟩
  · intro p hpp
    obtain ⟨h1, o, s, h2, h3⟩ := hp.e p hpp
    refine ⟨h1, ?_⟩
    by_cases e : j = p.obj
    · rw [← e, hi] at h2
      cases h2
      obtain ⟨s', hs'⟩ := hg.2 _ _ h3
      exact ⟨i', s', by rw [← e]; simp [hlt], hs'⟩
    · exact ⟨o, s, by rw [List.getElem?_set, if_neg e]; exact h2, h3⟩

theorem HeapOk.set {h : Heap} (hok : HeapOk h) {j : Nat} {i i' : Info} (hi : h[j]? = some i)
    (hg : Grows i i') (ht : TabOk i') (hp : PtrOk (h.set j i') j i') : HeapOk (h.set j i') := by
  constructor
  · intro k x hx
    rcases getElem?_set' hx with ⟨rfl, rfl, _⟩ | ⟨_, hx⟩
    · exact ht
    · exact hok.tab k x hx
  · intro k x hx
    rcases getElem?_set' hx with ⟨rfl, rfl, _⟩ | ⟨_, hx⟩
    · exact hp
    · exact (hok.ptr k x hx).set hi hg

theorem unknown_iff {i : Info} {name : Str} :
    getItemType i name = .unknown ↔ i.structs.find? name = none ∧ i.enums.find? name = none := by
  unfold getItemType
  cases i.structs.find? name with
  | some => simp
  | none => cases i.enums.find? name with
    | some => simp
    | none => simp

/-- A declaration of a new enum. -/
theorem TabOk.addEnum {i : Info} (ht : TabOk i) {name : Str} (hu : getItemType i name = .unknown)
    {e : EnumS} (he : e.name = name) (p : Ptr) :
    TabOk { i with enums := i.enums.insert name e, curEnum := some p, curStruct := none } := by
  obtain ⟨u1, u2⟩ := unknown_iff.1 hu
  refine ⟨ht.sortedS, ht.sortedE.insert _ _, ht.nameS, ?_, ?_, Or.inl rfl⟩
  · intro k s hs
    simp only [SMap.find?_insert] at hs
    split at hs
    · next e' => cases hs; rw [he, e']
    · exact ht.nameE k s hs
  · intro k
    simp only [SMap.find?_insert]
    by_cases e' : name = k
    · subst e'; exact Or.inl u1
    · rw [if_neg e']; exact ht.disj k

theorem TabOk.addStruct {i : Info} (ht : TabOk i) {name : Str} (hu : getItemType i name = .unknown)
    {e : StructS} (he : e.name = name) (p : Ptr) :
    TabOk { i with structs := i.structs.insert name e, curStruct := some p, curEnum := none } := by
  obtain ⟨u1, u2⟩ := unknown_iff.1 hu
  refine ⟨ht.sortedS.insert _ _, ht.sortedE, ?_, ht.nameE, ?_, Or.inr rfl⟩
  · intro k s hs
    simp only [SMap.find?_insert] at hs
    split at hs
    · next e' => cases hs; rw [he, e']
    · exact ht.nameS k s hs
  · intro k
    simp only [SMap.find?_insert]
    by_cases e' : name = k
    · subst e'; exact Or.inr u2
    · rw [if_neg e']; exact ht.disj k

theorem TabOk.modStruct {i : Info} (ht : TabOk i) (k : Str) {f : StructS → StructS} (hf : ∀ s, (f s).name = s.name) :
    TabOk { i with structs := i.structs.modify k f } := by
  refine ⟨ht.sortedS.modify _ _, ht.sortedE, ?_, ht.nameE, ?_, ht.oneCur⟩
  · intro k' s hs
    simp only [SMap.find?_modify] at hs
    split at hs
    · cases h : i.structs.find? k' with
      | none => rw [h] at hs; cases hs
      | some s' => rw [h] at hs; cases hs; rw [hf]; exact ht.nameS _ _ h
    · exact ht.nameS k' s hs
  · intro k'
    simp only [SMap.find?_modify]
    rcases ht.disj k' with h | h
    · left; rw [h]; simp
    · right; exact h

theorem TabOk.modEnum {i : Info} (ht : TabOk i) (k : Str) {f : EnumS → EnumS} (hf : ∀ s, (f s).name = s.name) :
    TabOk { i with enums := i.enums.modify k f } := by
  refine ⟨ht.sortedS, ht.sortedE.modify _ _, ht.nameS, ?_, ?_, ht.oneCur⟩
  · intro k' s hs
    simp only [SMap.find?_modify] at hs
    split at hs
    · cases h : i.enums.find? k' with
      | none => rw [h] at hs; cases hs
      | some s' => rw [h] at hs; cases hs; rw [hf]; exact ht.nameE _ _ h
    · exact ht.nameE k' s hs
  · intro k'
    simp only [SMap.find?_modify]
    rcases ht.disj k' with h | h
    · left; exact h
    · right; rw [h]; simp

theorem grows_insertE {i : Info} {name : Str} {e : EnumS} (p q : Option Ptr) :
    Grows i { i with enums := i.enums.insert name e, curEnum := p, curStruct := q } := by
  refine ⟨fun _ s h => ⟨s, h⟩, fun k s h => ?_⟩
  simp only [SMap.find?_insert]
  split
  · exact ⟨e, rfl⟩
  · exact ⟨s, h⟩

theorem grows_insertS {i : Info} {name : Str} {e : StructS} (p q : Option Ptr) :
    Grows i { i with structs := i.structs.insert name e, curStruct := p, curEnum := q } := by
  refine ⟨fun k s h => ?_, fun _ s h => ⟨s, h⟩⟩
  simp only [SMap.find?_insert]
  split
  · exact ⟨e, rfl⟩
  · exact ⟨s, h⟩

theorem grows_modS {i : Info} {k : Str} {f : StructS → StructS} :
    Grows i { i with structs := i.structs.modify k f } := by
  refine ⟨fun k' s h => ?_, fun _ s h => ⟨s, h⟩⟩
  simp only [SMap.find?_modify, h]
  split
  · exact ⟨f s, rfl⟩
  · exact ⟨s, rfl⟩

theorem grows_modE {i : Info} {k : Str} {f : EnumS → EnumS} :
    Grows i { i with enums := i.enums.modify k f } := by
  refine ⟨fun _ s h => ⟨s, h⟩, fun k' s h => ?_⟩
  simp only [SMap.find?_modify, h]
  split
  · exact ⟨f s, rfl⟩
  · exact ⟨s, rfl⟩

theorem HeapOk.modS {h : Heap} (hok : HeapOk h) {j : Nat} {o : Info} (ho : h[j]? = some o) (k : Str)
    {f : StructS → StructS} (hf : ∀ s, (f s).name = s.name) :
    HeapOk (h.set j { o with structs := o.structs.modify k f }) := by
  refine hok.set ho grows_modS ((hok.tab _ _ ho).modStruct k hf) ?_
  have := (hok.ptr _ _ ho).set ho (grows_modS (k := k) (f := f))
  exact ⟨this.s, this.e⟩

theorem HeapOk.modE {h : Heap} (hok : HeapOk h) {j : Nat} {o : Info} (ho : h[j]? = some o) (k : Str)
    {f : EnumS → EnumS} (hf : ∀ s, (f s).name = s.name) :
    HeapOk (h.set j { o with enums := o.enums.modify k f }) := by
  refine hok.set ho grows_modE ((hok.tab _ _ ho).modEnum k hf) ?_
  have := (hok.ptr _ _ ho).set ho (grows_modE (k := k) (f := f))
  exact ⟨this.s, this.e⟩

/-- Every call is defined on a well-formed heap, keeps it well-formed and creates no object. -/
theorem applyCall_ok {h : Heap} (hok : HeapOk h) {self : Nat} (hs : self < h.length) (c : Call) :
    ∃ h', applyCall self h c = some h' ∧ HeapOk h' ∧ h'.length = h.length := by
  have hi : h[self]? = some h[self] := List.getElem?_eq_getElem hs
  generalize h[self] = i at hi
  cases c with
  | enum name isClass =>
    unfold applyCall processEnum
    simp only [hi, Option.bind_eq_bind, Option.bind_some]
    by_cases hu : getItemType i name = .unknown
    · rw [if_neg (by simpa using hu)]
      refine ⟨_, rfl, ?_, by simp⟩
      refine hok.set hi (grows_insertE _ _) ((hok.tab _ _ hi).addEnum hu rfl _) ?_
      constructor
      · intro p hp; cases hp
      · intro p hp
        cases hp
        exact ⟨Nat.le_refl _, _, ⟨name, isClass, []⟩, List.getElem?_set_self hs, by simp [SMap.find?_insert]⟩
    · rw [if_pos (by simpa using hu)]
      exact ⟨h, rfl, hok, rfl⟩
  | struct name =>
    unfold applyCall processStruct
    simp only [hi, Option.bind_eq_bind, Option.bind_some]
    by_cases hu : getItemType i name = .unknown
    · rw [if_neg (by simpa using hu)]
      refine ⟨_, rfl, ?_, by simp⟩
      refine hok.set hi (grows_insertS _ _) ((hok.tab _ _ hi).addStruct hu rfl _) ?_
      constructor
      · intro p hp
        cases hp
        exact ⟨Nat.le_refl _, _, ⟨name, [], [], 0⟩, List.getElem?_set_self hs, by simp [SMap.find?_insert]⟩
      · intro p hp; cases hp
    · rw [if_pos (by simpa using hu)]
      exact ⟨h, rfl, hok, rfl⟩
  | enumLine name init value =>
    unfold applyCall processEnumLine
    simp only [hi, Option.bind_eq_bind, Option.bind_some]
    cases hc : i.curEnum with
    | none => exact ⟨h, rfl, hok, rfl⟩
    | some p =>
      obtain ⟨_, o, s, h1, h2⟩ := (hok.ptr _ _ hi).e p hc
      simp only [h1, h2, Option.bind_some]
      exact ⟨_, rfl, hok.modE h1 _ (fun _ => rfl), by simp⟩
  | simple ty name dflt =>
    unfold applyCall processSimple
    simp only [hi, Option.bind_eq_bind, Option.bind_some]
    cases hc : i.curStruct with
    | none => exact ⟨h, rfl, hok, rfl⟩
    | some p =>
      obtain ⟨_, o, s, h1, h2⟩ := (hok.ptr _ _ hi).s p hc
      simp only [h1, h2, Option.bind_some]
      exact ⟨_, rfl, hok.modS h1 _ (fun _ => rfl), by simp⟩
  | complex ty tyName name =>
    unfold applyCall processComplex
    simp only [hi, Option.bind_eq_bind, Option.bind_some]
    cases hc : i.curStruct with
    | none => exact ⟨h, rfl, hok, rfl⟩
    | some p =>
      obtain ⟨_, o, s, h1, h2⟩ := (hok.ptr _ _ hi).s p hc
      simp only [h1, h2, Option.bind_some]
      exact ⟨_, rfl, hok.modS h1 _ (fun _ => rfl), by simp⟩

theorem applyCalls_ok {h : Heap} (hok : HeapOk h) {self : Nat} (hs : self < h.length) (cs : List Call) :
    ∃ h', applyCalls self cs h = some h' ∧ HeapOk h' ∧ h'.length = h.length := by
  induction cs generalizing h with
  | nil => exact ⟨h, rfl, hok, rfl⟩
  | cons c cs ih =>
    obtain ⟨h1, e1, ok1, l1⟩ := applyCall_ok hok hs c
    obtain ⟨h2, e2, ok2, l2⟩ := ih ok1 (by omega)
    exact ⟨h2, by unfold applyCalls; rw [e1]; exact e2, ok2, by omega⟩

theorem HeapOk.setRv {h : Heap} (hok : HeapOk h) (self rv : Nat) : HeapOk (setRv self rv h) := by
  unfold Items.setRv
  cases hi : h[self]? with
  | none => exact hok
  | some i =>
    have ht := hok.tab _ _ hi
    refine hok.set hi ⟨fun _ s h => ⟨s, h⟩, fun _ s h => ⟨s, h⟩⟩
      ⟨ht.sortedS, ht.sortedE, ht.nameS, ht.nameE, ht.disj, ht.oneCur⟩ ?_
    have := (hok.ptr _ _ hi).set hi (i' := { i with parseRv := rv })
      ⟨fun _ s h => ⟨s, h⟩, fun _ s h => ⟨s, h⟩⟩
    exact ⟨this.s, this.e⟩

theorem length_setRv (h : Heap) (self rv : Nat) : (setRv self rv h).length = h.length := by
  unfold setRv; split <;> simp

theorem HeapOk.copy {h : Heap} (hok : HeapOk h) {src : Nat} {i : Info} (hi : h[src]? = some i) :
    HeapOk (h ++ [i]) := by
  have hlt : src < h.length := (List.getElem?_eq_some_iff.1 hi).1
  have lift : ∀ (j k : Nat) (x : Info), PtrOk h j x → j ≤ k → PtrOk (h ++ [i]) k x := by
    intro j k x hp hjk
    constructor
    · intro p hpp
      obtain ⟨h1, o, s, h2, h3⟩ := hp.s p hpp
      exact ⟨by omega, o, s, by rw [List.getElem?_append_left (List.getElem?_eq_some_iff.1 h2).1]; exact h2, h3⟩
    · intro p hpp
      obtain ⟨h1, o, s, h2, h3⟩ := hp.e p hpp
      exact ⟨by omega, o, s, by rw [List.getElem?_append_left (List.getElem?_eq_some_iff.1 h2).1]; exact h2, h3⟩
  have cases' : ∀ (j : Nat) (x : Info), (h ++ [i])[j]? = some x → h[j]? = some x ∨ (j = h.length ∧ x = i) := by
    intro j x hx
    by_cases hj : j < h.length
    · rw [List.getElem?_append_left hj] at hx; exact Or.inl hx
    · rw [List.getElem?_append_right (by omega)] at hx
      have : j - h.length = 0 := by
        have := (List.getElem?_eq_some_iff.1 hx).1
        simp at this; omega
      rw [this] at hx
      simp at hx
      exact Or.inr ⟨by omega, hx.symm⟩
  constructor
  · intro j x hx
    rcases cases' j x hx with hx | ⟨_, rfl⟩
    · exact hok.tab _ _ hx
    · exact hok.tab _ _ hi
  · intro j x hx
    rcases cases' j x hx with hx | ⟨rfl, rfl⟩
    · exact lift j j x (hok.ptr _ _ hx) (Nat.le_refl _)
    · exact lift src _ _ (hok.ptr _ _ hi) (by omega)

/-- Destroying the youngest object leaves no dangling pointer. -/
theorem HeapOk.dropLast {h : Heap} (hok : HeapOk h) : HeapOk h.dropLast := by
  have sub : ∀ (j : Nat) (x : Info), h.dropLast[j]? = some x → h[j]? = some x ∧ j < h.length - 1 := by
    intro j x hx
    have hj := (List.getElem?_eq_some_iff.1 hx).1
    rw [List.length_dropLast] at hj
    rw [List.getElem?_dropLast] at hx
    rw [if_pos hj] at hx
    exact ⟨hx, hj⟩
  have lift : ∀ (j x : Nat) (o : Info), j < h.length - 1 → h[x]? = some o → x ≤ j → h.dropLast[x]? = some o := by
    intro j x o h1 h2 h3
    rw [List.getElem?_dropLast, if_pos (by omega)]; exact h2
  constructor
  · intro j x hx; exact hok.tab _ _ (sub j x hx).1
  · intro j x hx
    obtain ⟨h1, h2⟩ := sub j x hx
    have hp := hok.ptr _ _ h1
    constructor
    · intro p hpp
      obtain ⟨g1, o, s, g2, g3⟩ := hp.s p hpp
      exact ⟨g1, o, s, lift j _ _ h2 g2 g1, g3⟩
    · intro p hpp
      obtain ⟨g1, o, s, g2, g3⟩ := hp.e p hpp
      exact ⟨g1, o, s, lift j _ _ h2 g2 g1, g3⟩

theorem HeapOk.new {h : Heap} (hok : HeapOk h) : HeapOk (h ++ [Info.empty]) := by
  have cases' : ∀ (j : Nat) (x : Info), (h ++ [Info.empty])[j]? = some x → h[j]? = some x ∨ x = Info.empty := by
    intro j x hx
    by_cases hj : j < h.length
    · rw [List.getElem?_append_left hj] at hx; exact Or.inl hx
    · rw [List.getElem?_append_right (by omega)] at hx
      right
      have := List.mem_of_getElem? hx
      simpa using this
  constructor
  · intro j x hx
    rcases cases' j x hx with hx | rfl
    · exact hok.tab _ _ hx
    · refine ⟨trivial, trivial, ?_, ?_, ?_, Or.inl rfl⟩
      · intro k s h; cases h
      · intro k s h; cases h
      · intro k; exact Or.inl rfl
  · intro j x hx
    rcases cases' j x hx with hx | rfl
    · have hp := hok.ptr _ _ hx
      constructor
      · intro p hpp
        obtain ⟨h1, o, s, h2, h3⟩ := hp.s p hpp
        exact ⟨h1, o, s, by rw [List.getElem?_append_left (List.getElem?_eq_some_iff.1 h2).1]; exact h2, h3⟩
      · intro p hpp
        obtain ⟨h1, o, s, h2, h3⟩ := hp.e p hpp
        exact ⟨h1, o, s, by rw [List.getElem?_append_left (List.getElem?_eq_some_iff.1 h2).1]; exact h2, h3⟩
    · constructor <;> intro p hp <;> cases hp

theorem HeapOk.nil : HeapOk [] := ⟨by intro j i h; simp at h, by intro j i h; simp at h⟩

end Stfx.Items
