import Verif.Items.Facts
/-
Type resolution and reference counting before generation: /repo/src/creation/process_items.cpp.
-/
namespace Stfx.Items
open Stfx.Parser

/-- The body of the inner loop of `fixup_types_of_names`, process_items.cpp:239-244. -/
def fixupLine (i : Info) (co : ComplexLine) : ComplexLine :=
  if co.ty = .enumOrStruct then { co with ty := getItemType i co.tyName } else co

/-- Did that body leave `rv` alone?  process_items.cpp:239-244. -/
def fixupLineOk (i : Info) (co : ComplexLine) : Bool :=
  !(co.ty = .enumOrStruct && getItemType i co.tyName = .unknown)

/-- The inner loop of `fixup_types_of_names`, process_items.cpp:237-245. -/
def fixupStruct (i : Info) (s : StructS) : StructS :=
  { s with complex := s.complex.map (fixupLine i) }

/-- `process_items_C::fixup_types_of_names`, process_items.cpp:230-248: new tables and return value.
`get_item_type` looks only at the keys, which do not change in the loop, so all lines can be resolved
against the tables as they were at the start. -/
def fixup (i : Info) : Info × Bool :=
  ({ i with structs := i.structs.map fun p => (p.1, fixupStruct i p.2) },
   i.structs.all fun p => p.2.complex.all (fixupLineOk i))

/-- `incoming_count++`, process_items.cpp:265. -/
def bump (s : StructS) : StructS := { s with incoming := s.incoming + 1 }

/-- One iteration of the inner loop of `find_top_struct`, process_items.cpp:259-270 (nothing happens if
the struct is not found). -/
def topLine (m : SMap StructS) (co : ComplexLine) : SMap StructS :=
  match co.ty with
  | .vector | .struct => m.modify co.tyName bump
  | _ => m

/-- `process_items_C::find_top_struct`, process_items.cpp:250-274.  The loops read only the member
lists, which the loop body does not change. -/
def findTop (i : Info) : Info × Bool :=
  ({ i with structs := i.structs.foldl (fun m p => p.2.complex.foldl topLine m) i.structs }, true)

/-- The first two steps of `process_items`, process_items.cpp:34-35, on object `self`. -/
def prepare (self : Nat) (h : Heap) : Option (Heap × Bool) := do
  let i ← h[self]?
  let (i1, ok1) := fixup i
  let (i2, ok2) := findTop i1
  some (h.set self i2, ok1 && ok2)

/-! ### Facts -/

theorem find?_map {α : Type} (m : SMap α) (f : α → α) (k : Str) :
    SMap.find? (m.map fun p => (p.1, f p.2)) k = (SMap.find? m k).map f := by
  induction m with
  | nil => rfl
  | cons p m ih =>
    obtain ⟨k', v⟩ := p
    rw [List.map_cons, SMap.find?_cons, SMap.find?_cons, ih]
    split <;> simp

theorem keys_map {α : Type} (m : SMap α) (f : α → α) :
    SMap.keys (m.map fun p => (p.1, f p.2)) = SMap.keys m := by
  unfold SMap.keys
  rw [List.map_map]
  rfl

theorem sorted_map {α : Type} {m : SMap α} (h : SMap.Sorted m) (f : α → α) :
    SMap.Sorted (m.map fun p => (p.1, f p.2)) := by
  rw [SMap.sorted_iff_keys, keys_map, ← SMap.sorted_iff_keys]; exact h

/-- Same struct names and enums, lines possibly rewritten.  (Proof notion, models no code.) -/
structure SameNames (i i' : Info) : Prop where
  keys : SMap.keys i'.structs = SMap.keys i.structs
  name : ∀ k s s', i.structs.find? k = some s → i'.structs.find? k = some s' → s'.name = s.name
  enums : i'.enums = i.enums
  curS : i'.curStruct = i.curStruct
  curE : i'.curEnum = i.curEnum

theorem find?_isSome_of_keys {α : Type} {m m' : SMap α} (h : SMap.keys m' = SMap.keys m) (k : Str) :
    (SMap.find? m' k).isSome = (SMap.find? m k).isSome := by
  cases h1 : SMap.find? m' k with
  | none =>
    rw [SMap.find?_none_iff, h, ← SMap.find?_none_iff] at h1
    rw [h1]
  | some v =>
    cases h2 : SMap.find? m k with
    | some w => rfl
    | none =>
      rw [SMap.find?_none_iff, ← h, ← SMap.find?_none_iff] at h2
      rw [h1] at h2; cases h2

theorem SameNames.trans {a b c : Info} (h1 : SameNames a b) (h2 : SameNames b c) : SameNames a c := by
  refine ⟨h2.keys.trans h1.keys, ?_, h2.enums.trans h1.enums, h2.curS.trans h1.curS, h2.curE.trans h1.curE⟩
  intro k s s' hs hs'
  have := find?_isSome_of_keys h1.keys k
  rw [hs] at this
  obtain ⟨t, ht⟩ := Option.isSome_iff_exists.1 this
  rw [h2.name k t s' ht hs', h1.name k s t hs ht]

theorem SameNames.itemType {i i' : Info} (h : SameNames i i') (k : Str) : getItemType i' k = getItemType i k := by
  unfold getItemType
  have := find?_isSome_of_keys h.keys k
  rw [h.enums]
  cases h1 : i'.structs.find? k <;> cases h2 : i.structs.find? k <;> simp_all

theorem fixup_same (i : Info) : SameNames i (fixup i).1 := by
  refine ⟨keys_map _ _, ?_, rfl, rfl, rfl⟩
  intro k s s' hs hs'
  unfold fixup at hs'
  simp only [find?_map, hs, Option.map_some, Option.some.injEq] at hs'
  rw [← hs']; rfl

theorem topLine_keys (m : SMap StructS) (co : ComplexLine) : (topLine m co).keys = m.keys := by
  unfold topLine; split <;> first | exact SMap.keys_modify _ _ _ | rfl

/-- What `find_top_struct` may do to a struct: only the counter grows.  (Proof notion, models no code.) -/
def Bumped (s s' : StructS) : Prop :=
  s'.name = s.name ∧ s'.simple = s.simple ∧ s'.complex = s.complex ∧ s.incoming ≤ s'.incoming

/-- See the definition before it.  (Proof notion, models no code.) -/
def BumpedMap (m m' : SMap StructS) : Prop :=
  m'.keys = m.keys ∧ ∀ k s, m.find? k = some s → ∃ s', m'.find? k = some s' ∧ Bumped s s'

theorem BumpedMap.refl (m : SMap StructS) : BumpedMap m m :=
  ⟨rfl, fun _ s h => ⟨s, h, rfl, rfl, rfl, Nat.le_refl _⟩⟩

theorem BumpedMap.trans {a b c : SMap StructS} (h1 : BumpedMap a b) (h2 : BumpedMap b c) : BumpedMap a c := by
  refine ⟨h2.1.trans h1.1, fun k s hs => ?_⟩
  obtain ⟨s1, e1, b1, b2, b3, b4⟩ := h1.2 k s hs
  obtain ⟨s2, e2, c1, c2, c3, c4⟩ := h2.2 k s1 e1
  exact ⟨s2, e2, c1.trans b1, c2.trans b2, c3.trans b3, Nat.le_trans b4 c4⟩

theorem topLine_bumped (m : SMap StructS) (co : ComplexLine) : BumpedMap m (topLine m co) := by
  refine ⟨topLine_keys m co, fun k s hs => ?_⟩
  have base : ∃ s', m.find? k = some s' ∧ Bumped s s' := ⟨s, hs, rfl, rfl, rfl, Nat.le_refl _⟩
  have bumped : ∃ s', (m.modify co.tyName bump).find? k = some s' ∧ Bumped s s' := by
    rw [SMap.find?_modify]
    split
    · rw [hs]; exact ⟨bump s, rfl, rfl, rfl, rfl, Nat.le_succ _⟩
    · exact base
  unfold topLine
  split <;> first | exact bumped | exact base

theorem topLines_bumped (cs : List ComplexLine) (m : SMap StructS) : BumpedMap m (cs.foldl topLine m) := by
  induction cs generalizing m with
  | nil => exact BumpedMap.refl m
  | cons c cs ih => exact (topLine_bumped m c).trans (ih _)

theorem findTop_bumped' (l : SMap StructS) (m : SMap StructS) :
    BumpedMap m (l.foldl (fun m p => p.2.complex.foldl topLine m) m) := by
  induction l generalizing m with
  | nil => exact BumpedMap.refl m
  | cons p l ih => exact (topLines_bumped p.2.complex m).trans (ih _)

theorem findTop_bumped (i : Info) : BumpedMap i.structs (findTop i).1.structs := findTop_bumped' _ _

theorem findTop_same (i : Info) : SameNames i (findTop i).1 := by
  obtain ⟨h1, h2⟩ := findTop_bumped i
  refine ⟨h1, ?_, rfl, rfl, rfl⟩
  intro k s s' hs hs'
  obtain ⟨s2, e2, b, _⟩ := h2 k s hs
  rw [hs'] at e2; cases e2; exact b

theorem SameNames.tabOk {i i' : Info} (h : SameNames i i') (ht : TabOk i) : TabOk i' := by
  have hs : ∀ k s', i'.structs.find? k = some s' → ∃ s, i.structs.find? k = some s := by
    intro k s' hs'
    have := find?_isSome_of_keys h.keys k
    rw [hs'] at this
    exact Option.isSome_iff_exists.1 this.symm
  refine ⟨?_, by rw [h.enums]; exact ht.sortedE, ?_, by rw [h.enums]; exact ht.nameE, ?_,
    by rw [h.curS, h.curE]; exact ht.oneCur⟩
  · rw [SMap.sorted_iff_keys, h.keys, ← SMap.sorted_iff_keys]; exact ht.sortedS
  · intro k s' hs'
    obtain ⟨s, e⟩ := hs k s' hs'
    rw [h.name k s s' e hs']; exact ht.nameS k s e
  · intro k
    rw [h.enums]
    rcases ht.disj k with hd | hd
    · left
      rw [SMap.find?_none_iff, h.keys, ← SMap.find?_none_iff]; exact hd
    · exact Or.inr hd

theorem SameNames.grows {i i' : Info} (h : SameNames i i') : Grows i i' := by
  refine ⟨fun k s hs => ?_, fun k s hs => ⟨s, by rw [h.enums]; exact hs⟩⟩
  have := find?_isSome_of_keys h.keys k
  rw [hs] at this
  exact Option.isSome_iff_exists.1 this

theorem HeapOk.same {h : Heap} (hok : HeapOk h) {j : Nat} {i i' : Info} (hi : h[j]? = some i)
    (hs : SameNames i i') : HeapOk (h.set j i') := by
  refine hok.set hi hs.grows (hs.tabOk (hok.tab _ _ hi)) ?_
  have := (hok.ptr _ _ hi).set hi hs.grows
  exact ⟨by rw [hs.curS]; exact this.s, by rw [hs.curE]; exact this.e⟩

/-- Generation's changes to the tables keep the heap well-formed. -/
theorem prepare_ok {h : Heap} (hok : HeapOk h) {self : Nat} (hs : self < h.length) :
    ∃ h' ok, prepare self h = some (h', ok) ∧ HeapOk h' ∧ h'.length = h.length := by
  have hi : h[self]? = some h[self] := List.getElem?_eq_getElem hs
  generalize h[self] = i at hi
  refine ⟨_, _, by unfold prepare; rw [hi]; rfl, hok.same hi ((fixup_same i).trans (findTop_same _)), by simp⟩

end Stfx.Items
