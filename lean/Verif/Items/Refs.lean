import Verif.Items.Invariant
/-
References between structs: what resolution and counting compute.
-/
namespace Stfx.Items
open Stfx.Parser

/-- The line is a member of struct type `k` or a vector of `k`.  (Proof notion, models no code.) -/
def refTo (k : Str) (co : ComplexLine) : Bool :=
  (co.ty = .struct || co.ty = .vector) && co.tyName = k

/-- Number of lines referring to `k`.  (Proof notion, models no code.) -/
def refs (S : SMap StructS) (k : Str) : Nat := ((S.flatMap (·.2.complex)).filter (refTo k)).length

theorem topLine_find (m : SMap StructS) (co : ComplexLine) (k : Str) :
    (topLine m co).find? k = (m.find? k).map fun s => { s with incoming := s.incoming + if refTo k co then 1 else 0 } := by
  have id' : (m.find? k).map (fun s => { s with incoming := s.incoming + 0 }) = m.find? k := by
    cases m.find? k <;> rfl
  unfold topLine refTo
  cases hc : co.ty <;> simp only [SMap.find?_modify] <;> first
    | (by_cases e : co.tyName = k <;> simp [e] <;> rfl)
    | simp

theorem topLines_find (cs : List ComplexLine) (m : SMap StructS) (k : Str) :
    (cs.foldl topLine m).find? k =
      (m.find? k).map fun s => { s with incoming := s.incoming + (cs.filter (refTo k)).length } := by
  induction cs generalizing m with
  | nil => cases h : m.find? k <;> simp [h]
  | cons c cs ih =>
    rw [List.foldl_cons, ih, topLine_find, Option.map_map]
    congr 1
    funext s
    simp only [Function.comp_apply, List.filter_cons]
    split <;> simp [Nat.add_assoc, Nat.add_comm]

theorem findTop_find' (l m : SMap StructS) (k : Str) :
    (l.foldl (fun m p => p.2.complex.foldl topLine m) m).find? k =
      (m.find? k).map fun s => { s with incoming := s.incoming + refs l k } := by
  induction l generalizing m with
  | nil => cases h : m.find? k <;> simp [h, refs]
  | cons p l ih =>
    rw [List.foldl_cons, ih, topLines_find, Option.map_map]
    congr 1
    funext s
    simp [refs, Nat.add_assoc]

theorem findTop_find (i : Info) (k : Str) :
    (findTop i).1.structs.find? k =
      (i.structs.find? k).map fun s => { s with incoming := s.incoming + refs i.structs k } :=
  findTop_find' _ _ _

theorem fixup_find (i : Info) (k : Str) :
    (fixup i).1.structs.find? k = (i.structs.find? k).map (fixupStruct i) := find?_map _ _ _

/-- What the first two steps of generation do to a struct. -/
theorem prep_find (i : Info) (k : Str) :
    (findTop (fixup i).1).1.structs.find? k =
      (i.structs.find? k).map fun s => { s with complex := s.complex.map (fixupLine i),
                                                incoming := s.incoming + refs (fixup i).1.structs k } := by
  rw [findTop_find, fixup_find, Option.map_map]
  rfl

theorem prep_enums (i : Info) : (findTop (fixup i).1).1.enums = i.enums := rfl

/-- Some struct has a line referring to `k`.  (Proof notion, models no code.) -/
def Ref (S : SMap StructS) (k : Str) : Prop :=
  ∃ n s co, S.find? n = some s ∧ co ∈ s.complex ∧ (co.ty = .struct ∨ co.ty = .vector) ∧ co.tyName = k

theorem refs_pos {S : SMap StructS} (hs : SMap.Sorted S) {k : Str} : refs S k ≠ 0 ↔ Ref S k := by
  unfold refs
  rw [ne_eq, List.length_eq_zero_iff, List.filter_eq_nil_iff]
  constructor
  · intro h
    simp only [List.mem_flatMap, forall_exists_index, and_imp] at h
    have : ∃ co, ∃ p ∈ S, co ∈ p.2.complex ∧ refTo k co = true := by
      apply Classical.byContradiction
      intro hn
      apply h
      intro co p hp hco hr
      exact hn ⟨co, p, hp, hco, hr⟩
    obtain ⟨co, ⟨n, s⟩, hp, hco, hr⟩ := this
    simp only [refTo, Bool.and_eq_true, Bool.or_eq_true, decide_eq_true_eq] at hr
    exact ⟨n, s, co, hs.find?_of_mem hp, hco, hr.1, hr.2⟩
  · rintro ⟨n, s, co, h1, h2, h3, h4⟩ h
    refine h co (List.mem_flatMap.2 ⟨(n, s), SMap.find?_some_mem h1, h2⟩) ?_
    simp [refTo, h3, h4]

/-- Resolved lines name declared types; a counted struct is referred to.  (Proof notion, models no code.) -/
structure Sound (S : SMap StructS) (E : SMap EnumS) : Prop where
  struct : ∀ n s co, S.find? n = some s → co ∈ s.complex → co.ty = .struct → ∃ t, S.find? co.tyName = some t
  enum : ∀ n s co, S.find? n = some s → co ∈ s.complex → co.ty = .enum → ∃ t, E.find? co.tyName = some t
  counted : ∀ n s, S.find? n = some s → s.incoming ≠ 0 → Ref S n

theorem Sound.readClosed : ReadClosed Sound := by
  constructor
  · exact ⟨by intro n s co h; simp at h, by intro n s co h; simp at h, by intro n s h; simp at h⟩
  · intro S E n c h h1 h2
    refine ⟨h.struct, ?_, h.counted⟩
    intro k s co hk hco ht
    obtain ⟨t, ht⟩ := h.enum k s co hk hco ht
    rw [SMap.find?_insert]
    split
    · exact ⟨_, rfl⟩
    · exact ⟨t, ht⟩
  · intro S E n h h1 h2
    have key : ∀ k s co, (S.insert n ⟨n, [], [], 0⟩).find? k = some s → co ∈ s.complex → S.find? k = some s := by
      intro k s co hk hco
      rw [SMap.find?_insert] at hk
      split at hk
      · cases hk; simp at hco
      · exact hk
    refine ⟨?_, ?_, ?_⟩
    · intro k s co hk hco ht
      obtain ⟨t, ht⟩ := h.struct k s co (key k s co hk hco) hco ht
      rw [SMap.find?_insert]
      split
      · exact ⟨_, rfl⟩
      · exact ⟨t, ht⟩
    · intro k s co hk hco ht
      exact h.enum k s co (key k s co hk hco) hco ht
    · intro k s hk hinc
      rw [SMap.find?_insert] at hk
      split at hk
      · cases hk; simp at hinc
      · obtain ⟨n', s', co, r1, r2, r3, r4⟩ := h.counted k s hk hinc
        refine ⟨n', s', co, ?_, r2, r3, r4⟩
        rw [SMap.find?_insert, if_neg]
        · exact r1
        · rintro rfl; rw [h1] at r1; cases r1
  · intro S E k l h
    refine ⟨h.struct, ?_, h.counted⟩
    intro n s co hn hco ht
    obtain ⟨t, ht⟩ := h.enum n s co hn hco ht
    rw [SMap.find?_modify]
    split
    · rw [ht]; exact ⟨_, rfl⟩
    · exact ⟨t, ht⟩
  · intro S E k l h
    have back : ∀ n s, (S.modify k fun s => { s with simple := s.simple ++ [l] }).find? n = some s →
        ∃ s0, S.find? n = some s0 ∧ s0.complex = s.complex ∧ s0.incoming = s.incoming := by
      intro n s hn
      rw [SMap.find?_modify] at hn
      split at hn
      · cases h0 : S.find? n with
        | none => rw [h0] at hn; cases hn
        | some s0 => rw [h0] at hn; cases hn; exact ⟨s0, rfl, rfl, rfl⟩
      · exact ⟨s, hn, rfl, rfl⟩
    have forth : ∀ n s0, S.find? n = some s0 → ∃ s,
        (S.modify k fun s => { s with simple := s.simple ++ [l] }).find? n = some s ∧ s0.complex = s.complex := by
      intro n s0 hn
      rw [SMap.find?_modify]
      split
      · rw [hn]; exact ⟨_, rfl, rfl⟩
      · exact ⟨s0, hn, rfl⟩
    refine ⟨?_, ?_, ?_⟩
    · intro n s co hn hco ht
      obtain ⟨s0, e1, e2, _⟩ := back n s hn
      obtain ⟨t, ht⟩ := h.struct n s0 co e1 (e2 ▸ hco) ht
      obtain ⟨t', ht', _⟩ := forth _ _ ht
      exact ⟨t', ht'⟩
    · intro n s co hn hco ht
      obtain ⟨s0, e1, e2, _⟩ := back n s hn
      exact h.enum n s0 co e1 (e2 ▸ hco) ht
    · intro n s hn hinc
      obtain ⟨s0, e1, _, e3⟩ := back n s hn
      obtain ⟨n', s', co, r1, r2, r3⟩ := h.counted n s0 e1 (e3 ▸ hinc)
      obtain ⟨s'', f1, f2⟩ := forth _ _ r1
      exact ⟨n', s'', co, f1, f2 ▸ r2, r3⟩
  · intro S E k l h hl
    have back : ∀ n s, (S.modify k fun s => { s with complex := s.complex ++ [l] }).find? n = some s →
        ∃ s0, S.find? n = some s0 ∧ (∀ co ∈ s.complex, co ∈ s0.complex ∨ co = l) ∧ s0.incoming = s.incoming := by
      intro n s hn
      rw [SMap.find?_modify] at hn
      split at hn
      · cases h0 : S.find? n with
        | none => rw [h0] at hn; cases hn
        | some s0 =>
          rw [h0] at hn; cases hn
          exact ⟨s0, rfl, by intro co hco; simpa using hco, rfl⟩
      · exact ⟨s, hn, fun co h => Or.inl h, rfl⟩
    have forth : ∀ n s0, S.find? n = some s0 → ∃ s,
        (S.modify k fun s => { s with complex := s.complex ++ [l] }).find? n = some s ∧ ∀ co ∈ s0.complex, co ∈ s.complex := by
      intro n s0 hn
      rw [SMap.find?_modify]
      split
      · rw [hn]; exact ⟨_, rfl, fun co h => List.mem_append_left _ h⟩
      · exact ⟨s0, hn, fun _ h => h⟩
    refine ⟨?_, ?_, ?_⟩
    · intro n s co hn hco ht
      obtain ⟨s0, e1, e2, _⟩ := back n s hn
      rcases e2 co hco with e2 | rfl
      · obtain ⟨t, ht⟩ := h.struct n s0 co e1 e2 ht
        obtain ⟨t', ht', _⟩ := forth _ _ ht
        exact ⟨t', ht'⟩
      · rw [ht] at hl; simp at hl
    · intro n s co hn hco ht
      obtain ⟨s0, e1, e2, _⟩ := back n s hn
      rcases e2 co hco with e2 | rfl
      · exact h.enum n s0 co e1 e2 ht
      · rw [ht] at hl; simp at hl
    · intro n s hn hinc
      obtain ⟨s0, e1, _, e3⟩ := back n s hn
      obtain ⟨n', s', co, r1, r2, r3⟩ := h.counted n s0 e1 (e3 ▸ hinc)
      obtain ⟨s'', f1, f2⟩ := forth _ _ r1
      exact ⟨n', s'', co, f1, f2 co r2, r3⟩

theorem itemType_struct {i : Info} {k : Str} (h : getItemType i k = .struct) : ∃ s, i.structs.find? k = some s := by
  unfold getItemType at h
  cases hs : i.structs.find? k with
  | some s => exact ⟨s, rfl⟩
  | none => rw [hs] at h; cases he : i.enums.find? k <;> simp [he] at h

theorem itemType_enum {i : Info} {k : Str} (h : getItemType i k = .enum) : ∃ s, i.enums.find? k = some s := by
  unfold getItemType at h
  cases hs : i.structs.find? k with
  | some s => simp [hs] at h
  | none => cases he : i.enums.find? k with
    | some e => exact ⟨e, rfl⟩
    | none => simp [hs, he] at h

theorem itemType_of_struct {i : Info} {k : Str} {s : StructS} (h : i.structs.find? k = some s) :
    getItemType i k = .struct := by simp [getItemType, h]

theorem itemType_of_enum {i : Info} (ht : TabOk i) {k : Str} {e : EnumS} (h : i.enums.find? k = some e) :
    getItemType i k = .enum := by
  rcases ht.disj k with hd | hd
  · simp [getItemType, h, hd]
  · rw [h] at hd; cases hd

theorem fixupLine_tyName (i : Info) (co : ComplexLine) : (fixupLine i co).tyName = co.tyName := by
  unfold fixupLine; split <;> rfl

theorem fixupLine_name (i : Info) (co : ComplexLine) : (fixupLine i co).name = co.name := by
  unfold fixupLine; split <;> rfl

theorem fixupLine_keep {i : Info} {co : ComplexLine} (h : co.ty ≠ .enumOrStruct) : fixupLine i co = co := by
  unfold fixupLine; rw [if_neg h]

theorem fixupLine_ty {i : Info} {co : ComplexLine} (h : co.ty = .enumOrStruct) :
    (fixupLine i co).ty = getItemType i co.tyName := by
  unfold fixupLine; rw [if_pos h]

theorem itemType_cases (i : Info) (k : Str) :
    getItemType i k = .struct ∨ getItemType i k = .enum ∨ getItemType i k = .unknown := by
  unfold getItemType
  cases i.structs.find? k with
  | some s => simp
  | none => cases i.enums.find? k <;> simp

/-- Resolution keeps references. -/
theorem Ref.fixup {i : Info} {k : Str} (h : Ref i.structs k) : Ref (fixup i).1.structs k := by
  obtain ⟨n, s, co, h1, h2, h3, h4⟩ := h
  have hk : fixupLine i co = co := fixupLine_keep (by rcases h3 with h3 | h3 <;> rw [h3] <;> decide)
  refine ⟨n, fixupStruct i s, co, by rw [fixup_find, h1]; rfl, ?_, h3, h4⟩
  exact List.mem_map.2 ⟨co, h2, hk⟩

/-- Counting does not change references. -/
theorem ref_findTop {i : Info} {k : Str} : Ref (findTop i).1.structs k ↔ Ref i.structs k := by
  constructor
  · rintro ⟨n, s, co, h1, h2, h3⟩
    rw [findTop_find] at h1
    cases h0 : i.structs.find? n with
    | none => rw [h0] at h1; cases h1
    | some s0 => rw [h0] at h1; cases h1; exact ⟨n, s0, co, h0, h2, h3⟩
  · rintro ⟨n, s, co, h1, h2, h3⟩
    refine ⟨n, { s with incoming := s.incoming + refs i.structs n }, co, ?_, h2, h3⟩
    rw [findTop_find, h1]; rfl

theorem Sound.generate (i : Info) (ht : TabOk i) (h : Sound i.structs i.enums) :
    Sound (findTop (fixup i).1).1.structs (findTop (fixup i).1).1.enums := by
  have back : ∀ n s, (findTop (Items.fixup i).1).1.structs.find? n = some s →
      ∃ s0, i.structs.find? n = some s0 ∧ s.complex = s0.complex.map (fixupLine i) ∧
        s.incoming = s0.incoming + refs (Items.fixup i).1.structs n := by
    intro n s hn
    rw [prep_find] at hn
    cases h0 : i.structs.find? n with
    | none => rw [h0] at hn; cases hn
    | some s0 => rw [h0] at hn; cases hn; exact ⟨s0, rfl, rfl, rfl⟩
  have forth : ∀ n s0, i.structs.find? n = some s0 → ∃ s, (findTop (Items.fixup i).1).1.structs.find? n = some s := by
    intro n s0 h0; exact ⟨_, by rw [prep_find, h0]; rfl⟩
  refine ⟨?_, ?_, ?_⟩
  · intro n s co hn hco hty
    obtain ⟨s0, e1, e2, _⟩ := back n s hn
    rw [e2] at hco
    obtain ⟨co0, hco0, rfl⟩ := List.mem_map.1 hco
    rw [fixupLine_tyName]
    by_cases he : co0.ty = .enumOrStruct
    · rw [fixupLine_ty he] at hty
      obtain ⟨t, ht⟩ := itemType_struct hty
      exact forth _ _ ht
    · rw [fixupLine_keep he] at hty
      obtain ⟨t, ht⟩ := h.struct _ _ _ e1 hco0 hty
      exact forth _ _ ht
  · intro n s co hn hco hty
    obtain ⟨s0, e1, e2, _⟩ := back n s hn
    rw [e2] at hco
    obtain ⟨co0, hco0, rfl⟩ := List.mem_map.1 hco
    rw [fixupLine_tyName, prep_enums]
    by_cases he : co0.ty = .enumOrStruct
    · rw [fixupLine_ty he] at hty
      exact itemType_enum hty
    · rw [fixupLine_keep he] at hty
      exact h.enum _ _ _ e1 hco0 hty
  · intro n s hn hinc
    obtain ⟨s0, e1, _, e3⟩ := back n s hn
    rw [ref_findTop]
    by_cases hz : s0.incoming = 0
    · rw [hz, Nat.zero_add] at e3
      rw [e3] at hinc
      exact (refs_pos ((fixup_same i).tabOk ht).sortedS).1 hinc
    · exact (h.counted _ _ e1 hz).fixup

theorem History.sound {h : Heap} (hh : History h) {j : Nat} {i : Info} (hi : h[j]? = some i) :
    Sound i.structs i.enums := hh.every Sound.readClosed Sound.generate j i hi

/-- No line was resolved to "unknown" before.  (Proof notion, models no code.) -/
def NoUnknown (S : SMap StructS) (_ : SMap EnumS) : Prop :=
  ∀ n s co, S.find? n = some s → co ∈ s.complex → co.ty ≠ .unknown

/-- Lines of tables that were only read are unresolved or vectors.  (Proof notion, models no code.) -/
def Unresolved (S : SMap StructS) (_ : SMap EnumS) : Prop :=
  ∀ n s co, S.find? n = some s → co ∈ s.complex → co.ty = .enumOrStruct ∨ co.ty = .vector

theorem Unresolved.readClosed : ReadClosed Unresolved := by
  constructor
  · intro n s co h; simp at h
  · intro S E n c h h1 h2; exact h
  · intro S E n h h1 h2 k s co hk hco
    rw [SMap.find?_insert] at hk
    split at hk
    · cases hk; simp at hco
    · exact h k s co hk hco
  · intro S E k l h; exact h
  · intro S E k l h n s co hn hco
    rw [SMap.find?_modify] at hn
    split at hn
    · cases h0 : S.find? n with
      | none => rw [h0] at hn; cases hn
      | some s0 => rw [h0] at hn; cases hn; exact h n s0 co h0 hco
    · exact h n s co hn hco
  · intro S E k l h hl n s co hn hco
    rw [SMap.find?_modify] at hn
    split at hn
    · cases h0 : S.find? n with
      | none => rw [h0] at hn; cases hn
      | some s0 =>
        rw [h0] at hn; cases hn
        rcases List.mem_append.1 hco with hco | hco
        · exact h n s0 co h0 hco
        · rw [List.mem_singleton.1 hco]; exact hl
    · exact h n s co hn hco

theorem Reading.unresolved {h : Heap} (hr : Reading h) {j : Nat} {i : Info} (hi : h[j]? = some i) :
    Unresolved i.structs i.enums := hr.every Unresolved.readClosed j i hi

theorem Unresolved.noUnknown {S : SMap StructS} {E : SMap EnumS} (h : Unresolved S E) : NoUnknown S E := by
  intro n s co h1 h2 h3
  rcases h n s co h1 h2 with h4 | h4 <;> rw [h4] at h3 <;> cases h3

end Stfx.Items
