import Verif.Text
/-
`std::map<std::string, T>` as a list of pairs sorted by key.
-/
namespace Stfx

/-- `std::string::operator<`: lexicographic by character code, the order of the maps of items.h:88-96. -/
def sLt : Str → Str → Bool
  | _, [] => false
  | [], _ :: _ => true
  | a :: as, b :: bs => decide (a.toNat < b.toNat) || (a.toNat == b.toNat && sLt as bs)

theorem Char.toNat_inj' {a b : Char} (h : a.toNat = b.toNat) : a = b :=
  Char.ext (UInt32.toNat_inj.1 h)

theorem sLt_irrefl (a : Str) : sLt a a = false := by
  induction a with
  | nil => rfl
  | cons x xs ih => simp [sLt, ih]

theorem sLt_trans {a b c : Str} (h1 : sLt a b = true) (h2 : sLt b c = true) : sLt a c = true := by
  induction a generalizing b c with
  | nil =>
    cases c with
    | nil => cases b <;> simp [sLt] at h2
    | cons => rfl
  | cons x xs ih =>
    cases b with
    | nil => simp [sLt] at h1
    | cons y ys =>
      cases c with
      | nil => simp [sLt] at h2
      | cons z zs =>
        simp only [sLt, Bool.or_eq_true, decide_eq_true_eq, Bool.and_eq_true, beq_iff_eq] at *
        rcases h1 with h1 | ⟨e1, h1⟩
        · rcases h2 with h2 | ⟨e2, h2⟩
          · left; omega
          · left; omega
        · rcases h2 with h2 | ⟨e2, h2⟩
          · left; omega
          · right; exact ⟨by omega, ih h1 h2⟩

theorem sLt_total {a b : Str} (h1 : sLt a b = false) (h2 : sLt b a = false) : a = b := by
  induction a generalizing b with
  | nil =>
    cases b with
    | nil => rfl
    | cons => simp [sLt] at h1
  | cons x xs ih =>
    cases b with
    | nil => simp [sLt] at h2
    | cons y ys =>
      simp only [sLt, Bool.or_eq_false_iff, decide_eq_false_iff_not, Bool.and_eq_false_iff,
        beq_eq_false_iff_ne] at h1 h2
      have e : x.toNat = y.toNat := by omega
      have hx := Char.toNat_inj' e
      subst hx
      have t1 : sLt xs ys = false := by
        rcases h1.2 with h | h
        · exact absurd rfl h
        · exact h
      have t2 : sLt ys xs = false := by
        rcases h2.2 with h | h
        · exact absurd rfl h
        · exact h
      rw [ih t1 t2]

theorem sLt_asymm {a b : Str} (h : sLt a b = true) : sLt b a = false := by
  cases h2 : sLt b a with
  | false => rfl
  | true => have := sLt_trans h h2; rw [sLt_irrefl] at this; cases this

/-- A `std::map<std::string, T>`: its nodes in iteration order, items.h:88-96. -/
abbrev SMap (α : Type) := List (Str × α)

namespace SMap
variable {α : Type}

/-- `find (key)`, items.cpp:29-44. -/
def find? (m : SMap α) (k : Str) : Option α := (List.find? (fun p => p.1 == k) m).map (·.2)

/-- `m[key] = value`: insert a node at its place or overwrite the value, items.cpp:72-127. -/
def insert : SMap α → Str → α → SMap α
  | [], k, v => [(k, v)]
  | (k', v') :: m, k, v =>
    if sLt k k' then (k, v) :: (k', v') :: m
    else if sLt k' k then (k', v') :: insert m k v
    else (k', v) :: m

/-- Change a node in place (through a pointer or reference to its value), items.cpp:93-159. -/
def modify (m : SMap α) (k : Str) (f : α → α) : SMap α := m.map fun p => if p.1 = k then (p.1, f p.2) else p

/-- Keys in iteration order, items.h:88-96. -/
def keys (m : SMap α) : List Str := m.map (·.1)

/-- Keys strictly increase.  (Proof notion, models no code.) -/
def Sorted : SMap α → Prop
  | [] => True
  | (k, _) :: m => (∀ p ∈ m, sLt k p.1 = true) ∧ Sorted m

@[simp] theorem find?_nil (k : Str) : find? ([] : SMap α) k = none := rfl

theorem find?_cons (k' : Str) (v : α) (m : SMap α) (k : Str) :
    find? ((k', v) :: m) k = if k' = k then some v else find? m k := by
  unfold find?
  rw [List.find?_cons]
  by_cases h : k' = k
  · simp [h]
  · have : (k' == k) = false := by simpa using h
    simp [h, this]

theorem find?_insert (m : SMap α) (k : Str) (v : α) (k2 : Str) :
    find? (insert m k v) k2 = if k = k2 then some v else find? m k2 := by
  induction m with
  | nil => simp [insert, find?_cons]
  | cons p m ih =>
    obtain ⟨k', v'⟩ := p
    unfold insert
    by_cases h1 : sLt k k' = true
    · rw [if_pos h1, find?_cons]
    · rw [if_neg h1]
      by_cases h2 : sLt k' k = true
      · rw [if_pos h2, find?_cons, ih, find?_cons]
        by_cases e : k' = k2
        · rw [if_pos e, if_pos e]
          have : k ≠ k2 := by
            rintro rfl
            rw [e, sLt_irrefl] at h2
            cases h2
          rw [if_neg this]
        · rw [if_neg e, if_neg e]
      · rw [if_neg h2]
        have e := sLt_total (Bool.not_eq_true _ ▸ h1) (Bool.not_eq_true _ ▸ h2)
        subst e
        rw [find?_cons, find?_cons]
        by_cases e : k = k2 <;> simp [e]

theorem mem_insert {m : SMap α} {k : Str} {v : α} {p : Str × α} (h : p ∈ insert m k v) :
    p = (k, v) ∨ p ∈ m := by
  induction m with
  | nil => simpa [insert] using h
  | cons q m ih =>
    obtain ⟨k', v'⟩ := q
    unfold insert at h
    split at h
    · rcases List.mem_cons.1 h with h | h
      · exact Or.inl h
      · exact Or.inr h
    · split at h
      · rcases List.mem_cons.1 h with h | h
        · exact Or.inr (by rw [h]; simp)
        · rcases ih h with h | h
          · exact Or.inl h
          · exact Or.inr (List.mem_cons_of_mem _ h)
      · next h1 h2 =>
        have e := sLt_total (Bool.not_eq_true _ ▸ h1) (Bool.not_eq_true _ ▸ h2)
        rcases List.mem_cons.1 h with h | h
        · left; rw [h, e]
        · exact Or.inr (List.mem_cons_of_mem _ h)

theorem Sorted.insert {m : SMap α} (h : Sorted m) (k : Str) (v : α) : Sorted (insert m k v) := by
  induction m with
  | nil => exact ⟨by simp, trivial⟩
  | cons q m ih =>
    obtain ⟨k', v'⟩ := q
    unfold SMap.insert
    split
    · next h1 =>
      refine ⟨?_, h⟩
      intro p hp
      rcases List.mem_cons.1 hp with rfl | hp
      · exact h1
      · exact sLt_trans h1 (h.1 p hp)
    · split
      · next h1 h2 =>
        refine ⟨?_, ih h.2⟩
        intro p hp
        rcases mem_insert hp with rfl | hp
        · exact h2
        · exact h.1 p hp
      · exact h

theorem keys_modify (m : SMap α) (k : Str) (f : α → α) : keys (modify m k f) = keys m := by
  unfold keys modify
  rw [List.map_map]
  apply List.map_congr_left
  intro p _
  simp only [Function.comp]
  split <;> rfl

theorem mem_keys {m : SMap α} {k : Str} : k ∈ keys m ↔ ∃ v, (k, v) ∈ m := by
  unfold keys
  simp

theorem sorted_iff_keys (m : SMap α) : Sorted m ↔ (keys m).Pairwise (fun a b => sLt a b = true) := by
  induction m with
  | nil => simp [Sorted, keys]
  | cons p m ih =>
    obtain ⟨k, v⟩ := p
    unfold Sorted
    rw [ih]
    simp [keys]

theorem Sorted.modify {m : SMap α} (h : Sorted m) (k : Str) (f : α → α) : Sorted (modify m k f) := by
  rw [sorted_iff_keys] at h ⊢
  rw [keys_modify]
  exact h

theorem find?_modify (m : SMap α) (k : Str) (f : α → α) (k2 : Str) :
    find? (modify m k f) k2 = if k = k2 then (find? m k2).map f else find? m k2 := by
  induction m with
  | nil => simp [modify]
  | cons p m ih =>
    obtain ⟨k', v'⟩ := p
    have e : modify ((k', v') :: m) k f = (if k' = k then (k', f v') else (k', v')) :: modify m k f := rfl
    rw [e]
    by_cases h : k' = k
    · rw [if_pos h, find?_cons, find?_cons, ih]
      by_cases h2 : k = k2
      · simp [h, h2]
      · have : k' ≠ k2 := by rw [h]; exact h2
        simp [this, h2]
    · rw [if_neg h, find?_cons, find?_cons, ih]
      by_cases h2 : k' = k2
      · have : k ≠ k2 := by rw [← h2]; exact fun e => h e.symm
        simp [h2, this]
      · simp [h2]

theorem find?_some_mem {m : SMap α} {k : Str} {v : α} (h : find? m k = some v) : (k, v) ∈ m := by
  induction m with
  | nil => cases h
  | cons p m ih =>
    obtain ⟨k', v'⟩ := p
    rw [find?_cons] at h
    split at h
    · next e => cases h; rw [e]; simp
    · exact List.mem_cons_of_mem _ (ih h)

theorem Sorted.find?_of_mem {m : SMap α} (hs : Sorted m) {k : Str} {v : α} (h : (k, v) ∈ m) :
    find? m k = some v := by
  induction m with
  | nil => cases h
  | cons p m ih =>
    obtain ⟨k', v'⟩ := p
    rw [find?_cons]
    rcases List.mem_cons.1 h with e | h
    · cases e; simp
    · have := hs.1 _ h
      have hne : k' ≠ k := by
        rintro rfl
        rw [sLt_irrefl] at this
        cases this
      rw [if_neg hne]
      exact ih hs.2 h

theorem find?_none_iff {m : SMap α} {k : Str} : find? m k = none ↔ k ∉ keys m := by
  induction m with
  | nil => simp [keys]
  | cons p m ih =>
    obtain ⟨k', v'⟩ := p
    rw [find?_cons]
    by_cases h : k' = k
    · simp [h, keys]
    · rw [if_neg h, ih]
      simp only [keys, List.map_cons, List.mem_cons, not_or]
      exact ⟨fun hh => ⟨fun e => h e.symm, hh⟩, fun hh => hh.2⟩

/-- Sorted maps with the same content are the same list. -/
theorem Sorted.ext {m m' : SMap α} (h : Sorted m) (h' : Sorted m') (he : ∀ k, find? m k = find? m' k) : m = m' := by
  induction m generalizing m' with
  | nil =>
    cases m' with
    | nil => rfl
    | cons p m' =>
      obtain ⟨k, v⟩ := p
      have := he k
      rw [find?_cons] at this
      simp at this
  | cons p m ih =>
    obtain ⟨k, v⟩ := p
    cases m' with
    | nil =>
      have := he k
      rw [find?_cons] at this
      simp at this
    | cons p' m' =>
      obtain ⟨k', v'⟩ := p'
      have hk : k = k' := by
        apply sLt_total
        · cases hlt : sLt k k' with
          | false => rfl
          | true =>
            exfalso
            have h1 : find? ((k', v') :: m') k = some v := by rw [← he, find?_cons]; simp
            have h2 := find?_some_mem h1
            rcases List.mem_cons.1 h2 with e | h2
            · cases e; rw [sLt_irrefl] at hlt; cases hlt
            · have := sLt_trans hlt (h'.1 _ h2)
              rw [sLt_irrefl] at this; cases this
        · cases hlt : sLt k' k with
          | false => rfl
          | true =>
            exfalso
            have h1 : find? ((k, v) :: m) k' = some v' := by rw [he, find?_cons]; simp
            have h2 := find?_some_mem h1
            rcases List.mem_cons.1 h2 with e | h2
            · cases e; rw [sLt_irrefl] at hlt; cases hlt
            · have := sLt_trans hlt (h.1 _ h2)
              rw [sLt_irrefl] at this; cases this
      subst hk
      have hv : v = v' := by
        have := he k
        rw [find?_cons, find?_cons] at this
        simpa using this
      subst hv
      congr 1
      apply ih h.2 h'.2
      intro k2
      have := he k2
      rw [find?_cons, find?_cons] at this
      by_cases e : k = k2
      · subst e
        have n1 : find? m k = none := by
          rw [find?_none_iff]
          intro hm
          obtain ⟨w, hw⟩ := mem_keys.1 hm
          have := h.1 _ hw
          rw [sLt_irrefl] at this; cases this
        have n2 : find? m' k = none := by
          rw [find?_none_iff]
          intro hm
          obtain ⟨w, hw⟩ := mem_keys.1 hm
          have := h'.1 _ hw
          rw [sLt_irrefl] at this; cases this
        rw [n1, n2]
      · simpa [e] using this

end SMap
end Stfx
