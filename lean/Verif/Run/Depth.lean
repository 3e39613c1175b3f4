import Verif.Run.XmlTrip
/-
How deeply the elements of a written file are nested.
-/
set_option autoImplicit false
namespace Stfx.Run
open Stfx.Items Stfx.Parser Stfx.Gen

mutual
/-- How deeply structs, vectors and simple members are nested in an object.  (Proof notion, models no code.) -/
def nesting : Val → Nat
  | .struct fs => nestingFields fs + 1
  | .vec vs => nestingVals vs + 1
  | _ => 1
/-- See the definition before it.  (Proof notion, models no code.) -/
def nestingFields : List (Str × Val) → Nat
  | [] => 0
  | (_, v) :: fs => max (nesting v) (nestingFields fs)
/-- See the definition before it.  (Proof notion, models no code.) -/
def nestingVals : List Val → Nat
  | [] => 0
  | v :: vs => max (nesting v) (nestingVals vs)
end

theorem nestingFields_lookup {fs : List (Str × Val)} {n : Str} {v : Val} (h : fs.lookup n = some v) :
    nesting v ≤ nestingFields fs := by
  induction fs with
  | nil => cases h
  | cons p fs ih =>
    obtain ⟨m, w⟩ := p
    rw [nestingFields]
    by_cases hm : n = m
    · subst hm
      simp only [List.lookup_cons_self, Option.some.injEq] at h
      subst h
      omega
    · have hb : (n == m) = false := by simpa using hm
      rw [List.lookup_cons, hb] at h
      have := ih h
      omega

theorem nesting_pos (v : Val) : 1 ≤ nesting v := by cases v <;> simp [nesting]

theorem depthKids_le {ks : List Node} {b : Nat} : depthKids ks ≤ b ↔ ∀ k ∈ ks, depth k ≤ b := by
  induction ks with
  | nil => simp [depthKids]
  | cons k ks ih =>
    rw [depthKids]
    simp only [List.mem_cons, forall_eq_or_imp, ← ih]
    omega

theorem mem_mapM {α β : Type} {f : α → R β} {l : List α} {bs : List β} (h : l.mapM f = .ok bs) {b : β} (hb : b ∈ bs) :
    ∃ a ∈ l, f a = .ok b := by
  induction l generalizing bs with
  | nil => cases h; cases hb
  | cons a l ih =>
    rw [mapM_cons, R.bind_eq_ok] at h
    obtain ⟨b', h1, h⟩ := h
    rw [R.bind_eq_ok] at h
    obtain ⟨bs', h2, h⟩ := h
    cases h
    rcases List.mem_cons.1 hb with rfl | hb
    · exact ⟨a, List.mem_cons_self, h1⟩
    · obtain ⟨a', ha, he⟩ := ih h2 hb
      exact ⟨a', List.mem_cons_of_mem _ ha, he⟩

section
variable {T : CTable} {L : Lib} {prog : List Item} {delta : Bool}

/-- What a writer statement emits is no deeper than its member. -/
theorem wrAct_depth {c : Str} {dd fs : List (Str × Val)} {st : Wr} {k : Node}
    (hwr : ∀ n v, fs.lookup n = some v → ∀ c el, (wrVal T L prog delta v).wr c = .ok el → depthKids el.kids + 1 ≤ nesting v)
    (hit : ∀ n v, fs.lookup n = some v → ∀ w ∈ (wrVal T L prog delta v).items, ∀ c el, w c = .ok el →
      depthKids el.kids + 2 ≤ nesting v)
    (h : wrAct T L delta c dd (wrFields T L prog delta fs) st = .ok (.kid k)) : depth k ≤ nestingFields fs := by
  have hfield : ∀ n w, field (wrFields T L prog delta fs) n = .ok w →
      ∃ v, fs.lookup n = some v ∧ w = wrVal T L prog delta v := by
    intro n w hw
    unfold field at hw
    rw [wrFields_lookup] at hw
    cases hl : fs.lookup n with
    | none => rw [hl] at hw; cases hw
    | some v => rw [hl] at hw; cases hw; exact ⟨v, rfl, rfl⟩
  have leaf : ∀ (n : Str) (g : WVal → R Bool) (f : WVal → R Str),
      (field (wrFields T L prog delta fs) n >>= fun w => g w >>= fun b =>
        if b = true then f w >>= fun s => pure (Emit.kid (.elem n [] [.text s])) else pure Emit.none) = .ok (.kid k) →
      depth k ≤ nestingFields fs := by
    intro n g f h
    rw [R.bind_eq_ok] at h
    obtain ⟨w, hw, h⟩ := h
    obtain ⟨v, hv, rfl⟩ := hfield n w hw
    rw [R.bind_eq_ok] at h
    obtain ⟨b, _, h⟩ := h
    cases b with
    | false => cases h
    | true =>
      rw [if_pos rfl, R.bind_eq_ok] at h
      obtain ⟨s, _, h⟩ := h
      cases h
      have := nesting_pos v
      have := nestingFields_lookup hv
      simp only [depth, depthKids]
      omega
  have noKid : ∀ (n : Str) (g : WVal → R Bool) (f : WVal → R Str),
      (field (wrFields T L prog delta fs) n >>= fun w => g w >>= fun b =>
        if b = true then f w >>= fun s => pure (Emit.attr n s) else pure Emit.none) ≠ .ok (.kid k) := by
    intro n g f h
    rw [R.bind_eq_ok] at h
    obtain ⟨w, hw, h⟩ := h
    rw [R.bind_eq_ok] at h
    obtain ⟨b, _, h⟩ := h
    cases b with
    | false => cases h
    | true =>
      rw [if_pos rfl, R.bind_eq_ok] at h
      obtain ⟨s, _, h⟩ := h
      cases h
  cases st with
  | elem g ty n => exact leaf n _ _ h
  | elemEnum g n => exact leaf n _ _ h
  | attr g ty n => exact absurd h (noKid n _ _)
  | attrEnum g n => exact absurd h (noKid n _ _)
  | fixme n => cases h
  | warn n => cases h
  | child n ty =>
    unfold wrAct at h
    rw [R.bind_eq_ok] at h
    obtain ⟨w, hw, h⟩ := h
    obtain ⟨v, hv, rfl⟩ := hfield n w hw
    rw [R.bind_eq_ok] at h
    obtain ⟨el, hel, h⟩ := h
    cases h
    have := hwr n v hv ty el hel
    have := nestingFields_lookup hv
    rw [depth]
    omega
  | vector n ty =>
    unfold wrAct at h
    rw [R.bind_eq_ok] at h
    obtain ⟨w, hw, h⟩ := h
    obtain ⟨v, hv, rfl⟩ := hfield n w hw
    rw [R.bind_eq_ok] at h
    obtain ⟨els, hels, h⟩ := h
    cases h
    have := nestingFields_lookup hv
    have hp := nesting_pos v
    rw [depth]
    have hk : depthKids (els.map fun el => Node.elem ty el.attrs el.kids) ≤ nesting v - 1 := by
      rw [depthKids_le]
      intro k hk
      obtain ⟨el, hel, rfl⟩ := List.mem_map.1 hk
      obtain ⟨f, hf, he⟩ := mem_mapM hels hel
      have := hit n v hv f hf ty el he
      rw [depth]
      omega
    omega

theorem kids_of_emits (es : List Emit) (el : El) (b : Nat) (h0 : ∀ k ∈ el.kids, depth k ≤ b)
    (h : ∀ k, Emit.kid k ∈ es → depth k ≤ b) : ∀ k ∈ (es.foldl El.add el).kids, depth k ≤ b := by
  induction es generalizing el with
  | nil => exact h0
  | cons e es ih =>
    rw [List.foldl_cons]
    refine ih _ ?_ fun k hk => h k (List.mem_cons_of_mem _ hk)
    cases e with
    | none => exact h0
    | attr => exact h0
    | kid k' =>
      intro k hk
      rcases List.mem_append.1 hk with hk | hk
      · exact h0 k hk
      · rw [List.mem_singleton] at hk
        subst hk
        exact h k List.mem_cons_self

mutual
theorem wr_depth : ∀ (v : Val) (c : Str) (el : El), (wrVal T L prog delta v).wr c = .ok el →
    depthKids el.kids + 1 ≤ nesting v
  | .struct fs, c, el, h => by
    have hwr := fields_depth fs
    simp only [wrVal, runWr] at h
    split at h
    · rename_i dd body _
      rw [R.bind_eq_ok] at h
      obtain ⟨es, h1, h⟩ := h
      cases h
      have := kids_of_emits es ⟨[], []⟩ (nestingFields fs) (by simp) (fun k hk => by
        obtain ⟨st, _, hst⟩ := mem_mapM h1 hk
        exact wrAct_depth (fun n v hv => (hwr n v hv).1) (fun n v hv => (hwr n v hv).2) hst)
      have := depthKids_le.2 this
      rw [nesting]
      omega
    · cases h
  | .vec vs, c, el, h => by cases h
  | .undef, c, el, h => by cases h
  | .bool _, c, el, h => by cases h
  | .num _, c, el, h => by cases h
  | .flt _, c, el, h => by cases h
  | .dbl _, c, el, h => by cases h
  | .str _, c, el, h => by cases h
theorem items_depth : ∀ (v : Val), ∀ w ∈ (wrVal T L prog delta v).items, ∀ c el, w c = .ok el →
    depthKids el.kids + 2 ≤ nesting v
  | .vec vs, w, hw, c, el, h => by
    have := vals_depth vs
    simp only [wrVal, List.mem_map] at hw
    obtain ⟨wv, hwv, rfl⟩ := hw
    have := this wv hwv c el h
    rw [nesting]
    omega
  | .struct fs, w, hw, c, el, h => by cases hw
  | .undef, w, hw, c, el, h => by cases hw
  | .bool _, w, hw, c, el, h => by cases hw
  | .num _, w, hw, c, el, h => by cases hw
  | .flt _, w, hw, c, el, h => by cases hw
  | .dbl _, w, hw, c, el, h => by cases hw
  | .str _, w, hw, c, el, h => by cases hw
theorem fields_depth : ∀ (fs : List (Str × Val)) (n : Str) (v : Val), fs.lookup n = some v →
    (∀ c el, (wrVal T L prog delta v).wr c = .ok el → depthKids el.kids + 1 ≤ nesting v) ∧
    (∀ w ∈ (wrVal T L prog delta v).items, ∀ c el, w c = .ok el → depthKids el.kids + 2 ≤ nesting v)
  | [], n, v, h => by cases h
  | (m, w) :: fs, n, v, h => by
    have h1 := wr_depth w
    have h2 := items_depth w
    have h3 := fields_depth fs
    by_cases hm : n = m
    · subst hm
      simp only [List.lookup_cons_self, Option.some.injEq] at h
      subst h
      exact ⟨h1, h2⟩
    · have hb : (n == m) = false := by simpa using hm
      rw [List.lookup_cons, hb] at h
      exact h3 n v h
theorem vals_depth : ∀ (vs : List Val), ∀ w ∈ wrVals T L prog delta vs, ∀ c el, w.wr c = .ok el →
    depthKids el.kids + 1 ≤ nestingVals vs
  | [], w, hw, c, el, h => by cases hw
  | v :: vs, w, hw, c, el, h => by
    have h1 := wr_depth v
    have h2 := vals_depth vs
    rw [wrVals, List.mem_cons] at hw
    rw [nestingVals]
    rcases hw with rfl | hw
    · have := h1 c el h
      omega
    · have := h2 w hw c el h
      omega
end

/-- The elements of a file are nested no deeper than the object written to it. -/
theorem writeFile_depth {n : Str} {v : Val} {root : Node} (h : writeFile T L prog delta n v = .ok root) :
    depth root ≤ nesting v := by
  unfold writeFile at h
  split at h
  · rw [R.bind_eq_ok] at h
    obtain ⟨el, h1, h⟩ := h
    cases h
    have := wr_depth v n el h1
    rw [depth]
    exact this
  · cases h

end
end Stfx.Run
