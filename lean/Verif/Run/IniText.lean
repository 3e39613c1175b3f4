import Verif.Run.Ini
/-
Facts about the lines of n_ini files, the regular expressions and the maps.
-/
set_option autoImplicit false
namespace Stfx.Run
open Stfx.Items Stfx.Parser Stfx.Gen

/-! ### Pieces -/

theorem pieces_line {n : Nat} {l : Str} (hn : '\n' ∉ l) (rest : Str) :
    ∀ (b : Nat) (acc : Str), l.length < b → pieces n b acc (l ++ '\n' :: rest) = (acc ++ l ++ c!"\n") :: pieces n n [] rest := by
  induction l with
  | nil =>
    intro b acc hb
    simp [pieces]
  | cons c l ih =>
    intro b acc hb
    have hc : c ≠ '\n' := fun h => hn (by rw [h]; exact List.mem_cons_self)
    have hb' : ¬ b ≤ 1 := by simp only [List.length_cons] at hb; omega
    rw [List.cons_append, pieces, if_neg hc, if_neg hb', ih (fun h => hn (List.mem_cons_of_mem _ h)) (b - 1) (acc ++ [c])
      (by simp only [List.length_cons] at hb; omega)]
    simp

/-- Lines that fit into the buffer of the reader.  (Proof notion, models no code.) -/
def Short (l : Str) : Prop := '\n' ∉ l ∧ l.length ≤ 78

/-- Short lines are read as they are. -/
theorem filePieces_lines {ls : List Str} (h : ∀ l ∈ ls, Short l) : filePieces (fileText ls) = ls.map (· ++ c!"\n") := by
  unfold filePieces
  induction ls with
  | nil => rfl
  | cons l ls ih =>
    have hl := h l List.mem_cons_self
    unfold fileText
    rw [List.flatMap_cons, List.append_assoc]
    show pieces 79 79 [] (l ++ '\n' :: (fileText ls)) = _
    rw [pieces_line hl.1 _ 79 [] (by have := hl.2; omega), ih fun l hl => h l (List.mem_cons_of_mem _ hl)]
    rfl

/-! ### Maps -/

section
variable {α : Type}

theorem put_self (k : Str) (a : α) (m : List (Str × α)) : (put k a m).lookup k = some a := by simp [put]

theorem lookup_filter_ne {k j : Str} (h : j ≠ k) (m : List (Str × α)) :
    (m.filter fun p => p.1 ≠ k).lookup j = m.lookup j := by
  induction m with
  | nil => rfl
  | cons p m ih =>
    obtain ⟨i, b⟩ := p
    by_cases hi : i = k
    · subst hi
      have hb : (j == i) = false := by simpa using h
      rw [List.filter_cons_of_neg (by simp), ih, List.lookup_cons, hb]
    · rw [List.filter_cons_of_pos (by simpa using hi), List.lookup_cons, List.lookup_cons, ih]

theorem put_other {k j : Str} (h : j ≠ k) (a : α) (m : List (Str × α)) : (put k a m).lookup j = m.lookup j := by
  have hb : (j == k) = false := by simpa using h
  rw [put, List.lookup_cons, hb]
  exact lookup_filter_ne h m

end

/-! ### Characters -/

theorem isWord_ne {c : Char} (h : isWord c = true) {d : Char} (hd : isWord d = false) : c ≠ d := by
  rintro rfl
  rw [h] at hd
  cases hd

/-- Characters of section names.  (Proof notion, models no code.) -/
def pathChar (c : Char) : Bool := isWord c || c = ' ' || c = '.'

theorem pathChar_ne {c : Char} (h : pathChar c = true) {d : Char} (hd : pathChar d = false) : c ≠ d := by
  rintro rfl
  rw [h] at hd
  cases hd

theorem takeWhile_append_stop {p : Char → Bool} {l : Str} (h : ∀ c ∈ l, p c = true) {d : Char} (hd : p d = false) (r : Str) :
    (l ++ d :: r).takeWhile p = l := by
  induction l with
  | nil => simp [hd]
  | cons c l ih =>
    rw [List.cons_append, List.takeWhile_cons, h c List.mem_cons_self]
    simp only [if_true]
    rw [ih fun c hc => h c (List.mem_cons_of_mem _ hc)]

theorem dropWhile_append_stop {p : Char → Bool} {l : Str} (h : ∀ c ∈ l, p c = true) {d : Char} (hd : p d = false) (r : Str) :
    (l ++ d :: r).dropWhile p = d :: r := by
  induction l with
  | nil => simp [hd]
  | cons c l ih =>
    rw [List.cons_append, List.dropWhile_cons, h c List.mem_cons_self]
    simp only [if_true]
    rw [ih fun c hc => h c (List.mem_cons_of_mem _ hc)]

theorem beforeLast_last (c : Char) (l : Str) : beforeLast c (l ++ [c]) = some l := by
  induction l with
  | nil => simp [beforeLast]
  | cons d l ih => rw [List.cons_append, beforeLast, ih]

/-! ### Regular expressions -/

theorem search_here {α : Type} {m : Str → Option α} {s : Str} {a : α} (h : m s = some a) : search m s = some a := by
  cases s with
  | nil => exact h
  | cons c s => rw [search, h]

/-- `regex_search` succeeds iff there is a match somewhere. -/
theorem search_none {α : Type} {m : Str → Option α} {s : Str} :
    search m s = none ↔ ∀ a b, s = a ++ b → m b = none := by
  induction s with
  | nil =>
    rw [search]
    constructor
    · intro h a b e
      have := List.append_eq_nil_iff.1 e.symm
      rw [this.2]
      exact h
    · intro h
      exact h [] [] rfl
  | cons c s ih =>
    rw [search]
    constructor
    · intro h a b e
      cases hm : m (c :: s) with
      | some x => rw [hm] at h; cases h
      | none =>
        rw [hm] at h
        cases a with
        | nil =>
          rw [List.nil_append] at e
          rw [← e]
          exact hm
        | cons d a =>
          rw [List.cons_append] at e
          injection e with _ e
          exact ih.1 h a b e
    · intro h
      rw [h [] (c :: s) rfl]
      exact ih.2 fun a b e => h (c :: a) b (by rw [e]; rfl)

theorem search_some {α : Type} {m : Str → Option α} {s : Str} {x : α} (h : search m s = some x) :
    ∃ a b, s = a ++ b ∧ m b = some x := by
  induction s with
  | nil => exact ⟨[], [], rfl, h⟩
  | cons c s ih =>
    rw [search] at h
    cases hm : m (c :: s) with
    | some y =>
      rw [hm] at h
      injection h with h
      subst h
      exact ⟨[], c :: s, rfl, hm⟩
    | none =>
      rw [hm] at h
      obtain ⟨a, b, e, h⟩ := ih h
      exact ⟨c :: a, b, by rw [e]; rfl, h⟩

theorem beforeLast_some {c : Char} {s p : Str} (h : beforeLast c s = some p) : ∃ r, s = p ++ c :: r ∧ c ∉ r := by
  induction s generalizing p with
  | nil => cases h
  | cons d s ih =>
    rw [beforeLast] at h
    cases hb : beforeLast c s with
    | some q =>
      rw [hb] at h
      injection h with h
      subst h
      obtain ⟨r, e, hr⟩ := ih hb
      exact ⟨r, by rw [e]; rfl, hr⟩
    | none =>
      rw [hb] at h
      dsimp only at h
      split at h
      · rename_i hd
        injection h with h
        subst h
        subst hd
        refine ⟨s, rfl, ?_⟩
        intro hm
        clear ih
        induction s with
        | nil => cases hm
        | cons e s ih =>
          rw [beforeLast] at hb
          cases hb' : beforeLast d s with
          | some q => rw [hb'] at hb; cases hb
          | none =>
            rw [hb'] at hb
            rcases List.mem_cons.1 hm with rfl | hm
            · simp at hb
            · exact ih hb' hm
      · cases h

/-- What `\[(.+)\]` matches. -/
theorem matchSection_some {s k : Str} (h : matchSection s = some k) :
    k ≠ [] ∧ (∀ c ∈ k, isDot c = true) ∧ ∃ r, s = '[' :: (k ++ ']' :: r) := by
  unfold matchSection at h
  split at h
  · rename_i t
    split at h
    · cases h
    · rename_i hne
      obtain ⟨r, e, _⟩ := beforeLast_some h
      have hall : ∀ c ∈ t.takeWhile isDot, isDot c = true := fun c hc => by
        have := List.all_takeWhile (p := isDot) (l := t)
        rw [List.all_eq_true] at this
        exact this c hc
      refine ⟨?_, ?_, r ++ t.dropWhile isDot, ?_⟩
      · rintro rfl
        exact hne (by rw [h])
      · intro c hc
        refine hall c ?_
        rw [e]
        exact List.mem_append_left _ hc
      · conv => lhs; rw [← List.takeWhile_append_dropWhile (p := isDot) (l := t), e]
        simp
  · cases h

theorem matchSection_heading {p : Str} (hp : p ≠ []) (h : ∀ c ∈ p, isDot c = true) :
    matchSection ('[' :: (p ++ ']' :: c!"\n")) = some p := by
  unfold matchSection
  have : (p ++ ']' :: c!"\n").takeWhile isDot = p ++ [']'] := by
    have := takeWhile_append_stop (p := isDot) (l := p ++ [']']) (d := '\n') (by
      intro c hc
      rcases List.mem_append.1 hc with hc | hc
      · exact h c hc
      · rw [List.mem_singleton.1 hc]; decide) (by decide) []
    simpa using this
  simp only [this, beforeLast_last]
  cases p with
  | nil => exact absurd rfl hp
  | cons c p => rfl

theorem matchItem_line {n s : Str} (hn : n ≠ []) (hw : ∀ c ∈ n, isWord c = true) (hs : s ≠ [])
    (hd : ∀ c ∈ s, isDot c = true) : matchItem (itemLine n s ++ c!"\n") = some (n, s) := by
  unfold matchItem itemLine
  rw [List.append_assoc, List.cons_append]
  rw [takeWhile_append_stop hw (by decide), dropWhile_append_stop hw (by decide)]
  have : (s ++ c!"\n").takeWhile isDot = s := takeWhile_append_stop hd (by decide) []
  split
  · exact absurd rfl hn
  · rename_i heq
    injection heq with _ heq
    rw [← heq, this, if_neg hs]
  · rename_i h
    exact absurd rfl (h _)

/-! ### One line -/

theorem piece_eq (st : IniSt) {c : Char} {l : Str} (h0 : '\x00' ∉ c :: l) (hp : '%' ∉ c :: l) :
    st.piece (c :: l) = (st.flush c).line (c :: l) := by
  unfold IniSt.piece
  rw [cStr_id h0]
  have : (c :: l).takeWhile (· ≠ '%') = c :: l := by
    refine takeWhile_all _ ?_
    intro d hd
    simp only [ne_eq, decide_not, Bool.not_eq_eq_eq_not, Bool.not_true, decide_eq_false_iff_not]
    rintro rfl
    exact hp hd
  rw [this]

theorem flush_id {st : IniSt} (h : st.key = []) (c : Char) : st.flush c = st := by
  unfold IniSt.flush
  rw [if_neg (by rw [h]; simp)]

/-- An empty line does nothing (apart from ending a multi-line value). -/
theorem piece_empty (st : IniSt) : st.piece c!"\n" = st.flush '\n' := by
  rw [show c!"\n" = '\n' :: [] from rfl, piece_eq st (by decide) (by decide)]
  rfl

/-- A heading starts its section anew. -/
theorem piece_heading {st : IniSt} (hk : st.key = []) {p : Str} (hp : p ≠ []) (h : ∀ c ∈ p, pathChar c = true) :
    st.piece ('[' :: (p ++ [']']) ++ c!"\n") = { st with under := put p [] st.under, cur := some p } := by
  have e : '[' :: (p ++ [']']) ++ c!"\n" = '[' :: (p ++ ']' :: c!"\n") := by simp
  have hne : ∀ d : Char, pathChar d = false → d ≠ '[' → d ≠ ']' → d ≠ '\n' → d ∉ '[' :: (p ++ ']' :: c!"\n") := by
    intro d hd h1 h2 h3 hm
    rcases List.mem_cons.1 hm with hm | hm
    · exact h1 hm
    rcases List.mem_append.1 hm with hm | hm
    · exact pathChar_ne (h d hm) hd rfl
    rcases List.mem_cons.1 hm with hm | hm
    · exact h2 hm
    · exact h3 (List.mem_singleton.1 hm)
  rw [e, piece_eq st (hne _ (by decide) (by decide) (by decide) (by decide)) (hne _ (by decide) (by decide) (by decide) (by decide)),
    flush_id hk]
  unfold IniSt.line
  dsimp only
  rw [if_pos rfl, search_here (matchSection_heading hp fun c hc => ?_)]
  have := h c hc
  unfold isDot
  simp [pathChar_ne this (d := '\n') (by decide), pathChar_ne this (d := '\r') (by decide)]

/-- Texts of members that a line keeps.  (Proof notion, models no code.) -/
structure LineText (s : Str) : Prop where
  ne : s ≠ []
  nl : '\n' ∉ s
  cr : '\r' ∉ s
  nul : '\x00' ∉ s
  comment : '%' ∉ s

instance (s : Str) : Decidable (LineText s) :=
  decidable_of_iff (s ≠ [] ∧ '\n' ∉ s ∧ '\r' ∉ s ∧ '\x00' ∉ s ∧ '%' ∉ s)
    ⟨fun ⟨a, b, c, d, e⟩ => ⟨a, b, c, d, e⟩, fun ⟨a, b, c, d, e⟩ => ⟨a, b, c, d, e⟩⟩

/-- A member line is stored in the current section. -/
theorem piece_item {st : IniSt} (hk : st.key = []) {n s : Str} (hn : Ident n) (hs : LineText s) :
    st.piece (itemLine n s ++ c!"\n") = st.store n s := by
  obtain ⟨c, r, rfl, _, hw⟩ := hn
  have hc := hw c List.mem_cons_self
  have hne : ∀ d : Char, isWord d = false → d ≠ ' ' → d ≠ '\n' → d ∉ s → d ∉ itemLine (c :: r) s ++ c!"\n" := by
    intro d hd h1 h2 h3 hm
    unfold itemLine at hm
    rcases List.mem_append.1 hm with hm | hm
    · rcases List.mem_append.1 hm with hm | hm
      · exact isWord_ne (hw d hm) hd rfl
      rcases List.mem_cons.1 hm with hm | hm
      · exact h1 hm
      · exact h3 hm
    · exact h2 (List.mem_singleton.1 hm)
  have h0 := hne '\x00' (by decide) (by decide) (by decide) hs.nul
  have hp := hne '%' (by decide) (by decide) (by decide) hs.comment
  have hm := matchItem_line (n := c :: r) (by simp) hw hs.ne (by
    intro d hd
    unfold isDot
    have h1 : d ≠ '\n' := by rintro rfl; exact hs.nl hd
    have h2 : d ≠ '\r' := by rintro rfl; exact hs.cr hd
    simp [h1, h2])
  have e : itemLine (c :: r) s ++ c!"\n" = c :: (r ++ ' ' :: s ++ c!"\n") := by simp [itemLine]
  rw [e] at h0 hp hm ⊢
  rw [piece_eq st h0 hp, flush_id hk]
  unfold IniSt.line
  dsimp only
  rw [if_neg (isWord_ne hc (by decide)), if_neg (isWord_ne hc (by decide)), search_here hm]

end Stfx.Run
