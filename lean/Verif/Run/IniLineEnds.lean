import Verif.Run.IniText
import Verif.Lexer.LineEnds
/-
n_ini files with CR LF line ends: what a reader knows after such a file.
-/
set_option autoImplicit false
namespace Stfx.Run
open Stfx.Items Stfx.Parser Stfx.Gen Stfx.Lexer

/-- A value with CR LF line ends; the newline a multi-line value begins with is not in the file.  (Specification notion, models no code.) -/
def crValue : Str → Str
  | [] => []
  | c :: s => if c = '\n' then '\n' :: crlf s else c :: crlf s

/-- All values of a reader with CR LF line ends.  (Specification notion, models no code.) -/
def IniSt.cr (st : IniSt) : IniSt :=
  { st with items := st.items.map fun p => (p.1, crValue p.2)
            under := st.under.map fun p => (p.1, p.2.map fun q => (q.1, crValue q.2))
            value := crValue st.value }

/-- The lines of a text, with their line ends, are at most 78 characters long, so that with one more they still fit into the buffer.
(Specification notion, models no code.) -/
def ShortLines (text : Str) : Prop := ∀ u, u <:+: text → '\n' ∉ u → u.length ≤ 77

/-! ### Lines -/

theorem takeWhile_end {p : Char → Bool} {e : Str} (he : ∀ c, e.head? = some c → p c = false) (x : Str) : (x ++ e).takeWhile p = x.takeWhile p := by
  induction x with
  | nil =>
    cases e with
    | nil => rfl
    | cons c e => simp [he c rfl]
  | cons c x ih =>
    simp only [List.cons_append, List.takeWhile_cons, ih]

theorem dropWhile_end {p : Char → Bool} {e : Str} (he : ∀ c, e.head? = some c → p c = false) (x : Str) : (x ++ e).dropWhile p = x.dropWhile p ++ e := by
  induction x with
  | nil =>
    cases e with
    | nil => rfl
    | cons c e => simp [he c rfl]
  | cons c x ih =>
    simp only [List.cons_append, List.dropWhile_cons, ih]
    split <;> rfl

theorem search_crlf {α : Type} {m : Str → Option α} (h : ∀ x, m (x ++ c!"\r\n") = m (x ++ c!"\n")) (h0 : m c!"\n" = none) (u : Str) :
    search m (u ++ c!"\r\n") = search m (u ++ c!"\n") := by
  induction u with
  | nil =>
    show search m ('\r' :: c!"\n") = _
    rw [search, show m ('\r' :: c!"\n") = none from (h []).trans h0]
    rfl
  | cons c u ih =>
    show search m (c :: (u ++ c!"\r\n")) = search m (c :: (u ++ c!"\n"))
    rw [search, search, ih, show m (c :: (u ++ c!"\r\n")) = m (c :: (u ++ c!"\n")) from h (c :: u)]

theorem dot_end (x : Str) : (x ++ c!"\r\n").takeWhile isDot = (x ++ c!"\n").takeWhile isDot := by
  rw [takeWhile_end, takeWhile_end] <;> (intro c hc; cases hc; rfl)

theorem word_end (x : Str) : (x ++ c!"\r\n").takeWhile isWord = (x ++ c!"\n").takeWhile isWord := by
  rw [takeWhile_end, takeWhile_end] <;> (intro c hc; cases hc; rfl)

theorem matchSection_crlf (x : Str) : matchSection (x ++ c!"\r\n") = matchSection (x ++ c!"\n") := by
  cases x with
  | nil => rfl
  | cons c x =>
    by_cases hc : c = '['
    · subst hc
      simp only [List.cons_append, matchSection, dot_end]
    · have : ∀ y, matchSection (c :: y) = none := by
        intro y
        unfold matchSection
        split
        · rename_i e
          injection e with e _
          exact absurd e hc
        · rfl
      rw [List.cons_append, List.cons_append, this, this]

theorem matchItem_crlf (x : Str) : matchItem (x ++ c!"\r\n") = matchItem (x ++ c!"\n") := by
  unfold matchItem
  rw [word_end, dropWhile_end (by intro c hc; cases hc; rfl), dropWhile_end (by intro c hc; cases hc; rfl)]
  cases x.dropWhile isWord with
  | nil => cases ((x ++ c!"\n").takeWhile isWord) <;> rfl
  | cons d r =>
    cases ((x ++ c!"\n").takeWhile isWord) with
    | nil => rfl
    | cons a w =>
      by_cases hd : d = ' '
      · subst hd
        simp only [List.cons_append, dot_end]
      · simp [hd]

theorem matchWord_crlf (x : Str) : matchWord (x ++ c!"\r\n") = matchWord (x ++ c!"\n") := by
  unfold matchWord
  rw [word_end]

/-- A line that does not begin with a blank. -/
theorem line_crlf (st : IniSt) {u : Str} (hu : u.head? ≠ some ' ') : st.line (u ++ c!"\r\n") = st.line (u ++ c!"\n") := by
  cases u with
  | nil => rfl
  | cons c u =>
    have hc : c ≠ ' ' := fun e => hu (by rw [e]; rfl)
    have h1 := search_crlf matchSection_crlf rfl (c :: u)
    have h2 := search_crlf matchItem_crlf rfl (c :: u)
    have h3 := search_crlf matchWord_crlf rfl (c :: u)
    simp only [List.cons_append] at h1 h2 h3
    simp only [List.cons_append, IniSt.line, h1, h2, h3, if_neg hc]

/-- What the loop looks at: the same for both line ends, or up to the line end. -/
theorem seen_crlf (u : Str) :
    (cStr (u ++ c!"\r\n")).takeWhile (· ≠ '%') = (cStr (u ++ c!"\n")).takeWhile (· ≠ '%') ∧
      (cStr (u ++ c!"\n")).takeWhile (· ≠ '%') <+: u ∨
    (cStr (u ++ c!"\r\n")).takeWhile (· ≠ '%') = u ++ c!"\r\n" ∧ (cStr (u ++ c!"\n")).takeWhile (· ≠ '%') = u ++ c!"\n" := by
  unfold cStr
  induction u with
  | nil => exact Or.inr ⟨by decide, by decide⟩
  | cons c u ih =>
    simp only [List.cons_append, List.takeWhile_cons]
    by_cases h1 : c ≠ '\x00'
    · rw [if_pos (by simpa using h1), if_pos (by simpa using h1)]
      simp only [List.takeWhile_cons]
      by_cases h2 : c ≠ '%'
      · rw [if_pos (by simpa using h2), if_pos (by simpa using h2)]
        rcases ih with ⟨e, hp⟩ | ⟨e1, e2⟩
        · exact Or.inl ⟨by rw [e], List.cons_prefix_cons.2 ⟨rfl, hp⟩⟩
        · exact Or.inr ⟨by rw [e1], by rw [e2]⟩
      · rw [if_neg (by simpa using h2), if_neg (by simpa using h2)]
        exact Or.inl ⟨rfl, List.nil_prefix⟩
    · rw [if_neg (by simpa using h1), if_neg (by simpa using h1)]
      exact Or.inl ⟨rfl, List.nil_prefix⟩

/-- A line that does not begin with a blank, as read. -/
theorem piece_crlf (st : IniSt) {u : Str} (hu : u.head? ≠ some ' ') : st.piece (u ++ c!"\r\n") = st.piece (u ++ c!"\n") := by
  unfold IniSt.piece
  rcases seen_crlf u with ⟨e, _⟩ | ⟨e1, e2⟩
  · rw [e]
  · rw [e1, e2]
    cases u with
    | nil =>
      show (st.flush '\r').line ([] ++ c!"\r\n") = (st.flush '\n').line ([] ++ c!"\n")
      rw [line_crlf _ hu, show st.flush '\r' = st.flush '\n' from by simp [IniSt.flush]]
    | cons c u => exact line_crlf (st.flush c) hu

/-! ### Values -/

theorem crValue_id {v : Str} (h : '\n' ∉ v) : crValue v = v := by
  cases v with
  | nil => rfl
  | cons c v =>
    simp only [List.mem_cons, not_or] at h
    simp only [crValue, if_neg (Ne.symm h.1), crlf_id h.2]

/-- A continuation line is added to a value. -/
theorem crValue_append (v l : Str) (hl : l.head? = some ' ') : crValue (v ++ l) = crValue v ++ crlf l := by
  cases v with
  | nil =>
    cases l with
    | nil => rfl
    | cons c l =>
      cases hl
      simp [crValue, crlf]
  | cons c v =>
    simp only [List.cons_append, crValue, crlf_append]
    split <;> rfl

theorem put_map {α β : Type} (f : α → β) (k : Str) (a : α) (m : List (Str × α)) :
    (put k a m).map (fun p => (p.1, f p.2)) = put k (f a) (m.map fun p => (p.1, f p.2)) := by
  simp only [put, List.map_cons, List.filter_map]
  rfl

theorem lookup_map {α β : Type} (f : α → β) (k : Str) (m : List (Str × α)) :
    (m.map fun p => (p.1, f p.2)).lookup k = (m.lookup k).map f := by
  induction m with
  | nil => rfl
  | cons p m ih =>
    obtain ⟨a, b⟩ := p
    simp only [List.map_cons, List.lookup_cons]
    cases k == a
    · exact ih
    · rfl

theorem cr_store (st : IniSt) (k v : Str) : st.cr.store k (crValue v) = (st.store k v).cr := by
  obtain ⟨items, under, cur, key, value⟩ := st
  cases cur with
  | none => simp only [IniSt.cr, IniSt.store, put_map]
  | some s =>
    simp only [IniSt.cr, IniSt.store]
    rw [put_map (fun q : Items => q.map fun q => (q.1, crValue q.2)), put_map, lookup_map (fun q : Items => q.map fun q => (q.1, crValue q.2))]
    cases under.lookup s <;> rfl

theorem cr_flush (st : IniSt) (c : Char) : st.cr.flush c = (st.flush c).cr := by
  unfold IniSt.flush
  rw [show st.cr.key = st.key from rfl, show st.cr.value = crValue st.value from rfl]
  split
  · rw [cr_store]
    rfl
  · rfl

theorem item_no_nl {s k v : Str} (h : search matchItem s = some (k, v)) : '\n' ∉ v := by
  obtain ⟨a, b, _, hb⟩ := search_some h
  unfold matchItem at hb
  split at hb
  · cases hb
  · split at hb
    · cases hb
    · cases hb
      intro hm
      have := mem_takeWhile_imp hm
      cases this
  · cases hb

/-- A line that does not begin with a blank, for a reader with CR LF values. -/
theorem cr_line (st : IniSt) {l : Str} (hl : l.head? ≠ some ' ') : st.cr.line l = (st.line l).cr := by
  cases l with
  | nil => rfl
  | cons c l =>
    have hc : c ≠ ' ' := fun e => hl (by rw [e]; rfl)
    simp only [IniSt.line, if_neg hc]
    split
    · split
      · simp only [IniSt.cr]
        rw [put_map (fun q : Items => q.map fun q => (q.1, crValue q.2))]
        rfl
      · rfl
    · cases hi : search matchItem (c :: l) with
      | some kv =>
        obtain ⟨k, v⟩ := kv
        have := cr_store st k v
        rw [crValue_id (item_no_nl hi)] at this
        exact this
      | none =>
        simp only
        split <;> rfl

/-- A line that begins with a blank. -/
theorem cr_more (st : IniSt) {l : Str} (hl : l.head? = some ' ') : st.cr.line (crlf l) = (st.line l).cr := by
  cases l with
  | nil => cases hl
  | cons c l =>
    cases hl
    have h := crValue_append st.value (' ' :: l) rfl
    rw [show crlf (' ' :: l) = ' ' :: crlf l from by simp [crlf]] at h ⊢
    show ({ st.cr with value := crValue st.value ++ ' ' :: crlf l } : IniSt) = IniSt.cr { st with value := st.value ++ ' ' :: l }
    rw [← h]
    rfl

theorem cr_piece (st : IniSt) {u : Str} (hn : '\n' ∉ u) : st.cr.piece (u ++ c!"\r\n") = (st.piece (u ++ c!"\n")).cr := by
  by_cases hu : u.head? = some ' '
  · cases u with
    | nil => cases hu
    | cons c u =>
      cases hu
      unfold IniSt.piece
      rcases seen_crlf (' ' :: u) with ⟨e, hp⟩ | ⟨e1, e2⟩
      · rw [e]
        generalize (cStr (' ' :: u ++ c!"\n")).takeWhile (· ≠ '%') = l at hp
        cases l with
        | nil => rfl
        | cons d l =>
          obtain ⟨rfl, _⟩ := List.cons_prefix_cons.1 hp
          have hid : crlf (' ' :: l) = ' ' :: l := crlf_id fun hm => hn (hp.subset hm)
          show (st.cr.flush ' ').line (' ' :: l) = ((st.flush ' ').line (' ' :: l)).cr
          have := cr_more (st.flush ' ') (l := ' ' :: l) rfl
          rwa [hid, ← cr_flush] at this
      · rw [e1, e2]
        show (st.cr.flush ' ').line (' ' :: u ++ c!"\r\n") = ((st.flush ' ').line (' ' :: u ++ c!"\n")).cr
        have := cr_more (st.flush ' ') (l := ' ' :: u ++ c!"\n") rfl
        rwa [crlf_append, crlf_id hn, ← cr_flush] at this
  · rw [piece_crlf _ hu]
    unfold IniSt.piece
    split
    · rfl
    · rename_i c s e
      have hc : c ≠ ' ' := by
        rintro rfl
        rcases seen_crlf u with ⟨_, hp⟩ | ⟨_, e2⟩
        · rw [e] at hp
          obtain ⟨y, rfl⟩ := hp
          exact hu rfl
        · rw [e] at e2
          cases u with
          | nil => cases e2
          | cons d u =>
            injection e2 with e2 _
            exact hu (by rw [← e2]; rfl)
      rw [cr_flush, cr_line _ (by simpa using hc)]

/-- The last line of a file, without line end. -/
theorem cr_last (st : IniSt) {u : Str} (hn : '\n' ∉ u) : st.cr.piece u = (st.piece u).cr := by
  unfold IniSt.piece
  have hp : (cStr u).takeWhile (· ≠ '%') <+: u := (List.takeWhile_prefix _).trans (List.takeWhile_prefix _)
  generalize (cStr u).takeWhile (· ≠ '%') = l at hp
  cases l with
  | nil => rfl
  | cons c l =>
    simp only
    rw [cr_flush]
    by_cases hc : c = ' '
    · subst hc
      have hid : crlf (' ' :: l) = ' ' :: l := crlf_id fun hm => hn (hp.subset hm)
      have := cr_more (st.flush ' ') (l := ' ' :: l) rfl
      rwa [hid] at this
    · exact cr_line _ (by simpa using hc)

/-! ### Files -/

/-- A text is lines and a rest. -/
theorem text_cases (w : Str) : '\n' ∉ w ∨ ∃ u rest, '\n' ∉ u ∧ w = u ++ '\n' :: rest := by
  by_cases h : '\n' ∈ w
  · right
    obtain ⟨a, b, e, hn⟩ := List.eq_append_cons_of_mem h
    exact ⟨a, b, hn, e⟩
  · exact Or.inl h

theorem pieces_short {u : Str} (hn : '\n' ∉ u) : ∀ (b : Nat) (acc : Str), u.length < b → pieces 79 b acc u = if acc ++ u = [] then [] else [acc ++ u] := by
  induction u with
  | nil => intro b acc _; simp [pieces]
  | cons c u ih =>
    intro b acc hb
    simp only [List.mem_cons, not_or] at hn
    simp only [List.length_cons] at hb
    rw [pieces, if_neg (Ne.symm hn.1), if_neg (by omega), ih hn.2 _ _ (by omega)]
    simp

theorem ShortLines.rest {u rest : Str} (h : ShortLines (u ++ '\n' :: rest)) : ShortLines rest :=
  fun v hv => h v (hv.trans ⟨u ++ ['\n'], [], by simp⟩)

/-- Lines beginning at the begin of the text or after a newline.  (Specification notion, models no code.) -/
def AllLines (P : Str → Prop) (text : Str) : Prop := ∀ a u b, text = a ++ u ++ b → (a = [] ∨ a.getLast? = some '\n') → P u

theorem AllLines.rest {P : Str → Prop} {u rest : Str} (h : AllLines P (u ++ '\n' :: rest)) : AllLines P rest := by
  rintro a v b rfl ha
  refine h (u ++ '\n' :: a) v b (by simp) (Or.inr ?_)
  rcases ha with rfl | ha
  · simp
  · rw [List.getLast?_append, List.getLast?_cons, ha]
    rfl

theorem fold_crlf {F : IniSt → IniSt} {P : Str → Prop}
    (hline : ∀ st u, '\n' ∉ u → P u → (F st).piece (u ++ c!"\r\n") = F (st.piece (u ++ c!"\n")))
    (hlast : ∀ st u, '\n' ∉ u → (F st).piece u = F (st.piece u)) {text : Str} (h : ShortLines text) (hP : AllLines P text) (st : IniSt) :
    (filePieces (crlf text)).foldl IniSt.piece (F st) = F ((filePieces text).foldl IniSt.piece st) := by
  unfold filePieces
  induction hn : text.length using Nat.strongRecOn generalizing text st with
  | ind n ih =>
    rcases text_cases text with h0 | ⟨u, rest, h0, rfl⟩
    · have hl := h text (List.infix_refl _) h0
      rw [crlf_id h0, pieces_short h0 79 [] (by omega)]
      split
      · rfl
      · exact hlast st _ (by simpa using h0)
    · have hl := h u ⟨[], '\n' :: rest, by simp⟩ h0
      have e : crlf (u ++ '\n' :: rest) = (u ++ ['\r']) ++ '\n' :: crlf rest := by
        rw [crlf_append, crlf_id h0]
        simp [crlf]
      rw [e, pieces_line (l := u ++ ['\r']) (by simpa using h0) _ _ _ (by simp; omega), pieces_line h0 _ _ _ (by omega)]
      simp only [List.foldl_cons, List.nil_append]
      rw [show u ++ ['\r'] ++ c!"\n" = u ++ c!"\r\n" from by simp, hline st u h0 (hP [] u _ (by simp; rfl) (Or.inl rfl))]
      exact ih rest.length (by rw [← hn]; simp; omega) h.rest hP.rest _ rfl

/-- What a reader knows after a file with CR LF line ends. -/
theorem load_cr {text : Str} (h : ShortLines text) (st : IniSt) : st.cr.load (crlf text) = (st.load text).cr :=
  fold_crlf (F := IniSt.cr) (P := fun _ => True) (fun st _ hu _ => cr_piece st hu) (fun st _ hu => cr_last st hu) h
    (fun _ _ _ _ _ => trivial) { st with cur := none }

theorem load_crlf {text : Str} (h : ShortLines text) (hb : text.head? ≠ some ' ') (hi : ¬ c!"\n " <:+: text) (st : IniSt) :
    st.load (crlf text) = st.load text := by
  refine fold_crlf (F := id) (P := fun u => u.head? ≠ some ' ') (fun st _ _ hu => piece_crlf st hu) (fun _ _ _ => rfl) h ?_ { st with cur := none }
  rintro a u b rfl ha hu
  cases u with
  | nil => cases hu
  | cons c u =>
    cases hu
    rcases ha with rfl | ha
    · exact hb rfl
    · obtain ⟨a, rfl⟩ := List.getLast?_eq_some_iff.1 ha
      exact hi ⟨a, u ++ b, by simp⟩

end Stfx.Run
