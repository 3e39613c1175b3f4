import Verif.Run.IniTyped
/-
What `read_from_file` (process_items_ini.cpp:120-194) finds in a file: sections with their items.
-/
set_option autoImplicit false
namespace Stfx.Run
open Stfx.Items Stfx.Parser Stfx.Gen Stfx.Lexer

/-! ### Sections of files read before -/

theorem put_lookup {α : Type} (k j : Str) (a : α) (m : List (Str × α)) :
    (put k a m).lookup j = if j = k then some a else m.lookup j := by
  split
  · rename_i h; rw [h, put_self]
  · rename_i h; exact put_other h a m

/-- A reader `a` that has read files before, next to a new one `b`, while they read the same file; `u0`: the sections `a` knew.
(Specification notion, models no code.) -/
structure Beside (u0 : List (Str × Items)) (a b : IniSt) : Prop where
  cur : a.cur = b.cur
  known : ∀ k, b.cur = some k → (b.under.lookup k).isSome = true
  under : ∀ k, a.under.lookup k = (b.under.lookup k).or (u0.lookup k)
  pending : (a.key = b.key ∧ (a.key ≠ [] → a.value = b.value)) ∨ (b.cur = none ∧ b.key = [])

theorem Beside.store {u0 : List (Str × Items)} {a b : IniSt} (h : Beside u0 a b) (k v : Str) : Beside u0 (a.store k v) (b.store k v) := by
  obtain ⟨h1, h2, h3, h4⟩ := h
  cases hb : b.cur with
  | none =>
    have ha : a.cur = none := h1.trans hb
    have ea : a.store k v = { a with items := put k v a.items } := by unfold IniSt.store; rw [ha]
    have eb : b.store k v = { b with items := put k v b.items } := by unfold IniSt.store; rw [hb]
    rw [ea, eb]
    exact ⟨h1, h2, h3, h4⟩
  | some s =>
    have ha : a.cur = some s := h1.trans hb
    obtain ⟨items, hi⟩ := Option.isSome_iff_exists.1 (h2 s hb)
    have hia : a.under.lookup s = some items := by rw [h3, hi]; rfl
    have ea : a.store k v = { a with under := put s (put k v items) a.under } := by unfold IniSt.store; rw [ha]; simp [hia]
    have eb : b.store k v = { b with under := put s (put k v items) b.under } := by unfold IniSt.store; rw [hb]; simp [hi]
    rw [ea, eb]
    refine ⟨h1, ?_, ?_, ?_⟩
    · intro k' hk'
      dsimp only at hk' ⊢
      rw [put_lookup]
      split
      · rfl
      · exact h2 k' hk'
    · intro k'
      dsimp only
      rw [put_lookup, put_lookup]
      split
      · rfl
      · exact h3 k'
    · exact h4

theorem Beside.flush {u0 : List (Str × Items)} {a b : IniSt} (h : Beside u0 a b) {c : Char} (hc : c ≠ ' ') :
    Beside u0 (a.flush c) (b.flush c) ∧ (a.flush c).key = (b.flush c).key ∧ (a.flush c).key = [] := by
  have hk : ∀ st : IniSt, (st.flush c).key = [] := by
    intro st
    unfold IniSt.flush
    by_cases hk : st.key = []
    · rw [if_neg (by simp [hk]), hk]
    · rw [if_pos ⟨hk, hc⟩]
  refine ⟨?_, by rw [hk, hk], hk a⟩
  have hf : ∀ st : IniSt, st.key ≠ [] → st.flush c = { st.store st.key st.value with key := [], value := [] } := by
    intro st h
    unfold IniSt.flush
    rw [if_pos ⟨h, hc⟩]
  have hsync : ∀ {a b : IniSt}, Beside u0 a b → a.key = [] → b.key = [] → Beside u0 a b := fun h _ _ => h
  rcases h.pending with ⟨h1, h2⟩ | ⟨h1, h2⟩
  · by_cases ha : a.key = []
    · rw [flush_id ha, flush_id (h1 ▸ ha)]
      exact h
    · rw [hf a ha, hf b (h1 ▸ ha), ← h1, ← h2 ha]
      have := h.store a.key a.value
      exact ⟨this.cur, this.known, this.under, Or.inl ⟨rfl, fun h => absurd rfl h⟩⟩
  · rw [flush_id h2]
    by_cases ha : a.key = []
    · rw [flush_id ha]; exact h
    · rw [hf a ha]
      have hcur : a.cur = none := h.cur.trans h1
      have e : a.store a.key a.value = { a with items := put a.key a.value a.items } := by unfold IniSt.store; rw [hcur]
      rw [e]
      exact ⟨h.cur, h.known, h.under, Or.inr ⟨h1, h2⟩⟩

theorem Beside.line {u0 : List (Str × Items)} {a b : IniSt} (h : Beside u0 a b) {c : Char} {s : Str}
    (hk : c ≠ ' ' → a.key = [] ∧ b.key = []) : Beside u0 (a.line (c :: s)) (b.line (c :: s)) := by
  unfold IniSt.line
  dsimp only
  split
  · cases hm : search matchSection (c :: s) with
    | none => exact h
    | some k =>
      rename_i hc
      have hk' := hk (by rw [hc]; decide)
      refine ⟨rfl, ?_, ?_, Or.inl ⟨hk'.1.trans hk'.2.symm, fun h => absurd hk'.1 h⟩⟩
      · intro k' hk'
        cases hk'
        dsimp only
        rw [put_self]
        rfl
      · intro k'
        dsimp only
        rw [put_lookup, put_lookup]
        split
        · rfl
        · exact h.under k'
  · split
    · refine ⟨h.cur, h.known, h.under, ?_⟩
      rcases h.pending with ⟨h1, h2⟩ | h1
      · exact Or.inl ⟨h1, fun hne => by dsimp only; rw [h2 hne]⟩
      · exact Or.inr h1
    · cases hm : search matchItem (c :: s) with
      | some p => exact h.store p.1 p.2
      | none =>
        dsimp only
        cases hw : search matchWord (c :: s) with
        | none => exact h
        | some k => exact ⟨h.cur, h.known, h.under, Or.inl ⟨rfl, fun _ => rfl⟩⟩

theorem Beside.piece {u0 : List (Str × Items)} {a b : IniSt} (h : Beside u0 a b) (buf : Str) : Beside u0 (a.piece buf) (b.piece buf) := by
  unfold IniSt.piece
  split
  · exact h
  · rename_i c s _
    by_cases hc : c = ' '
    · have hf : ∀ st : IniSt, st.flush c = st := by
        intro st
        unfold IniSt.flush
        rw [if_neg (by simp [hc])]
      rw [hf, hf]
      exact h.line fun hne => absurd hc hne
    · obtain ⟨h1, h2, h3⟩ := h.flush hc
      exact h1.line fun _ => ⟨h3, h2 ▸ h3⟩

/-- A reader that has read other files knows, after reading a file, the sections of that file as a new reader does, and the
other sections it knew before. -/
theorem load_sections (st : IniSt) (text : Str) (k : Str) :
    (st.load text).under.lookup k = ((IniSt.init.load text).under.lookup k).or (st.under.lookup k) := by
  have h0 : Beside st.under { st with cur := none } { IniSt.init with cur := none } := by
    refine ⟨rfl, ?_, fun k => ?_, Or.inr ⟨rfl, rfl⟩⟩
    · intro k hk; cases hk
    · rfl
  have : ∀ (ps : List Str) (a b : IniSt), Beside st.under a b → Beside st.under (ps.foldl IniSt.piece a) (ps.foldl IniSt.piece b) := by
    intro ps
    induction ps with
    | nil => intro a b h; exact h
    | cons p ps ih => intro a b h; exact ih _ _ (h.piece p)
  exact (this (filePieces text) _ _ h0).under k

/-! ### The format -/

/-- What a file is made of.  (Specification notion, models no code.) -/
inductive Entry where
  /-- `[k]` -/
  | heading (k : Str)
  /-- `n s` -/
  | item (n s : Str)
  /-- `n` on a line of its own, followed by lines that start with a blank -/
  | multi (n : Str) (ls : List Str)
  | blank
  | comment (s : Str)
deriving DecidableEq, Repr

namespace Entry

/-- See the definition before it.  (Specification notion, models no code.) -/
def lines : Entry → List Str
  | heading k => [c!"[" ++ k ++ c!"]"]
  | item n s => [n ++ c!" " ++ s]
  | multi n ls => n :: ls.map fun l => c!" " ++ l
  | blank => [[]]
  | comment s => [c!"%" ++ s]

/-- Lines that fit into the buffer and contain what they seem to.  (Specification notion, models no code.) -/
def Good : Entry → Prop
  | heading k => LineText k ∧ k.length ≤ 76
  | item n s => n ≠ [] ∧ (∀ c ∈ n, isWord c = true) ∧ LineText s ∧ n.length + 1 + s.length ≤ 78
  | multi n ls => n ≠ [] ∧ (∀ c ∈ n, isWord c = true) ∧ n.length ≤ 78 ∧
      ∀ l ∈ ls, '\n' ∉ l ∧ '\x00' ∉ l ∧ '%' ∉ l ∧ l.length ≤ 77
  | blank => True
  | comment s => '\n' ∉ s ∧ s.length ≤ 77

instance (e : Entry) : Decidable e.Good := by
  cases e <;> unfold Good <;> infer_instance

/-- See the definition before it.  (Specification notion, models no code.) -/
def isHeading : Entry → Bool
  | heading _ => true
  | _ => false

/-- See the definition before it.  (Specification notion, models no code.) -/
def isComment : Entry → Bool
  | comment _ => true
  | _ => false

/-- See the definition before it.  (Specification notion, models no code.) -/
def isMulti : Entry → Bool
  | multi _ _ => true
  | _ => false

/-- Name and value of an item.  Multi-line values start with a newline, and keep the blanks in front of their lines.
(Specification notion, models no code.) -/
def nameValue : Entry → Option (Str × Str)
  | item n s => some (n, s)
  | multi n ls => some (n, c!"\n" ++ ls.flatMap fun l => c!" " ++ l ++ c!"\n")
  | _ => none

end Entry

/-- The entries of a section: those after its last heading, up to the next heading.  (Specification notion, models no code.) -/
def sectionOf (k : Str) : List Entry → Option (List Entry)
  | [] => none
  | .heading k' :: es =>
    match sectionOf k es with
    | some b => some b
    | none => if k' = k then some (es.takeWhile fun e => !e.isHeading) else none
  | _ :: es => sectionOf k es

/-- The value of an item among entries: that of the last one with this name.  (Specification notion, models no code.) -/
def itemOf (n : Str) : List Entry → Option Str
  | [] => none
  | e :: es =>
    match itemOf n es with
    | some s => some s
    | none =>
      match e.nameValue with
      | some (m, s) => if m = n then some s else none
      | none => none

/-- A multi-line value at the end of a file gets lost.  (Specification notion, models no code.) -/
def stored (es : List Entry) : List Entry :=
  match es.reverse.dropWhile Entry.isComment with
  | e :: rest => if e.isMulti then rest.reverse else es
  | [] => es

/-- What an entry does to sections and items.  (Specification notion, models no code.) -/
def IniSt.entry (st : IniSt) : Entry → IniSt
  | .heading k => { st with under := put k [] st.under, cur := some k }
  | .item n s => st.store n s
  | .multi n ls => st.store n (c!"\n" ++ ls.flatMap fun l => c!" " ++ l ++ c!"\n")
  | .blank => st
  | .comment _ => st

/-- The reader with its pending multi-line value stored.  (Specification notion, models no code.) -/
def IniSt.settle (st : IniSt) : IniSt :=
  { (if st.key = [] then st else st.store st.key st.value) with key := [], value := [] }

theorem flush_settle {st : IniSt} {c : Char} (hc : c ≠ ' ') : (st.flush c).settle = st.settle ∧ (st.flush c).key = [] := by
  by_cases h : st.key = []
  · rw [flush_id h]
    exact ⟨rfl, h⟩
  · have e : st.flush c = { st.store st.key st.value with key := [], value := [] } := by
      unfold IniSt.flush
      rw [if_pos ⟨h, hc⟩]
    rw [e]
    refine ⟨?_, rfl⟩
    unfold IniSt.settle
    rw [if_pos rfl, if_neg h]

/-- The reader without key and value. -/
theorem settle_of_key {st : IniSt} (h : st.key = []) : st.settle = { st with key := [], value := [] } := by
  unfold IniSt.settle
  rw [if_pos h]

theorem store_settled (st : IniSt) (k v : Str) : { st with key := [], value := [] }.store k v = { st.store k v with key := [], value := [] } := by
  unfold IniSt.store
  dsimp only
  cases st.cur <;> rfl

theorem store_keeps (st : IniSt) (k v : Str) : (st.store k v).key = st.key ∧ (st.store k v).value = st.value ∧ (st.store k v).cur = st.cur := by
  unfold IniSt.store
  cases h : st.cur <;> simp

theorem not_mem_line {d : Char} {a b : Str} (h1 : d ∉ a) (h2 : d ∉ b) : d ∉ a ++ b := by
  intro h
  rcases List.mem_append.1 h with h | h
  · exact h1 h
  · exact h2 h

theorem LineText.dots {s : Str} (h : LineText s) : ∀ c ∈ s, isDot c = true := by
  intro d hd
  unfold isDot
  have h1 : d ≠ '\n' := by rintro rfl; exact h.nl hd
  have h2 : d ≠ '\r' := by rintro rfl; exact h.cr hd
  simp [h1, h2]

theorem words_not {n : Str} (h : ∀ c ∈ n, isWord c = true) {d : Char} (hd : isWord d = false) : d ∉ n :=
  fun hm => isWord_ne (h d hm) hd rfl

theorem search_word {n : Str} (hn : n ≠ []) (hw : ∀ c ∈ n, isWord c = true) :
    search matchItem (n ++ c!"\n") = none ∧ search matchWord (n ++ c!"\n") = some n := by
  constructor
  · refine search_none.2 fun a b hab => ?_
    unfold matchItem
    have hsuf : ∀ c ∈ b, isWord c = true ∨ c = '\n' := by
      intro c hc
      have : c ∈ n ++ c!"\n" := by rw [hab]; exact List.mem_append_right _ hc
      rcases List.mem_append.1 this with h | h
      · exact Or.inl (hw c h)
      · exact Or.inr (List.mem_singleton.1 h)
    split
    · rfl
    · rename_i r hr _
      have hm : ' ' ∈ b := by
        have : ' ' ∈ b.dropWhile isWord := by rw [hr]; exact List.mem_cons_self
        exact (List.dropWhile_suffix _).subset this
      rcases hsuf _ hm with h | h
      · exact absurd h (by decide)
      · exact absurd h (by decide)
    · rfl
  · refine search_here ?_
    unfold matchWord
    rw [takeWhile_append_stop hw (by decide), if_neg hn]

/-- Continuation lines. -/
theorem feed_conts {st : IniSt} {ls : List Str} (h : ∀ l ∈ ls, '\n' ∉ l ∧ '\x00' ∉ l ∧ '%' ∉ l ∧ l.length ≤ 77) :
    feed st (ls.map fun l => c!" " ++ l) = { st with value := st.value ++ ls.flatMap fun l => c!" " ++ l ++ c!"\n" } := by
  induction ls generalizing st with
  | nil => simp [feed]
  | cons l ls ih =>
    obtain ⟨h1, h2, h3, h4⟩ := h l List.mem_cons_self
    rw [List.map_cons, feed_cons]
    have hp : st.piece (c!" " ++ l ++ c!"\n") = { st with value := st.value ++ (c!" " ++ l ++ c!"\n") } := by
      rw [show c!" " ++ l ++ c!"\n" = ' ' :: (l ++ c!"\n") from rfl,
        piece_eq st (by simp [h2]) (by simp [h3])]
      unfold IniSt.flush
      rw [if_neg (by simp)]
      unfold IniSt.line
      dsimp only
      rw [if_neg (by decide), if_pos rfl]
    rw [hp, ih fun l' hl' => h l' (List.mem_cons_of_mem _ hl')]
    simp [List.append_assoc]

/-- The lines of an entry. -/
theorem feed_entry {st : IniSt} {e : Entry} (h : e.Good) : (feed st e.lines).settle = st.settle.entry e ∧
    (e.isComment = true → feed st e.lines = st) ∧
    (e.isComment = false → e.isMulti = false → (feed st e.lines).key = []) ∧
    (e.isMulti = true → ((feed st e.lines).under = st.settle.under) ∧ (feed st e.lines).key ≠ []) := by
  cases e with
  | heading k =>
    obtain ⟨h1, h2⟩ := h
    have hp : feed st (Entry.heading k).lines = { st.flush '[' with under := put k [] (st.flush '[').under, cur := some k } := by
      rw [Entry.lines, feed_cons]
      rw [show c!"[" ++ k ++ c!"]" ++ c!"\n" = '[' :: (k ++ ']' :: c!"\n") by simp]
      rw [piece_eq st (by simp [h1.nul]) (by simp [h1.comment])]
      unfold IniSt.line
      dsimp only
      rw [if_pos rfl, search_here (matchSection_heading h1.ne h1.dots)]
      rfl
    obtain ⟨h3, h4⟩ := flush_settle (st := st) (c := '[') (by decide)
    refine ⟨?_, (fun h => by cases h), fun _ _ => by rw [hp]; exact h4, (fun h => by cases h)⟩
    rw [hp, ← h3, settle_of_key h4, settle_of_key (by exact h4)]
    rfl
  | item n s =>
    obtain ⟨hn, hw, hs, _⟩ := h
    obtain ⟨c, r, rfl⟩ := List.exists_cons_of_ne_nil hn
    have hc := hw c List.mem_cons_self
    have hp : feed st (Entry.item (c :: r) s).lines = (st.flush c).store (c :: r) s := by
      have hm := matchItem_line (n := c :: r) (by simp) hw hs.ne hs.dots
      rw [Entry.lines, feed_cons]
      have e : c :: r ++ c!" " ++ s ++ c!"\n" = c :: (r ++ ' ' :: s ++ c!"\n") := by simp
      have e' : itemLine (c :: r) s ++ c!"\n" = c :: (r ++ ' ' :: s ++ c!"\n") := by simp [itemLine]
      rw [e'] at hm
      have hnot : ∀ d : Char, isWord d = false → d ≠ ' ' → d ≠ '\n' → d ∉ s → d ∉ c :: (r ++ ' ' :: s ++ c!"\n") := by
        intro d hd h1 h2 h3
        rw [← e]
        exact not_mem_line (not_mem_line (not_mem_line (words_not hw hd) (by simpa using h1)) h3) (by simpa using h2)
      rw [e, piece_eq st (hnot _ (by decide) (by decide) (by decide) hs.nul) (hnot _ (by decide) (by decide) (by decide) hs.comment)]
      unfold IniSt.line
      dsimp only
      rw [if_neg (isWord_ne hc (by decide)), if_neg (isWord_ne hc (by decide)), hm |> search_here]
      rfl
    obtain ⟨h3, h4⟩ := flush_settle (st := st) (c := c) (isWord_ne hc (by decide))
    have hk : ((st.flush c).store (c :: r) s).key = [] := by rw [(store_keeps _ _ _).1, h4]
    refine ⟨?_, (fun h => by cases h), fun _ _ => by rw [hp]; exact hk, (fun h => by cases h)⟩
    rw [hp, settle_of_key hk, ← h3, settle_of_key h4]
    exact (store_settled _ _ _).symm
  | multi n ls =>
    obtain ⟨hn, hw, _, hls⟩ := h
    obtain ⟨hs1, hs2⟩ := search_word hn hw
    obtain ⟨c, r, rfl⟩ := List.exists_cons_of_ne_nil hn
    have hc := hw c List.mem_cons_self
    have hp : feed st (Entry.multi (c :: r) ls).lines = { st.flush c with key := c :: r, value := c!"\n" ++ ls.flatMap fun l => c!" " ++ l ++ c!"\n" } := by
      rw [Entry.lines, feed_cons]
      have hnot : ∀ d : Char, isWord d = false → d ≠ '\n' → d ∉ c :: (r ++ c!"\n") := by
        intro d hd h1
        exact not_mem_line (a := c :: r) (words_not hw hd) (by simpa using h1)
      rw [List.cons_append, piece_eq st (hnot _ (by decide) (by decide)) (hnot _ (by decide) (by decide))]
      rw [List.cons_append] at hs1 hs2
      unfold IniSt.line
      dsimp only
      rw [if_neg (isWord_ne hc (by decide)), if_neg (isWord_ne hc (by decide)), hs1, hs2]
      dsimp only
      rw [feed_conts hls]
    obtain ⟨h3, h4⟩ := flush_settle (st := st) (c := c) (isWord_ne hc (by decide))
    refine ⟨?_, (fun h => by cases h), fun _ h => (by cases h), fun _ => ⟨?_, by rw [hp]; simp⟩⟩
    · rw [hp, ← h3, settle_of_key h4]
      generalize st.flush c = f
      unfold IniSt.settle IniSt.entry IniSt.store
      rw [if_neg (by simp)]
      dsimp only
      cases f.cur <;> rfl
    · rw [hp, ← h3, settle_of_key h4]
  | blank =>
    have hp : feed st Entry.blank.lines = st.flush '\n' := by
      rw [Entry.lines, feed_cons, List.nil_append, piece_empty]
      rfl
    obtain ⟨h3, h4⟩ := flush_settle (st := st) (c := '\n') (by decide)
    refine ⟨by rw [hp, h3]; rfl, (fun h => by cases h), fun _ _ => by rw [hp]; exact h4, (fun h => by cases h)⟩
  | comment s =>
    have hp : feed st (Entry.comment s).lines = st := by
      rw [Entry.lines, feed_cons]
      have : st.piece (c!"%" ++ s ++ c!"\n") = st := by
        unfold IniSt.piece
        have : (cStr (c!"%" ++ s ++ c!"\n")).takeWhile (· ≠ '%') = [] := by
          simp [cStr]
        rw [this]
      rw [this]
      rfl
    exact ⟨by rw [hp]; rfl, fun _ => hp, (fun h => by cases h), (fun h => by cases h)⟩

theorem feed_entries {es : List Entry} (h : ∀ e ∈ es, e.Good) (st : IniSt) :
    (feed st (es.flatMap Entry.lines)).settle = es.foldl IniSt.entry st.settle := by
  induction es generalizing st with
  | nil => rfl
  | cons e es ih =>
    rw [List.flatMap_cons, feed_append, ih fun e' he' => h e' (List.mem_cons_of_mem _ he'),
      (feed_entry (h e List.mem_cons_self)).1]
    rfl

theorem feed_comments {es : List Entry} (hc : ∀ e ∈ es, e.isComment = true) (h : ∀ e ∈ es, e.Good) (st : IniSt) :
    feed st (es.flatMap Entry.lines) = st := by
  induction es generalizing st with
  | nil => rfl
  | cons e es ih =>
    rw [List.flatMap_cons, feed_append, (feed_entry (h e List.mem_cons_self)).2.1 (hc e List.mem_cons_self)]
    exact ih (fun e' he' => hc e' (List.mem_cons_of_mem _ he')) (fun e' he' => h e' (List.mem_cons_of_mem _ he')) st

/-- Where the sections come from. -/
theorem feed_under {es : List Entry} (h : ∀ e ∈ es, e.Good) {st : IniSt} (hcur : st.cur = none) :
    (feed st (es.flatMap Entry.lines)).under = ((stored es).foldl IniSt.entry st.settle).under := by
  have hsplit : es = (es.reverse.dropWhile Entry.isComment).reverse ++ (es.reverse.takeWhile Entry.isComment).reverse := by
    rw [← List.reverse_append, List.takeWhile_append_dropWhile, List.reverse_reverse]
  have hcom : ∀ e ∈ (es.reverse.takeWhile Entry.isComment).reverse, e.isComment = true :=
    fun e he => takeWhile_mem (List.mem_reverse.1 he)
  unfold stored
  cases hd : es.reverse.dropWhile Entry.isComment with
  | nil =>
    rw [hd, List.reverse_nil, List.nil_append] at hsplit
    dsimp only
    rw [← feed_entries h, feed_comments (by rw [hsplit]; exact hcom) h]
    unfold IniSt.settle
    split
    · rfl
    · unfold IniSt.store
      rw [hcur]
  | cons e rest =>
    rw [hd, List.reverse_cons, List.append_assoc, List.singleton_append] at hsplit
    have he : e ∈ es := by rw [hsplit]; simp
    have hrest : ∀ e' ∈ rest.reverse, e' ∈ es := by
      intro e' he'
      rw [hsplit]
      exact List.mem_append_left _ he'
    have hnc : e.isComment = false := dropWhile_head hd
    have hfeed : feed st (es.flatMap Entry.lines) = feed (feed st (rest.reverse.flatMap Entry.lines)) e.lines := by
      conv => lhs; rw [hsplit]
      rw [List.flatMap_append, feed_append, List.flatMap_cons, feed_append, feed_comments hcom]
      intro e' he'
      exact h e' (by rw [hsplit]; exact List.mem_append_right _ (List.mem_cons_of_mem _ he'))
    dsimp only
    cases hm : e.isMulti with
    | true =>
      rw [hfeed, ((feed_entry (h e he)).2.2.2 hm).1, feed_entries fun e' he' => h e' (hrest e' he')]
      rfl
    | false =>
      rw [if_neg (by simp), ← feed_entries h]
      have hk : (feed st (es.flatMap Entry.lines)).key = [] := by
        rw [hfeed]
        exact (feed_entry (h e he)).2.2.1 hnc hm
      rw [settle_of_key hk]

/-! ### Sections from entries -/

theorem entry_cur (st : IniSt) (e : Entry) : (st.entry e).cur = match e with
    | .heading k => some k
    | _ => st.cur := by
  cases e with
  | heading k => rfl
  | item n s => exact (store_keeps _ _ _).2.2
  | multi n ls => exact (store_keeps _ _ _).2.2
  | blank => rfl
  | comment s => rfl

/-- An item in another section, or none. -/
theorem entry_other {st : IniSt} {e : Entry} {k : Str} (hk : st.cur ≠ some k) (hh : e.isHeading = false) :
    (st.entry e).under.lookup k = st.under.lookup k := by
  have hst : ∀ n s, (st.store n s).under.lookup k = st.under.lookup k := by
    intro n s
    unfold IniSt.store
    cases hc : st.cur with
    | none => rfl
    | some k' =>
      dsimp only
      rw [put_other]
      rintro rfl
      exact hk hc
  cases e with
  | heading k => cases hh
  | item n s => exact hst n s
  | multi n ls => exact hst n _
  | blank => rfl
  | comment s => rfl

/-- An entry in the section. -/
theorem entry_here {st : IniSt} {e : Entry} {k : Str} {old : Items} (hk : st.cur = some k) (hold : st.under.lookup k = some old)
    (hh : e.isHeading = false) : ∃ items, (st.entry e).under.lookup k = some items ∧
      ∀ n, items.lookup n = (itemOf n [e]).or (old.lookup n) := by
  have hst : ∀ m s, e.nameValue = some (m, s) → st.entry e = st.store m s → ∃ items, (st.entry e).under.lookup k = some items ∧
      ∀ n, items.lookup n = (itemOf n [e]).or (old.lookup n) := by
    intro m s he h2
    refine ⟨put m s old, ?_, ?_⟩
    · rw [h2]
      unfold IniSt.store
      rw [hk]
      dsimp only
      rw [put_self, hold]
      rfl
    · intro n
      unfold itemOf
      rw [he, put_lookup]
      dsimp only [itemOf]
      by_cases hn : n = m
      · subst hn; simp
      · rw [if_neg hn, if_neg (fun h => hn h.symm)]; rfl
  cases e with
  | heading k => cases hh
  | item n s => exact hst n s rfl rfl
  | multi n ls => exact hst n _ rfl rfl
  | blank => exact ⟨old, hold, fun n => rfl⟩
  | comment s => exact ⟨old, hold, fun n => rfl⟩

theorem itemOf_cons (n : Str) (e : Entry) (es : List Entry) : itemOf n (e :: es) = (itemOf n es).or (itemOf n [e]) := by
  conv => lhs; unfold itemOf
  conv => rhs; rhs; unfold itemOf
  cases itemOf n es <;> simp [itemOf]

/-- The section after entries. -/
theorem fold_section (k : Str) : ∀ (es : List Entry) (st : IniSt),
    (∀ b, sectionOf k es = some b → ∃ items, (es.foldl IniSt.entry st).under.lookup k = some items ∧ ∀ n, items.lookup n = itemOf n b) ∧
    (sectionOf k es = none → st.cur ≠ some k → (es.foldl IniSt.entry st).under.lookup k = st.under.lookup k) ∧
    (sectionOf k es = none → st.cur = some k → ∀ old, st.under.lookup k = some old →
      ∃ items, (es.foldl IniSt.entry st).under.lookup k = some items ∧
        ∀ n, items.lookup n = (itemOf n (es.takeWhile fun e => !e.isHeading)).or (old.lookup n)) := by
  intro es
  induction es with
  | nil =>
    intro st
    exact ⟨fun b h => (by cases h), fun _ _ => rfl, fun _ _ old h => ⟨old, h, fun n => rfl⟩⟩
  | cons e es ih =>
    intro st
    obtain ⟨i1, i2, i3⟩ := ih (st.entry e)
    rw [List.foldl_cons]
    by_cases hh : e.isHeading = true
    · obtain ⟨k', rfl⟩ : ∃ k', e = .heading k' := by
        cases e with
        | heading k' => exact ⟨k', rfl⟩
        | _ => cases hh
      have hcur : (st.entry (.heading k')).cur = some k' := rfl
      have hun : ∀ j, (st.entry (.heading k')).under.lookup j = if j = k' then some [] else st.under.lookup j := fun j => put_lookup _ _ _ _
      unfold sectionOf
      cases hs : sectionOf k es with
      | some b' =>
        refine ⟨?_, fun h => (by cases h), fun h => (by cases h)⟩
        intro b hb
        cases hb
        exact i1 _ hs
      | none =>
        dsimp only
        by_cases hk : k' = k
        · subst hk
          rw [if_pos rfl]
          refine ⟨?_, fun h => (by cases h), fun h => (by cases h)⟩
          intro b hb
          cases hb
          obtain ⟨items, h1, h2⟩ := i3 hs hcur [] (by rw [hun, if_pos rfl])
          exact ⟨items, h1, fun n => by rw [h2]; simp⟩
        · rw [if_neg hk]
          have hk' : (st.entry (.heading k')).cur ≠ some k := by rw [hcur]; simpa using hk
          have hsame := i2 hs hk'
          rw [hun, if_neg (fun h => hk h.symm)] at hsame
          refine ⟨fun b h => (by cases h), fun _ _ => hsame, fun _ _ old hold => ⟨old, by rw [hsame, hold], ?_⟩⟩
          intro n
          rw [List.takeWhile_cons]
          simp [Entry.isHeading, itemOf]
    · have hh' : e.isHeading = false := by simpa using hh
      have hsec : sectionOf k (e :: es) = sectionOf k es := by
        cases e with
        | heading => cases hh'
        | _ => rfl
      have hcur : (st.entry e).cur = st.cur := by
        rw [entry_cur]
        cases e with
        | heading => cases hh'
        | _ => rfl
      rw [hsec]
      refine ⟨i1, ?_, ?_⟩
      · intro h1 h2
        rw [i2 h1 (by rw [hcur]; exact h2), entry_other h2 hh']
      · intro h1 h2 old hold
        obtain ⟨mid, m1, m2⟩ := entry_here (e := e) h2 hold hh'
        obtain ⟨items, h3, h4⟩ := i3 h1 (by rw [hcur]; exact h2) mid m1
        refine ⟨items, h3, fun n => ?_⟩
        rw [h4, m2, List.takeWhile_cons, hh']
        simp only [Bool.not_false, if_true]
        rw [itemOf_cons n e (es.takeWhile _)]
        cases itemOf n (es.takeWhile fun e => !e.isHeading) <;> simp

/-- The text of entries.  (Specification notion, models no code.) -/
def entriesText (es : List Entry) : Str := fileText (es.flatMap Entry.lines)

theorem lines_short {e : Entry} (h : e.Good) : ∀ l ∈ e.lines, Short l := by
  intro l hl
  cases e with
  | heading k =>
    obtain ⟨h1, h2⟩ := h
    rw [List.mem_singleton.1 hl]
    exact ⟨by simp [h1.nl], by simp; omega⟩
  | item n s =>
    obtain ⟨_, hw, hs, h2⟩ := h
    rw [List.mem_singleton.1 hl]
    exact ⟨not_mem_line (not_mem_line (words_not hw (by decide)) (by decide)) hs.nl, by simp; omega⟩
  | multi n ls =>
    obtain ⟨_, hw, h2, h3⟩ := h
    rcases List.mem_cons.1 hl with rfl | hl
    · exact ⟨words_not hw (by decide), h2⟩
    · obtain ⟨l', hl', rfl⟩ := List.mem_map.1 hl
      obtain ⟨a, _, _, b⟩ := h3 l' hl'
      exact ⟨by simp [a], by simp; omega⟩
  | blank =>
    rw [List.mem_singleton.1 hl]
    exact ⟨by simp, by simp⟩
  | comment s =>
    obtain ⟨h1, h2⟩ := h
    rw [List.mem_singleton.1 hl]
    exact ⟨by simp [h1], by simp; omega⟩

/-- What a reader knows after reading a file of entries. -/
theorem load_entries {es : List Entry} (h : ∀ e ∈ es, e.Good) (st : IniSt) (k : Str) :
    (∀ b, sectionOf k (stored es) = some b → ∃ items, (st.load (entriesText es)).under.lookup k = some items ∧
      ∀ n, items.lookup n = itemOf n b) ∧
    (sectionOf k (stored es) = none → (st.load (entriesText es)).under.lookup k = st.under.lookup k) := by
  have hload : (st.load (entriesText es)).under = ((stored es).foldl IniSt.entry ({ st with cur := none } : IniSt).settle).under := by
    unfold IniSt.load entriesText
    rw [filePieces_lines (fun l hl => by
      obtain ⟨e, he, hl⟩ := List.mem_flatMap.1 hl
      exact lines_short (h e he) l hl)]
    exact feed_under h rfl
  have hset : (({ st with cur := none } : IniSt).settle).under = st.under ∧ (({ st with cur := none } : IniSt).settle).cur = none := by
    unfold IniSt.settle
    split
    · exact ⟨rfl, rfl⟩
    · exact ⟨rfl, rfl⟩
  obtain ⟨h1, h2, _⟩ := fold_section k (stored es) ({ st with cur := none } : IniSt).settle
  rw [hload]
  refine ⟨h1, fun h => ?_⟩
  rw [h2 h (by rw [hset.2]; simp), hset.1]

end Stfx.Run
