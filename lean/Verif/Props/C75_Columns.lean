import Verif.Props.C01_C07_Lexer
/-
Property C75: columns of tokens.
-/
set_option autoImplicit false
namespace Stfx.Lexer

/-- The text after the last newline.  (Specification notion, models no code.) -/
def lineOf (w : Str) : Str := (w.reverse.takeWhile (· != '\n')).reverse

/-- Comment brackets and characters no rule matches.  (Specification notion, models no code.) -/
def Lexeme.stray (l : Lexeme) : Bool := l.rule == 1 || l.rule == 4 || l.rule == 37

/-- Characters that are a token or a blank wherever they stand outside of comments.
(Specification notion, models no code.) -/
def plainChar (c : Char) : Bool := isIdStart c || isDig c || isBlank c || c!"{}=,;<>".contains c

/-- The column counter: how it moves over lexemes.  (Proof notion, models no code.) -/
def colAfter (c : Nat) : List Lexeme → Nat
  | [] => c
  | l :: ls => colAfter (if l.stray then c else if l.rule = 2 ∨ l.rule = 7 then 1 else c + l.text.length) ls

/-- What the scanner of a text does, in terms of rules and the text.  (Proof notion, models no code.) -/
inductive Scanned : SC → List Lexeme → Prop
  | nil {sc : SC} : Scanned sc []
  | cons {sc : SC} {l : Lexeme} {ls : List Lexeme} {bol : Bool} {w : Str} {n : Nat} (hm : IsMunch sc bol w l.rule n)
      (ht : l.text = w.take (adjLen l.rule n)) (h : Scanned (nextSC sc l.rule) ls) : Scanned sc (l :: ls)

theorem lexFrom_scanned {st : LexSt} {w : Str} {ls : List Lexeme} (h : lexFrom st w = some ls) : Scanned st.sc ls := by
  induction ls generalizing st w with
  | nil => exact .nil
  | cons a ls ih =>
    cases w with
    | nil => rw [lexFrom_nil] at h; simp at h
    | cons c w =>
      obtain ⟨r, k, hm, hp, hl, he⟩ := lexStep_spec st (c :: w) (by simp)
      rw [lexFrom_step (by simp) he] at h
      cases hls : lexFrom (st.next r ((c :: w).take (adjLen r k))) ((c :: w).drop (adjLen r k)) with
      | none => rw [hls] at h; simp at h
      | some ls' =>
        rw [hls] at h
        simp only [Option.map_some, Option.some.injEq, List.cons.injEq] at h
        obtain ⟨rfl, rfl⟩ := h
        exact .cons hm rfl (ih hls)

theorem nextLoc_col {l : Loc} {r k : Nat} (h : 1 ≤ l.last.col) :
    (nextLoc l r k).last.col =
      (if (r == 1 || r == 4 || r == 37) = true then l.last.col else if r = 2 ∨ r = 7 then 1 else l.last.col + k) := by
  unfold nextLoc
  by_cases h1 : r = 1 ∨ r = 4 ∨ r = 37
  · rw [if_pos h1, if_pos (by rcases h1 with rfl | rfl | rfl <;> rfl)]
  · have : ¬ (r == 1 || r == 4 || r == 37) = true := by simpa [not_or, and_assoc] using h1
    rw [if_neg h1, if_neg this]
    split
    · rfl
    · simp only [Pos.columns]; omega

theorem lexFrom_cols {st : LexSt} {w : Str} {pre post : List Lexeme} {l : Lexeme} (hc : 1 ≤ st.loc.last.col)
    (h : lexFrom st w = some (pre ++ l :: post)) (ht : l.token? ≠ none) :
    l.loc.first.col = colAfter st.loc.last.col pre ∧ l.loc.last = ⟨l.loc.first.line, l.loc.first.col + l.text.length⟩ := by
  induction pre generalizing st w with
  | nil =>
    cases w with
    | nil => rw [lexFrom_nil] at h; simp at h
    | cons c w =>
      obtain ⟨r, k, hm, hp, hl, he⟩ := lexStep_spec st (c :: w) (by simp)
      rw [lexFrom_step (by simp) he] at h
      cases hls : lexFrom (st.next r ((c :: w).take (adjLen r k))) ((c :: w).drop (adjLen r k)) with
      | none => rw [hls] at h; simp at h
      | some ls' =>
        rw [hls] at h
        simp only [Option.map_some, Option.some.injEq, List.nil_append, List.cons.injEq] at h
        obtain ⟨rfl, _⟩ := h
        have hr := token_rule ht
        simp only at hr
        simp only [LexSt.next, nextLoc, colAfter]
        rw [if_neg (by omega), if_neg (by omega)]
        refine ⟨rfl, ?_⟩
        simp only [Pos.columns, Pos.mk.injEq, true_and]
        omega
  | cons a pre ih =>
    cases w with
    | nil => rw [lexFrom_nil] at h; simp at h
    | cons c w =>
      obtain ⟨r, k, hm, hp, hl, he⟩ := lexStep_spec st (c :: w) (by simp)
      rw [lexFrom_step (by simp) he] at h
      cases hls : lexFrom (st.next r ((c :: w).take (adjLen r k))) ((c :: w).drop (adjLen r k)) with
      | none => rw [hls] at h; simp at h
      | some ls' =>
        rw [hls] at h
        simp only [Option.map_some, Option.some.injEq, List.cons_append, List.cons.injEq] at h
        obtain ⟨rfl, rfl⟩ := h
        have e : (st.next r ((c :: w).take (adjLen r k))).loc.last.col = _ := nextLoc_col hc
        obtain ⟨h1, h2⟩ := ih (by
          rw [e]
          split
          · exact hc
          · split
            · exact Nat.le_refl 1
            · exact Nat.le_trans hc (Nat.le_add_right _ _)) hls
        refine ⟨?_, h2⟩
        rw [h1, e]
        rfl

/-- Newlines are matched by their own rules. -/
theorem Scanned.newline {sc : SC} {ls : List Lexeme} (h : Scanned sc ls) :
    ∀ l ∈ ls, (if l.rule = 2 ∨ l.rule = 7 then l.text.getLast? = some '\n' else '\n' ∉ l.text) := by
  induction h with
  | nil => simp
  | @cons sc l ls bol w n hm ht h ih =>
    intro x hx
    rcases List.mem_cons.1 hx with rfl | hx
    · have h1 := munch_nls hm
      rw [← ht] at h1
      split
      · rename_i h27
        obtain ⟨hn, hle, hl⟩ := cand_iff.1 hm.cand
        have e : adjLen x.rule n = n := by unfold adjLen; rw [if_neg (by omega)]
        rw [e] at ht
        rw [← ht] at hl
        cases sc <;> rcases h27 with h27 | h27 <;> simp only [ruleLang, h27] at hl
        · simp at hl
        · simp at hl
          rcases hl with hl | hl <;> rw [hl] <;> rfl
        · simp at hl
          rw [hl]; rfl
        · simp at hl
      · rename_i h27
        rw [if_neg h27] at h1
        exact List.count_eq_zero.1 h1
    · exact ih x hx

theorem lineOf_append_newline {u v : Str} (h : '\n' ∉ v) : lineOf (u ++ '\n' :: v) = v := by
  unfold lineOf
  rw [List.reverse_append, List.reverse_cons, List.append_assoc, List.takeWhile_append_of_pos]
  · simp
  · intro c hc
    have : c ≠ '\n' := fun e => h (by rw [← e]; exact List.mem_reverse.1 hc)
    simpa using this

theorem lineOf_append {u v : Str} : lineOf (u ++ v) = if '\n' ∈ v then lineOf v else lineOf u ++ v := by
  unfold lineOf
  rw [List.reverse_append]
  split
  · rename_i h
    obtain ⟨a, b, e, hb⟩ : ∃ a b, v.reverse = a ++ '\n' :: b ∧ '\n' ∉ a :=
      let ⟨a, b, e, hn⟩ := List.eq_append_cons_of_mem (List.mem_reverse.2 h)
      ⟨a, b, e, hn⟩
    have ha : ∀ c ∈ a, (c != '\n') = true := by
      intro c hc
      have : c ≠ '\n' := fun e => hb (by rw [← e]; exact hc)
      simpa using this
    rw [e, List.append_assoc, List.takeWhile_append_of_pos ha, List.takeWhile_append_of_pos ha]
    simp
  · rename_i h
    rw [List.takeWhile_append_of_pos]
    · simp
    · intro c hc
      have : c ≠ '\n' := fun e => h (by rw [← e]; exact List.mem_reverse.1 hc)
      simpa using this

theorem lineOf_ends {v : Str} (h : v.getLast? = some '\n') : lineOf v = [] := by
  obtain ⟨u, rfl⟩ := List.getLast?_eq_some_iff.1 h
  exact lineOf_append_newline (v := []) (by simp)

/-- What the column counter counts: everything on the line but stray lexemes. -/
theorem colAfter_spec {sc : SC} {ls : List Lexeme} (h : Scanned sc ls) (u : Str) (c : Nat)
    (early line : List Lexeme) (hu : u = ((early ++ line).map Lexeme.text).flatten)
    (hl : lineOf u = (line.map Lexeme.text).flatten)
    (hc : c = 1 + ((line.filter (fun l => !l.stray)).map Lexeme.text).flatten.length) :
    ∃ early' line', early ++ line ++ ls = early' ++ line' ∧
      lineOf ((early ++ line ++ ls).map Lexeme.text).flatten = (line'.map Lexeme.text).flatten ∧
      colAfter c ls = 1 + ((line'.filter (fun l => !l.stray)).map Lexeme.text).flatten.length := by
  induction h generalizing u c early line with
  | nil => exact ⟨early, line, by simp, by rw [List.append_nil, ← hu, hl], hc⟩
  | @cons sc l ls bol w n hm ht h ih =>
    have hn := (Scanned.cons hm ht h).newline l (by simp)
    unfold colAfter
    by_cases h27 : l.rule = 2 ∨ l.rule = 7
    · rw [if_pos h27] at hn
      have hst : l.stray = false := by rcases h27 with e | e <;> simp [Lexeme.stray, e]
      rw [hst, if_neg (by simp), if_pos h27]
      have hmem : '\n' ∈ l.text := List.mem_of_getLast? hn
      obtain ⟨e', l', h1, h2, h3⟩ := ih (u ++ l.text) 1 (early ++ line ++ [l]) [] (by rw [hu]; simp)
        (by rw [lineOf_append, if_pos hmem, lineOf_ends hn]; rfl) (by rfl)
      refine ⟨e', l', ?_, ?_, h3⟩
      · rw [← h1]; simp
      · rw [← h2]; simp
    · rw [if_neg h27] at hn
      rw [if_neg h27]
      obtain ⟨e', l', h1, h2, h3⟩ := ih (u ++ l.text) (if l.stray then c else c + l.text.length) early (line ++ [l])
        (by rw [hu]; simp) (by rw [lineOf_append, if_neg hn, hl]; simp) (by
          rw [hc, List.filter_append, List.filter_cons]
          cases l.stray <;> simp [Nat.add_assoc])
      refine ⟨e', l', ?_, ?_, h3⟩
      · rw [← h1]; simp
      · rw [← h2]; simp

/-- A stray lexeme contains a character that is not plain. -/
theorem Scanned.stray {sc : SC} {ls : List Lexeme} (h : Scanned sc ls) :
    ∀ l ∈ ls, l.stray = true → ∃ c ∈ l.text, plainChar c = false := by
  induction h with
  | nil => simp
  | @cons sc l ls bol w n hm ht h ih =>
    intro x hx hs
    rcases List.mem_cons.1 hx with rfl | hx
    · obtain ⟨hn, hle, hl⟩ := cand_iff.1 hm.cand
      simp only [Lexeme.stray, Bool.or_eq_true, beq_iff_eq, or_assoc] at hs
      have e : adjLen x.rule n = n := by unfold adjLen; rw [if_neg (by omega)]
      rw [e] at ht
      rw [← ht] at hl
      rcases hs with h1 | h1 | h1
      · cases sc <;> simp only [ruleLang, h1] at hl <;> simp at hl
        rw [hl]; exact ⟨'/', by simp, by decide⟩
      · cases sc <;> simp only [ruleLang, h1] at hl <;> simp at hl
        rw [hl]; exact ⟨'/', by simp, by decide⟩
      · cases sc with
        | cComment =>
          exfalso
          simp only [ruleLang, h1] at hl
          simp at hl
          obtain ⟨c, hl⟩ := hl
          by_cases hc : c = '\n'
          · have := hm.earliest 2 (cand_iff.2 ⟨hn, hle, by rw [← ht, hl, hc]; simp [ruleLang]⟩)
            omega
          · have := hm.earliest 3 (cand_iff.2 ⟨hn, hle, by rw [← ht, hl]; simp [ruleLang, hc]⟩)
            omega
        | initial =>
          simp only [ruleLang, h1] at hl
          simp at hl
          obtain ⟨c, hl⟩ := hl
          refine ⟨c, by rw [hl]; simp, ?_⟩
          cases hp : plainChar c with
          | false => rfl
          | true =>
            exfalso
            have hcand : ∀ r, ruleLang bol .initial r [c] → 37 ≤ r := fun r hr => by
              have := hm.earliest r (cand_iff.2 ⟨hn, hle, by rw [← ht, hl]; exact hr⟩)
              omega
            simp only [plainChar, Bool.or_eq_true, or_assoc] at hp
            rcases hp with hp | hp | hp | hp
            · have := hcand 30 (by simp only [ruleLang]; simp; exact ⟨c, [], rfl, hp, by simp⟩); omega
            · have := hcand 32 (by simp [ruleLang, IsDigits, hp]); omega
            · have := hcand 8 (by simp [ruleLang, hp]); omega
            · have hp : c = '{' ∨ c = '}' ∨ c = '=' ∨ c = ',' ∨ c = ';' ∨ c = '<' ∨ c = '>' := by
                simpa using hp
              rcases hp with rfl | rfl | rfl | rfl | rfl | rfl | rfl
              · have := hcand 9 (by simp [ruleLang]); omega
              · have := hcand 10 (by simp [ruleLang]); omega
              · have := hcand 11 (by simp [ruleLang]); omega
              · have := hcand 12 (by simp [ruleLang]); omega
              · have := hcand 13 (by simp [ruleLang]); omega
              · have := hcand 14 (by simp [ruleLang]); omega
              · have := hcand 15 (by simp [ruleLang]); omega
    · exact ih x hx hs

theorem Scanned.append {sc : SC} {pre post : List Lexeme} (h : Scanned sc (pre ++ post)) : Scanned sc pre := by
  induction pre generalizing sc with
  | nil => exact .nil
  | cons a pre ih =>
    cases h with
    | cons hm ht h => exact .cons hm ht (ih h)

/-! ### C75 -/

/-- C75, what the reported columns are: the column of a token is one plus the number of characters in front of it on
its line, except for comment brackets and characters no rule matches; it ends as many columns further as it has
characters. -/
theorem C75_exact {w : Str} {pre post : List Lexeme} {l : Lexeme}
    (h : lexFile w = some (pre ++ l :: post)) (ht : l.token? ≠ none) :
    ∃ early line, pre = early ++ line ∧ lineOf (pre.map Lexeme.text).flatten = (line.map Lexeme.text).flatten ∧
      l.loc.first.col = 1 + ((line.filter (fun l => !l.stray)).map Lexeme.text).flatten.length ∧
      l.loc.last = ⟨l.loc.first.line, l.loc.first.col + l.text.length⟩ := by
  obtain ⟨h1, h2⟩ := lexFrom_cols (Nat.le_refl 1) h ht
  obtain ⟨early, line, h3, h4, h5⟩ := colAfter_spec (lexFrom_scanned h).append [] 1 [] [] rfl rfl rfl
  exact ⟨early, line, h3, h4, h1.trans h5, h2⟩

theorem filter_length_le (ls : List Lexeme) (p : Lexeme → Bool) :
    ((ls.filter p).map Lexeme.text).flatten.length ≤ (ls.map Lexeme.text).flatten.length := by
  induction ls with
  | nil => simp
  | cons a ls ih =>
    rw [List.filter_cons]
    split
    · simp only [List.map_cons, List.flatten_cons, List.length_append]; omega
    · simp only [List.map_cons, List.flatten_cons, List.length_append]; omega

/-- C75: the reported column is never larger than the column of the token. -/
theorem C75_at_most {w : Str} {pre post : List Lexeme} {l : Lexeme}
    (h : lexFile w = some (pre ++ l :: post)) (ht : l.token? ≠ none) :
    1 ≤ l.loc.first.col ∧ l.loc.first.col ≤ 1 + (lineOf (pre.map Lexeme.text).flatten).length := by
  obtain ⟨early, line, _, h4, h5, _⟩ := C75_exact h ht
  rw [h4, h5]
  have := filter_length_le line (fun l => !l.stray)
  omega

/-- C75, part that holds: the reported column is the column of the token if all characters in front of it on its line
are letters, digits, underscores, blanks, tabs, or one of `{}=,;<>` (missing: lines with comments, constants, qualified
names, and other characters; there it is false in general). -/
theorem C75_column_partial {w : Str} {pre post : List Lexeme} {l : Lexeme}
    (h : lexFile w = some (pre ++ l :: post)) (ht : l.token? ≠ none)
    (hp : ∀ c ∈ lineOf (pre.map Lexeme.text).flatten, plainChar c = true) :
    l.loc.first.col = 1 + (lineOf (pre.map Lexeme.text).flatten).length := by
  obtain ⟨early, line, h3, h4, h5, _⟩ := C75_exact h ht
  rw [h5, h4]
  rw [List.filter_eq_self.2]
  intro a ha
  cases hs : a.stray with
  | false => rfl
  | true =>
    exfalso
    obtain ⟨c, hc, hf⟩ := (lexFrom_scanned h).stray a (by rw [h3]; simp [ha]) hs
    have := hp c (by rw [h4]; exact List.mem_flatten.2 ⟨a.text, List.mem_map.2 ⟨a, ha, rfl⟩, hc⟩)
    rw [this] at hf
    cases hf

theorem filter_length_eq {ls : List Lexeme} {p : Lexeme → Bool} (hne : ∀ a ∈ ls, p a = false → a.text ≠ []) :
    ((ls.filter p).map Lexeme.text).flatten.length = (ls.map Lexeme.text).flatten.length ↔ ∀ a ∈ ls, p a = true := by
  induction ls with
  | nil => simp
  | cons a ls ih =>
    have ih := ih fun b hb => hne b (List.mem_cons_of_mem _ hb)
    have hle := filter_length_le ls p
    rw [List.filter_cons]
    cases ha : p a with
    | true =>
      simp only [if_true, List.map_cons, List.flatten_cons, List.length_append, List.mem_cons, forall_eq_or_imp, ha, true_and]
      rw [← ih]
      omega
    | false =>
      have := List.length_pos_iff.2 (hne a (List.mem_cons_self ..) ha)
      simp only [Bool.false_eq_true, if_false, List.map_cons, List.flatten_cons, List.length_append, List.mem_cons, forall_eq_or_imp, ha, false_and,
        iff_false]
      omega

/-- C75, exactly when it is right: the lexemes on the line in front of a token (the last ones of those in front of it, which make up
the text of the line) are neither comment brackets nor characters that no rule matches. -/
theorem C75_iff {w : Str} {pre post : List Lexeme} {l : Lexeme}
    (h : lexFile w = some (pre ++ l :: post)) (ht : l.token? ≠ none) :
    ∃ early line, pre = early ++ line ∧ lineOf (pre.map Lexeme.text).flatten = (line.map Lexeme.text).flatten ∧
      (l.loc.first.col = 1 + (lineOf (pre.map Lexeme.text).flatten).length ↔ ∀ a ∈ line, a.rule ≠ 1 ∧ a.rule ≠ 4 ∧ a.rule ≠ 37) := by
  obtain ⟨early, line, h3, h4, h5, _⟩ := C75_exact h ht
  refine ⟨early, line, h3, h4, ?_⟩
  rw [h5, h4, Nat.add_left_cancel_iff, filter_length_eq]
  · refine forall_congr' fun a => imp_congr_right fun _ => ?_
    simp only [Lexeme.stray, Bool.not_eq_true', Bool.or_eq_false_iff, beq_eq_false_iff_ne, and_assoc]
  · intro a ha hs
    obtain ⟨c, hc, _⟩ := (lexFrom_scanned h).stray a (by rw [h3]; simp [ha]) (by simpa using hs)
    exact List.ne_nil_of_mem hc

/-- The lexemes of a line with a comment. -/
theorem lex_commented : lexFile c!"/* a */ int" = some
    ([⟨1, c!"/*", ⟨⟨1, 1⟩, ⟨1, 1⟩⟩⟩, ⟨3, c!" ", ⟨⟨1, 1⟩, ⟨1, 2⟩⟩⟩, ⟨3, c!"a", ⟨⟨1, 2⟩, ⟨1, 3⟩⟩⟩, ⟨3, c!" ", ⟨⟨1, 3⟩, ⟨1, 4⟩⟩⟩,
     ⟨4, c!"*/", ⟨⟨1, 3⟩, ⟨1, 4⟩⟩⟩, ⟨8, c!" ", ⟨⟨1, 4⟩, ⟨1, 5⟩⟩⟩] ++ ⟨19, c!"int", ⟨⟨1, 5⟩, ⟨1, 8⟩⟩⟩ :: []) := by decide +kernel

/-- C75 is false as stated: `int` stands in column 9 of this line, the location says 5. -/
theorem C75_refuted :
    ¬ ∀ (w : Str) (pre post : List Lexeme) (l : Lexeme), lexFile w = some (pre ++ l :: post) → l.token? ≠ none →
      l.loc.first.col = 1 + (lineOf (pre.map Lexeme.text).flatten).length := by
  intro h
  have := h _ _ _ _ lex_commented (by decide)
  revert this
  decide

/-- `C75_iff` on a line after a comment: the column is right again. -/
example (pre post : List Lexeme) (l : Lexeme) (h : lexFile c!"/* a */\nint" = some (pre ++ l :: post)) (ht : l.token? ≠ none) :=
  C75_iff h ht
example : (lexFile c!"/* a */\nint").map (fun ls => ls.map (fun l => (l.rule, l.text, l.loc.first.col))) =
    some [(1, c!"/*", 1), (3, c!" ", 1), (3, c!"a", 2), (3, c!" ", 3), (4, c!"*/", 3), (7, c!"\n", 4), (19, c!"int", 1)] := by decide +kernel

/-- A line for which the columns are right. -/
example : (lexFile c!"struct S {\n  int i, j;").map (fun ls =>
    (ls.filter (fun l => l.token?.isSome)).map (fun l => (l.text, l.loc.first.line, l.loc.first.col))) =
    some [(c!"struct", 1, 1), (c!"S", 1, 8), (c!"{", 1, 10), (c!"int", 2, 3), (c!"i", 2, 7), (c!",", 2, 8), (c!"j", 2, 10),
      (c!";", 2, 11)] := by decide +kernel
example : lineOf c!"struct S {\n  int i, " = c!"  int i, " ∧ (c!"  int i, ").all plainChar = true := by decide +kernel

end Stfx.Lexer
