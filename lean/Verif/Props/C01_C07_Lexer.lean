import Verif.Lexer.Lines
/-
Property theorems C01-C07: the scanner.
-/
namespace Stfx.Lexer

/-! ### C01 -/

/-- Specification of a whole scan, independent of the scanner: cut off the flex match (longest, then
earliest) of the rule file, give back the end-of-line context of the `$` rules, and go on in the
start condition the rule switches to.  (Specification notion, models no code.) -/
inductive ScanSpec : SC → Bool → Str → List (Nat × Str) → Prop where
  | done {sc bol} : ScanSpec sc bol [] []
  | step {sc bol w r n ls} (hm : IsMunch sc bol w r n)
      (h : ScanSpec (if r = 1 then .cComment else if r = 4 then .initial else sc)
        ((w.take (if r ∈ [5, 6] then n - 1 else n)).getLast? == some '\n')
        (w.drop (if r ∈ [5, 6] then n - 1 else n)) ls) :
      ScanSpec sc bol w ((r, w.take (if r ∈ [5, 6] then n - 1 else n)) :: ls)

/-- C01, single step: the table-driven matcher delivers exactly the flex match of the rules. -/
theorem C01_longest_match (sc : SC) (bol : Bool) (w : Str) (hw : w ≠ []) (r n : Nat) :
    matchOne sc bol w = some (r, n) ↔ IsMunch sc bol w r n :=
  matchOne_iff sc bol w hw r n

theorem scanSpec_of_lex {st : LexSt} {w : Str} {ls : List Lexeme} (h : lexFrom st w = some ls) :
    ScanSpec st.sc st.bol w (ls.map fun l => (l.rule, l.text)) := by
  induction hn : w.length using Nat.strongRecOn generalizing st w ls with
  | ind n ih =>
    cases w with
    | nil =>
      rw [lexFrom_nil] at h
      cases h; exact .done
    | cons c w =>
      obtain ⟨r, k, hm, hp, hl, he⟩ := lexStep_spec st (c :: w) (by simp)
      rw [lexFrom_step (by simp) he] at h
      cases hls : lexFrom (st.next r ((c :: w).take (adjLen r k))) ((c :: w).drop (adjLen r k)) with
      | none => rw [hls] at h; simp at h
      | some ls' =>
        rw [hls] at h
        simp only [Option.map_some, Option.some.injEq] at h
        subst h
        have := ih ((c :: w).drop (adjLen r k)).length
          (by rw [← hn]; simp; omega) hls rfl
        have e : adjLen r k = if r ∈ [5, 6] then k - 1 else k := by simp [adjLen]
        rw [List.map_cons]
        simp only [e] at this ⊢
        refine ScanSpec.step hm ?_
        have e2 : (st.next r ((c :: w).take (if r ∈ [5, 6] then k - 1 else k))).bol =
            (((c :: w).take (if r ∈ [5, 6] then k - 1 else k)).getLast? == some '\n') := by
          rw [← e]
          simp only [LexSt.next]
          cases hg : ((c :: w).take (adjLen r k)).getLast? with
          | none => simp at hg; omega
          | some d => simp
        rw [← e2]
        exact this

/-- C01, whole scan: the lexemes of every text are those of the specification. -/
theorem C01_scan (w : Str) : ∃ ls, lexFile w = some ls ∧
    ScanSpec .initial true w (ls.map fun l => (l.rule, l.text)) := by
  obtain ⟨ls, h⟩ := lexFrom_total LexSt.init w
  exact ⟨ls, h, scanSpec_of_lex h⟩

/-- The specification determines the lexemes. -/
theorem C01_unique {sc : SC} {bol : Bool} {w : Str} {ls ls' : List (Nat × Str)}
    (h : ScanSpec sc bol w ls) (h' : ScanSpec sc bol w ls') : ls = ls' := by
  induction h generalizing ls' with
  | done =>
    cases h' with
    | done => rfl
    | step hm _ => have h1 := hm.cand.1; have h2 := hm.cand.2.1; simp at h2; omega
  | step hm _ ih =>
    cases h' with
    | done => have h1 := hm.cand.1; have h2 := hm.cand.2.1; simp at h2; omega
    | step hm' h' =>
      obtain ⟨rfl, rfl⟩ := IsMunch.unique hm hm'
      rw [ih h']

example : matchOne .initial false c!"structure;" = some (30, 9) := by decide +kernel
example : matchOne .initial false c!"struct x" = some (18, 6) := by decide +kernel

/-! ### C02 -/

/-- C02: every text is scanned to its end without undefined behaviour, every lexeme is non-empty
and belongs to an existing rule, and the lexemes laid end to end are the text. -/
theorem C02_total_lossless (w : Str) : ∃ ls, lexFile w = some ls ∧
    (ls.map Lexeme.text).flatten = w ∧ ∀ l ∈ ls, l.text ≠ [] := by
  obtain ⟨ls, h⟩ := lexFrom_total LexSt.init w
  exact ⟨ls, h, lexFrom_flatten h⟩

theorem C02_rules_exist {w : Str} {ls : List Lexeme} (h : lexFile w = some ls) :
    ∀ l ∈ ls, 1 ≤ l.rule ∧ l.rule ≤ 37 := by
  have := scanSpec_of_lex h
  clear h
  revert this
  generalize LexSt.init.sc = sc
  generalize LexSt.init.bol = bol
  generalize hls : (ls.map fun l => (l.rule, l.text)) = xs
  intro h l hl
  have : (l.rule, l.text) ∈ xs := by rw [← hls]; exact List.mem_map.2 ⟨l, hl, rfl⟩
  clear hls hl
  induction h with
  | done => simp at this
  | step hm _ ih =>
    rcases List.mem_cons.1 this with e | e
    · simp only [Prod.mk.injEq] at e
      rw [e.1]
      exact ruleLang_rule (cand_iff.1 hm.cand).2.2
    · exact ih e

example : (lexFile (c!"/* open " ++ [Char.ofNat 0, Char.ofNat 200])).map List.length = some 9 := by
  decide +kernel

/-! ### C03 -/

/-- C03: a word that is not extended by what follows is one token; a keyword token exactly if it is
spelled like that keyword, otherwise a name with this spelling. -/
theorem C03_word (bol : Bool) {w rest : Str} (hw : IsIdent w) (hr : WordEnd rest) :
    toks .initial bol (w ++ rest) =
      (toks .initial false rest).map
        ((match keywords.find? (fun p => p.2 == w) with
          | some (k, _) => ⟨k, []⟩
          | none => ⟨.name, w⟩) :: ·) := by
  cases hf : keywords.find? (fun p => p.2 == w) with
  | none =>
    have : ∀ k, (k, w) ∉ keywords := by
      intro k hk
      have := List.find?_eq_none.1 hf _ hk
      simp at this
    exact toks_spells (.name hw this) bol (w := rest) hr
  | some p =>
    obtain ⟨k, v⟩ := p
    have h1 := List.mem_of_find?_eq_some hf
    have h2 := List.find?_some hf
    simp at h2
    subst h2
    refine toks_spells (.keyword h1) bol (w := rest) ?_
    simp only [keywords, List.mem_cons, Prod.mk.injEq, List.not_mem_nil, or_false] at h1
    rcases h1 with ⟨rfl, rfl⟩ | ⟨rfl, rfl⟩ | ⟨rfl, rfl⟩ | ⟨rfl, rfl⟩ | ⟨rfl, rfl⟩ | ⟨rfl, rfl⟩ |
      ⟨rfl, rfl⟩ | ⟨rfl, rfl⟩ | ⟨rfl, rfl⟩ | ⟨rfl, rfl⟩ | ⟨rfl, rfl⟩ | ⟨rfl, rfl⟩ <;>
    exact hr

example : IsIdent c!"int32_Z" ∧ WordEnd c!" x;" :=
  ⟨⟨_, _, rfl, by decide, by decide⟩, by intro c hc; simp at hc; subst hc; decide, by simp⟩

/-- In particular a word that merely starts with a keyword is a name. -/
theorem C03_extended_keyword (bol : Bool) {k : TokKind} {kw u rest : Str} (hk : (k, kw) ∈ keywords)
    (hi : ∀ c ∈ u, isIdChar c = true) (hr : WordEnd rest)
    (hn : ∀ k', (k', kw ++ u) ∉ keywords) :
    toks .initial bol (kw ++ u ++ rest) =
      (toks .initial false rest).map (⟨.name, kw ++ u⟩ :: ·) := by
  obtain ⟨⟨c, v, rfl, h1, h2⟩, _⟩ := keywords_wordRule hk
  refine toks_spells (.name ⟨c, v ++ u, rfl, h1, ?_⟩ hn) bol (w := rest) hr
  intro d hd
  rcases List.mem_append.1 hd with hd | hd
  · exact h2 d hd
  · exact hi d hd

/-! ### C04 -/

/-- C04: a `//` comment that ends in a newline contributes nothing; scanning resumes after it, at
the start of a line, as after a bare newline. -/
theorem C04_line_comment (bol : Bool) {u : Str} (hu : ∀ c ∈ u, c ≠ '\n') (rest : Str) :
    toks .initial bol (c!"//" ++ u ++ c!"\n" ++ rest) = toks .initial bol (c!"\n" ++ rest) := by
  have h1 := toks_lineComment bol hu rest
  have h2 := toks_newline bol rest
  simp only [List.append_assoc, List.cons_append, List.nil_append] at h1 h2 ⊢
  rw [h1, h2]

/-- C04: a preprocessor line contributes nothing. -/
theorem C04_preproc {s u : Str} (hs : ∀ c ∈ s, isBlank c = true) (hu : ∀ c ∈ u, c ≠ '\n')
    (rest : Str) :
    toks .initial true (s ++ c!"#" ++ u ++ c!"\n" ++ rest) = toks .initial true (c!"\n" ++ rest) := by
  have h1 := toks_preproc hs hu rest
  have h2 := toks_newline true rest
  simp only [List.append_assoc, List.cons_append, List.nil_append] at h1 h2 ⊢
  rw [h1, h2]

/-- C04: a closed block comment contributes nothing, whatever it contains (up to its first `*/`). -/
theorem C04_block_comment (bol : Bool) {u : Str} (hu : ¬ c!"*/" <:+: u) (rest : Str) :
    toks .initial bol (c!"/*" ++ u ++ c!"*/" ++ rest) = toks .initial false rest := by
  have := toks_blockComment bol hu rest
  simpa only [List.append_assoc] using this

/-- C04: away from line starts a block comment acts exactly like a blank. -/
theorem C04_block_comment_blank {u : Str} (hu : ¬ c!"*/" <:+: u) (rest : Str) :
    toks .initial false (c!"/*" ++ u ++ c!"*/" ++ rest) = toks .initial false (' ' :: rest) := by
  rw [C04_block_comment false hu rest, toks_blank (by decide) (by simp)]

example : ¬ c!"*/" <:+: c!" struct A { int x; }; // ** /* " := by decide
example : ∀ c ∈ c!" it's /* not", c ≠ '\n' := by decide
/-- The end-of-line context is essential: at the very end of a file without newline, `//` is not a
comment and its words are tokens. -/
example : toksFile c!"//struct" = some [⟨.struct, []⟩] := by decide +kernel

/-! ### C05 -/

/-- C05: a token sequence written with any layout is scanned as exactly that token sequence. -/
theorem C05_layout {w : Str} {ts : List Token} (h : Laid true w ts) : toksFile w = some ts :=
  h.toks

/-- C05: two texts that differ only in layout have the same tokens. -/
theorem C05_layout_independent {w w' : Str} {ts : List Token} (h : Laid true w ts)
    (h' : Laid true w' ts) : toksFile w = toksFile w' := by
  rw [C05_layout h, C05_layout h']

theorem Laid.end_ {bol : Bool} {k : Token} {t : Str} (hk : Spells k t) (hf : Follow k.kind []) :
    Laid bol t [k] := by
  simpa using Laid.tok (bol := bol) hk hf .nil

/-- Two layouts of `struct A {};`. -/
example : Laid true c!"struct A{};" [⟨.struct, []⟩, ⟨.name, c!"A"⟩, ⟨.blockStart, []⟩, ⟨.blockEnd, []⟩, ⟨.semicolon, []⟩] := by
  refine .tok (t := c!"struct") (.keyword (by decide)) ⟨by simp; decide, by simp⟩ (.blank (by decide) ?_)
  refine .tok (t := c!"A") (.name ⟨'A', [], rfl, by decide, by simp⟩ (by simp [keywords])) ⟨by simp; decide, by simp⟩ ?_
  exact .tok (t := c!"{") (.punct (by decide)) trivial (.tok (t := c!"}") (.punct (by decide)) trivial
    (.end_ (.punct (by decide)) trivial))

example : Laid true c!"#pragma once\r\nstruct/* ** */A // name\n{\t} ;\n"
    [⟨.struct, []⟩, ⟨.name, c!"A"⟩, ⟨.blockStart, []⟩, ⟨.blockEnd, []⟩, ⟨.semicolon, []⟩] := by
  refine .preproc (s := []) (u := c!"pragma once\r") (by simp) (by decide) ?_
  refine .tok (t := c!"struct") (.keyword (by decide)) ⟨by simp; decide, by simp⟩ ?_
  refine .blockComment (u := c!" ** ") (by decide) ?_
  refine .tok (t := c!"A") (.name ⟨'A', [], rfl, by decide, by simp⟩ (by simp [keywords])) ⟨by simp; decide, by simp⟩ ?_
  refine .blank (by decide) (.lineComment (u := c!" name") (by decide) ?_)
  exact .tok (t := c!"{") (.punct (by decide)) trivial (.blank (by decide)
    (.tok (t := c!"}") (.punct (by decide)) trivial (.blank (by decide)
      (.tok (t := c!";") (.punct (by decide)) trivial (.newline .nil)))))

/-! ### C06 -/

/-- C06 is false: two string constants on one line are read as a single token. -/
theorem C06_refuted : toksFile c!"\"a\"; \"b\"" = some [⟨.stringConstant, c!"\"a\"; \"b\""⟩] := by
  decide +kernel

/-- C06, part that holds: a string constant is its own token if no further double quote follows on
the same line.  Missing: the case of a later quote on the line, where the claim is false
(`C06_greedy`). -/
theorem C06_string_partial (bol : Bool) {u rest : Str} (hu : ∀ c ∈ u, c ≠ '\n' ∧ c ≠ '"')
    (hr : LineNoQuote rest) :
    toks .initial bol (c!"\"" ++ u ++ c!"\"" ++ rest) =
      (toks .initial false rest).map (⟨.stringConstant, c!"\"" ++ u ++ c!"\""⟩ :: ·) := by
  have := toks_spells (.string (u := u) fun c hc => (hu c hc).1) bol (w := rest) hr
  simpa using this

/-- What happens in general: the token extends to the last double quote of the line. -/
theorem C06_greedy (bol : Bool) {u v rest : Str} (hu : ∀ c ∈ u, c ≠ '\n') (hv : ∀ c ∈ v, c ≠ '\n')
    (hr : LineNoQuote rest) :
    toks .initial bol (c!"\"" ++ u ++ c!"\"" ++ v ++ c!"\"" ++ rest) =
      (toks .initial false rest).map
        (⟨.stringConstant, c!"\"" ++ u ++ c!"\"" ++ v ++ c!"\""⟩ :: ·) := by
  have := toks_spells (.string (u := u ++ '"' :: v) (by
    intro c hc
    rcases List.mem_append.1 hc with hc | hc
    · exact hu c hc
    · rcases List.mem_cons.1 hc with rfl | hc
      · decide
      · exact hv c hc)) bol (w := rest) hr
  simpa using this

example : LineNoQuote c!"; // no quote\n \"" := by
  intro c hc
  have : c ∈ c!"; // no quote" := hc
  revert c
  decide

/-! ### C07 -/

/-- C07: the line attached to every token is one plus the number of newlines in front of it. -/
theorem C07_line_numbers {w : Str} {pre post : List Lexeme} {l : Lexeme}
    (h : lexFile w = some (pre ++ l :: post)) (ht : l.token? ≠ none) :
    ∃ before after, w = before ++ l.text ++ after ∧ before = (pre.map Lexeme.text).flatten ∧
      l.loc.first.line = 1 + before.count '\n' := by
  have hf := (lexFrom_flatten h).1
  refine ⟨_, (post.map Lexeme.text).flatten, ?_, rfl, lexFrom_lines h ht⟩
  rw [← hf]; simp

/-- A token never spans a line end, so the line at which it ends is the same. -/
theorem C07_token_single_line {w : Str} {ls : List Lexeme} (h : lexFile w = some ls) :
    ∀ l ∈ ls, l.token? ≠ none → '\n' ∉ l.text := by
  intro l hl ht
  have hspec := scanSpec_of_lex h
  have hr := token_rule ht
  clear h
  revert hspec
  generalize LexSt.init.sc = sc
  generalize LexSt.init.bol = bol
  generalize hls : (ls.map fun l => (l.rule, l.text)) = xs
  intro h
  have : (l.rule, l.text) ∈ xs := by rw [← hls]; exact List.mem_map.2 ⟨l, hl, rfl⟩
  clear hls hl
  induction h with
  | done => simp at this
  | step hm _ ih =>
    rcases List.mem_cons.1 this with e | e
    · simp only [Prod.mk.injEq] at e
      have h1 := munch_nls hm
      rw [← e.1] at hm h1 e
      have e2 : ∀ k, adjLen l.rule k = if l.rule ∈ [5, 6] then k - 1 else k := by intro k; simp [adjLen]
      rw [e2, ← e.2, if_neg (by omega)] at h1
      exact List.count_eq_zero.1 h1
    · exact ih e

example : (lexFile c!"/* a\n b */ enum\n\n  X").map (fun ls =>
    (ls.filter (fun l => l.token?.isSome)).map (fun l => (l.text, l.loc.first.line))) =
    some [(c!"enum", 2), (c!"X", 4)] := by decide +kernel

end Stfx.Lexer
