import Verif.Lexer.Munches
/-
Spellings of tokens and layout between them (specification), and the proof that the scanner
recovers the tokens from every laid-out text.
-/
namespace Stfx.Lexer

/-! ### Specification -/

/-- The one-character tokens.  (Specification notion, models no code.) -/
def puncts : List (TokKind × Char) :=
  [(.blockStart, '{'), (.blockEnd, '}'), (.equals, '='), (.comma, ','), (.semicolon, ';'),
   (.lessthan, '<'), (.greaterthan, '>')]

/-- The keywords.  (Specification notion, models no code.) -/
def keywords : List (TokKind × Str) :=
  [(.enum, c!"enum"), (.class_, c!"class"), (.struct, c!"struct"), (.int, c!"int"),
   (.short, c!"short"), (.long, c!"long"), (.unsigned, c!"unsigned"), (.float, c!"float"),
   (.double, c!"double"), (.bool, c!"bool"), (.true_, c!"true"), (.false_, c!"false")]

/-- `Spells k t`: `t` is a spelling of the token `k`.  (Specification notion, models no code.) -/
inductive Spells : Token → Str → Prop where
  | punct {k c} (h : (k, c) ∈ puncts) : Spells ⟨k, []⟩ [c]
  | keyword {k w} (h : (k, w) ∈ keywords) : Spells ⟨k, []⟩ w
  | stdString : Spells ⟨.stdString, []⟩ c!"std::string"
  | stdVector : Spells ⟨.stdVector, []⟩ c!"std::vector"
  | name {w} (h : IsIdent w) (hk : ∀ k, (k, w) ∉ keywords) : Spells ⟨.name, w⟩ w
  | enumValue {u v} (hu : IsIdent u) (hv : IsIdent v)
      (h1 : u ++ ':' :: ':' :: v ≠ c!"std::string") (h2 : u ++ ':' :: ':' :: v ≠ c!"std::vector") :
      Spells ⟨.enumValue, u ++ ':' :: ':' :: v⟩ (u ++ ':' :: ':' :: v)
  | value {w} (h : IsDigits w) : Spells ⟨.value, w⟩ w
  | hexValue {u} (h : u ≠ []) (hh : ∀ c ∈ u, isHexDig c = true) :
      Spells ⟨.hexValue, '0' :: 'x' :: u⟩ ('0' :: 'x' :: u)
  | fValue {u v f} (hu : IsDigits u) (hv : IsDigits v) (hf : f = [] ∨ f = ['f']) :
      Spells ⟨.fValue, u ++ '.' :: (v ++ f)⟩ (u ++ '.' :: (v ++ f))
  | string {u} (hu : ∀ c ∈ u, c ≠ '\n') :
      Spells ⟨.stringConstant, '"' :: (u ++ ['"'])⟩ ('"' :: (u ++ ['"']))
  | char {c} (hc : c ≠ '\n') : Spells ⟨.charConstant, ['\'', c, '\'']⟩ ['\'', c, '\'']

/-- No word character comes next.  (Specification notion, models no code.) -/
def NoIdChar (rest : Str) : Prop := ∀ c, rest.head? = some c → isIdChar c = false

/-- What may directly follow a token of the given kind without changing it.  (Specification notion, models no code.) -/
def Follow : TokKind → Str → Prop
  | .blockStart, _ | .blockEnd, _ | .equals, _ | .comma, _ | .semicolon, _ | .lessthan, _
  | .greaterthan, _ | .charConstant, _ | .eof, _ => True
  | .stdString, rest | .stdVector, rest | .enumValue, rest | .hexValue, rest | .fValue, rest =>
    NoIdChar rest
  | .value, rest => NumEnd rest
  | .stringConstant, rest => LineNoQuote rest
  | .enum, rest | .class_, rest | .struct, rest | .int, rest | .short, rest | .long, rest
  | .unsigned, rest | .float, rest | .double, rest | .bool, rest | .true_, rest | .false_, rest
  | .name, rest => WordEnd rest

/-- `Laid bol w ts`: the text `w` is the token sequence `ts` written with any layout: blanks, tabs,
line ends, `//` comments, block comments and (at the start of a line) preprocessor lines between
the tokens.  `bol` says whether `w` starts at the start of a line.  (Specification notion, models no code.) -/
inductive Laid : Bool → Str → List Token → Prop where
  | nil {bol} : Laid bol [] []
  | blank {bol b w ts} (hb : isBlank b = true) (h : Laid false w ts) : Laid bol (b :: w) ts
  | newline {bol w ts} (h : Laid true w ts) : Laid bol ('\n' :: w) ts
  | crlf {bol w ts} (h : Laid true w ts) : Laid bol ('\r' :: '\n' :: w) ts
  | lineComment {bol u w ts} (hu : ∀ c ∈ u, c ≠ '\n') (h : Laid true w ts) :
      Laid bol (c!"//" ++ (u ++ '\n' :: w)) ts
  | blockComment {bol u w ts} (hu : ¬ c!"*/" <:+: u) (h : Laid false w ts) :
      Laid bol (c!"/*" ++ (u ++ (c!"*/" ++ w))) ts
  | preproc {s u w ts} (hs : ∀ c ∈ s, isBlank c = true) (hu : ∀ c ∈ u, c ≠ '\n')
      (h : Laid true w ts) : Laid true (s ++ '#' :: (u ++ '\n' :: w)) ts
  | tok {bol k t w ts} (hk : Spells k t) (hf : Follow k.kind w) (h : Laid false w ts) :
      Laid bol (t ++ w) (k :: ts)

/-! ### Proofs -/

theorem bolAfter_of {bol : Bool} {t : Str} (h : t ≠ []) (hn : '\n' ∉ t) : bolAfter bol t = false := by
  unfold bolAfter
  cases ht : t.getLast? with
  | none => simp at ht; exact absurd ht h
  | some c =>
    have : c ∈ t := List.mem_of_getLast? ht
    simp only [beq_eq_false_iff_ne, ne_eq]
    rintro rfl
    exact hn this

theorem IsIdent.no_nl {w : Str} (h : IsIdent w) : '\n' ∉ w := fun hc => by
  have := h.all _ hc; cases this

theorem IsDigits.no_nl {w : Str} (h : IsDigits w) : '\n' ∉ w := fun hc => by
  have := h.2 _ hc; cases this

theorem map_id_opt {α} (x : Option (List α)) : x.map (([] : List α) ++ ·) = x := by
  cases x <;> rfl

/-- Skipping a lexeme whose action returns no token. -/
theorem toks_skip {sc : SC} {bol : Bool} {t rest : Str} {r n : Nat}
    (hm : IsMunch sc bol (t ++ rest) r n) (hn : adjLen r n = t.length) (ha : actKind r = none) :
    toks sc bol (t ++ rest) = toks (nextSC sc r) (bolAfter bol t) rest := by
  rw [toks_step hm hn]
  simp only [Lexeme.token?, ha, Option.map_none, Option.toList_none]
  exact map_id_opt _

/-- A text that does not start with a preprocessor line.  (Specification notion, models no code.) -/
def NotPP (w : Str) : Prop := ∀ s x, (∀ c ∈ s, isBlank c = true) → w ≠ s ++ '#' :: x

theorem ruleLang_bol {sc : SC} {r : Nat} {w t : Str} (hp : NotPP w) (ht : t <+: w) :
    ruleLang true sc r t ↔ ruleLang false sc r t := by
  cases sc with
  | cComment => rfl
  | initial =>
    simp only [ruleLang, Bool.false_eq_true, false_and, and_false, false_or, true_and]
    refine or_congr_right (or_congr_right ?_)
    constructor
    · rintro (⟨_, s, u, hs, hu, rfl⟩ | h)
      · obtain ⟨x, rfl⟩ := ht
        exact absurd (by simp) (hp s (u ++ ['\n'] ++ x) hs)
      · exact h
    · exact Or.inr

theorem isMunch_bol {sc : SC} {w : Str} {r n : Nat} (hp : NotPP w) :
    IsMunch sc true w r n ↔ IsMunch sc false w r n := by
  have hc : ∀ r n, Candidate sc true w r n ↔ Candidate sc false w r n := by
    intro r n
    rw [cand_iff, cand_iff, ruleLang_bol hp (List.take_prefix _ _)]
  constructor
  · rintro ⟨a, b, c⟩
    exact ⟨(hc _ _).1 a, fun r' n' h => b r' n' ((hc _ _).2 h), fun r' h => c r' ((hc _ _).2 h)⟩
  · rintro ⟨a, b, c⟩
    exact ⟨(hc _ _).2 a, fun r' n' h => b r' n' ((hc _ _).1 h), fun r' h => c r' ((hc _ _).1 h)⟩

/-- Away from preprocessor lines the beginning-of-line flag does not matter. -/
theorem toks_bol {sc : SC} {w : Str} (hp : NotPP w) : toks sc true w = toks sc false w := by
  cases w with
  | nil => rfl
  | cons c w =>
    obtain ⟨r, n, hm, h1, h2, _⟩ := lexStep_spec ⟨sc, true, Loc.init⟩ (c :: w) (by simp)
    have hm2 := (isMunch_bol hp).1 hm
    have hlen : adjLen r n = ((c :: w).take (adjLen r n)).length := by simp only [List.length_take]; omega
    have e := List.take_append_drop (adjLen r n) (c :: w)
    rw [← e] at hm hm2 ⊢
    rw [toks_step hm hlen, toks_step hm2 hlen]
    have hne : (c :: w).take (adjLen r n) ≠ [] := by
      intro h0; rw [h0] at hlen; simp at hlen; omega
    have : bolAfter true ((c :: w).take (adjLen r n)) = bolAfter false ((c :: w).take (adjLen r n)) := by
      unfold bolAfter
      cases hl : ((c :: w).take (adjLen r n)).getLast? with
      | none => simp at hl; omega
      | some => rfl
    rw [this]

theorem toks_blank {bol : Bool} {b : Char} {w : Str} (hb : isBlank b = true)
    (hpp : bol = true → NotPP (b :: w)) : toks .initial bol (b :: w) = toks .initial false w := by
  have key : ∀ bol s rest, s ≠ [] → (∀ c ∈ s, isBlank c = true) →
      (∀ c, rest.head? = some c → isBlank c = false) → (bol = true → rest.head? ≠ some '#') →
      toks .initial bol (s ++ rest) = toks .initial false rest := by
    intro bol s rest hs hbs hr hp
    have := toks_skip (munch_blank bol hs hbs hr hp) rfl rfl
    rw [this, bolAfter_of hs (fun hc => by have := hbs _ hc; cases this)]
    rfl
  have hs : ∀ c ∈ w.takeWhile isBlank, isBlank c = true := fun c hc => mem_takeWhile_imp hc
  have hr : ∀ c, (w.dropWhile isBlank).head? = some c → isBlank c = false := by
    intro c hc
    cases hd : w.dropWhile isBlank with
    | nil => rw [hd] at hc; cases hc
    | cons d v => rw [hd] at hc; simp at hc; subst hc; exact dropWhile_head hd
  have e : w = w.takeWhile isBlank ++ w.dropWhile isBlank := (List.takeWhile_append_dropWhile).symm
  have hbs : ∀ c ∈ b :: w.takeWhile isBlank, isBlank c = true := by
    intro c hc
    rcases List.mem_cons.1 hc with rfl | hc
    · exact hb
    · exact hs c hc
  have h1 : toks .initial bol (b :: w) = toks .initial false (w.dropWhile isBlank) := by
    have := key bol (b :: w.takeWhile isBlank) (w.dropWhile isBlank) (by simp) hbs hr ?_
    · rw [← this, List.cons_append, ← e]
    · intro hbol hh
      cases hd : w.dropWhile isBlank with
      | nil => rw [hd] at hh; cases hh
      | cons d v =>
        rw [hd] at hh; simp at hh; subst hh
        exact hpp hbol (b :: w.takeWhile isBlank) v hbs (by rw [List.cons_append, ← hd, ← e])
  rw [h1]
  by_cases hw : w.takeWhile isBlank = []
  · rw [hw, List.nil_append] at e
    rw [← e]
  · rw [← key false (w.takeWhile isBlank) (w.dropWhile isBlank) hw hs hr (by simp), ← e]

theorem toks_newline (bol : Bool) (w : Str) : toks .initial bol ('\n' :: w) = toks .initial true w :=
  toks_skip (t := ['\n']) (munch_newline bol w) rfl rfl

theorem toks_crlf (bol : Bool) (w : Str) :
    toks .initial bol ('\r' :: '\n' :: w) = toks .initial true w :=
  toks_skip (t := ['\r', '\n']) (munch_crlf bol w) rfl rfl

theorem toks_lineComment (bol : Bool) {u : Str} (hu : ∀ c ∈ u, c ≠ '\n') (w : Str) :
    toks .initial bol (c!"//" ++ (u ++ '\n' :: w)) = toks .initial true w := by
  have := toks_skip (t := '/' :: '/' :: u) (rest := '\n' :: w) (munch_lineComment bol hu w)
    (by simp [adjLen]) rfl
  simp only [List.cons_append, List.nil_append] at this ⊢
  rw [this]
  exact toks_newline _ _

theorem toks_preproc {s u : Str} (hs : ∀ c ∈ s, isBlank c = true) (hu : ∀ c ∈ u, c ≠ '\n') (w : Str) :
    toks .initial true (s ++ '#' :: (u ++ '\n' :: w)) = toks .initial true w := by
  have := toks_skip (t := s ++ '#' :: u) (rest := '\n' :: w) (r := 6) (n := s.length + u.length + 2)
    (sc := .initial) (bol := true) (by simpa using munch_pp hs hu w) (by simp [adjLen]; omega) rfl
  simp only [List.append_assoc, List.cons_append] at this
  rw [this]
  exact toks_newline _ _

theorem toks_commentBody (bol : Bool) {u : Str} (hu : ¬ c!"*/" <:+: u) (w : Str) :
    toks .cComment bol (u ++ (c!"*/" ++ w)) = toks .initial false w := by
  induction u generalizing bol with
  | nil =>
    have := toks_skip (munch_close bol w) rfl rfl
    simp only [List.nil_append]
    rw [this]; rfl
  | cons c u ih =>
    have hu' : ¬ c!"*/" <:+: u := fun h => hu (List.IsInfix.trans h ⟨[c], [], by simp⟩)
    by_cases hc : c = '\n'
    · subst hc
      have := toks_skip (t := ['\n']) (munch_commentNl bol (u ++ (c!"*/" ++ w))) rfl rfl
      simp only [List.cons_append, List.nil_append] at this ⊢
      rw [this]
      exact ih _ hu'
    · have hstar : c = '*' → (u ++ (c!"*/" ++ w)).head? ≠ some '/' := by
        rintro rfl
        cases u with
        | nil => simp
        | cons d u =>
          simp only [List.cons_append, List.head?_cons, ne_eq, Option.some.injEq]
          rintro rfl
          exact hu ⟨[], u, by simp⟩
      have := toks_skip (t := [c]) (munch_commentChar bol hc (u ++ (c!"*/" ++ w)) hstar) rfl rfl
      simp only [List.cons_append, List.nil_append] at this ⊢
      rw [this]
      exact ih _ hu'

theorem toks_blockComment (bol : Bool) {u : Str} (hu : ¬ c!"*/" <:+: u) (w : Str) :
    toks .initial bol (c!"/*" ++ (u ++ (c!"*/" ++ w))) = toks .initial false w := by
  rw [toks_skip (munch_open bol _) rfl rfl]
  exact toks_commentBody _ hu w

theorem toks_one {bol : Bool} {t rest : Str} {r : Nat} {k : Token}
    (hm : IsMunch .initial bol (t ++ rest) r t.length) (h56 : ¬ (r = 5 ∨ r = 6))
    (hsc : nextSC .initial r = .initial) (hnl : '\n' ∉ t)
    (hk : (⟨r, t, Loc.init⟩ : Lexeme).token? = some k) :
    toks .initial bol (t ++ rest) = (toks .initial false rest).map (k :: ·) := by
  have hne : t ≠ [] := by
    rintro rfl
    have := hm.cand.1
    simp at this
  rw [toks_step hm (by simp [adjLen, h56]), hk, hsc, bolAfter_of hne hnl]
  rfl

theorem keywords_wordRule {k : TokKind} {w : Str} (h : (k, w) ∈ keywords) :
    IsIdent w ∧ actKind (wordRule w) = some k ∧ 16 ≤ wordRule w ∧ wordRule w ≤ 27 := by
  simp only [keywords, List.mem_cons, Prod.mk.injEq, List.not_mem_nil, or_false] at h
  rcases h with ⟨rfl, rfl⟩ | ⟨rfl, rfl⟩ | ⟨rfl, rfl⟩ | ⟨rfl, rfl⟩ | ⟨rfl, rfl⟩ | ⟨rfl, rfl⟩ |
    ⟨rfl, rfl⟩ | ⟨rfl, rfl⟩ | ⟨rfl, rfl⟩ | ⟨rfl, rfl⟩ | ⟨rfl, rfl⟩ | ⟨rfl, rfl⟩ <;>
  exact ⟨⟨_, _, rfl, by decide, by decide⟩, by decide, by decide, by decide⟩

theorem not_keywords_wordRule {w : Str} (h : ∀ k, (k, w) ∉ keywords) : wordRule w = 30 := by
  have key : ∀ k, (k, w) ∉ keywords := h
  rcases wordRule_cases w with h | h | h | h | h | h | h | h | h | h | h | h | h
  all_goals try exact h.1
  all_goals
    exfalso
    obtain ⟨_, rfl⟩ := h
    simp [keywords] at key

theorem follow_keyword {k : TokKind} {w rest : Str} (h : (k, w) ∈ keywords) (hf : Follow k rest) :
    WordEnd rest := by
  simp only [keywords, List.mem_cons, Prod.mk.injEq, List.not_mem_nil, or_false] at h
  rcases h with ⟨rfl, rfl⟩ | ⟨rfl, rfl⟩ | ⟨rfl, rfl⟩ | ⟨rfl, rfl⟩ | ⟨rfl, rfl⟩ | ⟨rfl, rfl⟩ |
    ⟨rfl, rfl⟩ | ⟨rfl, rfl⟩ | ⟨rfl, rfl⟩ | ⟨rfl, rfl⟩ | ⟨rfl, rfl⟩ | ⟨rfl, rfl⟩ <;>
  exact hf

/-- A token spelled in front of text that does not extend it is scanned as that token. -/
theorem toks_spells {k : Token} {t : Str} (hk : Spells k t) (bol : Bool) {w : Str}
    (hf : Follow k.kind w) : toks .initial bol (t ++ w) = (toks .initial false w).map (k :: ·) := by
  cases hk with
  | @punct k c h =>
    simp only [puncts, List.mem_cons, Prod.mk.injEq, List.not_mem_nil, or_false] at h
    rcases h with ⟨rfl, rfl⟩ | ⟨rfl, rfl⟩ | ⟨rfl, rfl⟩ | ⟨rfl, rfl⟩ | ⟨rfl, rfl⟩ | ⟨rfl, rfl⟩ |
      ⟨rfl, rfl⟩ <;>
    exact toks_one (munch_punct bol rfl w) (by decide) rfl (by decide) rfl
  | @keyword k _ h =>
    have hw := follow_keyword h hf
    obtain ⟨h1, h2, h3, h4⟩ := keywords_wordRule h
    refine toks_one (munch_word bol h1 hw) (by omega) ?_ h1.no_nl ?_
    · unfold nextSC
      rw [if_neg (by omega), if_neg (by omega)]
    · simp only [Lexeme.token?, h2, Option.map_some, actText]
      rw [if_neg (by omega)]
  | stdString => exact toks_one (munch_stdString bol hf) (by decide) rfl (by decide) rfl
  | stdVector => exact toks_one (munch_stdVector bol hf) (by decide) rfl (by decide) rfl
  | name h hk =>
    have hm := munch_word bol h hf
    rw [not_keywords_wordRule hk] at hm
    exact toks_one hm (by decide) rfl h.no_nl rfl
  | enumValue hu hv h1 h2 =>
    refine toks_one (munch_enumValue bol hu hv h1 h2 hf) (by decide) rfl ?_ rfl
    simp [hu.no_nl, hv.no_nl]
  | value h => exact toks_one (munch_value bol h hf) (by decide) rfl h.no_nl rfl
  | hexValue h hh =>
    refine toks_one (munch_hex bol h hh hf) (by decide) rfl ?_ rfl
    simp only [List.mem_cons, not_or]
    exact ⟨by decide, by decide, fun hc => by have := hh _ hc; cases this⟩
  | @fValue u v f hu hv hff =>
    refine toks_one (munch_fvalue bol hu hv hff hf) (by decide) rfl ?_ rfl
    have : '\n' ∉ f := by rcases hff with rfl | rfl <;> simp
    simp [hu.no_nl, hv.no_nl, this]
  | @string u hu =>
    refine toks_one (by simpa using munch_string bol hu hf) (by decide) rfl ?_ rfl
    simp only [List.mem_cons, List.mem_append, List.not_mem_nil, or_false, not_or]
    exact ⟨by decide, fun hc => hu _ hc rfl, by decide⟩
  | @char c hc =>
    refine toks_one (munch_char bol hc w) (by decide) rfl ?_ rfl
    simp [Ne.symm hc]

theorem spells_head {k : Token} {t : Str} (hk : Spells k t) :
    ∃ c u, t = c :: u ∧ c ≠ '#' ∧ isBlank c = false := by
  cases hk with
  | punct h =>
    simp only [puncts, List.mem_cons, Prod.mk.injEq, List.not_mem_nil, or_false] at h
    rcases h with ⟨rfl, rfl⟩ | ⟨rfl, rfl⟩ | ⟨rfl, rfl⟩ | ⟨rfl, rfl⟩ | ⟨rfl, rfl⟩ | ⟨rfl, rfl⟩ |
      ⟨rfl, rfl⟩ <;> exact ⟨_, _, rfl, by decide, by decide⟩
  | keyword h =>
    simp only [keywords, List.mem_cons, Prod.mk.injEq, List.not_mem_nil, or_false] at h
    rcases h with ⟨rfl, rfl⟩ | ⟨rfl, rfl⟩ | ⟨rfl, rfl⟩ | ⟨rfl, rfl⟩ | ⟨rfl, rfl⟩ | ⟨rfl, rfl⟩ |
      ⟨rfl, rfl⟩ | ⟨rfl, rfl⟩ | ⟨rfl, rfl⟩ | ⟨rfl, rfl⟩ | ⟨rfl, rfl⟩ | ⟨rfl, rfl⟩ <;>
    exact ⟨_, _, rfl, by decide, by decide⟩
  | stdString => exact ⟨_, _, rfl, by decide, by decide⟩
  | stdVector => exact ⟨_, _, rfl, by decide, by decide⟩
  | name h hk =>
    obtain ⟨c, u, rfl, h1, _⟩ := h
    refine ⟨_, _, rfl, ?_, ?_⟩
    · rintro rfl; cases h1
    · cases hb : isBlank c with
      | false => rfl
      | true => rcases isBlank_iff.1 hb with rfl | rfl <;> cases h1
  | enumValue h hv _ _ =>
    obtain ⟨c, u, rfl, h1, _⟩ := h
    refine ⟨_, _, rfl, ?_, ?_⟩
    · rintro rfl; cases h1
    · cases hb : isBlank c with
      | false => rfl
      | true => rcases isBlank_iff.1 hb with rfl | rfl <;> cases h1
  | value h =>
    obtain ⟨h0, h1⟩ := h
    cases t with
    | nil => exact absurd rfl h0
    | cons c t =>
      have h1 := h1 c (by simp)
      refine ⟨_, _, rfl, ?_, ?_⟩
      · rintro rfl; cases h1
      · cases hb : isBlank c with
        | false => rfl
        | true => rcases isBlank_iff.1 hb with rfl | rfl <;> cases h1
  | hexValue => exact ⟨_, _, rfl, by decide, by decide⟩
  | @fValue u _ _ h _ _ =>
    obtain ⟨h0, h1⟩ := h
    cases u with
    | nil => exact absurd rfl h0
    | cons c t =>
      have h1 := h1 c (by simp)
      refine ⟨_, _, rfl, ?_, ?_⟩
      · rintro rfl; cases h1
      · cases hb : isBlank c with
        | false => rfl
        | true => rcases isBlank_iff.1 hb with rfl | rfl <;> cases h1
  | string => exact ⟨_, _, rfl, by decide, by decide⟩
  | char => exact ⟨_, _, rfl, by decide, by decide⟩

theorem notPP_cons {c : Char} {w : Str} (h1 : c ≠ '#') (h2 : isBlank c = false) : NotPP (c :: w) := by
  intro s x hs e
  cases s with
  | nil => simp at e; exact h1 e.1
  | cons d s =>
    simp at e
    have := hs d (by simp)
    rw [← e.1, h2] at this; cases this

theorem Laid.notPP {w : Str} {ts : List Token} (h : Laid false w ts) : NotPP w := by
  generalize hb : false = b at h
  induction h with
  | nil => intro s x _ e; simp at e
  | blank hbl h ih =>
    intro s x hs e
    cases s with
    | nil => simp at e; rw [e.1] at hbl; cases hbl
    | cons d s =>
      simp at e
      exact ih rfl s x (fun c hc => hs c (by simp [hc])) e.2
  | newline => exact notPP_cons (by decide) (by decide)
  | crlf => exact notPP_cons (by decide) (by decide)
  | lineComment => exact notPP_cons (by decide) (by decide)
  | blockComment => exact notPP_cons (by decide) (by decide)
  | preproc => cases hb
  | tok hk =>
    obtain ⟨c, u, rfl, h1, h2⟩ := spells_head hk
    exact notPP_cons h1 h2

/-- The scanner recovers the tokens of every laid-out text. -/
theorem Laid.toks {bol : Bool} {w : Str} {ts : List Token} (h : Laid bol w ts) :
    Stfx.Lexer.toks .initial bol w = some ts := by
  induction h with
  | nil => rfl
  | blank hb h ih =>
    rw [toks_blank hb ?_, ih]
    intro _ s x hs e
    cases s with
    | nil => simp at e; rw [e.1] at hb; cases hb
    | cons d s =>
      simp at e
      exact h.notPP s x (fun c hc => hs c (by simp [hc])) e.2
  | newline _ ih => rw [toks_newline, ih]
  | crlf _ ih => rw [toks_crlf, ih]
  | lineComment hu _ ih => rw [toks_lineComment _ hu, ih]
  | blockComment hu _ ih => rw [toks_blockComment _ hu, ih]
  | preproc hs hu _ ih => rw [toks_preproc hs hu, ih]
  | tok hk hf _ ih => rw [toks_spells hk _ hf, ih]; rfl

end Stfx.Lexer
