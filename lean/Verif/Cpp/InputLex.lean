import Verif.Cpp.Input
import Verif.Lexer.Munches
import Verif.Parser.Ast
/-
The tokens stfx finds in a header and the preprocessing tokens C++ finds in it.
-/
set_option autoImplicit false
namespace Stfx.Cpp
open Stfx.Lexer Stfx.Parser

theorem pscan_append (m : PMode) (a b : Str) :
    pscan m (a ++ b) = ((pscan m a).1 ++ (pscan (pscan m a).2 b).1, (pscan (pscan m a).2 b).2) := by
  induction a generalizing m with
  | nil => rfl
  | cons c a ih => simp only [List.cons_append, pscan, ih, List.append_assoc]

theorem pscan_of {m m' : PMode} {a b : Str} {ts : List PTok} (h : pscan m a = (ts, m')) :
    pscan m (a ++ b) = (ts ++ (pscan m' b).1, (pscan m' b).2) := by
  rw [pscan_append, h]

/-! ### The tokens of stfx in C++ -/

/-- The two names of `a::b`, the text of rule 31, struct_lex.l:189. -/
def scopeParts (s : Str) : Str × Str := (s.takeWhile (· ≠ ':'), (s.dropWhile (· ≠ ':')).drop 2)

/-- What a literal is in C++, if it is one literal: rules 35 and 36, struct_lex.l:213-223. -/
def literal (s : Str) : List PTok :=
  match pscan .start s with
  | (ts, .start) => ts
  | _ => []

/-- The preprocessing tokens of C++ for a token of stfx, struct_lex.l:78-223. -/
def cToks (t : Token) : List PTok :=
  match t.kind with
  | .eof => []
  | .blockStart => [.tok (.op .lbrace)]
  | .blockEnd => [.tok (.op .rbrace)]
  | .equals => [.tok (.op .assign)]
  | .comma => [.tok (.op .comma)]
  | .semicolon => [.tok (.op .semi)]
  | .lessthan => [.tok (.op .lt)]
  | .greaterthan => [.tok (.op .gt)]
  | .enum => [.word c!"enum"]
  | .class_ => [.word c!"class"]
  | .struct => [.word c!"struct"]
  | .int => [.word c!"int"]
  | .short => [.word c!"short"]
  | .long => [.word c!"long"]
  | .unsigned => [.word c!"unsigned"]
  | .float => [.word c!"float"]
  | .double => [.word c!"double"]
  | .bool => [.word c!"bool"]
  | .true_ => [.word c!"true"]
  | .false_ => [.word c!"false"]
  | .stdString => [.word c!"std", .tok (.op .scope), .word c!"string"]
  | .stdVector => [.word c!"std", .tok (.op .scope), .word c!"vector"]
  | .name => [.word t.text]
  | .enumValue => [.word (scopeParts t.text).1, .tok (.op .scope), .word (scopeParts t.text).2]
  | .value | .hexValue | .fValue => [.tok (.num t.text)]
  | .stringConstant | .charConstant => literal t.text

/-- The text of a preprocessor line after its `#`, struct_lex.l:54. -/
def dirText (s : Str) : Str := (s.dropWhile Lexer.isBlank).drop 1

/-- The preprocessing tokens of C++ for a lexeme of stfx, struct_lex.l:31-223. -/
def lexemeToks (l : Lexeme) : List PTok :=
  if l.rule = 6 then [.dir (dirText l.text)]
  else match l.token? with
    | some t => cToks t
    | none => []

/-- The start condition after some lexemes, struct_lex.l:31-46. -/
def endSC (sc : SC) (ls : List Lexeme) : SC := ls.foldl (fun sc l => nextSC sc l.rule) sc

/-- A lexeme which C++ reads as stfx does: it was matched by a rule of struct_lex.l and not by the default rule, names are no keywords of
C++, string and character constants are single literals of C++, and the character between the digits of a number is a dot.  (Specification
notion, models no code.) -/
def cleanLexeme (l : Lexeme) : Bool :=
  match l.rule with
  | 37 => false
  | 30 => (keywords.lookup l.text).isNone
  | 31 => (keywords.lookup (scopeParts l.text).1).isNone && (keywords.lookup (scopeParts l.text).2).isNone
  | 34 => l.text.all fun c => isDig c || c = '.' || c = 'f'
  | 35 => match pscan .start l.text with
    | ([.tok (.str _)], .start) => true
    | _ => false
  | 36 => match pscan .start l.text with
    | ([.tok (.chr _)], .start) => true
    | _ => false
  | _ => true

/-- The same, as a list of facts.  (Proof notion, models no code.) -/
structure CleanLexeme (l : Lexeme) : Prop where
  known : l.rule ≠ 37
  string : l.rule = 35 → ∃ s, pscan .start l.text = ([.tok (.str s)], .start)
  char : l.rule = 36 → ∃ s, pscan .start l.text = ([.tok (.chr s)], .start)
  float : l.rule = 34 → ∀ c ∈ l.text, isDig c = true ∨ c = '.' ∨ c = 'f'
  name : l.rule = 30 → keywords.lookup l.text = none
  scope : l.rule = 31 → keywords.lookup (scopeParts l.text).1 = none ∧ keywords.lookup (scopeParts l.text).2 = none

theorem clean_of {l : Lexeme} (h : cleanLexeme l = true) : CleanLexeme l := by
  refine ⟨fun hr => ?_, fun hr => ?_, fun hr => ?_, fun hr => ?_, fun hr => ?_, fun hr => ?_⟩
  · simp [cleanLexeme, hr] at h
  · simp only [cleanLexeme, hr] at h
    split at h
    · rename_i hs; exact ⟨_, hs⟩
    · cases h
  · simp only [cleanLexeme, hr] at h
    split at h
    · rename_i hs; exact ⟨_, hs⟩
    · cases h
  · simp only [cleanLexeme, hr, List.all_eq_true, Bool.or_eq_true, decide_eq_true_eq] at h
    intro c hc
    rcases h c hc with (h | h) | h
    · exact .inl h
    · exact .inr (.inl h)
    · exact .inr (.inr h)
  · simpa [cleanLexeme, hr] using h
  · simpa [cleanLexeme, hr] using h

/-! ### What may follow -/

/-- What follows a number, `=`, `<` and `>` in the grammar, struct_yacc.y:155-196. -/
def adjOk (a b : TokKind) : Bool :=
  match a with
  | .value | .hexValue | .fValue => b = .comma || b = .blockEnd
  | .equals => b = .value || b = .hexValue || b = .charConstant
  | .lessthan | .greaterthan => b = .name
  | _ => true

/-- The same for a list of tokens after a token, struct_yacc.y:155-196. -/
def Adj : Option TokKind → List Token → Prop
  | _, [] => True
  | none, t :: ts => Adj (some t.kind) ts
  | some k, t :: ts => adjOk k t.kind = true ∧ Adj (some t.kind) ts

theorem Adj.none {p : Option TokKind} {ts : List Token} (h : Adj p ts) : Adj none ts := by
  cases ts with
  | nil => trivial
  | cons t ts => cases p with
    | none => exact h
    | some k => exact h.2

theorem Adj.tail {p : Option TokKind} {t : Token} {ts : List Token} (h : Adj p (t :: ts)) : Adj (some t.kind) ts := by
  cases p with
  | none => exact h
  | some k => exact h.2

/-! ### Lexemes -/

/-- The next lexeme.  (Proof notion, models no code.) -/
structure NextLexeme (sc : SC) (bol : Bool) (w : Str) (l : Lexeme) (n : Nat) (w' : Str) : Prop where
  munch : IsMunch sc bol w l.rule n
  lang : ruleLang bol sc l.rule (w.take n)
  len : n ≤ w.length
  text : l.text = w.take (adjLen l.rule n)
  rest : w' = w.drop (adjLen l.rule n)
  shorter : w'.length < w.length

theorem lex_cases {st : LexSt} {c : Char} {w : Str} {ls : List Lexeme} (h : lexFrom st (c :: w) = some ls) :
    ∃ l n w' ls', ls = l :: ls' ∧ NextLexeme st.sc st.bol (c :: w) l n w' ∧ lexFrom (st.next l.rule l.text) w' = some ls' := by
  obtain ⟨r, n, hm, hp, hl, he⟩ := lexStep_spec st (c :: w) (by simp)
  rw [lexFrom_step (by simp) he] at h
  cases hls : lexFrom (st.next r ((c :: w).take (adjLen r n))) ((c :: w).drop (adjLen r n)) with
  | none => rw [hls] at h; simp at h
  | some ls' =>
    rw [hls] at h
    simp only [Option.map_some, Option.some.injEq] at h
    have hc := cand_iff.1 hm.cand
    refine ⟨_, n, _, ls', h.symm, ⟨hm, hc.2.2, hc.2.1, rfl, rfl, ?_⟩, hls⟩
    simp only [List.length_drop, List.length_cons] at *
    omega

theorem NextLexeme.split {sc : SC} {bol : Bool} {w w' : Str} {l : Lexeme} {n : Nat} (h : NextLexeme sc bol w l n w') : w = l.text ++ w' := by
  rw [h.text, h.rest, List.take_append_drop]

/-- Except for the rules with `$`, the whole match is consumed. -/
theorem NextLexeme.whole {sc : SC} {bol : Bool} {w w' : Str} {l : Lexeme} {n : Nat} (h : NextLexeme sc bol w l n w') (h5 : l.rule ≠ 5) (h6 : l.rule ≠ 6) :
    ruleLang bol sc l.rule l.text := by
  have e : adjLen l.rule n = n := by unfold adjLen; rw [if_neg (by omega)]
  rw [h.text, e]; exact h.lang

/-- The rules with `$` leave the newline. -/
theorem NextLexeme.line {sc : SC} {bol : Bool} {w w' : Str} {l : Lexeme} {n : Nat} (h : NextLexeme sc bol w l n w') (h5 : l.rule = 5 ∨ l.rule = 6) {u : Str}
    (hu : w.take n = u ++ ['\n']) : l.text = u ∧ ∃ v, w' = '\n' :: v := by
  have e : adjLen l.rule n = n - 1 := by unfold adjLen; rw [if_pos h5]
  have hn : n = u.length + 1 := by
    have := congrArg List.length hu
    simp only [List.length_take, List.length_append, List.length_cons, List.length_nil] at this
    have := h.len
    omega
  have hw : w = u ++ '\n' :: w.drop n := by
    conv => lhs; rw [← List.take_append_drop n w, hu]
    simp
  refine ⟨?_, w.drop n, ?_⟩
  · rw [h.text, e, hn, hw]; simp
  · rw [h.rest, e, hn]
    conv => lhs; rw [hw]
    simp [hn]

/-! ### The first character of what follows -/

/-- Blank space, or the start of a comment or a directive.  (Proof notion, models no code.) -/
def gapHead (c : Char) : Bool := c = '\n' || c = '\r' || c = ' ' || c = '\t' || c = '/' || c = '#'

/-- The first character of a token, for the kinds which can follow a number, `=`, `<` or `>`.  (Proof notion, models no code.) -/
def tokHead (k : TokKind) (c : Char) : Prop :=
  match k with
  | .comma => c = ','
  | .blockEnd => c = '}'
  | .value | .hexValue => isDig c = true
  | .charConstant => c = '\''
  | .name => isIdStart c = true
  | _ => True

theorem tokensOf_cons (l : Lexeme) (ls : List Lexeme) : tokensOf (l :: ls) = (match l.token? with
    | some t => [t]
    | none => []) ++ tokensOf ls := by
  unfold tokensOf
  cases h : l.token? <;> simp [h]

theorem head_cases {st : LexSt} {w : Str} {ls : List Lexeme} (h : lexFrom st w = some ls) (hs : st.sc = .initial)
    (hc : ∀ l ∈ ls, CleanLexeme l) {c : Char} {v : Str} (e : w ++ ['\n'] = c :: v) :
    gapHead c = true ∨ ∃ t ts, tokensOf ls = t :: ts ∧ tokHead t.kind c := by
  cases w with
  | nil =>
    simp only [List.nil_append, List.cons.injEq] at e
    rw [← e.1]; exact .inl rfl
  | cons d w =>
    simp only [List.cons_append, List.cons.injEq] at e
    obtain ⟨rfl, _⟩ := e
    obtain ⟨l, n, w', ls', rfl, hn, _⟩ := lex_cases h
    have hl := hn.lang
    rw [hs] at hl
    have hn0 : n ≠ 0 := by rintro rfl; simp only [List.take_zero] at hl; exact ruleLang_ne hl rfl
    obtain ⟨n, rfl⟩ := Nat.exists_eq_succ_of_ne_zero hn0
    rw [List.take_succ_cons] at hl
    have h37 := (hc l List.mem_cons_self).known
    obtain ⟨r, text, loc⟩ := l
    simp only at hl h37
    have one : ∀ k, actKind r = some k → tokHead k d → gapHead d = true ∨ ∃ t ts, tokensOf (⟨r, text, loc⟩ :: ls') = t :: ts ∧ tokHead t.kind d := by
      intro k hk ht
      refine .inr ⟨⟨k, actText r text⟩, tokensOf ls', ?_, ht⟩
      rw [tokensOf_cons]
      simp [Lexeme.token?, hk]
    rcases ruleLang_head hl with ⟨rfl, rfl, _⟩ | ⟨rfl, rfl, _⟩ | ⟨rfl, _, hb, _⟩ | ⟨rfl, hb⟩ | ⟨rfl, hb, _⟩ | ⟨_, hb⟩ | ⟨h1, h2, hb, _⟩ |
      ⟨rfl, hb⟩ | ⟨rfl, hb⟩ | ⟨rfl, hb, _⟩ | ⟨rfl, hb, _⟩ | ⟨rfl, hb, _⟩ | ⟨rfl, rfl, _⟩ | ⟨rfl, hb, _⟩ | ⟨rfl, rfl, _⟩ | ⟨rfl, rfl, _⟩ |
      ⟨rfl, _⟩
    · exact .inl rfl
    · exact .inl rfl
    · refine .inl ?_
      rcases hb with hb | rfl
      · rcases isBlank_iff.1 hb with rfl | rfl <;> rfl
      · rfl
    · rcases hb with ⟨rfl, _⟩ | ⟨rfl, _⟩ <;> exact .inl rfl
    · rcases isBlank_iff.1 hb with rfl | rfl <;> exact .inl rfl
    · rcases hb with ⟨rfl, rfl⟩ | ⟨rfl, rfl⟩ | ⟨rfl, rfl⟩ | ⟨rfl, rfl⟩ | ⟨rfl, rfl⟩ | ⟨rfl, rfl⟩ | ⟨rfl, rfl⟩ <;>
        exact one _ rfl (by simp [tokHead])
    · obtain rfl | rfl | rfl | rfl | rfl | rfl | rfl | rfl | rfl | rfl | rfl | rfl : r = 16 ∨ r = 17 ∨ r = 18 ∨ r = 19 ∨ r = 20 ∨ r = 21 ∨
        r = 22 ∨ r = 23 ∨ r = 24 ∨ r = 25 ∨ r = 26 ∨ r = 27 := by omega
      all_goals exact one _ rfl trivial
    · exact one _ rfl trivial
    · exact one _ rfl trivial
    · exact one .name rfl hb
    · exact one _ rfl trivial
    · exact one .value rfl hb
    · exact one .hexValue rfl (by unfold tokHead; decide)
    · exact one _ rfl trivial
    · exact one _ rfl trivial
    · exact one .charConstant rfl rfl
    · exact absurd rfl h37

/-! ### Tokens that are not yet complete -/

/-- What is pending in a mode.  (Proof notion, models no code.) -/
def pend : PMode → List PTok
  | .word w => [.word w]
  | .num w => [.tok (.num w)]
  | .op w => [.tok (opTok w)]
  | .dir u => [.dir u]
  | _ => []

/-- Punctuation and its kind.  (Proof notion, models no code.) -/
def isPunct (d : Char) (k : TokKind) : Bool :=
  (d = '{' && k = .blockStart) || (d = '}' && k = .blockEnd) || (d = '=' && k = .equals) || (d = ',' && k = .comma) ||
  (d = ';' && k = .semicolon) || (d = '<' && k = .lessthan) || (d = '>' && k = .greaterthan)

/-- The mode after a lexeme: `p` is the kind of the last token, `w` what follows.  (Proof notion, models no code.) -/
inductive After : Option TokKind → PMode → Str → Prop where
  | start {p : Option TokKind} {w : Str} : After p .start w
  | line {p : Option TokKind} {w : Str} : w.head? = some '\n' → After p .line w
  | dir {p : Option TokKind} {u w : Str} : w.head? = some '\n' → After p (.dir u) w
  | word {p : Option TokKind} {v w : Str} : (∀ c, w.head? = some c → isIdChar c = false) → After p (.word v) w
  | num {k : TokKind} {v w : Str} : k = .value ∨ k = .hexValue ∨ k = .fValue → After (some k) (.num v) w
  | op {k : TokKind} {d : Char} {w : Str} : isPunct d k = true → After (some k) (.op [d]) w

theorem gap_end {c : Char} (h : gapHead c = true) : isLetter c = false ∧ isDigit c = false ∧ c ≠ '.' ∧ c ≠ '\'' := by
  simp only [gapHead, Bool.or_eq_true, decide_eq_true_eq] at h
  rcases h with ((((rfl | rfl) | rfl) | rfl) | rfl) | rfl <;> decide

theorem letter_id {c : Char} : (isLetter c || isDigit c) = isIdChar c := by
  have e1 : isLetter c = isIdStart c := by
    rw [Bool.eq_iff_iff]; simp [isIdStart, isLetter, Char.le_def, UInt32.le_iff_toNat_le]
  have e2 : isDigit c = isDig c := by
    rw [Bool.eq_iff_iff]; simp [isDig, isDigit, Char.le_def, UInt32.le_iff_toNat_le]
  rw [isIdChar, e1, e2]

theorem no_operator {d c : Char} {k : TokKind} (hd : isPunct d k = true) (h : d ≠ '=' ∧ d ≠ '<' ∧ d ≠ '>' ∨ gapHead c = true ∨ c = '\'') :
    (operators.lookup ([d] ++ [c])).isSome = false := by
  rw [Option.isSome_eq_false_iff, Option.isNone_iff_eq_none, List.lookup_eq_none_iff]
  intro p hp
  simp only [bne, Bool.not_eq_true', beq_eq_false_iff_ne, ne_eq]
  intro h2
  have key : ∀ p ∈ operators, ∀ d ∈ ['{', '}', '=', ',', ';', '<', '>'], p.1.head? = some d → p.1.length = 2 →
      (d = '=' ∨ d = '<' ∨ d = '>') ∧ (p.1.drop 1).head?.any (fun c => !gapHead c && !(c = '\'')) := by decide +kernel
  have hd' : d ∈ ['{', '}', '=', ',', ';', '<', '>'] := by
    simp only [isPunct, Bool.or_eq_true, Bool.and_eq_true, decide_eq_true_eq] at hd
    simp only [List.mem_cons]
    rcases hd with (((((h | h) | h) | h) | h) | h) | h <;> simp [h.1]
  have := key p hp d hd' (by rw [← h2]; rfl) (by rw [← h2]; rfl)
  rw [← h2] at this
  simp only [List.singleton_append, List.drop_succ_cons, List.drop_zero, List.head?_cons, Option.any_some, Bool.and_eq_true, Bool.not_eq_true',
    decide_eq_false_iff_not] at this
  rcases h with ⟨h1, h2, h3⟩ | h | h
  · rcases this.1 with h | h | h
    · exact h1 h
    · exact h2 h
    · exact h3 h
  · rw [this.2.1] at h; cases h
  · exact this.2.2 h

theorem dig_end {c : Char} (h : tokHead .comma c ∨ tokHead .blockEnd c) : isLetter c = false ∧ isDigit c = false ∧ c ≠ '.' ∧ c ≠ '\'' := by
  rcases h with h | h <;> (simp only [tokHead] at h; subst h; decide)

theorem no_operator' {d c : Char} {k : TokKind} (hd : isPunct d k = true) (h : isIdStart c = true ∨ isDig c = true) :
    (operators.lookup ([d] ++ [c])).isSome = false := by
  rw [Option.isSome_eq_false_iff, Option.isNone_iff_eq_none, List.lookup_eq_none_iff]
  intro p hp
  simp only [bne, Bool.not_eq_true', beq_eq_false_iff_ne, ne_eq]
  intro h2
  have key : ∀ p ∈ operators, p.1.length = 2 → (p.1.drop 1).head?.any (fun c => !isIdStart c && !isDig c) := by decide +kernel
  have := key p hp (by rw [← h2]; rfl)
  rw [← h2] at this
  simp only [List.singleton_append, List.drop_succ_cons, List.drop_zero, List.head?_cons, Option.any_some, Bool.and_eq_true,
    Bool.not_eq_true'] at this
  rcases h with h | h
  · rw [this.1] at h; cases h
  · rw [this.2] at h; cases h

/-- The next character ends what is pending. -/
theorem ready {p : Option TokKind} {m : PMode} {st : LexSt} {w : Str} {ls : List Lexeme} (ha : After p m w) (h : lexFrom st w = some ls)
    (hs : st.sc = .initial) (hc : ∀ l ∈ ls, CleanLexeme l) (had : Adj p (tokensOf ls)) {c : Char} {v : Str} (e : w ++ ['\n'] = c :: v) :
    pstep m c = (pend m, pfirst c) := by
  have hd := head_cases h hs hc e
  cases ha with
  | start => rfl
  | line hw =>
    have : c = '\n' := by cases w with
      | nil => simp at hw
      | cons d w => simp_all
    subst this; rfl
  | dir hw =>
    have : c = '\n' := by cases w with
      | nil => simp at hw
      | cons d w => simp_all
    subst this; rfl
  | word hw =>
    have : isIdChar c = false := by cases w with
      | nil => simp only [List.nil_append, List.cons.injEq] at e; rw [← e.1]; decide
      | cons d w => simp only [List.cons_append, List.cons.injEq] at e; rw [← e.1]; exact hw d rfl
    simp only [pstep, letter_id, this, pend, Bool.false_eq_true, if_false]
  | num hk =>
    have : isLetter c = false ∧ isDigit c = false ∧ c ≠ '.' ∧ c ≠ '\'' := by
      rcases hd with hd | ⟨t, ts, ht, hd⟩
      · exact gap_end hd
      · rw [ht] at had
        have ha := had.1
        apply dig_end
        rcases hk with rfl | rfl | rfl <;>
        · simp only [adjOk, Bool.or_eq_true, decide_eq_true_eq] at ha
          rcases ha with ha | ha <;> rw [ha] at hd
          · exact .inl hd
          · exact .inr hd
    simp [pstep, this.1, this.2, pend]
  | op hp =>
    rename_i k d
    have hno : (operators.lookup ([d] ++ [c])).isSome = false := by
      by_cases hd3 : d = '=' ∨ d = '<' ∨ d = '>'
      · rcases hd with hd | ⟨t, ts, ht, hd⟩
        · exact no_operator hp (.inr (.inl hd))
        · rw [ht] at had
          have ha := had.1
          rcases hd3 with rfl | rfl | rfl
          · have : k = .equals := by simpa [isPunct] using hp
            subst this
            simp only [adjOk, Bool.or_eq_true, decide_eq_true_eq] at ha
            rcases ha with (ha | ha) | ha <;> rw [ha] at hd
            · exact no_operator' hp (.inr hd)
            · exact no_operator' hp (.inr hd)
            · exact no_operator hp (.inr (.inr hd))
          · have : k = .lessthan := by simpa [isPunct] using hp
            subst this
            simp only [adjOk, decide_eq_true_eq] at ha
            rw [ha] at hd
            exact no_operator' hp (.inl hd)
          · have : k = .greaterthan := by simpa [isPunct] using hp
            subst this
            simp only [adjOk, decide_eq_true_eq] at ha
            rw [ha] at hd
            exact no_operator' hp (.inl hd)
      · exact no_operator hp (.inl ⟨fun h => hd3 (.inl h), fun h => hd3 (.inr (.inl h)), fun h => hd3 (.inr (.inr h))⟩)
    have hsl : ([d] : Str) ≠ c!"/" := by
      rintro h
      simp only [List.cons.injEq, and_true] at h
      subst h
      revert hp
      simp [isPunct]
    simp only [pstep, hno, hsl, false_and, if_false, Bool.false_eq_true, pend]

/-! ### One lexeme -/

theorem pscan_word (v a : Str) (h : ∀ c ∈ a, isIdChar c = true) : pscan (.word v) a = ([], .word (v ++ a)) := by
  induction a generalizing v with
  | nil => simp [pscan]
  | cons c a ih =>
    have hc := h c List.mem_cons_self
    rw [pscan]
    simp only [pstep, letter_id, hc, if_true]
    rw [ih _ fun d hd => h d (List.mem_cons_of_mem _ hd)]
    simp

theorem pfirst_letter {c : Char} (h : isIdStart c = true) : pfirst c = .word [c] := by
  have e1 : isLetter c = isIdStart c := by
    rw [Bool.eq_iff_iff]; simp [isIdStart, isLetter, Char.le_def, UInt32.le_iff_toNat_le]
  rw [pfirst, e1, h, if_pos rfl]

theorem pfirst_digit {c : Char} (h : isDig c = true) : pfirst c = .num [c] := by
  have e2 : isDigit c = isDig c := by
    rw [Bool.eq_iff_iff]; simp [isDig, isDigit, Char.le_def, UInt32.le_iff_toNat_le]
  have e1 : isLetter c = false := by
    have h' := h
    simp only [isDig, Bool.and_eq_true, decide_eq_true_eq, Char.le_def, UInt32.le_iff_toNat_le] at h'
    rw [← Bool.not_eq_true]
    intro h1
    simp only [isLetter, Bool.or_eq_true, Bool.and_eq_true, decide_eq_true_eq, Char.le_def, UInt32.le_iff_toNat_le] at h1
    rcases h1 with (h1 | h1) | rfl
    · simp at h1 h'; omega
    · simp at h1 h'; omega
    · revert h; decide
  rw [pfirst, e1, e2, h]; rfl

theorem pscan_ident {a : Str} (h : IsIdent a) : pscan .start a = ([], .word a) := by
  obtain ⟨c, u, rfl, hc, hu⟩ := h
  rw [pscan]
  simp only [pstep, pfirst_letter hc]
  rw [pscan_word _ _ hu]; rfl

theorem pscan_num (v a : Str) (h : ∀ c ∈ a, isIdChar c = true ∨ c = '.') : pscan (.num v) a = ([], .num (v ++ a)) := by
  induction a generalizing v with
  | nil => simp [pscan]
  | cons c a ih =>
    have hc := h c List.mem_cons_self
    rw [pscan]
    have : (isLetter c || isDigit c || c = '.' || c = '\'') = true := by
      rw [letter_id]
      rcases hc with hc | rfl
      · rw [hc]; rfl
      · decide
    simp only [pstep, this, if_true]
    rw [ih _ fun d hd => h d (List.mem_cons_of_mem _ hd)]
    simp

theorem pscan_number {c : Char} {a : Str} (hc : isDig c = true) (h : ∀ c ∈ a, isIdChar c = true ∨ c = '.') :
    pscan .start (c :: a) = ([], .num (c :: a)) := by
  rw [pscan]
  simp only [pstep, pfirst_digit hc]
  rw [pscan_num _ _ h]; rfl

theorem pscan_scope {u v : Str} (hu : IsIdent u) (hv : IsIdent v) :
    pscan .start (u ++ ':' :: ':' :: v) = ([.word u, .tok (.op .scope)], .word v) := by
  rw [pscan_of (pscan_ident hu)]
  obtain ⟨c, w, rfl, hc, hw⟩ := hv
  have e1 : (operators.lookup (c!"::" ++ [c])).isSome = false := by
    rw [Option.isSome_eq_false_iff, Option.isNone_iff_eq_none, List.lookup_eq_none_iff]
    intro p hp
    simp only [bne, Bool.not_eq_true', beq_eq_false_iff_ne, ne_eq]
    intro h2
    have key : ∀ p ∈ operators, p.1.take 2 ≠ c!"::" ∨ p.1.length = 2 := by decide +kernel
    rcases key p hp with h | h
    · exact h (by rw [← h2]; rfl)
    · rw [← h2] at h; cases h
  have s1 : pstep (.word u) ':' = ([.word u], .op [':']) := by
    have : (isLetter ':' || isDigit ':') = false := by decide
    have h2 : pfirst ':' = .op [':'] := by decide +kernel
    rw [pstep, this, h2]; rfl
  have s2 : pstep (.op [':']) ':' = ([], .op c!"::") := by decide +kernel
  have s3 : pstep (.op c!"::") c = ([.tok (.op .scope)], .word [c]) := by
    have h1 : opTok c!"::" = .op .scope := by decide +kernel
    rw [pstep, if_neg (by simp), if_neg (by simp), e1, pfirst_letter hc, h1]; rfl
  simp only [pscan, s1, s2, s3]
  rw [pscan_word _ _ hw]; rfl

theorem pscan_line (a : Str) (h : ∀ c ∈ a, c ≠ '\n') : pscan .line a = ([], .line) := by
  induction a with
  | nil => rfl
  | cons c a ih =>
    rw [pscan]
    simp only [pstep, if_neg (h c List.mem_cons_self)]
    rw [ih fun d hd => h d (List.mem_cons_of_mem _ hd)]; rfl

theorem pscan_dir (u a : Str) (h : ∀ c ∈ a, c ≠ '\n') : pscan (.dir u) a = ([], .dir (u ++ a)) := by
  induction a generalizing u with
  | nil => simp [pscan]
  | cons c a ih =>
    rw [pscan]
    simp only [pstep, if_neg (h c List.mem_cons_self)]
    rw [ih _ fun d hd => h d (List.mem_cons_of_mem _ hd)]; simp

theorem pscan_blank (a : Str) (h : ∀ c ∈ a, Lexer.isBlank c = true) : pscan .start a = ([], .start) := by
  induction a with
  | nil => rfl
  | cons c a ih =>
    have : pfirst c = .start := by rcases isBlank_iff.1 (h c List.mem_cons_self) with rfl | rfl <;> decide
    rw [pscan]
    simp only [pstep, this]
    rw [ih fun d hd => h d (List.mem_cons_of_mem _ hd)]; rfl

theorem ident_snoc {a : Str} {c : Char} (h : IsIdent a) (hc : isIdChar c = true) : IsIdent (a ++ [c]) := by
  obtain ⟨d, u, rfl, hd, hu⟩ := h
  refine ⟨d, u ++ [c], rfl, hd, fun x hx => ?_⟩
  rcases List.mem_append.1 hx with hx | hx
  · exact hu x hx
  · rw [List.mem_singleton.1 hx]; exact hc

/-- A word ends where no character of a word follows. -/
theorem NextLexeme.wordEnd {bol : Bool} {w w' : Str} {l : Lexeme} {n : Nat} (h : NextLexeme .initial bol w l n w') (h5 : l.rule ≠ 5) (h6 : l.rule ≠ 6)
    (ht : IsIdent l.text ∨ ∃ u v, IsIdent u ∧ IsIdent v ∧ l.text = u ++ ':' :: ':' :: v) : ∀ c, w'.head? = some c → isIdChar c = false := by
  intro c hc
  rw [← Bool.not_eq_true]
  intro hi
  have e : adjLen l.rule n = n := by unfold adjLen; rw [if_neg (by omega)]
  obtain ⟨x, hx⟩ : ∃ x, w' = c :: x := by cases w' with
    | nil => cases hc
    | cons d x => simp only [List.head?_cons, Option.some.injEq] at hc; exact ⟨x, by rw [hc]⟩
  have hw := h.split
  have hlen : l.text.length = n := by rw [h.text, e, List.length_take]; have := h.len; omega
  have htake : w.take (n + 1) = l.text ++ [c] := by
    rw [hw, hx, ← hlen, List.take_append, List.take_of_length_le (by omega)]
    simp
  have hle : n + 1 ≤ w.length := by rw [hw, hx]; simp; omega
  have : ∃ r, Candidate .initial bol w r (n + 1) := by
    rcases ht with ht | ⟨u, v, hu, hv, ht⟩
    · refine ⟨30, cand_iff.2 ⟨by omega, hle, ?_⟩⟩
      rw [htake]
      have := ident_snoc ht hi
      simp only [ruleLang]
      simp [this]
    · refine ⟨31, cand_iff.2 ⟨by omega, hle, ?_⟩⟩
      rw [htake]
      have : ∃ u' v', IsIdent u' ∧ IsIdent v' ∧ l.text ++ [c] = u' ++ ':' :: ':' :: v' := ⟨u, v ++ [c], hu, ident_snoc hv hi, by rw [ht]; simp⟩
      simp only [ruleLang]
      simp only [this, and_true]
      simp
  obtain ⟨r, hr⟩ := this
  have := h.munch.longest r _ hr
  omega

theorem scopeParts_of {u v : Str} (hu : IsIdent u) : scopeParts (u ++ ':' :: ':' :: v) = (u, v) := by
  obtain ⟨c, w, rfl, hc, hw⟩ := hu
  have hall : ∀ d ∈ c :: w, d ≠ ':' := by
    intro d hd
    rcases List.mem_cons.1 hd with rfl | hd
    · exact ne_of_class hc (by decide)
    · exact ne_of_class (hw d hd) (by decide)
  unfold scopeParts
  rw [List.takeWhile_append_of_pos (by simpa using hall), List.dropWhile_append_of_pos (by simpa using hall)]
  simp

theorem dirText_of {s u : Str} (hs : ∀ c ∈ s, Lexer.isBlank c = true) : dirText (s ++ '#' :: u) = u := by
  unfold dirText
  rw [List.dropWhile_append_of_pos hs]
  have : Lexer.isBlank '#' = false := by decide
  rw [List.dropWhile_cons, this]; rfl

theorem punct_toks {d : Char} {k : TokKind} {t : Str} (h : isPunct d k = true) : cToks ⟨k, t⟩ = [.tok (opTok [d])] := by
  have e : opTok ['{'] = .op .lbrace ∧ opTok ['}'] = .op .rbrace ∧ opTok ['='] = .op .assign ∧ opTok [','] = .op .comma ∧
    opTok [';'] = .op .semi ∧ opTok ['<'] = .op .lt ∧ opTok ['>'] = .op .gt := by decide +kernel
  simp only [isPunct, Bool.or_eq_true, Bool.and_eq_true, decide_eq_true_eq] at h
  rcases h with (((((⟨rfl, rfl⟩ | ⟨rfl, rfl⟩) | ⟨rfl, rfl⟩) | ⟨rfl, rfl⟩) | ⟨rfl, rfl⟩) | ⟨rfl, rfl⟩) | ⟨rfl, rfl⟩ <;> simp [cToks, e]

/-- The kind of the last token after a lexeme.  (Proof notion, models no code.) -/
def lastKind (p : Option TokKind) (l : Lexeme) : Option TokKind :=
  match l.token? with
  | some t => some t.kind
  | none => p

/-- What a lexeme of the normal state does to the scan.  (Proof notion, models no code.) -/
structure Scanned (p : Option TokKind) (l : Lexeme) (w' : Str) (ts : List PTok) (m : PMode) : Prop where
  scan : pscan .start l.text = (ts, m)
  toks : ts ++ pend m = lexemeToks l
  after : After (lastKind p l) m w'

theorem scanned {p : Option TokKind} {bol : Bool} {w w' : Str} {l : Lexeme} {n : Nat} (h : NextLexeme .initial bol w l n w') (hc : CleanLexeme l)
    (h1 : l.rule ≠ 1) : ∃ ts m, Scanned p l w' ts m := by
  have hl := h.lang
  have hsp := h.split
  by_cases h56 : l.rule = 5 ∨ l.rule = 6
  · rcases hl with ⟨hr, _⟩ | ⟨hr, u, hu, hw⟩ | ⟨hr, _, s, u, hs, hu, hw⟩ | ⟨hr, _⟩ | ⟨hr, _⟩ | hl
    · omega
    · obtain ⟨ht, v, hv⟩ := h.line h56 (u := '/' :: '/' :: u) hw
      refine ⟨[], .line, ?_, ?_, .line (by rw [hv]; rfl)⟩
      · rw [ht]
        have s1 : pscan .start c!"//" = ([], .line) := by decide +kernel
        have := pscan_of (b := u) s1
        rw [pscan_line u hu] at this
        exact this
      · simp [lexemeToks, Lexeme.token?, hr, pend, actKind]
    · obtain ⟨ht, v, hv⟩ := h.line h56 (u := s ++ '#' :: u) (by rw [hw]; simp)
      refine ⟨[], .dir u, ?_, ?_, .dir (by rw [hv]; rfl)⟩
      · rw [ht, pscan_of (pscan_blank s hs)]
        have s1 : pfirst '#' = .dir [] := by decide
        simp only [pscan, pstep, s1]
        rw [pscan_dir [] u hu]; rfl
      · simp [lexemeToks, hr, pend, ht, dirText_of hs]
    all_goals (exfalso; omega)
  · have h5 : l.rule ≠ 5 := fun h => h56 (.inl h)
    have h6 : l.rule ≠ 6 := fun h => h56 (.inr h)
    have hw := h.whole h5 h6
    have hk := hc.known
    obtain ⟨r, text, loc⟩ := l
    simp only at hw hk h5 h6 h1
    have word : ∀ k, actKind r = some k → IsIdent text → cToks ⟨k, actText r text⟩ = [.word text] → ∃ ts m, Scanned p ⟨r, text, loc⟩ w' ts m := by
      intro k hk ht hct
      refine ⟨[], .word text, pscan_ident ht, ?_, ?_⟩
      · simp [lexemeToks, h6, Lexeme.token?, hk, hct, pend]
      · simp only [lastKind, Lexeme.token?, hk, Option.map_some]
        exact .word (h.wordEnd h5 h6 (.inl ht))
    have op : ∀ k d, actKind r = some k → text = [d] → isPunct d k = true → pfirst d = .op [d] → cToks ⟨k, actText r text⟩ = [.tok (opTok [d])] →
        ∃ ts m, Scanned p ⟨r, text, loc⟩ w' ts m := by
      intro k d hk ht hp hf hct
      refine ⟨[], .op [d], ?_, ?_, ?_⟩
      · simp only [ht, pscan, pstep, hf]; rfl
      · simp [lexemeToks, h6, Lexeme.token?, hk, hct, pend]
      · simp only [lastKind, Lexeme.token?, hk, Option.map_some]
        exact .op hp
    have num : ∀ k, actKind r = some k → (k = .value ∨ k = .hexValue ∨ k = .fValue) → pscan .start text = ([], .num text) → actText r text = text →
        ∃ ts m, Scanned p ⟨r, text, loc⟩ w' ts m := by
      intro k hk hkk hs hat
      refine ⟨[], .num text, hs, ?_, ?_⟩
      · rcases hkk with rfl | rfl | rfl <;> simp [lexemeToks, h6, Lexeme.token?, hk, cToks, hat, pend]
      · simp only [lastKind, Lexeme.token?, hk, Option.map_some]
        exact .num hkk
    rcases hw with ⟨hr, _⟩ | ⟨hr, _⟩ | ⟨hr, _⟩ | ⟨hr, ht⟩ | ⟨hr, _, ht⟩ | ⟨hr, ht⟩ | ⟨hr, ht⟩ | ⟨hr, ht⟩ | ⟨hr, ht⟩ | ⟨hr, ht⟩ | ⟨hr, ht⟩ | ⟨hr, ht⟩ |
      ⟨hr, ht⟩ | ⟨hr, ht⟩ | ⟨hr, ht⟩ | ⟨hr, ht⟩ | ⟨hr, ht⟩ | ⟨hr, ht⟩ | ⟨hr, ht⟩ | ⟨hr, ht⟩ | ⟨hr, ht⟩ | ⟨hr, ht⟩ | ⟨hr, ht⟩ | ⟨hr, ht⟩ |
      ⟨hr, ht⟩ | ⟨hr, ht⟩ | ⟨hr, ht⟩ | ⟨hr, u, v, hu, hv, ht⟩ | ⟨hr, hne, ht⟩ | ⟨hr, u, hne, hu, ht⟩ | ⟨hr, u, d, v, f, hu, hd, hv, hf, ht⟩ | ⟨hr, ht⟩ |
      ⟨hr, ht⟩ | ⟨hr, ht⟩
    · exact absurd hr h1
    · exact absurd hr h5
    · exact absurd hr h6
    · refine ⟨[], .start, ?_, ?_, .start⟩
      · rcases ht with rfl | rfl <;> rfl
      · simp [lexemeToks, h6, Lexeme.token?, hr, actKind, pend]
    · refine ⟨[], .start, pscan_blank _ ht, ?_, .start⟩
      simp [lexemeToks, h6, Lexeme.token?, hr, actKind, pend]
    · exact op .blockStart '{' (by rw [hr]; rfl) ht (by decide) (by decide +kernel) (punct_toks (by decide))
    · exact op .blockEnd '}' (by rw [hr]; rfl) ht (by decide) (by decide +kernel) (punct_toks (by decide))
    · exact op .equals '=' (by rw [hr]; rfl) ht (by decide) (by decide +kernel) (punct_toks (by decide))
    · exact op .comma ',' (by rw [hr]; rfl) ht (by decide) (by decide +kernel) (punct_toks (by decide))
    · exact op .semicolon ';' (by rw [hr]; rfl) ht (by decide) (by decide +kernel) (punct_toks (by decide))
    · exact op .lessthan '<' (by rw [hr]; rfl) ht (by decide) (by decide +kernel) (punct_toks (by decide))
    · exact op .greaterthan '>' (by rw [hr]; rfl) ht (by decide) (by decide +kernel) (punct_toks (by decide))
    · exact word .enum (by rw [hr]; rfl) (by rw [ht]; exact ⟨_, _, rfl, by decide⟩) (by rw [ht]; rfl)
    · exact word .class_ (by rw [hr]; rfl) (by rw [ht]; exact ⟨_, _, rfl, by decide⟩) (by rw [ht]; rfl)
    · exact word .struct (by rw [hr]; rfl) (by rw [ht]; exact ⟨_, _, rfl, by decide⟩) (by rw [ht]; rfl)
    · exact word .int (by rw [hr]; rfl) (by rw [ht]; exact ⟨_, _, rfl, by decide⟩) (by rw [ht]; rfl)
    · exact word .short (by rw [hr]; rfl) (by rw [ht]; exact ⟨_, _, rfl, by decide⟩) (by rw [ht]; rfl)
    · exact word .long (by rw [hr]; rfl) (by rw [ht]; exact ⟨_, _, rfl, by decide⟩) (by rw [ht]; rfl)
    · exact word .unsigned (by rw [hr]; rfl) (by rw [ht]; exact ⟨_, _, rfl, by decide⟩) (by rw [ht]; rfl)
    · exact word .float (by rw [hr]; rfl) (by rw [ht]; exact ⟨_, _, rfl, by decide⟩) (by rw [ht]; rfl)
    · exact word .double (by rw [hr]; rfl) (by rw [ht]; exact ⟨_, _, rfl, by decide⟩) (by rw [ht]; rfl)
    · exact word .bool (by rw [hr]; rfl) (by rw [ht]; exact ⟨_, _, rfl, by decide⟩) (by rw [ht]; rfl)
    · exact word .true_ (by rw [hr]; rfl) (by rw [ht]; exact ⟨_, _, rfl, by decide⟩) (by rw [ht]; rfl)
    · exact word .false_ (by rw [hr]; rfl) (by rw [ht]; exact ⟨_, _, rfl, by decide⟩) (by rw [ht]; rfl)
    · refine ⟨[.word c!"std", .tok (.op .scope)], .word c!"string", ?_, ?_, ?_⟩
      · simp only [ht]; decide +kernel
      · simp [lexemeToks, Lexeme.token?, hr, actKind, pend, cToks]
      · exact .word (h.wordEnd h5 h6 (.inr ⟨c!"std", c!"string", ⟨_, _, rfl, by decide⟩, ⟨_, _, rfl, by decide⟩, ht⟩))
    · refine ⟨[.word c!"std", .tok (.op .scope)], .word c!"vector", ?_, ?_, ?_⟩
      · simp only [ht]; decide +kernel
      · simp [lexemeToks, Lexeme.token?, hr, actKind, pend, cToks]
      · exact .word (h.wordEnd h5 h6 (.inr ⟨c!"std", c!"vector", ⟨_, _, rfl, by decide⟩, ⟨_, _, rfl, by decide⟩, ht⟩))
    · exact word .name (by rw [hr]; rfl) ht (by simp [cToks, actText, hr])
    · refine ⟨[.word u, .tok (.op .scope)], .word v, ?_, ?_, ?_⟩
      · simp only [ht]; exact pscan_scope hu hv
      · simp [lexemeToks, Lexeme.token?, hr, actKind, pend, cToks, actText, ht, scopeParts_of hu]
      · exact .word (h.wordEnd h5 h6 (.inr ⟨u, v, hu, hv, ht⟩))
    · obtain ⟨c, t, rfl⟩ := List.exists_cons_of_ne_nil hne
      refine num .value (by rw [hr]; rfl) (.inl rfl) (pscan_number (ht c List.mem_cons_self) fun d hd => .inl ?_) (by simp [actText, hr])
      simp [isIdChar, ht d (List.mem_cons_of_mem _ hd)]
    · subst ht
      refine num .hexValue (by rw [hr]; rfl) (.inr (.inl rfl)) (pscan_number (by decide) fun d hd => .inl ?_) (by simp [actText, hr])
      rcases List.mem_cons.1 hd with rfl | hd
      · decide
      · exact hex_idChar (hu d hd)
    · have hcl := hc.float hr
      simp only at hcl
      obtain ⟨c, u', rfl⟩ := List.exists_cons_of_ne_nil hu.1
      have hc0 := hu.2 c List.mem_cons_self
      rw [List.cons_append] at ht
      subst ht
      refine num .fValue (by rw [hr]; rfl) (.inr (.inr rfl)) (pscan_number hc0 fun d hd => ?_) (by simp [actText, hr])
      rcases hcl d (List.mem_cons_of_mem _ hd) with h | h | rfl
      · exact .inl (by simp [isIdChar, h])
      · exact .inr h
      · exact .inl (by decide)
    · obtain ⟨s, hs⟩ := hc.string hr
      refine ⟨_, _, hs, ?_, .start⟩
      simp only at hs
      simp [lexemeToks, Lexeme.token?, hr, actKind, pend, cToks, actText, literal, hs]
    · obtain ⟨s, hs⟩ := hc.char hr
      refine ⟨_, _, hs, ?_, .start⟩
      simp only at hs
      simp [lexemeToks, Lexeme.token?, hr, actKind, pend, cToks, actText, literal, hs]
    · exact absurd hr hk

/-! ### A text -/

theorem pscan_ready {m : PMode} {c : Char} {v : Str} (h : pstep m c = (pend m, pfirst c)) :
    pscan m (c :: v) = (pend m ++ (pscan .start (c :: v)).1, (pscan .start (c :: v)).2) := by
  have e : pstep .start c = ([], pfirst c) := rfl
  simp only [pscan, h, e, List.nil_append]

theorem Adj.next {p : Option TokKind} {l : Lexeme} {ls : List Lexeme} (h : Adj p (tokensOf (l :: ls))) : Adj (lastKind p l) (tokensOf ls) := by
  unfold lastKind
  rw [tokensOf_cons] at h
  cases ht : l.token? with
  | none => rw [ht] at h; exact h
  | some t => rw [ht] at h; exact Adj.tail h

/-- C++ finds in a text the tokens of the lexemes that stfx finds in it. -/
theorem scan_lexemes (N : Nat) : ∀ (st : LexSt) (w : Str) (ls : List Lexeme), w.length ≤ N → lexFrom st w = some ls →
    (∀ l ∈ ls, CleanLexeme l) → endSC st.sc ls = .initial →
    (st.sc = .initial → ∀ p m, After p m w → Adj p (tokensOf ls) → pscan m (w ++ ['\n']) = (pend m ++ ls.flatMap lexemeToks, .start)) ∧
    (st.sc = .cComment → ∀ p m, (m = .comment ∨ m = .star ∧ w.head? ≠ some '/') → Adj p (tokensOf ls) →
      pscan m (w ++ ['\n']) = (ls.flatMap lexemeToks, .start)) := by
  induction N with
  | zero =>
    intro st w ls hw h hc he
    have : w = [] := List.length_eq_zero_iff.1 (by omega)
    subst this
    have hls : ls = [] := by simpa [lexFrom, lexFuel] using h.symm
    subst hls
    refine ⟨fun hs p m ha had => ?_, fun hs => ?_⟩
    · have := ready ha h hs hc had (c := '\n') (v := []) rfl
      rw [List.nil_append, pscan_ready this]
      have : pscan .start ['\n'] = ([], .start) := by decide
      rw [this]; rfl
    · rw [hs] at he; cases he
  | succ N ih =>
    intro st w ls hw h hc he
    cases w with
    | nil => exact ih st [] ls (by simp) h hc he
    | cons c w =>
      obtain ⟨l, n, w', ls', rfl, hn, htl⟩ := lex_cases h
      have hlen : w'.length ≤ N := by have := hn.shorter; simp only [List.length_cons] at *; omega
      have hcl := hc l List.mem_cons_self
      have hc' : ∀ l ∈ ls', CleanLexeme l := fun x hx => hc x (List.mem_cons_of_mem _ hx)
      have hnsc : (st.next l.rule l.text).sc = nextSC st.sc l.rule := rfl
      have he' : endSC (st.next l.rule l.text).sc ls' = .initial := he
      obtain ⟨ih1, ih2⟩ := ih _ _ _ hlen htl hc' he'
      refine ⟨fun hs p m ha had => ?_, fun hs p m hm had => ?_⟩
      · rw [List.cons_append, pscan_ready (ready ha h hs hc had (by rw [List.cons_append]))]
        rw [← List.cons_append, hn.split, List.append_assoc]
        have hn' := hn
        rw [hs] at hn'
        by_cases h1 : l.rule = 1
        · have ht : l.text = c!"/*" := by
            have := hn'.whole (by omega) (by omega)
            simp only [ruleLang, h1] at this
            simpa using this
          have s1 : pscan .start l.text = ([], .comment) := by rw [ht]; decide +kernel
          rw [pscan_of s1, ih2 (by rw [hnsc, h1]; rfl) _ .comment (.inl rfl) had.next]
          simp [lexemeToks, h1, Lexeme.token?, actKind]
        · obtain ⟨ts, m', hsc⟩ := scanned (p := p) hn' hcl h1
          have hns : (st.next l.rule l.text).sc = .initial := by
            rw [hnsc, hs]; unfold nextSC; rw [if_neg h1]; split <;> rfl
          rw [pscan_of hsc.scan, ih1 hns _ m' hsc.after had.next]
          simp only [List.flatMap_cons, ← hsc.toks, List.append_assoc]
      · have hn' := hn
        rw [hs] at hn'
        have hl : ruleLang st.bol .cComment l.rule l.text := by
          have h56 : l.rule ≠ 5 ∧ l.rule ≠ 6 := by
            have := hn'.lang
            rcases this with ⟨h, _⟩ | ⟨h, _⟩ | ⟨h, _⟩ | ⟨h, _⟩ <;> omega
          exact hn'.whole h56.1 h56.2
        rw [hn.split, List.append_assoc]
        have hsplit := hn.split
        rcases hl with ⟨hr, ht⟩ | ⟨hr, d, hd, ht⟩ | ⟨hr, ht⟩ | ⟨hr, _⟩
        · have s1 : pscan m l.text = ([], .comment) := by
            rw [ht]
            rcases hm with rfl | ⟨rfl, _⟩ <;> decide
          have hns : (st.next l.rule l.text).sc = .cComment := by rw [hnsc, hs, hr]; rfl
          rw [pscan_of s1, ih2 hns _ .comment (.inl rfl) had.next]
          simp [lexemeToks, hr, Lexeme.token?, actKind]
        · have hns : (st.next l.rule l.text).sc = .cComment := by rw [hnsc, hs, hr]; rfl
          have hdc : d = c := by
            rw [ht] at hsplit
            simp only [List.cons_append, List.cons.injEq] at hsplit
            exact hsplit.1.symm
          by_cases hstar : d = '*'
          · have s1 : pscan m l.text = ([], .star) := by
              rw [ht, hstar]
              rcases hm with rfl | ⟨rfl, _⟩ <;> decide
            have hnot : w'.head? ≠ some '/' := by
              intro hh
              obtain ⟨x, hx⟩ : ∃ x, w' = '/' :: x := by cases w' with
                | nil => cases hh
                | cons d x => simp only [List.head?_cons, Option.some.injEq] at hh; exact ⟨x, by rw [hh]⟩
              have hn1 : n = 1 := by
                have e : adjLen l.rule n = n := by unfold adjLen; rw [if_neg (by omega)]
                have := congrArg List.length hn'.text
                rw [e, ht, List.length_take] at this
                have := hn'.len
                simp at *
                omega
              have := hn'.munch.longest 4 2 (cand_iff.2 ⟨by omega, by rw [hsplit, ht, hx]; simp, by
                rw [hsplit, ht, hx, hstar]; simp [ruleLang]⟩)
              omega
            rw [pscan_of s1, ih2 hns _ .star (.inr ⟨rfl, hnot⟩) had.next]
            simp [lexemeToks, hr, Lexeme.token?, actKind]
          · have s1 : pscan m l.text = ([], .comment) := by
              rw [ht]
              rcases hm with rfl | ⟨rfl, hx⟩
              · simp [pscan, pstep, hstar]
              · have : d ≠ '/' := by rintro rfl; exact hx (by rw [← hdc]; rfl)
                simp [pscan, pstep, hstar, this]
            rw [pscan_of s1, ih2 hns _ .comment (.inl rfl) had.next]
            simp [lexemeToks, hr, Lexeme.token?, actKind]
        · have s1 : pscan m l.text = ([], .start) := by
            rw [ht]
            rcases hm with rfl | ⟨rfl, _⟩ <;> decide
          have hns : (st.next l.rule l.text).sc = .initial := by rw [hnsc, hr]; rfl
          rw [pscan_of s1, ih1 hns _ .start .start had.next]
          simp [lexemeToks, hr, Lexeme.token?, actKind, pend]
        · exact absurd hr hcl.known

end Stfx.Cpp
