import Verif.Parser.Echo
import Verif.Props.C74_Messages
/-
Property C76: what is skipped in an input file shows up on the console.
-/
set_option autoImplicit false
namespace Stfx.Lexer

/-- The state of the scanner after some lexemes. -/
theorem lexFrom_mid {st : LexSt} {w : Str} {pre post : List Lexeme} {l : Lexeme} (hc : 1 ≤ st.loc.last.col)
    (h : lexFrom st w = some (pre ++ l :: post)) :
    ∃ st' w', lexFrom st' w' = some (l :: post) ∧
      st'.bol = (match (pre.map Lexeme.text).flatten.getLast? with | some c => c == '\n' | none => st.bol) ∧
      st'.loc.last.line = st.loc.last.line + nls (pre.map Lexeme.text).flatten ∧
      st'.loc.last.col = colAfter st.loc.last.col pre ∧ 1 ≤ st'.loc.last.col ∧
      st'.sc = pre.foldl (fun sc a => nextSC sc a.rule) st.sc := by
  induction pre generalizing st w with
  | nil => exact ⟨st, w, h, rfl, rfl, rfl, hc, rfl⟩
  | cons a pre ih =>
    cases w with
    | nil => rw [lexFrom_nil] at h; simp at h
    | cons c w =>
      obtain ⟨r, k, hm, hp, hl, he⟩ := lexStep_spec st (c :: w) (by simp)
      rw [lexFrom_step (by simp) he] at h
      cases hls : lexFrom (st.next r ((c :: w).take (adjLen r k))) ((c :: w).drop (adjLen r k)) with
      | none => rw [hls] at h; simp at h
      | some ls' =>
        rw [hls] at h
        simp only [Option.map_some, Option.some.injEq, List.cons_append, List.cons.injEq] at h
        obtain ⟨rfl, rfl⟩ := h
        have e : (st.next r ((c :: w).take (adjLen r k))).loc.last.col = _ := nextLoc_col hc
        have hne : (c :: w).take (adjLen r k) ≠ [] := by
          intro h0
          have := congrArg List.length h0
          simp only [List.length_take, List.length_nil] at this
          omega
        obtain ⟨st', w', g1, g2, g3, g4, g5, g6⟩ := ih (by
          rw [e]
          split
          · exact hc
          · split
            · exact Nat.le_refl 1
            · exact Nat.le_trans hc (Nat.le_add_right _ _)) hls
        refine ⟨st', w', g1, ?_, ?_, ?_, g5, ?_⟩
        · rw [g2]
          simp only [List.map_cons, List.flatten_cons, List.getLast?_append]
          cases hx : (pre.map Lexeme.text).flatten.getLast? with
          | some x => rfl
          | none =>
            simp only [Option.none_or]
            cases hy : ((c :: w).take (adjLen r k)).getLast? with
            | none => exact absurd (List.getLast?_eq_none_iff.1 hy) hne
            | some y => simp only [LexSt.next, hy]
        · rw [g3]
          have h1 := munch_nls hm
          simp only [LexSt.next, nextLoc_line, List.map_cons, List.flatten_cons, nls, List.count_append] at h1 ⊢
          omega
        · rw [g4, e]; rfl
        · rw [g6]; rfl

/-- The first lexeme. -/
theorem lexFrom_head {st : LexSt} {w : Str} {post : List Lexeme} {l : Lexeme} (h : lexFrom st w = some (l :: post)) :
    ∃ n, IsMunch st.sc st.bol w l.rule n ∧ l.text = w.take (adjLen l.rule n) ∧ w = l.text ++ (post.map Lexeme.text).flatten ∧
      l.loc = nextLoc st.loc l.rule l.text.length := by
  have hf := (lexFrom_flatten h).1
  cases w with
  | nil => rw [lexFrom_nil] at h; simp at h
  | cons c w =>
    obtain ⟨r, k, hm, hp, hl, he⟩ := lexStep_spec st (c :: w) (by simp)
    rw [lexFrom_step (by simp) he] at h
    cases hls : lexFrom (st.next r ((c :: w).take (adjLen r k))) ((c :: w).drop (adjLen r k)) with
    | none => rw [hls] at h; simp at h
    | some ls' =>
      rw [hls] at h
      simp only [Option.map_some, Option.some.injEq, List.cons.injEq] at h
      obtain ⟨rfl, rfl⟩ := h
      exact ⟨k, hm, rfl, hf.symm, rfl⟩

end Stfx.Lexer
namespace Stfx.Parser
open Stfx.Lexer

/-- The text ends with a newline, or there is none.  (Specification notion, models no code.) -/
def AtLineStart (w : Str) : Prop := w = [] ∨ w.getLast? = some '\n'

/-- A block comment has been opened and not closed.  (Specification notion, models no code.) -/
def Open (pre : List Lexeme) : Prop :=
  ∃ a o b, pre = a ++ o :: b ∧ o.text = c!"/*" ∧ ∀ x ∈ b, x.text ≠ c!"*/"

/-- Text that may be left out of a header without a trace: blanks and line ends, a comment up to the end of the line,
parts of a block comment.  (Specification notion, models no code.) -/
def Layout (pre : List Lexeme) (l : Lexeme) (after : Str) : Prop :=
  (∀ c ∈ l.text, isBlank c = true) ∨ l.text = c!"\n" ∨ l.text = c!"\r\n" ∨
  (c!"//" <+: l.text ∧ after.head? = some '\n') ∨ l.text = c!"/*" ∨ Open pre

theorem upTo_spec (pre : List Lexeme) {l : Lexeme} (post : List Lexeme) (ht : l.token?.isSome = true) :
    upTo ((tokensOf pre).length + 1) (pre ++ l :: post) = pre ++ [l] := by
  induction pre with
  | nil => simp [upTo, ht, tokensOf]
  | cons a pre ih =>
    rw [List.cons_append]
    cases ha : a.token? with
    | none =>
      have e : tokensOf (a :: pre) = tokensOf pre := by simp [tokensOf, ha]
      rw [e, upTo, ha]
      simp [ih]
    | some t =>
      have e : tokensOf (a :: pre) = t :: tokensOf pre := by simp [tokensOf, ha]
      rw [e, List.length_cons, upTo, ha]
      simp [ih]

theorem token_silent {l : Lexeme} (h : l.token?.isSome = true) : lexemeSays l = [] := by
  have := token_rule (l := l) (by intro e; rw [e] at h; cases h)
  unfold lexemeSays
  rw [if_neg (by omega), if_neg (by omega)]

/-! ### C76 -/

/-- C76: while a file is read, the scanner prints what the lexemes of the file print, up to the offending token if
there is one. -/
theorem C76_file (w : Str) :
    ∃ ls, lexFile w = some ls ∧
      (((∃ hd : Header, tokensOf ls <+: hd.toks) ∧ fileEchoes w = some (ls.flatMap lexemeSays)) ∨
       (∃ pre l post t, ls = pre ++ l :: post ∧ l.token? = some t ∧ (∃ hd : Header, tokensOf pre <+: hd.toks) ∧
         ¬ CanFollow (tokensOf pre) t.kind ∧ fileEchoes w = some (pre.flatMap lexemeSays))) := by
  obtain ⟨ls, hls, _⟩ := C02_total_lossless w
  refine ⟨ls, hls, ?_⟩
  have hts : toksFile w = some (tokensOf ls) := by
    unfold toksFile toksFrom
    rw [show lexFrom LexSt.init w = some ls from hls]
    rfl
  have ok := scanned_ok hts
  unfold fileEchoes
  rw [hls]
  simp only
  rcases C09_total (tokensOf ls) with ⟨log, h⟩ | ⟨log, t, rest, h⟩
  · left
    rw [h]
    obtain ⟨hd, e⟩ := (C08_grammar_shape ok).1 ((C08_accept_iff ok).1 ⟨log, h⟩)
    exact ⟨⟨hd, by rw [e]; exact List.prefix_refl _⟩, rfl⟩
  · obtain ⟨p, s, hb, _, _, _, hpre, hnot, _, _, _⟩ := rejected_facts ok h
    rw [h]
    simp only
    rcases hb with hb | ⟨hb, rfl, rfl⟩
    · right
      have hkind : t.kind ≠ .eof := (ok t (by rw [hb]; simp)).1
      obtain ⟨pre, l, post, e1, e2, e3, e4⟩ := lexeme_of hb
      subst e3 e4
      refine ⟨pre, l, post, t, e1, e2, hpre, hnot, ?_⟩
      unfold matched
      rw [if_neg hkind, hb, List.length_append, List.length_cons,
        show (tokensOf pre).length + ((tokensOf post).length + 1) - (tokensOf post).length = (tokensOf pre).length + 1
          by omega, e1, upTo_spec pre post (by rw [e2]; rfl), List.flatMap_append, List.flatMap_cons,
        token_silent (by rw [e2]; rfl)]
      simp
    · left
      rw [hb]
      exact ⟨hpre, rfl⟩

/-- C76: a line that is skipped because it begins with `#` is reported, with its line number, column 1 and its text (up
to the first null character); the whole line is skipped, and nothing else. -/
theorem C76_directive {w : Str} {pre post : List Lexeme} {l : Lexeme}
    (h : lexFile w = some (pre ++ l :: post)) (h6 : l.rule = 6) :
    ∃ before after blanks text, w = before ++ l.text ++ after ∧ before = (pre.map Lexeme.text).flatten ∧
      AtLineStart before ∧ after.head? = some '\n' ∧
      l.text = blanks ++ '#' :: text ∧ (∀ c ∈ blanks, isBlank c = true) ∧ '\n' ∉ text ∧
      lexemeSays l = c!"WARNING : [" ++ Stfx.Run.natText (1 + before.count '\n') ++
        c!", 1] ignoring pre-processor line : " ++ l.text.takeWhile (· != '\x00') ++ c!"\n" := by
  obtain ⟨st', w', g1, g2, g3, g4, g5, g6⟩ := lexFrom_mid (Nat.le_refl 1) h
  obtain ⟨n, hm, ht, hw', hloc⟩ := lexFrom_head g1
  have hf := (lexFrom_flatten h).1
  obtain ⟨hn, hle, hl⟩ := cand_iff.1 hm.cand
  have hsc : st'.sc = .initial := by
    cases hs : st'.sc with
    | initial => rfl
    | cComment => rw [hs, h6] at hl; simp [ruleLang] at hl
  rw [hsc, h6] at hl
  simp only [ruleLang, Nat.reduceEqDiff, false_and, true_and, false_or, or_false] at hl
  obtain ⟨hbol, s, u, hs, hu, e⟩ := hl
  have hstart : AtLineStart (pre.map Lexeme.text).flatten := by
    rw [hbol] at g2
    cases hx : (pre.map Lexeme.text).flatten.getLast? with
    | none => exact Or.inl (List.getLast?_eq_none_iff.1 hx)
    | some c =>
      rw [hx] at g2
      right
      rw [hx]
      have : (c == '\n') = true := g2.symm
      rw [beq_iff_eq.1 this]
  have htext : l.text = s ++ '#' :: u := by
    rw [ht, h6, show adjLen 6 n = n - 1 from rfl]
    have hlen : (w'.take n).length = n := by rw [List.length_take]; omega
    have e2 : w'.take (n - 1) = (w'.take n).take (n - 1) := by rw [List.take_take, Nat.min_eq_left (by omega)]
    rw [e2, e]
    rw [e] at hlen
    rw [show s ++ '#' :: (u ++ ['\n']) = (s ++ '#' :: u) ++ ['\n'] by simp,
      List.take_append_of_le_length (by simp at hlen ⊢; omega), List.take_of_length_le (by simp at hlen ⊢; omega)]
  have hafter : (post.map Lexeme.text).flatten.head? = some '\n' := by
    have e2 : w' = (s ++ '#' :: u) ++ '\n' :: w'.drop n := by
      rw [show (s ++ '#' :: u) ++ '\n' :: w'.drop n = (s ++ '#' :: (u ++ ['\n'])) ++ w'.drop n by simp, ← e,
        List.take_append_drop]
    have e3 : (post.map Lexeme.text).flatten = '\n' :: w'.drop n := by
      have := hw'.symm.trans e2
      rw [htext] at this
      exact List.append_cancel_left this
    rw [e3]; rfl
  refine ⟨_, (post.map Lexeme.text).flatten, s, u, ?_, rfl, hstart, hafter, htext, hs, fun hmem => hu _ hmem rfl, ?_⟩
  · rw [← hf]; simp
  · unfold lexemeSays
    rw [if_pos h6]
    have hfirst : l.loc.first = st'.loc.last := by
      rw [hloc, h6]; rfl
    have hcol : st'.loc.last.col = 1 := by
      obtain ⟨early, line, h3, h4, h5⟩ := colAfter_spec (lexFrom_scanned h).append [] 1 [] [] rfl rfl rfl
      rw [g4]
      rw [show colAfter LexSt.init.loc.last.col pre = colAfter 1 pre from rfl, h5]
      have hz : (line.map Lexeme.text).flatten = [] := by
        rw [← h4]
        simp only [List.append_nil, List.nil_append]
        rcases hstart with e | e
        · rw [e]; rfl
        · exact lineOf_ends e
      have := filter_length_le line (fun l => !l.stray)
      rw [hz] at this
      simp only [List.length_nil] at this
      omega
    rw [hfirst, hcol, g3, show Stfx.Run.natText 1 = c!"1" by decide +kernel]
    simp only [List.append_assoc]
    rfl

/-- A character no rule matches is printed as it is. -/
theorem C76_character {w : Str} {pre post : List Lexeme} {l : Lexeme}
    (h : lexFile w = some (pre ++ l :: post)) (h37 : l.rule = 37) :
    ∃ c, l.text = [c] ∧ plainChar c = false ∧ lexemeSays l = [c] := by
  obtain ⟨st', w', g1, _⟩ := lexFrom_mid (Nat.le_refl 1) h
  obtain ⟨n, hm, ht, _, _⟩ := lexFrom_head g1
  obtain ⟨hn, hle, hl⟩ := cand_iff.1 hm.cand
  rw [show adjLen l.rule n = n by rw [h37]; rfl] at ht
  rw [← ht, h37] at hl
  have hc : ∃ c, l.text = [c] := by
    cases hs : st'.sc <;> rw [hs] at hl <;> simp [ruleLang] at hl <;> exact hl
  obtain ⟨c, hc⟩ := hc
  obtain ⟨d, hd, hp⟩ := (lexFrom_scanned h).stray l (by simp) (by simp [Lexeme.stray, h37])
  refine ⟨c, hc, ?_, ?_⟩
  · rw [hc] at hd
    rw [← List.mem_singleton.1 hd]; exact hp
  · unfold lexemeSays
    rw [if_neg (by omega), if_pos h37, hc]

/-- The scanner is in a comment iff one is open. -/
theorem fold_open {pre : List Lexeme} (h : Scanned .initial pre)
    (hs : pre.foldl (fun sc a => nextSC sc a.rule) .initial = .cComment) : Open pre := by
  suffices H : ∀ (ls : List Lexeme) (sc : SC) (done : List Lexeme), Scanned sc ls → (sc = .cComment → Open done) →
      ls.foldl (fun sc a => nextSC sc a.rule) sc = .cComment → Open (done ++ ls) from
    H pre .initial [] h (fun e => by cases e) hs
  intro ls
  induction ls with
  | nil => intro sc done _ h1 h2; rw [List.append_nil]; exact h1 h2
  | cons l ls ih =>
    intro sc done hsc h1 h2
    rw [show done ++ l :: ls = (done ++ [l]) ++ ls by simp]
    cases hsc with
    | @cons _ _ _ bol w n hm ht hsc =>
      apply ih _ _ hsc _ h2
      intro hnext
      obtain ⟨hn, hle, hl⟩ := cand_iff.1 hm.cand
      by_cases hr1 : l.rule = 1
      · rw [hr1, show adjLen 1 n = n from rfl] at ht
        rw [← ht, hr1] at hl
        have : l.text = c!"/*" := by cases sc <;> simp [ruleLang] at hl; exact hl
        exact ⟨done, l, [], rfl, this, by simp⟩
      · by_cases hr4 : l.rule = 4
        · rw [hr4] at hnext; simp [nextSC] at hnext
        · have hsc' : sc = .cComment := by simpa [nextSC, hr1, hr4] using hnext
          obtain ⟨a, o, b, e1, e2, e3⟩ := h1 hsc'
          refine ⟨a, o, b ++ [l], by rw [e1]; simp, e2, ?_⟩
          intro x hx
          rcases List.mem_append.1 hx with hx | hx
          · exact e3 x hx
          · rw [List.mem_singleton.1 hx]
            intro he
            rw [hsc'] at hl
            have h56 : ¬ (l.rule = 5 ∨ l.rule = 6) := by
              rintro (h5 | h5) <;> rw [h5] at hl <;> simp [ruleLang] at hl
            rw [show adjLen l.rule n = n by unfold adjLen; rw [if_neg h56]] at ht
            rw [← ht, he] at hl
            simp [ruleLang] at hl
            exact hr4 hl

/-- C76: what is neither a token nor printed is a blank, a line end or a comment. -/
theorem C76_silent {w : Str} {pre post : List Lexeme} {l : Lexeme}
    (h : lexFile w = some (pre ++ l :: post)) (ht : l.token? = none) (hs : lexemeSays l = []) :
    Layout pre l (post.map Lexeme.text).flatten := by
  obtain ⟨st', w', g1, _, _, _, _, g6⟩ := lexFrom_mid (Nat.le_refl 1) h
  obtain ⟨n, hm, htx, hw', _⟩ := lexFrom_head g1
  obtain ⟨hn, hle, hl⟩ := cand_iff.1 hm.cand
  have hne : l.text ≠ [] := (lexFrom_flatten h).2 l (by simp)
  unfold Layout
  cases hsc : st'.sc with
  | cComment =>
    rw [hsc] at g6
    right; right; right; right; right
    exact fold_open (lexFrom_scanned h).append g6.symm
  | initial =>
    rw [hsc] at hl
    have h6 : l.rule ≠ 6 := by
      intro e
      unfold lexemeSays at hs
      rw [if_pos e] at hs
      simp at hs
    have h37 : l.rule ≠ 37 := by
      intro e
      unfold lexemeSays at hs
      rw [if_neg h6, if_pos e] at hs
      exact hne hs
    have hact : actKind l.rule = none := by simpa [Lexeme.token?] using ht
    by_cases h5 : l.rule = 5
    · right; right; right; left
      rw [h5] at hl
      simp only [ruleLang, Nat.reduceEqDiff, false_and, true_and, false_or, or_false] at hl
      obtain ⟨u, hu, e⟩ := hl
      rw [h5, show adjLen 5 n = n - 1 from rfl] at htx
      have hlen : (w'.take n).length = n := by rw [List.length_take]; omega
      have e2 : w'.take (n - 1) = (w'.take n).take (n - 1) := by rw [List.take_take, Nat.min_eq_left (by omega)]
      have htext : l.text = '/' :: '/' :: u := by
        rw [htx, e2, e]
        rw [e] at hlen
        rw [show '/' :: '/' :: (u ++ ['\n']) = ('/' :: '/' :: u) ++ ['\n'] by simp,
          List.take_append_of_le_length (by simp at hlen ⊢; omega), List.take_of_length_le (by simp at hlen ⊢; omega)]
      refine ⟨⟨u, htext.symm⟩, ?_⟩
      have e2 : w' = ('/' :: '/' :: u) ++ '\n' :: w'.drop n := by
        rw [show ('/' :: '/' :: u) ++ '\n' :: w'.drop n = ('/' :: '/' :: (u ++ ['\n'])) ++ w'.drop n by simp, ← e,
          List.take_append_drop]
      have e3 : (post.map Lexeme.text).flatten = '\n' :: w'.drop n := by
        have := hw'.symm.trans e2
        rw [htext] at this
        exact List.append_cancel_left this
      rw [e3]; rfl
    · rw [show adjLen l.rule n = n by unfold adjLen; rw [if_neg (by omega)]] at htx
      rw [← htx] at hl
      simp only [ruleLang] at hl
      rcases hl with ⟨h1, e⟩ | ⟨h1, _⟩ | ⟨h1, _⟩ | ⟨h1, e⟩ | ⟨h1, _, e⟩ | hl
      · right; right; right; right; left; exact e
      · exact absurd h1 h5
      · exact absurd h1 h6
      · rcases e with e | e
        · right; left; exact e
        · right; right; left; exact e
      · left; exact e
      · exfalso
        have hr : ∃ k, 9 ≤ k ∧ k ≤ 36 ∧ l.rule = k := by
          rcases hl with hl | hl | hl | hl | hl | hl | hl | hl | hl | hl | hl | hl | hl | hl | hl | hl | hl | hl | hl | hl |
            hl | hl | hl | hl | hl | hl | hl | hl | hl
          all_goals first | exact ⟨_, by omega, by omega, hl.1⟩ | exact absurd hl.1 h37
        obtain ⟨k, hk1, hk2, hk⟩ := hr
        rw [hk] at hact
        have : k = 9 ∨ k = 10 ∨ k = 11 ∨ k = 12 ∨ k = 13 ∨ k = 14 ∨ k = 15 ∨ k = 16 ∨ k = 17 ∨ k = 18 ∨ k = 19 ∨ k = 20 ∨
          k = 21 ∨ k = 22 ∨ k = 23 ∨ k = 24 ∨ k = 25 ∨ k = 26 ∨ k = 27 ∨ k = 28 ∨ k = 29 ∨ k = 30 ∨ k = 31 ∨ k = 32 ∨
          k = 33 ∨ k = 34 ∨ k = 35 ∨ k = 36 := by omega
        rcases this with rfl | rfl | rfl | rfl | rfl | rfl | rfl | rfl | rfl | rfl | rfl | rfl | rfl | rfl | rfl | rfl |
          rfl | rfl | rfl | rfl | rfl | rfl | rfl | rfl | rfl | rfl | rfl | rfl <;> cases hact

/-- C76: a file about which nothing is printed, neither by the scanner nor by the parser, is a header, and nothing in it
is skipped but blanks, line ends and comments. -/
theorem C76_quiet {w : Str} (he : fileEchoes w = some []) (hr : fileErrors w = some []) :
    ∃ ls, lexFile w = some ls ∧ (∃ hd : Header, tokensOf ls = hd.toks) ∧
      ∀ pre l post, ls = pre ++ l :: post → l.token? ≠ none ∨ Layout pre l (post.map Lexeme.text).flatten := by
  obtain ⟨ls, hls, hcases⟩ := C74_file w
  obtain ⟨hd, e⟩ : ∃ hd : Header, tokensOf ls = hd.toks := by
    rcases hcases with ⟨h, _⟩ | ⟨pre, l, post, t, E, _, _, _, _, _, h⟩ | ⟨place, E, _, _, _, h⟩
    · exact h
    · rw [hr] at h; simp at h
    · rw [hr] at h; simp at h
  refine ⟨ls, hls, ⟨hd, e⟩, ?_⟩
  have hsay : ∀ l ∈ ls, lexemeSays l = [] := by
    have hts : toksFile w = some (tokensOf ls) := by
      unfold toksFile toksFrom
      rw [show lexFrom LexSt.init w = some ls from hls]
      rfl
    have ok := scanned_ok hts
    obtain ⟨log, hacc⟩ := (C08_accept_iff ok).2 ((C08_grammar_shape ok).2 ⟨hd, e⟩)
    unfold fileEchoes at he
    rw [hls] at he
    simp only [hacc, Option.some.injEq, List.flatMap_eq_nil_iff] at he
    exact he
  intro pre l post hsplit
  cases ht : l.token? with
  | some t => left; simp
  | none =>
    right
    exact C76_silent (by rw [hls, hsplit]) ht (hsay l (by rw [hsplit]; simp))

example : fileEchoes c!"struct S {\n int i; // s\n};" = some [] ∧ fileErrors c!"struct S {\n int i; // s\n};" = some [] := by
  decide +kernel

/-- A header with directives, a comment and stray characters, and a file with an error. -/
example : fileEchoes c!"#pragma once\n\n  #include <a.h>\nstruct S { // s\n int i @;\n}; /* # */" =
    some (c!"WARNING : [1, 1] ignoring pre-processor line : #pragma once\n" ++
      c!"WARNING : [3, 1] ignoring pre-processor line :   #include <a.h>\n" ++ c!"@") := by decide +kernel
example : fileEchoes c!"struct S { ? }\n#end\n" = some c!"?" := by decide +kernel

end Stfx.Parser
