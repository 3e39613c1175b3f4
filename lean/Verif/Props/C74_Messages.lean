import Verif.Parser.Viable
import Verif.Props.C01_C07_Lexer
import Verif.Props.C08_C11_Parser
import Verif.Props.C75_Columns
/-
Property C74: syntax error messages.
-/
set_option autoImplicit false
namespace Stfx.Parser
open Stfx.Lexer

/-- `p` are the tokens before the offending token `t`, which is a token of the sequence or its end.  (Specification
notion, models no code.) -/
def Before (toks p : List Token) (t : Token) (rest : List Token) : Prop :=
  toks = p ++ t :: rest ∨ (toks = p ∧ t = eofTok ∧ rest = [])

/-- The state in which the error is found. -/
theorem rejected_facts {toks : List Token} (ok : AllOk toks) {log : List Call} {t : Token} {rest : List Token}
    (h : parse toks = .rejected log (some t) rest) :
    ∃ p s, Before toks p t rest ∧ s < 96 ∧ s ≠ yyfinal ∧ action s t.kind = some .error ∧
      (∃ hd : Header, p <+: hd.toks) ∧ ¬ CanFollow p t.kind ∧ (∀ k ∈ shiftKinds s, CanFollow p k) ∧
      ((∀ k, CanFollow p k → k ∈ shiftKinds s) ∨ (shiftKinds s = [.eof] ∧ ∃ hd : Header, p = hd.toks) ∨
        (shiftKinds s = [.blockEnd] ∧ ∃ hd : Header, p ++ [tk .blockEnd, tk .semicolon] = hd.toks)) ∧
      parseReport toks = .text (c!"syntax error, unexpected " ++ kindName t.kind ++ expecting (listed s)) := by
  obtain ⟨n, st, inp, g1, g2, g3, g4⟩ := report_rejected (fuelFor toks) (c := Cfg.init toks) (inp := toks)
    (Or.inl rfl) h
  obtain ⟨p, hp⟩ := asteps_suffix n g1
  simp only [Cfg.init] at hp g1
  have hne : ∀ x ∈ inp, x.kind ≠ .eof := fun x hx => (ok x (by rw [hp]; simp [hx])).1
  have okp : AllOk p := fun x hx => ok x (by rw [hp]; simp [hx])
  rw [hp] at g1
  obtain ⟨top, r, hst, hlt, hf, hact, f1, f2, f3, f4⟩ := error_facts okp hne g1 g2
  have hhead : inp.headD eofTok = t := by
    rcases g3 with e | ⟨e1, _, e3⟩
    · rw [e]; rfl
    · rw [e3]; cases e1; rfl
  rw [hhead] at hact f2
  refine ⟨p, top.state, ?_, hlt, hf, hact, f1, f2, f3, f4, ?_⟩
  · rcases g3 with e | ⟨e1, e2, e3⟩
    · left; rw [hp, e]; rfl
    · right
      cases e1
      rw [e3, List.append_nil] at hp
      exact ⟨hp, rfl, e2⟩
  · exact g4 top _ (by rw [hst]; rfl) ((row hlt hf hact).2.1 t)

/-! ### C74 -/

/-- C74: an error is reported exactly for the token sequences that are not headers, and it is reported at the first
token that makes it impossible to go on: what comes before that token can be completed to a header, but not by a token
of that kind. -/
theorem C74_position {toks : List Token} (ok : AllOk toks) :
    ((∃ hd : Header, toks = hd.toks) ∧ parseReport toks = .nothing) ∨
    ∃ log t rest p m, parse toks = .rejected log (some t) rest ∧ parseReport toks = .text m ∧ Before toks p t rest ∧
      (∃ hd : Header, p <+: hd.toks) ∧ ¬ CanFollow p t.kind := by
  rcases C09_total toks with ⟨log, h⟩ | ⟨log, t, rest, h⟩
  · left
    exact ⟨(C08_grammar_shape ok).1 ((C08_accept_iff ok).1 ⟨log, h⟩), report_accepted _ h⟩
  · right
    obtain ⟨p, s, h1, _, _, _, h2, h3, _, _, h4⟩ := rejected_facts ok h
    exact ⟨log, t, rest, p, _, h, h4, h1, h2, h3⟩

/-- C74: the message names the offending token and at most four others; each of these can come next. -/
theorem C74_message {toks : List Token} (ok : AllOk toks) {log : List Call} {t : Token} {rest : List Token}
    (h : parse toks = .rejected log (some t) rest) :
    ∃ p E, Before toks p t rest ∧
      parseReport toks = .text (c!"syntax error, unexpected " ++ kindName t.kind ++ expecting E) ∧
      E.length ≤ 4 ∧ E.Nodup ∧ t.kind ∉ E ∧ ∀ k ∈ E, CanFollow p k := by
  obtain ⟨p, s, h1, _, _, hact, h2, h3, h4, _, h5⟩ := rejected_facts ok h
  refine ⟨p, listed s, h1, h5, ?_, ?_, ?_, ?_⟩
  · unfold listed; split
    · assumption
    · simp
  · unfold listed; split
    · exact shiftKinds_nodup s
    · simp
  · intro hm
    unfold listed at hm
    split at hm
    · exact h3 (h4 _ hm)
    · cases hm
  · intro k hk
    unfold listed at hk
    split at hk
    · exact h4 k hk
    · cases hk

/-- C74, as far as it is true that the message lists everything that can come next: it does, or it lists nothing and
more than four kinds of tokens can come next, or what was read is a header already and only the end of the file is
listed, or what was read is a header without its last `};` and only `}` is listed (missing from the full statement:
the last two cases). -/
theorem C74_expected_partial {toks : List Token} (ok : AllOk toks) {log : List Call} {t : Token} {rest : List Token}
    (h : parse toks = .rejected log (some t) rest) :
    ∃ p E, Before toks p t rest ∧
      parseReport toks = .text (c!"syntax error, unexpected " ++ kindName t.kind ++ expecting E) ∧
      ((∀ k, k ∈ E ↔ CanFollow p k) ∨
       (E = [] ∧ ∃ ks : List TokKind, ks.Nodup ∧ 4 < ks.length ∧ ∀ k, k ∈ ks ↔ CanFollow p k) ∨
       (E = [.eof] ∧ ∃ hd : Header, p = hd.toks) ∨
       (E = [.blockEnd] ∧ ∃ hd : Header, p ++ [tk .blockEnd, tk .semicolon] = hd.toks)) := by
  obtain ⟨p, s, h1, _, _, _, _, _, h4, h5, h6⟩ := rejected_facts ok h
  refine ⟨p, listed s, h1, h6, ?_⟩
  rcases h5 with h5 | ⟨e, h5⟩ | ⟨e, h5⟩
  · by_cases hl : (shiftKinds s).length ≤ 4
    · left
      intro k
      rw [show listed s = shiftKinds s by unfold listed; rw [if_pos hl]]
      exact ⟨h4 k, h5 k⟩
    · right; left
      refine ⟨by unfold listed; rw [if_neg hl], shiftKinds s, shiftKinds_nodup s, by omega, ?_⟩
      exact fun k => ⟨h4 k, h5 k⟩
  · right; right; left
    exact ⟨by unfold listed; rw [e]; rfl, h5⟩
  · right; right; right
    exact ⟨by unfold listed; rw [e]; rfl, h5⟩

/-- The message for `enum E { A ;`. -/
theorem message_enumerator :
    parseReport [tk .enum, ⟨.name, c!"E"⟩, tk .blockStart, ⟨.name, c!"A"⟩, tk .semicolon] =
      .text c!"syntax error, unexpected ;, expecting }" := by decide +kernel

/-- C74 is false as stated: the message for `enum E { A ;` names `}` only, but a comma can come next, too. -/
theorem C74_expected_refuted :
    ¬ ∀ (toks : List Token) (log : List Call) (t : Token) (rest p : List Token) (E : List TokKind),
      AllOk toks → parse toks = .rejected log (some t) rest → Before toks p t rest → E.length ≤ 4 →
      parseReport toks = .text (c!"syntax error, unexpected " ++ kindName t.kind ++ expecting E) → E ≠ [] →
      ∀ k, CanFollow p k → k ∈ E := by
  intro h
  have := h [tk .enum, ⟨.name, c!"E"⟩, tk .blockStart, ⟨.name, c!"A"⟩, tk .semicolon]
    [.enum c!"E" false, .enumLine c!"A" false c!"-"] (tk .semicolon) []
    [tk .enum, ⟨.name, c!"E"⟩, tk .blockStart, ⟨.name, c!"A"⟩] [.blockEnd]
    (by
      intro t ht
      simp only [List.mem_cons, List.not_mem_nil, or_false] at ht
      rcases ht with rfl | rfl | rfl | rfl | rfl <;> exact ⟨by decide, by decide⟩)
    (by decide +kernel) (Or.inl rfl) (by decide) message_enumerator (by decide) .comma
    (show ∃ (h : Header) (s : Str), [tk .enum, ⟨.name, c!"E"⟩, tk .blockStart, ⟨.name, c!"A"⟩] ++
        [⟨.comma, s⟩] <+: h.toks from
      ⟨⟨.enum false c!"E" ⟨c!"A", none⟩ [] true, []⟩, [], [tk .blockEnd, tk .semicolon], rfl⟩)
  revert this
  decide

/-- All cases of `C74_expected_partial` occur: a complete list, too many tokens to list them, a finished header, an
unfinished struct. -/
example : parseReport [tk .struct, tk .semicolon] = .text c!"syntax error, unexpected ;, expecting NAME" := by
  decide +kernel
example : parseReport [tk .struct, ⟨.name, c!"S"⟩, tk .blockStart, tk .blockEnd] =
    .text c!"syntax error, unexpected }" := by decide +kernel
example : parseReport [tk .struct, ⟨.name, c!"S"⟩, tk .blockStart, tk .int, ⟨.name, c!"i"⟩, tk .semicolon, tk .blockEnd,
    tk .semicolon, tk .int] = .text c!"syntax error, unexpected int, expecting end of file" := by decide +kernel
example : parseReport [tk .struct, ⟨.name, c!"S"⟩, tk .blockStart, tk .int, ⟨.name, c!"i"⟩, tk .semicolon, tk .equals] =
    .text c!"syntax error, unexpected =, expecting }" := by decide +kernel
example : parseReport [] = .text c!"syntax error, unexpected end of file, expecting enum or struct" := by decide +kernel

/-! ### Messages for files -/

theorem tokensOf_append (l l' : List Lexeme) : tokensOf (l ++ l') = tokensOf l ++ tokensOf l' := by
  simp [tokensOf]

theorem tokensOf_length (ls : List Lexeme) : ((ls.filter (·.token?.isSome)).map (·.loc)).length = (tokensOf ls).length := by
  induction ls with
  | nil => rfl
  | cons l ls ih =>
    unfold tokensOf at ih ⊢
    rw [List.filter_cons, List.filterMap_cons]
    cases h : l.token? with
    | none => simpa using ih
    | some t => simpa using ih

theorem reportLoc_tok {pre post : List Lexeme} {l : Lexeme} {t : Token} (ht : l.token? = some t)
    (hk : t.kind ≠ .eof) : reportLoc (pre ++ l :: post) t (tokensOf post) = some l.loc := by
  unfold reportLoc
  rw [if_neg hk]
  have h1 := tokensOf_length pre
  have h2 := tokensOf_length post
  simp only [List.filter_append, List.map_append, List.filter_cons, ht, Option.isSome_some, if_true, List.map_cons,
    List.length_append, List.length_cons, h1, h2]
  rw [show (tokensOf pre).length + ((tokensOf post).length + 1) - (tokensOf post).length - 1 =
    (tokensOf pre).length by omega, ← h1]
  simp

/-- The lexeme of a token. -/
theorem lexeme_of {ls : List Lexeme} {p : List Token} {t : Token} {rest : List Token}
    (h : tokensOf ls = p ++ t :: rest) : ∃ pre l post, ls = pre ++ l :: post ∧ l.token? = some t ∧
      tokensOf pre = p ∧ tokensOf post = rest := by
  induction ls generalizing p with
  | nil => simp [tokensOf] at h
  | cons l ls ih =>
    cases hl : l.token? with
    | none =>
      have e : tokensOf (l :: ls) = tokensOf ls := by simp [tokensOf, hl]
      rw [e] at h
      obtain ⟨pre, l', post, e1, e2, e3, e4⟩ := ih h
      exact ⟨l :: pre, l', post, by rw [e1]; rfl, e2, by rw [← e3]; simp [tokensOf, hl], e4⟩
    | some x =>
      have e : tokensOf (l :: ls) = x :: tokensOf ls := by simp [tokensOf, hl]
      rw [e] at h
      cases p with
      | nil =>
        simp only [List.nil_append, List.cons.injEq] at h
        exact ⟨[], l, ls, rfl, by rw [hl, h.1], rfl, h.2⟩
      | cons y p =>
        simp only [List.cons_append, List.cons.injEq] at h
        obtain ⟨pre, l', post, e1, e2, e3, e4⟩ := ih h.2
        exact ⟨l :: pre, l', post, by rw [e1]; rfl, e2, by rw [← e3, ← h.1]; simp [tokensOf, hl], e4⟩

/-- C74 for files: nothing is written on standard error for a header.  For any other text one line is written, with
the number of the line in which the offending token stands, the columns attached to it (see C75), and the message about
it; the tokens before it can be completed to a header. -/
theorem C74_file (w : Str) :
    ∃ ls, lexFile w = some ls ∧
      (((∃ hd : Header, tokensOf ls = hd.toks) ∧ fileErrors w = some []) ∨
       (∃ pre l post t E, ls = pre ++ l :: post ∧ l.token? = some t ∧
         (∃ hd : Header, tokensOf pre <+: hd.toks) ∧ ¬ CanFollow (tokensOf pre) t.kind ∧
         (∀ k ∈ E, CanFollow (tokensOf pre) k) ∧
         fileErrors w = some (c!"Location " ++ Stfx.Run.natText (1 + (pre.map Lexeme.text).flatten.count '\n') ++ c!":" ++
           Stfx.Run.natText l.loc.first.col ++
           (if 1 < l.text.length then c!"-" ++ Stfx.Run.natText (l.loc.first.col + l.text.length - 1) else []) ++
           c!", syntax error, unexpected " ++ kindName t.kind ++ expecting E ++ c!"\n")) ∨
       (∃ place E, (∃ hd : Header, tokensOf ls <+: hd.toks) ∧ (¬ ∃ hd : Header, tokensOf ls = hd.toks) ∧
         (∀ k ∈ E, CanFollow (tokensOf ls) k) ∧
         fileErrors w = some (c!"Location " ++ place ++ c!", syntax error, unexpected end of file" ++ expecting E ++
           c!"\n"))) := by
  obtain ⟨ls, hls, _⟩ := C02_total_lossless w
  refine ⟨ls, hls, ?_⟩
  have hts : toksFile w = some (tokensOf ls) := by
    unfold toksFile toksFrom
    rw [show lexFrom LexSt.init w = some ls from hls]
    rfl
  have ok := scanned_ok hts
  unfold fileErrors
  rw [hls]
  simp only
  rcases C09_total (tokensOf ls) with ⟨log, h⟩ | ⟨log, t, rest, h⟩
  · left
    have hrep : parseReport (tokensOf ls) = .nothing := report_accepted _ h
    rw [h, hrep]
    exact ⟨(C08_grammar_shape ok).1 ((C08_accept_iff ok).1 ⟨log, h⟩), rfl⟩
  · right
    obtain ⟨p, E, hb, hrep, _, _, hE, hfol⟩ := C74_message ok h
    obtain ⟨p', s, hb', _, _, _, hpre, hnot, _, _, _⟩ := rejected_facts ok h
    rw [h, hrep]
    simp only
    rcases hb with hb | ⟨hb, rfl, rfl⟩
    · left
      have hkind : t.kind ≠ .eof := (ok t (by rw [hb]; simp)).1
      have hpp : p' = p := by
        rcases hb' with hb' | ⟨_, e, _⟩
        · exact List.append_cancel_right (hb'.symm.trans hb)
        · rw [e] at hkind; exact absurd rfl hkind
      subst hpp
      obtain ⟨pre, l, post, e1, e2, e3, e4⟩ := lexeme_of hb
      subst e3 e4
      have hline : l.loc.first.line = 1 + (pre.map Lexeme.text).flatten.count '\n' := by
        obtain ⟨before, after, _, hbf, hl⟩ := C07_line_numbers (by rw [hls, e1]) (by rw [e2]; simp)
        rw [hl, hbf]
      rw [e1, reportLoc_tok e2 hkind, Option.map_some]
      obtain ⟨_, _, _, _, _, hlast⟩ := C75_exact (by rw [hls, e1]) (by rw [e2]; simp)
      refine ⟨pre, l, post, t, E, rfl, e2, hpre, hnot, hfol, ?_⟩
      rw [← hline]
      unfold errorLine
      rw [hlast]
      simp only [ne_eq, not_true_eq_false, if_false, Nat.add_lt_add_iff_left, List.append_assoc]
      rfl
    · right
      have hpp : p' = p := by
        rcases hb' with hb' | ⟨hb', _, _⟩
        · exact absurd rfl (ok eofTok (by rw [hb']; simp)).1
        · rw [← hb', hb]
      subst hpp
      rw [show reportLoc ls eofTok [] = some ((ls.getLast?.map (·.loc)).getD Loc.init) from rfl, Option.map_some]
      generalize (ls.getLast?.map (·.loc)).getD Loc.init = l
      refine ⟨Stfx.Run.natText l.first.line ++ c!":" ++ Stfx.Run.natText l.first.col ++
        (if l.last.line ≠ l.first.line then
          c!"-" ++ Stfx.Run.natText l.last.line ++ c!":" ++ Stfx.Run.natText (l.last.col - 1)
         else if l.first.col + 1 < l.last.col then c!"-" ++ Stfx.Run.natText (l.last.col - 1)
         else []), E, ?_, ?_, ?_, ?_⟩
      · rw [hb]; exact hpre
      · rw [hb]; exact hnot
      · rw [hb]; exact hfol
      · unfold errorLine
        simp only [List.append_assoc]
        rfl

/-- A file with an error in its third line, and one that ends too early. -/
example : fileErrors c!"struct S {\n  int i;\n  int j\n};" = some c!"Location 4:1, syntax error, unexpected }, expecting { or ;\n" := by
  decide +kernel
example : fileErrors c!"struct S { int i; }\n" =
    some c!"Location 1:20-2:0, syntax error, unexpected end of file, expecting ;\n" := by decide +kernel
example : fileErrors c!"struct S { int i; };\n" = some [] := by decide +kernel

end Stfx.Parser
