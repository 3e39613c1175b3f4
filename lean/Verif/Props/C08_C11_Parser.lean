import Verif.Parser.Invert
import Verif.Parser.Reject
/-
Properties C08-C11: the parser.
-/
namespace Stfx.Parser
open Stfx.Lexer

/-- Tokens delivered by the scanner satisfy `AllOk`. -/
theorem scanned_ok {w : Str} {ts : List Token} (h : toksFile w = some ts) : AllOk ts := by
  unfold toksFile toksFrom at h
  cases hl : lexFrom LexSt.init w with
  | none => rw [hl] at h; cases h
  | some ls =>
    rw [hl] at h
    simp only [Option.map_some, Option.some.injEq] at h
    subst h
    intro t ht
    unfold tokensOf at ht
    obtain ⟨l, _, hl⟩ := List.mem_filterMap.1 ht
    unfold Lexeme.token? at hl
    cases hk : actKind l.rule with
    | none => rw [hk] at hl; cases hl
    | some k =>
      rw [hk] at hl
      simp only [Option.map_some, Option.some.injEq] at hl
      subst hl
      unfold actKind at hk
      split at hk
      all_goals first
        | (cases hk; done)
        | (cases hk
           rename_i e
           refine ⟨by simp, ?_⟩
           rw [e]
           intro hv
           first
            | (cases hv; done)
            | simp [actText])

/-- From a result of the abstract run to the result of the parser. -/
theorem parse_accepted_iff {toks : List Token} {log : List Call} :
    parse toks = .accepted log ↔ aparse toks = .accepted log := by
  have h := parse_sim toks
  generalize parse toks = r at h
  generalize aparse toks = r' at h
  constructor
  · rintro rfl
    cases r' <;> simp [ResSim] at h
    rw [h]
  · rintro rfl
    cases r <;> simp [ResSim] at h
    rw [h]

theorem aparse_of_rejected {toks : List Token} {log : List Call} {la : Option Token} {rest : List Token}
    (h : parse toks = .rejected log la rest) : ∃ inp, aparse toks = .rejected log inp ∧ Pending la rest inp := by
  have hs := parse_sim toks
  rw [h] at hs
  generalize hr : aparse toks = r' at hs
  cases r' <;> simp [ResSim] at hs
  exact ⟨_, by rw [hs.1], hs.2⟩

/-! ### C08 -/

/-- C08: a token sequence is accepted if and only if the grammar derives it. -/
theorem C08_accept_iff {toks : List Token} (ok : AllOk toks) :
    (∃ log, parse toks = .accepted log) ↔ InGrammar toks := by
  constructor
  · rintro ⟨log, h⟩
    rw [parse_accepted_iff] at h
    rcases arun_ok (fuelFor toks) (inv_init toks) (measure_init toks) with ⟨a, hi, e, ha⟩ | ⟨a, _, e, _⟩
    · exact accept_sound (fun t ht => (ok t ht).1) hi ha
    · rw [show arun (fuelFor toks) _ = _ from h] at e; cases e
  · intro h
    obtain ⟨hd, rfl⟩ := inv_header h ok
    exact ⟨hd.calls, parse_accepted_iff.2 (aparse_header hd)⟩

/-- C08: the sentences of the grammar are exactly the token sequences of declarations of the documented
shape. -/
theorem C08_grammar_shape {toks : List Token} (ok : AllOk toks) :
    InGrammar toks ↔ ∃ h : Header, toks = h.toks := by
  constructor
  · exact fun h => inv_header h ok
  · rintro ⟨h, rfl⟩
    exact (C08_accept_iff ok).1 ⟨_, parse_accepted_iff.2 (aparse_header h)⟩

/-- C08 for files: scanning and parsing a file succeeds iff its tokens are a sentence. -/
theorem C08_file {w : Str} {ts : List Token} (h : toksFile w = some ts) :
    (∃ log, parse ts = .accepted log) ↔ ∃ hd : Header, ts = hd.toks := by
  rw [C08_accept_iff (scanned_ok h), C08_grammar_shape (scanned_ok h)]

/-- A header used in the examples: `enum class E { A, B = 2, }; struct S { int i {7}; E e; std::vector<T> v; };`
(Example, models no code.) -/
def sampleHeader : Header :=
  ⟨.enum true c!"E" ⟨c!"A", none⟩ [⟨c!"B", some (.dec c!"2")⟩] true,
   [.struct c!"S" (.simple .int c!"i" (.val (.int c!"7"))) [.named c!"E" c!"e" .absent, .vector c!"T" c!"v"]]⟩

example : AllOk sampleHeader.toks := by
  intro t ht
  simp [sampleHeader, Header.toks, Header.decls, Decl.toks, enumeratorsToks, Enumerator.toks, EnumVal.tok,
    Member.toks, SimpleTy.toks, Default.toks, DefVal.tok] at ht
  rcases ht with rfl | rfl | rfl | rfl | rfl | rfl | rfl | rfl | rfl | rfl | rfl | rfl | rfl | rfl | rfl | rfl |
    rfl | rfl | rfl | rfl | rfl | rfl | rfl | rfl | rfl | rfl | rfl | rfl | rfl | rfl | rfl | rfl <;>
    exact ⟨by decide, by decide⟩

example : sampleHeader.toks.length = 32 := by decide

/-- An empty header is not a sentence. -/
example : ¬ InGrammar [] := by
  rw [C08_grammar_shape (by intro t ht; cases ht)]
  rintro ⟨h, e⟩
  exact h.first.toks_ne (List.append_eq_nil_iff.1 e.symm).1

/-! ### C09 -/

theorem error_la {c : Cfg} (h : step c = some .error) : (laAfter c).1 ≠ none := by
  have hdef : ∀ s : Nat, yydefact[s]? = some 0 → yypact[s]? ≠ some ninf := by
    have h1 : (List.range 96).all (fun s => yydefact[s]? != some 0 || yypact[s]? != some ninf) = true := by
      decide +kernel
    intro s hs
    have hlt : s < 96 := by
      have := (List.getElem?_eq_some_iff.1 hs).1
      simpa [yydefact] using this
    have h2 := List.all_eq_true.1 h1 s (List.mem_range.2 hlt)
    rw [hs] at h2
    simpa using h2
  have hdflt : ∀ (c : Cfg) (s : Nat), default c s = some .error → yydefact[s]? = some 0 := by
    intro c s h
    unfold default at h
    cases hn : yydefact[s]? with
    | none => rw [hn] at h; cases h
    | some n =>
      rw [hn] at h
      by_cases h0 : n = 0
      · rw [h0]
      · simp only [Option.bind_eq_bind, Option.bind_some, if_neg h0] at h
        rcases reduce_areduce (c := c) (n := n) (inp := c.la.toList ++ c.toks) (Or.inl rfl) with ⟨e, _⟩ | ⟨_, e, _⟩
        · rw [e] at h; cases h
        · rw [e] at h; cases h
  unfold step at h
  unfold laAfter
  cases htop : c.stack[0]? with
  | none => rw [htop] at h; cases h
  | some top =>
    rw [htop] at h
    simp only [Option.bind_eq_bind, Option.bind_some] at h
    by_cases hf : top.state = yyfinal
    · rw [if_pos hf] at h; cases h
    · rw [if_neg hf] at h
      simp only
      cases hp : yypact[top.state]? with
      | none => rw [hp] at h; cases h
      | some p =>
        rw [hp] at h
        simp only [Option.bind_some] at h
        by_cases hni : p = ninf
        · rw [if_pos hni] at h
          exact absurd (by rw [hp, hni]) (hdef _ (hdflt _ _ h))
        · simp [hni]

theorem run_la (fuel : Nat) {c : Cfg} {log : List Call} {rest : List Token} :
    run fuel c ≠ .rejected log none rest := by
  induction fuel generalizing c with
  | zero => simp [run]
  | succ k ih =>
    unfold run
    split
    · simp
    · simp
    · next e =>
      split
      · simp
      · simp
      · intro h
        simp only [Result.rejected.injEq] at h
        exact error_la e h.2.1
    · exact ih

theorem rejected_some (toks : List Token) (log : List Call) (rest : List Token) :
    parse toks ≠ .rejected log none rest := run_la _

theorem run_more (k j : Nat) {c : Cfg} (h : run k c ≠ .timeout) : run (k + j) c = run k c := by
  induction k generalizing c with
  | zero => exact absurd rfl h
  | succ k ih =>
    rw [Nat.succ_add]
    unfold run at h ⊢
    split
    · rfl
    · rfl
    · rfl
    · next c' e =>
      rw [e] at h
      exact ih h


/-- C09: whatever the tokens, the parser stops with success or with a syntax error: it does not run out of
steps, index a table or its stack out of range, read a semantic value as the wrong type, or go into error
recovery. -/
theorem C09_total (toks : List Token) :
    (∃ log, parse toks = .accepted log) ∨ (∃ log t rest, parse toks = .rejected log (some t) rest) := by
  rcases arun_ok (fuelFor toks) (inv_init toks) (measure_init toks) with ⟨a, hi, e, ha⟩ | ⟨a, hi, e, he⟩
  · exact Or.inl ⟨a.log, parse_accepted_iff.2 e⟩
  · right
    have hs := parse_sim toks
    rw [show aparse toks = _ from e] at hs
    generalize hr : parse toks = r at hs
    cases r with
    | rejected log la rest =>
      cases la with
      | some t => exact ⟨log, t, rest, rfl⟩
      | none => exact absurd hr (rejected_some toks log rest)
    | _ => exact hs.elim

/-- C09, in terms of the number of turns: the parser needs at most `300 · (n + 2)` turns of its loop on `n`
tokens. -/
theorem C09_steps (toks : List Token) (fuel : Nat) (h : 300 * (toks.length + 2) ≤ fuel) :
    run fuel (Cfg.init toks) = parse toks := by
  obtain ⟨j, rfl⟩ := Nat.exists_eq_add_of_le h
  refine run_more (fuelFor toks) j ?_
  intro e
  rcases C09_total toks with ⟨log, h⟩ | ⟨log, t, rest, h⟩
  · exact absurd (h.symm.trans e) (by simp)
  · exact absurd (h.symm.trans e) (by simp)

/-- Both outcomes occur. -/
example : parse sampleHeader.toks = .accepted sampleHeader.calls := by decide +kernel
example : ∃ log, parse [tk .enum, tk .struct] = .rejected log (some (tk .struct)) [] := ⟨[], by decide +kernel⟩

/-! ### C10 -/

/-- C10: the parser accepts with record-building operations `calls` iff the tokens are those of some
header and `calls` are its operations, in source order. -/
theorem C10_calls {toks : List Token} (ok : AllOk toks) (calls : List Call) :
    parse toks = .accepted calls ↔ ∃ h : Header, toks = h.toks ∧ calls = h.calls := by
  constructor
  · intro h
    obtain ⟨hd, rfl⟩ := (C08_grammar_shape ok).1 ((C08_accept_iff ok).1 ⟨_, h⟩)
    have := parse_accepted_iff.2 (aparse_header hd)
    rw [h] at this
    exact ⟨hd, rfl, by simpa using this⟩
  · rintro ⟨h, rfl, rfl⟩
    exact parse_accepted_iff.2 (aparse_header h)

/-- C10: parsing the tokens of a header performs exactly its operations. -/
theorem C10_header (h : Header) : parse h.toks = .accepted h.calls := parse_accepted_iff.2 (aparse_header h)

/-- The operations of the sample header. -/
example : sampleHeader.calls =
    [.enum c!"E" true, .enumLine c!"A" false c!"-", .enumLine c!"B" true c!"2",
     .struct c!"S", .simple .int c!"i" c!"{7}", .complex .enumOrStruct c!"E" c!"e",
     .complex .vector c!"T" c!"v"] := by decide

/-! ### C11 -/

/-- C11, first part: a rejected token sequence consists of a part `p` that was read, the offending token and
a rest that was not looked at (or `p` is everything and the offending token is the end of the file); the
operations performed and the offending token are the same whatever follows it. -/
theorem C11_local {toks : List Token} (ok : AllOk toks) {log : List Call} {la : Option Token}
    {rest : List Token} (h : parse toks = .rejected log la rest) :
    (∃ p t, toks = p ++ t :: rest ∧ la = some t ∧
      ∀ q, parse (p ++ t :: q) = .rejected log (some t) q) ∨
    (la = some eofTok ∧ rest = []) := by
  obtain ⟨inp, h1, h2⟩ := aparse_of_rejected h
  obtain ⟨n, st, g1, g2, g3⟩ := arun_rejected h1
  obtain ⟨p, hp⟩ := asteps_suffix n g1
  simp only at hp
  cases la with
  | none => exact absurd h (rejected_some _ _ _)
  | some t =>
    rcases h2 with rfl | ⟨e1, e2, rfl⟩
    · left
      simp only [Option.toList_some, List.singleton_append] at hp h1
      refine ⟨p, t, hp, rfl, ?_⟩
      intro q
      have h3 : aparse (p ++ t :: q) = .rejected log (t :: q) := by
        rw [hp] at h1
        exact aparse_local h1 q
      have hs := parse_sim (p ++ t :: q)
      rw [h3] at hs
      generalize hr : parse (p ++ t :: q) = r at hs
      have ht : t ≠ eofTok := by
        rintro rfl
        exact (ok eofTok (by rw [hp]; simp)).1 rfl
      cases r with
      | rejected log' la' rest' =>
        obtain ⟨rfl, hpend⟩ := hs
        cases la' with
        | none => exact absurd hr (rejected_some _ _ _)
        | some t' =>
          rcases hpend with e | ⟨_, _, e⟩
          · simp at e
            rw [e.1, e.2]
          · cases e
      | _ => exact hs.elim
    · exact Or.inr ⟨e1, e2⟩

/-- C11, second part, is false as stated: `enum E { A ;` leaves an enumerator without value, while the header
`enum E { A = 5 };`, which continues the text before the offending `;`, records it with a value only. -/
theorem C11_prefix_refuted :
    ¬ ∀ (p : List Token) (t : Token) (q r : List Token) (log log' : List Call),
      parse (p ++ t :: q) = .rejected log (some t) q → parse (p ++ r) = .accepted log' → log <+: log' := by
  intro h
  have := h [tk .enum, ⟨.name, c!"E"⟩, tk .blockStart, ⟨.name, c!"A"⟩] (tk .semicolon) []
    [tk .equals, ⟨.value, c!"5"⟩, tk .blockEnd, tk .semicolon]
    [.enum c!"E" false, .enumLine c!"A" false c!"-"] [.enum c!"E" false, .enumLine c!"A" true c!"5"]
    (by decide +kernel) (by decide +kernel)
  revert this
  decide

/-- C11, second part, as far as it is true: the operations performed are a prefix of those of every accepted
header that continues the text before the offending token, except that the last one may be an enumerator
without value (missing from the full statement: that exception). -/
theorem C11_prefix_partial {p : List Token} {t : Token} {q r : List Token} {log log' : List Call}
    (ht : t ≠ eofTok) (h : parse (p ++ t :: q) = .rejected log (some t) q) (h' : parse (p ++ r) = .accepted log') :
    log <+: log' ∨ ∃ l name, log = l ++ [.enumLine name false c!"-"] ∧ l <+: log' := by
  obtain ⟨inp, h1, h2⟩ := aparse_of_rejected h
  rcases h2 with rfl | ⟨e1, _, _⟩
  · exact aparse_compare h1 (parse_accepted_iff.1 h')
  · cases e1; exact absurd rfl ht

/-- The same when the file ends too early. -/
theorem C11_prefix_eof_partial {p r : List Token} {log log' : List Call} (ok : AllOk p)
    (h : parse p = .rejected log (some eofTok) []) (h' : parse (p ++ r) = .accepted log') :
    log <+: log' ∨ ∃ l name, log = l ++ [.enumLine name false c!"-"] ∧ l <+: log' := by
  obtain ⟨inp, h1, h2⟩ := aparse_of_rejected h
  have hi : inp = [] := by
    rcases h2 with rfl | ⟨_, _, rfl⟩
    · obtain ⟨n, st, g1, _, _⟩ := arun_rejected h1
      obtain ⟨u, hu⟩ := asteps_suffix n g1
      simp only at hu
      exact absurd rfl (ok eofTok (by rw [hu]; simp)).1
    · rfl
  subst hi
  exact aparse_compare (p := p) (inp := []) (by simpa using h1) (parse_accepted_iff.1 h')

/-- A rejected header with a proper prefix of operations. -/
example : parse ([tk .enum, ⟨.name, c!"E"⟩, tk .blockStart, ⟨.name, c!"A"⟩, tk .comma] ++ tk .semicolon :: [tk .int]) =
    .rejected [.enum c!"E" false, .enumLine c!"A" false c!"-"] (some (tk .semicolon)) [tk .int] := by decide +kernel

end Stfx.Parser
