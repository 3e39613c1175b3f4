import Verif.Lexer.Lines
/-
Texts put together at a line end: the scanner finds the lexemes of the one and then those of the other.
-/
set_option autoImplicit false
namespace Stfx.Lexer

/-- Empty, or ends with a line end.  (Specification notion, models no code.) -/
def WholeLines (t : Str) : Prop := t = [] ∨ t.getLast? = some '\n'

theorem WholeLines.drop {t : Str} (h : WholeLines t) (n : Nat) : WholeLines (t.drop n) := by
  rcases h with rfl | h
  · exact .inl (by simp)
  · by_cases hn : n < t.length
    · right
      rw [List.getLast?_drop, if_neg (by omega)]
      exact h
    · exact .inl (List.drop_eq_nil_of_le (by omega))

/-- Only the last character of what a rule matches, trailing context included, can be a line end. -/
theorem ruleLang_newline {bol : Bool} {sc : SC} {r : Nat} {w : Str} (h : ruleLang bol sc r w) : '\n' ∉ w.dropLast := by
  have hno : ∀ {u : Str}, '\n' ∉ u → '\n' ∉ u.dropLast := fun hu hc => hu (List.dropLast_subset _ hc)
  have hsnoc : ∀ {u : Str} {c : Char}, '\n' ∉ u → '\n' ∉ (u ++ [c]).dropLast := by
    intro u c hu
    rwa [List.dropLast_concat]
  cases sc with
  | cComment =>
    rcases h with ⟨_, rfl⟩ | ⟨_, c, _, rfl⟩ | ⟨_, rfl⟩ | ⟨_, c, rfl⟩ <;> simp
  | initial =>
    rcases h with ⟨_, rfl⟩ | ⟨_, u, hu, rfl⟩ | ⟨_, _, s, u, hs, hu, rfl⟩ | ⟨_, rfl | rfl⟩ | ⟨_, _, hb⟩ | ⟨_, rfl⟩ | ⟨_, rfl⟩ | ⟨_, rfl⟩ |
      ⟨_, rfl⟩ | ⟨_, rfl⟩ | ⟨_, rfl⟩ | ⟨_, rfl⟩ | ⟨_, rfl⟩ | ⟨_, rfl⟩ | ⟨_, rfl⟩ | ⟨_, rfl⟩ | ⟨_, rfl⟩ | ⟨_, rfl⟩ | ⟨_, rfl⟩ | ⟨_, rfl⟩ |
      ⟨_, rfl⟩ | ⟨_, rfl⟩ | ⟨_, rfl⟩ | ⟨_, rfl⟩ | ⟨_, rfl⟩ | ⟨_, rfl⟩ | ⟨_, hi⟩ | ⟨_, u, v, hu, hv, rfl⟩ | ⟨_, hd⟩ | ⟨_, u, _, hu, rfl⟩ |
      ⟨_, u, c, v, f, hu, hc, hv, hf, rfl⟩ | ⟨_, u, hu, rfl⟩ | ⟨_, c, hc, rfl⟩ | ⟨_, c, rfl⟩
    case inr.inl =>
      rw [show '/' :: '/' :: (u ++ ['\n']) = ('/' :: '/' :: u) ++ ['\n'] from by simp]
      refine hsnoc ?_
      simp only [List.mem_cons, not_or]
      exact ⟨by decide, by decide, fun hc => hu _ hc rfl⟩
    case inr.inr.inl =>
      rw [show s ++ '#' :: (u ++ ['\n']) = (s ++ '#' :: u) ++ ['\n'] from by simp]
      refine hsnoc ?_
      simp only [List.mem_append, List.mem_cons, not_or]
      exact ⟨fun hc => (by have := hs _ hc; cases this), by decide, fun hc => hu _ hc rfl⟩
    all_goals first
      | decide
      | exact hno fun hc => (by have := hb _ hc; cases this)
      | exact hno hi.no_nl
      | exact hno hd.no_nl
      | skip
    · exact hno (by simp [hu.no_nl, hv.no_nl])
    · refine hno ?_
      simp only [List.mem_cons, not_or]
      exact ⟨by decide, by decide, fun hc => (by have := hu _ hc; cases this)⟩
    · refine hno ?_
      have : '\n' ∉ f := by rcases hf with rfl | rfl <;> simp
      simp [hu.no_nl, hv.no_nl, this, Ne.symm hc]
    · refine hno ?_
      simp only [List.mem_cons, List.mem_append, List.not_mem_nil, or_false, not_or]
      exact ⟨by decide, fun hc => hu _ hc rfl, by decide⟩
    · exact hno (by simp [Ne.symm hc])
    · simp

/-- A match does not go on in the next line. -/
theorem cand_split {sc : SC} {bol : Bool} {t : Str} (u : Str) {r n : Nat} (ht : t.getLast? = some '\n') :
    Candidate sc bol (t ++ u) r n ↔ Candidate sc bol t r n := by
  rw [cand_iff, cand_iff]
  constructor
  · rintro ⟨h0, h1, h2⟩
    have hle : n ≤ t.length := by
      refine Nat.le_of_not_lt fun hlt => ?_
      have hn := ruleLang_newline h2
      rw [List.take_append, List.take_of_length_le (by omega)] at hn
      have hne : u.take (n - t.length) ≠ [] := by
        intro e
        have := congrArg List.length e
        simp only [List.length_take, List.length_nil, List.length_append] at this h1
        omega
      rw [List.dropLast_append_of_ne_nil hne] at hn
      exact hn (List.mem_append_left _ (List.mem_of_getLast? ht))
    exact ⟨h0, hle, by rwa [List.take_append_of_le_length hle] at h2⟩
  · rintro ⟨h0, h1, h2⟩
    exact ⟨h0, by simp; omega, by rwa [List.take_append_of_le_length h1]⟩

theorem munch_split {sc : SC} {bol : Bool} {t : Str} (u : Str) {r n : Nat} (ht : t.getLast? = some '\n') (h : IsMunch sc bol t r n) :
    IsMunch sc bol (t ++ u) r n :=
  ⟨(cand_split u ht).2 h.cand, fun r' n' hc => h.longest r' n' ((cand_split u ht).1 hc), fun r' hc => h.earliest r' ((cand_split u ht).1 hc)⟩

/-- The state of the scanner after some lexemes.  (Specification notion, models no code.) -/
def LexSt.after (st : LexSt) (ls : List Lexeme) : LexSt := ls.foldl (fun s l => s.next l.rule l.text) st

/-- The lexemes of a text of whole lines are found whatever follows, and the scanner goes on from there. -/
theorem lexFrom_split {st : LexSt} {t : Str} (u : Str) {ls : List Lexeme} (ht : WholeLines t) (h : lexFrom st t = some ls) :
    lexFrom st (t ++ u) = (lexFrom (st.after ls) u).map (ls ++ ·) := by
  induction hn : t.length using Nat.strongRecOn generalizing st t ls with
  | ind n ih =>
    cases t with
    | nil =>
      rw [lexFrom_nil] at h
      cases h
      simp only [List.nil_append, LexSt.after, List.foldl_nil]
      cases lexFrom st u <;> rfl
    | cons c t =>
      have hl : (c :: t).getLast? = some '\n' := by
        rcases ht with e | e
        · cases e
        · exact e
      obtain ⟨r, k, hm, hp, hle, he⟩ := lexStep_spec st (c :: t) (by simp)
      have hm2 := munch_split u hl hm
      have h2 := (matchOne_iff st.sc st.bol (c :: t ++ u) (by simp) r k).2 hm2
      have he2 : lexStep st (c :: t ++ u) = some (⟨r, (c :: t).take (adjLen r k), (st.next r ((c :: t).take (adjLen r k))).loc⟩,
          st.next r ((c :: t).take (adjLen r k)), (c :: t).drop (adjLen r k) ++ u) := by
        simp only [lexStep, h2, Option.bind_eq_bind, Option.bind_some, List.take_append_of_le_length hle, List.drop_append_of_le_length hle]
      rw [lexFrom_step (by simp) he] at h
      rw [lexFrom_step (by simp) he2]
      cases h3 : lexFrom (st.next r ((c :: t).take (adjLen r k))) ((c :: t).drop (adjLen r k)) with
      | none => rw [h3] at h; cases h
      | some ls' =>
        rw [h3] at h
        cases h
        rw [ih _ (by rw [← hn, List.length_drop]; omega) (ht.drop _) h3 rfl]
        simp only [Option.map_map]
        rfl

end Stfx.Lexer
