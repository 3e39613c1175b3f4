import Verif.Lexer.LexFacts
/-
Token-level facts: which lexeme is cut off in front of which text.
-/
namespace Stfx.Lexer

/-- Tokens of a text, scanned from a given start condition and beginning-of-line flag.  (Proof notion, models no code.) -/
def toks (sc : SC) (bol : Bool) (w : Str) : Option (List Token) := toksFrom ⟨sc, bol, Loc.init⟩ w

theorem toksFrom_loc (sc : SC) (bol : Bool) (l l' : Loc) (w : Str) :
    toksFrom ⟨sc, bol, l⟩ w = toksFrom ⟨sc, bol, l'⟩ w := by
  induction hn : w.length using Nat.strongRecOn generalizing sc bol l l' w with
  | ind n ih =>
    cases w with
    | nil => rfl
    | cons c w =>
      obtain ⟨r, k, hm, hp, hl, he⟩ := lexStep_spec ⟨sc, bol, l⟩ (c :: w) (by simp)
      have he' : lexStep ⟨sc, bol, l'⟩ (c :: w) =
          some (⟨r, (c :: w).take (adjLen r k),
              ((⟨sc, bol, l'⟩ : LexSt).next r ((c :: w).take (adjLen r k))).loc⟩,
            (⟨sc, bol, l'⟩ : LexSt).next r ((c :: w).take (adjLen r k)), (c :: w).drop (adjLen r k)) := by
        have := (matchOne_iff sc bol (c :: w) (by simp) r k).2 hm
        simp [lexStep, this]
      have ih' := ih ((c :: w).drop (adjLen r k)).length (by rw [← hn]; simp; omega)
        (nextSC sc r) ((⟨sc, bol, l⟩ : LexSt).next r ((c :: w).take (adjLen r k))).bol
        ((⟨sc, bol, l⟩ : LexSt).next r ((c :: w).take (adjLen r k))).loc
        ((⟨sc, bol, l'⟩ : LexSt).next r ((c :: w).take (adjLen r k))).loc
        ((c :: w).drop (adjLen r k)) rfl
      simp only [toksFrom] at ih' ⊢
      rw [lexFrom_step (by simp) he, lexFrom_step (by simp) he']
      simp only [Option.map_map]
      have e1 : ∀ l0 : Loc, (tokensOf ∘ fun x => (⟨r, (c :: w).take (adjLen r k), l0⟩ : Lexeme) :: x) =
          (fun ts => ((⟨r, (c :: w).take (adjLen r k), Loc.init⟩ : Lexeme).token?.toList ++ ts)) ∘ tokensOf := by
        intro l0
        funext x
        simp only [Function.comp_apply, tokensOf, List.filterMap_cons, Lexeme.token?]
        cases actKind r <;> simp
      rw [e1, e1, ← Option.map_map, ← Option.map_map]
      exact congrArg _ ih'

theorem toksFrom_eq (st : LexSt) (w : Str) : toksFrom st w = toks st.sc st.bol w :=
  toksFrom_loc st.sc st.bol st.loc Loc.init w

theorem toksFile_eq (w : Str) : toksFile w = toks .initial true w := rfl

theorem toks_nil (sc : SC) (bol : Bool) : toks sc bol [] = some [] := rfl

/-- Beginning-of-line flag after a non-empty text.  (Proof notion, models no code.) -/
def bolAfter (bol : Bool) (t : Str) : Bool :=
  match t.getLast? with
  | some c => c == '\n'
  | none => bol

/-- If the flex match at the front of `t ++ rest` is rule `r` with text `t` (after giving back
trailing context), the tokens are the one of `t` followed by those of `rest`. -/
theorem toks_step {sc : SC} {bol : Bool} {t rest : Str} {r n : Nat}
    (hm : IsMunch sc bol (t ++ rest) r n) (hn : adjLen r n = t.length) :
    toks sc bol (t ++ rest) = (toks (nextSC sc r) (bolAfter bol t) rest).map
      (((⟨r, t, Loc.init⟩ : Lexeme).token?).toList ++ ·) := by
  have hw : t ++ rest ≠ [] := by
    intro e
    have h0 := hm.cand.2.1
    have h1 := hm.cand.1
    rw [e] at h0; simp at h0; omega
  have h := (matchOne_iff sc bol (t ++ rest) hw r n).2 hm
  have he : lexStep ⟨sc, bol, Loc.init⟩ (t ++ rest) =
      some (⟨r, t, ((⟨sc, bol, Loc.init⟩ : LexSt).next r t).loc⟩,
        (⟨sc, bol, Loc.init⟩ : LexSt).next r t, rest) := by
    simp [lexStep, h, hn]
  have h2 : toks (nextSC sc r) (bolAfter bol t) rest =
      toksFrom ((⟨sc, bol, Loc.init⟩ : LexSt).next r t) rest := by
    rw [toksFrom_eq]; rfl
  rw [h2]
  simp only [toks, toksFrom]
  rw [lexFrom_step hw he]
  simp only [Option.map_map]
  congr 1
  funext x
  simp only [Function.comp_apply, tokensOf, List.filterMap_cons, Lexeme.token?]
  cases actKind r <;> simp

/-- Sufficient condition for a flex match. -/
theorem munch_intro {sc : SC} {bol : Bool} {t rest : Str} {r : Nat} (ht : t ≠ [])
    (h : ruleLang bol sc r t)
    (hmax : ∀ r' t', t' <+: t ++ rest → ruleLang bol sc r' t' →
      t'.length < t.length ∨ (t'.length = t.length ∧ r ≤ r')) :
    IsMunch sc bol (t ++ rest) r t.length := by
  have ht0 : 0 < t.length := List.length_pos_iff.2 ht
  refine ⟨cand_iff.2 ⟨ht0, by simp, by simpa using h⟩, ?_, ?_⟩
  · intro r' n' hc
    obtain ⟨_, h2, h3⟩ := cand_iff.1 hc
    have := hmax r' _ (List.take_prefix _ _) h3
    simp only [List.length_take] at this
    omega
  · intro r' hc
    obtain ⟨_, h2, h3⟩ := cand_iff.1 hc
    have := hmax r' _ (List.take_prefix _ _) h3
    simp only [List.length_take] at this
    omega

theorem isBlank_iff {c : Char} : isBlank c = true ↔ c = ' ' ∨ c = '\t' := by
  simp [isBlank]

/-- What a match in the normal state can be, by its first character. -/
theorem ruleLang_head {bol : Bool} {r : Nat} {c : Char} {t : Str}
    (h : ruleLang bol .initial r (c :: t)) :
    (r = 1 ∧ c = '/' ∧ t = ['*']) ∨
    (r = 5 ∧ c = '/' ∧ ∃ u, (∀ c ∈ u, c ≠ '\n') ∧ t = '/' :: (u ++ ['\n'])) ∨
    (r = 6 ∧ bol = true ∧ (isBlank c = true ∨ c = '#') ∧
      ∃ s u, (∀ c ∈ s, isBlank c = true) ∧ (∀ c ∈ u, c ≠ '\n') ∧ c :: t = s ++ '#' :: (u ++ ['\n'])) ∨
    (r = 7 ∧ ((c = '\n' ∧ t = []) ∨ (c = '\r' ∧ t = ['\n']))) ∨
    (r = 8 ∧ isBlank c = true ∧ ∀ d ∈ t, isBlank d = true) ∨
    (t = [] ∧ ((r = 9 ∧ c = '{') ∨ (r = 10 ∧ c = '}') ∨ (r = 11 ∧ c = '=') ∨ (r = 12 ∧ c = ',') ∨
      (r = 13 ∧ c = ';') ∨ (r = 14 ∧ c = '<') ∨ (r = 15 ∧ c = '>'))) ∨
    (16 ≤ r ∧ r ≤ 27 ∧ isIdStart c = true ∧ ∀ d ∈ t, isIdChar d = true) ∨
    (r = 28 ∧ c :: t = c!"std::string") ∨ (r = 29 ∧ c :: t = c!"std::vector") ∨
    (r = 30 ∧ isIdStart c = true ∧ ∀ d ∈ t, isIdChar d = true) ∨
    (r = 31 ∧ isIdStart c = true ∧ ∃ u v, IsIdent u ∧ IsIdent v ∧ c :: t = u ++ ':' :: ':' :: v) ∨
    (r = 32 ∧ isDig c = true ∧ ∀ d ∈ t, isDig d = true) ∨
    (r = 33 ∧ c = '0' ∧ ∃ u, u ≠ [] ∧ (∀ c ∈ u, isHexDig c = true) ∧ t = 'x' :: u) ∨
    (r = 34 ∧ isDig c = true ∧ ∃ u d v f, IsDigits u ∧ d ≠ '\n' ∧ IsDigits v ∧
      (f = [] ∨ f = ['f']) ∧ c :: t = u ++ d :: (v ++ f)) ∨
    (r = 35 ∧ c = '"' ∧ ∃ u, (∀ c ∈ u, c ≠ '\n') ∧ t = u ++ ['"']) ∨
    (r = 36 ∧ c = '\'' ∧ ∃ d, d ≠ '\n' ∧ t = [d, '\'']) ∨
    (r = 37 ∧ t = []) := by
  rcases h with ⟨rfl, h⟩ | ⟨rfl, h⟩ | ⟨rfl, h⟩ | ⟨rfl, h⟩ | ⟨rfl, h⟩ | ⟨rfl, h⟩ | ⟨rfl, h⟩ | ⟨rfl, h⟩ |
    ⟨rfl, h⟩ | ⟨rfl, h⟩ | ⟨rfl, h⟩ | ⟨rfl, h⟩ | ⟨rfl, h⟩ | ⟨rfl, h⟩ | ⟨rfl, h⟩ | ⟨rfl, h⟩ | ⟨rfl, h⟩ |
    ⟨rfl, h⟩ | ⟨rfl, h⟩ | ⟨rfl, h⟩ | ⟨rfl, h⟩ | ⟨rfl, h⟩ | ⟨rfl, h⟩ | ⟨rfl, h⟩ | ⟨rfl, h⟩ | ⟨rfl, h⟩ |
    ⟨rfl, h⟩ | ⟨rfl, h⟩ | ⟨rfl, h⟩ | ⟨rfl, h⟩ | ⟨rfl, h⟩ | ⟨rfl, h⟩ | ⟨rfl, h⟩ | ⟨rfl, h⟩
  · simp_all
  · obtain ⟨u, hu, e⟩ := h
    simp only [List.cons.injEq] at e
    refine Or.inr (Or.inl ⟨rfl, e.1, u, hu, e.2⟩)
  · obtain ⟨hb, s, u, hs, hu, e⟩ := h
    refine Or.inr (Or.inr (Or.inl ⟨rfl, hb, ?_, s, u, hs, hu, e⟩))
    cases s with
    | nil => simp at e; exact Or.inr e.1
    | cons d s => simp at e; exact Or.inl (e.1 ▸ hs d (by simp))
  · simp_all
  · refine Or.inr (Or.inr (Or.inr (Or.inr (Or.inl ⟨rfl, h.2 c (by simp), fun d hd => h.2 d (by simp [hd])⟩))))
  all_goals try (simp_all; done)
  all_goals try (
    simp only [List.cons.injEq] at h
    obtain ⟨rfl, rfl⟩ := h
    refine Or.inr (Or.inr (Or.inr (Or.inr (Or.inr (Or.inr (Or.inl ⟨by decide, by decide, by decide, by decide⟩))))))
    done)
  · obtain ⟨d, u, e, h1, h2⟩ := h
    simp only [List.cons.injEq] at e
    obtain ⟨rfl, rfl⟩ := e
    simp [h1]
    exact h2
  · obtain ⟨u, v, hu, hv, e⟩ := h
    have : isIdStart c = true := by
      obtain ⟨d, u, rfl, h1, h2⟩ := hu
      simp at e; exact e.1 ▸ h1
    simp [this]
    exact ⟨u, hu, v, hv, e⟩
  · simp [h.2 c (by simp)]
    exact fun d hd => h.2 d (by simp [hd])
  · obtain ⟨u, h1, h2, e⟩ := h
    simp at e
    simp [e.1, e.2]
    exact ⟨h1, h2⟩
  · obtain ⟨u, d, v, f, hu, hd, hv, hf, e⟩ := h
    have : isDig c = true := by
      cases u with
      | nil => exact absurd rfl hu.1
      | cons x u => simp at e; exact e.1 ▸ hu.2 x (by simp)
    refine Or.inr (Or.inr (Or.inr (Or.inr (Or.inr (Or.inr (Or.inr (Or.inr (Or.inr (Or.inr (Or.inr
      (Or.inr (Or.inr (Or.inl ⟨rfl, this, u, d, v, f, hu, hd, hv, hf, e⟩)))))))))))))
  · obtain ⟨u, hu, e⟩ := h
    simp at e
    simp [e.1, e.2]
    exact hu
  · obtain ⟨d, hd, e⟩ := h
    simp at e
    simp [e.1, e.2, hd]

end Stfx.Lexer
