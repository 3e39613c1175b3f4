import Verif.Lexer.Layout
/-
Line numbers.
-/
namespace Stfx.Lexer

/-- Number of newline characters.  (Proof notion, models no code.) -/
def nls (w : Str) : Nat := w.count '\n'

theorem nls_zero {w : Str} (h : '\n' ∉ w) : nls w = 0 := List.count_eq_zero.2 h

theorem munch_nls {sc : SC} {bol : Bool} {w : Str} {r n : Nat} (h : IsMunch sc bol w r n) :
    nls (w.take (adjLen r n)) = if r = 2 ∨ r = 7 then 1 else 0 := by
  obtain ⟨hn, hle, hl⟩ := cand_iff.1 h.cand
  have hlen : (w.take n).length = n := by simp; omega
  have h37 : r = 37 → w.take n ≠ ['\n'] := by
    rintro rfl e
    cases sc with
    | cComment =>
      have := h.earliest 2 (cand_iff.2 ⟨hn, hle, by rw [e]; simp [ruleLang]⟩)
      omega
    | initial =>
      have := h.earliest 7 (cand_iff.2 ⟨hn, hle, by rw [e]; simp [ruleLang]⟩)
      omega
  by_cases h56 : r = 5 ∨ r = 6
  · have e : w.take (adjLen r n) = (w.take n).take ((w.take n).length - 1) := by
      rw [List.take_take, hlen]
      simp [adjLen, h56]
    rw [e]
    cases sc with
    | cComment => rcases h56 with rfl | rfl <;> simp [ruleLang] at hl
    | initial =>
      rcases h56 with rfl | rfl
      · simp only [ruleLang, Nat.reduceEqDiff, false_and, true_and, false_or, or_false] at hl
        obtain ⟨u, hu, e⟩ := hl
        rw [e]
        have : ('/' :: '/' :: (u ++ ['\n'])).take (('/' :: '/' :: (u ++ ['\n'])).length - 1) = '/' :: '/' :: u := by
          have : ('/' :: '/' :: (u ++ ['\n'])).length - 1 = ('/' :: '/' :: u).length := by simp
          rw [this, show '/' :: '/' :: (u ++ ['\n']) = ('/' :: '/' :: u) ++ ['\n'] from by simp, List.take_left]
        rw [this]
        apply nls_zero
        simp only [List.mem_cons, not_or]
        exact ⟨by decide, by decide, fun hc => hu _ hc rfl⟩
      · simp only [ruleLang, Nat.reduceEqDiff, false_and, true_and, false_or, or_false] at hl
        obtain ⟨_, s, u, hs, hu, e⟩ := hl
        rw [e]
        have : (s ++ '#' :: (u ++ ['\n'])).take ((s ++ '#' :: (u ++ ['\n'])).length - 1) = s ++ '#' :: u := by
          have : (s ++ '#' :: (u ++ ['\n'])).length - 1 = (s ++ '#' :: u).length := by simp
          rw [this, show s ++ '#' :: (u ++ ['\n']) = (s ++ '#' :: u) ++ ['\n'] from by simp, List.take_left]
        rw [this]
        apply nls_zero
        simp only [List.mem_append, List.mem_cons, not_or]
        exact ⟨fun hc => (by have := hs _ hc; cases this), by decide, fun hc => hu _ hc rfl⟩
  · have e : w.take (adjLen r n) = w.take n := by simp [adjLen, h56]
    rw [e]
    clear e h
    revert h37
    generalize w.take n = t at hl
    intro h37
    cases t with
    | nil => exact absurd rfl (ruleLang_ne hl)
    | cons c t =>
      cases sc with
      | cComment =>
        simp only [ruleLang] at hl
        rcases hl with ⟨rfl, e⟩ | ⟨rfl, c, hc, e⟩ | ⟨rfl, e⟩ | ⟨rfl, c, e⟩
        · rw [e]; rfl
        · rw [e]; rw [nls_zero (by simpa using Ne.symm hc)]; rfl
        · rw [e]; rfl
        · rw [e] at h37 ⊢
          rw [nls_zero]
          · rfl
          · intro hc; simp at hc; subst hc; exact h37 rfl rfl
      | initial =>
        rcases ruleLang_head hl with ⟨rfl, rfl, rfl⟩ | ⟨rfl, _⟩ | ⟨rfl, _⟩ | ⟨rfl, h⟩ | ⟨rfl, h1, h2⟩ |
          ⟨rfl, h⟩ | ⟨h1, h2, h, h3⟩ | ⟨rfl, h⟩ | ⟨rfl, h⟩ | ⟨rfl, h, h3⟩ | ⟨rfl, _, u, v, hu, hv, e⟩ | ⟨rfl, h, h2⟩ |
          ⟨rfl, rfl, u, _, hu, rfl⟩ | ⟨rfl, _, u, d, v, f, hu, hd, hv, hf, e⟩ | ⟨rfl, rfl, u, hu, rfl⟩ |
          ⟨rfl, rfl, d, hd, rfl⟩ | ⟨rfl, rfl⟩
        · rfl
        · simp at h56
        · simp at h56
        · rcases h with ⟨rfl, rfl⟩ | ⟨rfl, rfl⟩ <;> rfl
        · apply nls_zero
          simp only [List.mem_cons, not_or]
          exact ⟨(by rintro rfl; cases h1), fun hc => (by have := h2 _ hc; cases this)⟩
        · rcases h with ⟨rfl, rfl⟩ | ⟨rfl, rfl⟩ | ⟨rfl, rfl⟩ | ⟨rfl, rfl⟩ | ⟨rfl, rfl⟩ | ⟨rfl, rfl⟩ | ⟨rfl, rfl⟩ <;> rfl
        · rw [if_neg (by omega)]
          exact nls_zero (IsIdent.no_nl ⟨c, t, rfl, h, h3⟩)
        · rw [h]; rfl
        · rw [h]; rfl
        · exact nls_zero (IsIdent.no_nl ⟨c, t, rfl, h, h3⟩)
        · rw [e]; apply nls_zero; simp [hu.no_nl, hv.no_nl]
        · exact nls_zero (IsDigits.no_nl ⟨by simp, by simpa [h] using h2⟩)
        · apply nls_zero
          simp only [List.mem_cons, not_or]
          exact ⟨by decide, by decide, fun hc => (by have := hu _ hc; cases this)⟩
        · rw [e]; apply nls_zero
          have : '\n' ∉ f := by rcases hf with rfl | rfl <;> simp
          simp [hu.no_nl, hv.no_nl, this, Ne.symm hd]
        · apply nls_zero
          simp only [List.mem_cons, List.mem_append, List.not_mem_nil, or_false, not_or]
          exact ⟨by decide, fun hc => hu _ hc rfl, by decide⟩
        · apply nls_zero; simp [Ne.symm hd]
        · apply nls_zero
          intro hc; simp at hc; subst hc; exact h37 rfl rfl

theorem nextLoc_line {l : Loc} {r k : Nat} :
    (nextLoc l r k).last.line = l.last.line + (if r = 2 ∨ r = 7 then 1 else 0) := by
  unfold nextLoc
  split
  · rw [if_neg (by omega)]; rfl
  · split <;> rfl

theorem token_rule {l : Lexeme} (h : l.token? ≠ none) : 9 ≤ l.rule ∧ l.rule ≤ 36 := by
  simp only [Lexeme.token?, ne_eq, Option.map_eq_none_iff] at h
  have : actKind l.rule ≠ none := h
  revert this
  generalize l.rule = r
  intro h
  by_cases h9 : r < 9
  · exfalso
    have : r = 0 ∨ r = 1 ∨ r = 2 ∨ r = 3 ∨ r = 4 ∨ r = 5 ∨ r = 6 ∨ r = 7 ∨ r = 8 := by omega
    rcases this with rfl | rfl | rfl | rfl | rfl | rfl | rfl | rfl | rfl <;> exact h rfl
  · by_cases h36 : r ≤ 36
    · omega
    · exfalso
      apply h
      unfold actKind
      split <;> first | omega | rfl

theorem lexFrom_lines {st : LexSt} {w : Str} {pre post : List Lexeme} {l : Lexeme}
    (h : lexFrom st w = some (pre ++ l :: post)) (ht : l.token? ≠ none) :
    l.loc.first.line = st.loc.last.line + nls (pre.map Lexeme.text).flatten := by
  induction pre generalizing st w with
  | nil =>
    cases w with
    | nil => rw [lexFrom_nil] at h; simp at h
    | cons c w =>
      obtain ⟨r, k, hm, hp, hl, he⟩ := lexStep_spec st (c :: w) (by simp)
      rw [lexFrom_step (by simp) he] at h
      cases hls : lexFrom (st.next r ((c :: w).take (adjLen r k))) ((c :: w).drop (adjLen r k)) with
      | none => rw [hls] at h; simp at h
      | some ls' =>
        rw [hls] at h
        simp only [Option.map_some, Option.some.injEq, List.nil_append, List.cons.injEq] at h
        obtain ⟨rfl, _⟩ := h
        have hr := token_rule ht
        simp only at hr
        simp only [LexSt.next, nextLoc, List.map_nil, List.flatten_nil]
        rw [if_neg (by omega), if_neg (by omega)]
        rfl
  | cons a pre ih =>
    cases w with
    | nil => rw [lexFrom_nil] at h; simp at h
    | cons c w =>
      obtain ⟨r, k, hm, hp, hl, he⟩ := lexStep_spec st (c :: w) (by simp)
      rw [lexFrom_step (by simp) he] at h
      cases hls : lexFrom (st.next r ((c :: w).take (adjLen r k))) ((c :: w).drop (adjLen r k)) with
      | none => rw [hls] at h; simp at h
      | some ls' =>
        rw [hls] at h
        simp only [Option.map_some, Option.some.injEq, List.cons_append, List.cons.injEq] at h
        obtain ⟨rfl, rfl⟩ := h
        rw [ih hls]
        have h1 := munch_nls hm
        simp only [LexSt.next, nextLoc_line, List.map_cons, List.flatten_cons, nls, List.count_append] at h1 ⊢
        omega

end Stfx.Lexer
