import Verif.Lexer.Lex
import Verif.Lexer.Lang
/-
Basic facts about the scanner loop.
-/
namespace Stfx.Lexer

theorem ruleLang_len {bol sc r w} (h : ruleLang bol sc r w) : 0 < adjLen r w.length := by
  unfold adjLen
  split
  · rename_i hr
    cases sc <;> rcases hr with rfl | rfl
    · simp [ruleLang] at h
      obtain ⟨u, _, rfl⟩ := h
      simp
    · simp [ruleLang] at h
      obtain ⟨_, s, _, u, _, rfl⟩ := h
      simp; omega
    · simp [ruleLang] at h
    · simp [ruleLang] at h
  · cases w with
    | cons => simp
    | nil =>
      exfalso
      cases sc <;> simp [ruleLang, IsIdent, IsDigits] at h

theorem ruleLang_rule {bol sc r w} (h : ruleLang bol sc r w) : 1 ≤ r ∧ r ≤ 37 := by
  cases sc <;> simp only [ruleLang] at h <;> omega

/-- The next lexeme always exists; it is the flex match of the rules. -/
theorem lexStep_spec (st : LexSt) (w : Str) (hw : w ≠ []) :
    ∃ r n, IsMunch st.sc st.bol w r n ∧ 0 < adjLen r n ∧ adjLen r n ≤ w.length ∧
      lexStep st w = some (⟨r, w.take (adjLen r n), (st.next r (w.take (adjLen r n))).loc⟩,
        st.next r (w.take (adjLen r n)), w.drop (adjLen r n)) := by
  obtain ⟨r, n, h, hm⟩ := matchOne_spec st.sc st.bol w hw
  have hc := cand_iff.1 hm.cand
  have hlen : (w.take n).length = n := by simp; omega
  have hp := ruleLang_len hc.2.2
  rw [hlen] at hp
  refine ⟨r, n, hm, hp, ?_, ?_⟩
  · have : adjLen r n ≤ n := by unfold adjLen; split <;> omega
    omega
  · simp [lexStep, h]

theorem lexFuel_mono {fuel fuel' : Nat} {st : LexSt} {w : Str} (h : w.length ≤ fuel)
    (h' : w.length ≤ fuel') : lexFuel fuel st w = lexFuel fuel' st w := by
  induction fuel generalizing fuel' st w with
  | zero =>
    have : w = [] := List.length_eq_zero_iff.1 (by omega)
    subst this
    cases fuel' <;> rfl
  | succ k ih =>
    cases w with
    | nil => cases fuel' <;> rfl
    | cons c w =>
      cases fuel' with
      | zero => simp at h'
      | succ k' =>
        obtain ⟨r, n, _, hp, hl, he⟩ := lexStep_spec st (c :: w) (by simp)
        simp only [lexFuel, he, Option.bind_eq_bind, Option.bind_some]
        have hd : ((c :: w).drop (adjLen r n)).length ≤ w.length := by
          simp; omega
        simp only [List.length_cons] at h h'
        rw [ih (fuel' := k') (by omega) (by omega)]

theorem lexFrom_nil (st : LexSt) : lexFrom st [] = some [] := rfl

/-- Unfolding equation of the scanner loop. -/
theorem lexFrom_step {st : LexSt} {w : Str} {l : Lexeme} {st' : LexSt} {w' : Str} (hw : w ≠ [])
    (h : lexStep st w = some (l, st', w')) : lexFrom st w = (lexFrom st' w').map (l :: ·) := by
  cases w with
  | nil => exact absurd rfl hw
  | cons c w =>
    obtain ⟨r, n, _, hp, hl, he⟩ := lexStep_spec st (c :: w) (by simp)
    rw [he] at h
    simp only [Option.some.injEq, Prod.mk.injEq] at h
    obtain ⟨rfl, rfl, rfl⟩ := h
    unfold lexFrom
    simp only [List.length_cons, lexFuel, he, Option.bind_eq_bind, Option.bind_some]
    have hd : ((c :: w).drop (adjLen r n)).length ≤ w.length := by
      simp; omega
    rw [lexFuel_mono hd (Nat.le_refl _)]
    cases lexFuel _ _ _ <;> rfl

/-- Induction principle: the scan of any text succeeds, lexeme by lexeme. -/
theorem lexFrom_total (st : LexSt) (w : Str) : ∃ ls, lexFrom st w = some ls := by
  induction hn : w.length using Nat.strongRecOn generalizing st w with
  | ind n ih =>
    cases w with
    | nil => exact ⟨[], rfl⟩
    | cons c w =>
      obtain ⟨r, k, _, hp, hl, he⟩ := lexStep_spec st (c :: w) (by simp)
      rw [lexFrom_step (by simp) he]
      obtain ⟨ls, hls⟩ := ih ((c :: w).drop (adjLen r k)).length
        (by rw [← hn]; simp; omega) (st.next r ((c :: w).take (adjLen r k))) _ rfl
      exact ⟨_, by rw [hls]; rfl⟩

/-- Nothing is lost: the lexemes laid end to end are the input. -/
theorem lexFrom_flatten {st : LexSt} {w : Str} {ls : List Lexeme} (h : lexFrom st w = some ls) :
    (ls.map Lexeme.text).flatten = w ∧ ∀ l ∈ ls, l.text ≠ [] := by
  induction hn : w.length using Nat.strongRecOn generalizing st w ls with
  | ind n ih =>
    cases w with
    | nil =>
      rw [lexFrom_nil] at h
      cases h; simp
    | cons c w =>
      obtain ⟨r, k, _, hp, hl, he⟩ := lexStep_spec st (c :: w) (by simp)
      rw [lexFrom_step (by simp) he] at h
      cases hls : lexFrom (st.next r ((c :: w).take (adjLen r k))) ((c :: w).drop (adjLen r k)) with
      | none => rw [hls] at h; simp at h
      | some ls' =>
        rw [hls] at h
        simp only [Option.map_some, Option.some.injEq] at h
        subst h
        obtain ⟨h1, h2⟩ := ih ((c :: w).drop (adjLen r k)).length
          (by rw [← hn]; simp; omega) hls rfl
        refine ⟨?_, ?_⟩
        · simp only [List.map_cons, List.flatten_cons, h1, List.take_append_drop]
        · intro l hl'
          rcases List.mem_cons.1 hl' with rfl | hl'
          · intro e
            have := congrArg List.length e
            simp only [List.length_take, List.length_nil] at this
            omega
          · exact h2 l hl'

end Stfx.Lexer
