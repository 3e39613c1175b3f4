import Verif.Lexer.BufferSim
/-
C58: the scanner's input buffer is invisible.  Whatever the size of the buffer and however the
stream delivers its characters - one at a time, as `LexerInput` of this program does, or in larger
pieces - the scanner produces the lexemes of the whole text: no token is split or joined where the
buffer is refilled, a NUL character of the file is told apart from the end of the buffer, no
character of the buffer is read before it was stored, nothing outside of the buffer is accessed,
and after the last lexeme every further call answers end of file.
-/
set_option autoImplicit false
namespace Stfx.Lexer

/-- The results of the next `n` turns of the scanner's loop, whether or not end of file has been
returned before.  (Specification notion, models no code.) -/
def nTurns (rd : Nat → Str → Nat) (fuel : Nat) : Nat → Flex → Option (List (Option Lexeme))
  | 0, _ => some []
  | n + 1, F => do
    let (l, F) ← turn rd fuel F
    let ls ← nTurns rd fuel n F
    some (l :: ls)

/-- The lexemes found through the buffer are those of the text. -/
theorem C58_buffer (rd : Nat → Str → Nat) (hrd : Reader rd) (size : Nat) (hsize : 0 < size)
    (w : Str) (fuel : Nat) (hfuel : 2 * w.length + 2 ≤ fuel) :
    ∃ ls F, lexFile w = some ls ∧ bufLex rd size fuel w = some (ls, F) := by
  obtain ⟨F, h1, h2, h3⟩ := create_spec hsize w
  obtain ⟨ls, F', h4, h5, _⟩ := turns_spec hrd fuel h3 (by omega) hfuel
  refine ⟨ls, F', ?_, by simp [bufLex, h1, h5]⟩
  rw [h2] at h4
  exact h4

/-- Every turn, of as many as one likes: first the lexemes of the text, then end of file for ever. -/
theorem C58_calls (rd : Nat → Str → Nat) (hrd : Reader rd) (size : Nat) (hsize : 0 < size)
    (w : Str) (fuel : Nat) (hfuel : 2 * w.length + 2 ≤ fuel) :
    ∃ ls F, lexFile w = some ls ∧ Flex.create size w = some F ∧
      ∀ n, nTurns rd fuel n F = some ((ls.map some ++ List.replicate n none).take n) := by
  have eof : ∀ (n : Nat) (F : Flex), Inv F [] →
      nTurns rd fuel n F = some (List.replicate n none) := by
    intro n
    induction n with
    | zero => intro F _; rfl
    | succ n ih =>
      intro F hF
      obtain ⟨F', h1, h2⟩ := turn_eof hrd hF (k := fuel) (by omega)
      simp [nTurns, h1, ih F' h2, List.replicate_succ]
  have all : ∀ (n : Nat) (F : Flex) (w : Str), Inv F w → 2 * w.length + 2 ≤ fuel →
      ∃ ls, lexFrom F.st w = some ls ∧
        nTurns rd fuel n F = some ((ls.map some ++ List.replicate n none).take n) := by
    intro n
    induction n with
    | zero =>
      intro F w _ _
      obtain ⟨ls, h⟩ := lexFrom_total F.st w
      exact ⟨ls, h, by simp [nTurns]⟩
    | succ n ih =>
      intro F w hF hk
      by_cases hw : w = []
      · subst hw
        exact ⟨[], rfl, by rw [eof _ F hF]; simp⟩
      · obtain ⟨l, st', w', F1, h1, h2, h3, h4, h5⟩ := turn_spec hrd hF hw hk
        obtain ⟨ls, h6, h7⟩ := ih F1 w' h4 (by omega)
        refine ⟨l :: ls, by rw [lexFrom_step hw h1, ← h3, h6]; rfl, ?_⟩
        simp only [nTurns, h2, h7, Option.bind_eq_bind, Option.bind_some, List.map_cons,
          List.cons_append, List.take_succ_cons]
        congr 2
        simp only [List.take_append, List.length_map]
        simp [List.replicate_succ', List.take_append]
  obtain ⟨F, h1, h2, h3⟩ := create_spec hsize w
  obtain ⟨ls, hls, _⟩ := all 0 F w h3 hfuel
  rw [h2] at hls
  refine ⟨ls, F, hls, h1, fun n => ?_⟩
  obtain ⟨ls', h4, h5⟩ := all n F w h3 hfuel
  rw [h2] at h4
  have : ls' = ls := by
    have := h4.symm.trans hls
    simpa using this
  rw [h5, this]

/-- The reader of the code is a reader. -/
theorem lexerInput_reader : Reader lexerInput := by
  intro max w hmax hw
  simp [lexerInput, hw]; omega

/-- The scanner as the program has it: one character at a time, 16384 characters of buffer. -/
theorem C58_code (w : Str) (fuel : Nat) (hfuel : 2 * w.length + 2 ≤ fuel) :
    ∃ ls F, toksFile w = some (tokensOf ls) ∧ bufLex lexerInput yyBufSize fuel w = some (ls, F) := by
  obtain ⟨ls, F, h1, h2⟩ := C58_buffer lexerInput lexerInput_reader yyBufSize (by decide) w fuel hfuel
  refine ⟨ls, F, ?_, h2⟩
  have h1 : lexFrom LexSt.init w = some ls := h1
  simp [toksFile, toksFrom, h1]

/-- A file with a NUL inside a string constant, one alone, a comment line with its newline given
back, and a token cut off by the end of the file; the buffer starts with room for one character and
grows, the stream delivers up to three characters at a time. -/
example :
    let w := c!"int s = \"a" ++ [nul] ++ c!"b\";" ++ [nul] ++ c!" // x\n std::stri"
    (bufLex (fun max w => min 3 (min max w.length)) 1 70 w).map (·.1.map fun l => (l.rule, l.text))
      = (lexFile w).map (·.map fun l => (l.rule, l.text)) ∧
    (lexFile w).map (·.map fun l => (l.rule, l.text)) =
      some [(19, c!"int"), (8, c!" "), (30, c!"s"), (8, c!" "), (11, c!"="), (8, c!" "),
        (35, c!"\"a" ++ [nul] ++ c!"b\""), (13, c!";"), (37, [nul]), (8, c!" "), (5, c!"// x"),
        (7, c!"\n"), (8, c!" "), (31, c!"std::stri")] := by
  decide +kernel

/-- The same text one character at a time: the last lexeme, then end of file twice. -/
example :
    (bufLex lexerInput 4 70 (c!"a" ++ [nul] ++ c!"b")).map (fun p => (p.1.map (·.text),
        (nTurns lexerInput 1 2 p.2).map (·.map (·.isNone))))
      = some ([c!"a", [nul], c!"b"], some [true, true]) := by
  decide +kernel

end Stfx.Lexer
