import Verif.Cpp.Unit
/-
The scanner for generated code (`lex`) and the scanner for source files (`pptoks`) agree.
-/
set_option autoImplicit false
namespace Stfx.Cpp
open Stfx.Run Stfx.Items Stfx.Parser

/-- The token of a preprocessing token.  C++ [lex.phases]. -/
def PTok.toTok : PTok → Tok
  | .word w => wordTok w
  | .tok t => t
  | .dir _ => .dir

/-- The two scanners are in the same place.  (Proof notion, models no code.) -/
inductive SimP : Mode → PMode → Prop
  | start : SimP .start .start
  | word (w : Str) : SimP (.word w) (.word w)
  | num (w : Str) : SimP (.num w) (.num w)
  | op (w : Str) : SimP (.op w) (.op w)
  | str (w : Str) : SimP (.str w) (.str w)
  | strEsc (w : Str) : SimP (.strEsc w) (.strEsc w)
  | chr (w : Str) : SimP (.chr w) (.chr w)
  | chrEsc (w : Str) : SimP (.chrEsc w) (.chrEsc w)
  | line : SimP .line .line
  | dir (u : Str) : SimP .dir (.dir u)

/-- The directive that is not yet complete.  (Proof notion, models no code.) -/
def pending : PMode → List Tok
  | .dir _ => [.dir]
  | _ => []

theorem first_sim {c : Char} (h : (first isLetter c).2 ≠ .bad) :
    SimP (first isLetter c).2 (pfirst c) ∧ (first isLetter c).1 = pending (pfirst c) := by
  unfold first pfirst at *
  (repeat' split) <;> simp_all [pending] <;> constructor

theorem step_sim {m : Mode} {p : PMode} {c : Char} (hs : SimP m p) (h : (step isLetter wordTok m c).2 ≠ .bad) :
    SimP (step isLetter wordTok m c).2 (pstep p c).2 ∧
      pending p ++ (step isLetter wordTok m c).1 = (pstep p c).1.map PTok.toTok ++ pending (pstep p c).2 := by
  cases hs with
  | start => exact first_sim h
  | word w =>
    simp only [step, pstep] at h ⊢
    split
    · exact ⟨.word _, rfl⟩
    · next hc =>
      rw [if_neg hc] at h
      have := first_sim h
      exact ⟨this.1, by simp [emit, this.2, pending, PTok.toTok]⟩
  | num w =>
    simp only [step, pstep] at h ⊢
    by_cases hc : (isLetter c || isDigit c || decide (c = '.')) = true
    · rw [if_pos hc, if_pos (by simp [hc])]
      exact ⟨.num _, rfl⟩
    · rw [if_neg hc] at h ⊢
      by_cases hq : c = '\''
      · rw [if_pos hq] at h; exact absurd rfl h
      · rw [if_neg hq] at h ⊢
        rw [if_neg (by simpa [hq] using hc)]
        have := first_sim h
        exact ⟨this.1, by simp [emit, this.2, pending, PTok.toTok]⟩
  | op w =>
    simp only [step, pstep] at h ⊢
    split
    · exact ⟨.line, rfl⟩
    · next h1 =>
      rw [if_neg h1] at h
      split
      · next h2 => rw [if_pos h2] at h; exact absurd rfl h
      · next h2 =>
        rw [if_neg h2] at h
        split
        · exact ⟨.op _, rfl⟩
        · next h3 =>
          rw [if_neg h3] at h
          have := first_sim h
          exact ⟨this.1, by simp [emit, this.2, pending, PTok.toTok]⟩
  | str w =>
    simp only [step, pstep] at h ⊢
    (repeat' split) <;> simp_all [pending, PTok.toTok] <;> constructor
  | strEsc w =>
    simp only [step, pstep] at h ⊢
    split <;> simp_all [pending] <;> constructor
  | chr w =>
    simp only [step, pstep] at h ⊢
    (repeat' split) <;> simp_all [pending, PTok.toTok] <;> constructor
  | chrEsc w =>
    simp only [step, pstep] at h ⊢
    split <;> simp_all [pending] <;> constructor
  | line =>
    simp only [step, pstep] at h ⊢
    (repeat' split) <;> simp_all [pending] <;> constructor
  | dir u =>
    simp only [step, pstep] at h ⊢
    (repeat' split) <;> simp_all [pending, PTok.toTok] <;> constructor

theorem step_bad {letter : Char → Bool} {mk : Str → Tok} {m : Mode} {s : Str} {c : Char}
    (h : (scan letter mk m (c :: s)).2 ≠ .bad) : (step letter mk m c).2 ≠ .bad := by
  intro hb
  apply h
  simp only [scan, hb, scan_bad]

theorem scan_sim {m : Mode} {p : PMode} {s : Str} (hs : SimP m p) (h : (scan isLetter wordTok m s).2 ≠ .bad) :
    SimP (scan isLetter wordTok m s).2 (pscan p s).2 ∧
      pending p ++ (scan isLetter wordTok m s).1 = (pscan p s).1.map PTok.toTok ++ pending (pscan p s).2 := by
  induction s generalizing m p with
  | nil => exact ⟨hs, by simp [scan, pscan]⟩
  | cons c s ih =>
    have h1 := step_sim hs (step_bad h)
    have h2 := ih h1.1 h
    refine ⟨h2.1, ?_⟩
    simp only [scan, pscan, List.map_append]
    rw [← List.append_assoc, h1.2, List.append_assoc, h2.2, List.append_assoc]

/-- A text of whole tokens is read in the same way by both scanners. -/
theorem pscan_of_scan {s : Str} {ts : List Tok} (h : scan isLetter wordTok .start s = (ts, .start)) :
    ∃ ps, pscan .start s = (ps, .start) ∧ ps.map PTok.toTok = ts := by
  have := scan_sim (s := s) .start (by rw [h]; exact fun h => by cases h)
  rw [h] at this
  obtain ⟨h1, h2⟩ := this
  have h3 : (pscan .start s).2 = .start := by
    revert h1
    generalize (pscan .start s).2 = p
    intro h1
    cases h1
    rfl
  refine ⟨(pscan .start s).1, Prod.ext rfl h3, ?_⟩
  rw [h3] at h2
  simpa [pending] using h2.symm

theorem not_operator_backslash (w : Str) : (operators.lookup (w ++ ['\\'])).isSome = false := by
  rw [Option.isSome_eq_false_iff, Option.isNone_iff_eq_none, List.lookup_eq_none_iff]
  intro p hp
  have h : ∀ p ∈ operators, p.1.getLast? ≠ some '\\' := by decide
  have := h p hp
  simp only [bne, Bool.not_eq_true', beq_eq_false_iff_ne, ne_eq]
  intro he
  rw [← he] at this
  simp at this

/-- What a backslash leads to.  (Proof notion, models no code.) -/
def afterBackslash : Mode → Bool
  | .strEsc _ | .chrEsc _ | .str _ | .chr _ | .bad => true
  | _ => false

theorem step_backslash (m : Mode) : afterBackslash (step isLetter wordTok m '\\').2 = true := by
  have hf : (first isLetter '\\').2 = .bad := by decide
  have hl : isLetter '\\' = false := by decide
  have hd : isDigit '\\' = false := by decide
  have he : escape '\\' = some '\\' := by decide
  cases m with
  | start => simp [step, hf, afterBackslash]
  | word w => simp [step, emit, hf, hl, hd, afterBackslash]
  | num w => simp [step, emit, hf, hl, hd, afterBackslash]
  | op w => simp [step, emit, hf, not_operator_backslash, afterBackslash]
  | str w => simp [step, afterBackslash]
  | strEsc w => simp [step, he, afterBackslash]
  | chr w => simp [step, afterBackslash]
  | chrEsc w => simp [step, he, afterBackslash]
  | line => simp [step, afterBackslash]
  | dir => simp [step, afterBackslash]
  | bad => rfl

theorem newline_bad {m : Mode} (h : afterBackslash m = true) : (step isLetter wordTok m '\n').2 = .bad := by
  have he : escape '\n' = none := by decide
  cases m <;> first | simp [afterBackslash] at h; done | simp [step, he]

theorem return_after {m : Mode} (h : afterBackslash m = true) : afterBackslash (step isLetter wordTok m '\r').2 = true := by
  have he : escape '\r' = none := by decide
  cases m <;> first | simp [afterBackslash] at h; done | simp [step, he, afterBackslash]

/-- Such a text has no spliced lines. -/
theorem splice_of_scan {m : Mode} {s : Str} (h : (scan isLetter wordTok m s).2 ≠ .bad) : splice s = s := by
  induction s using splice.induct generalizing m with
  | case1 s ih =>
    exfalso
    apply h
    simp only [scan, newline_bad (step_backslash m), scan_bad]
  | case2 s ih =>
    exfalso
    apply h
    simp only [scan, newline_bad (return_after (step_backslash m)), scan_bad]
  | case3 c s h1 h2 ih =>
    rw [splice.eq_3 _ _ h1 h2, ih h]
  | case4 => rfl

/-- The preprocessing tokens of a text of whole tokens. -/
theorem pptoks_of_scan {s : Str} {ps : List PTok} {ts : List Tok} (h : scan isLetter wordTok .start s = (ts, .start))
    (hp : pscan .start s = (ps, .start)) : pptoks s = some ps := by
  have happ : ∀ (m : PMode) (a b : Str), pscan m (a ++ b) = ((pscan m a).1 ++ (pscan (pscan m a).2 b).1, (pscan (pscan m a).2 b).2) := by
    intro m a b
    induction a generalizing m with
    | nil => rfl
    | cons c a ih => simp only [List.cons_append, pscan, ih, List.append_assoc]
  unfold pptoks
  rw [splice_of_scan (m := .start) (by rw [h]; exact fun h => by cases h), happ, hp]
  simp only [show pscan .start ['\n'] = ([], .start) by decide, List.append_nil]

end Stfx.Cpp
