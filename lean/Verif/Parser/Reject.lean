import Verif.Parser.Complete
/-
What a rejected token sequence leaves behind.
-/
namespace Stfx.Parser

/-- The shape of one continuing step. -/
theorem astep_cases {a a' : ACfg} (h : astep a = some (.cont a')) :
    (∃ s, a' = ⟨⟨s, tokVal a.next⟩ :: a.stack, a.inp.tail, a.log⟩ ∧
      ∃ top, a.stack[0]? = some top ∧ top.state ≠ yyfinal ∧ action top.state a.next.kind = some (.shift s)) ∨
    (∃ n st calls, a' = ⟨st, a.inp, a.log ++ calls⟩ ∧
      ∃ top, a.stack[0]? = some top ∧ top.state ≠ yyfinal ∧ action top.state a.next.kind = some (.reduce n) ∧
      ∀ inp log, areduce ⟨a.stack, inp, log⟩ n = some (.cont ⟨st, inp, log ++ calls⟩)) := by
  unfold astep at h
  cases htop : a.stack[0]? with
  | none => rw [htop] at h; cases h
  | some top =>
    rw [htop] at h
    simp only [Option.bind_eq_bind, Option.bind_some] at h
    by_cases hf : top.state = yyfinal
    · rw [if_pos hf] at h; cases h
    · rw [if_neg hf] at h
      cases hact : action top.state a.next.kind with
      | none => rw [hact] at h; cases h
      | some x =>
        rw [hact] at h
        cases x with
        | error => cases h
        | shift s =>
          simp only [Option.some.injEq, AStep.cont.injEq] at h
          left
          exact ⟨s, h.symm, top, rfl, hf, hact⟩
        | reduce n =>
          right
          simp only at h
          unfold areduce at h
          cases h1 : yyr2[n]? with
          | none => rw [h1] at h; cases h
          | some len =>
            cases h2 : yyr1[n]? with
            | none => rw [h1, h2] at h; cases h
            | some sym =>
              rw [h1, h2] at h
              simp only [Option.bind_eq_bind, Option.bind_some] at h
              cases h3 : a.stack[len]? with
              | none => rw [h3] at h; cases h
              | some below =>
                rw [h3] at h
                simp only [Option.bind_some] at h
                cases h4 : gotoState below.state sym with
                | none => rw [h4] at h; cases h
                | some s =>
                  rw [h4] at h
                  simp only [Option.bind_some] at h
                  cases h5 : act n a.stack (lhsInit sym) with
                  | none => rw [h5] at h; cases h
                  | some vc =>
                    rw [h5] at h
                    obtain ⟨v, calls⟩ := vc
                    simp only [Option.bind_some, Option.some.injEq, AStep.cont.injEq] at h
                    refine ⟨n, _, calls, h.symm, top, rfl, hf, hact, ?_⟩
                    intro inp log
                    unfold areduce
                    simp only [h1, h2, h3, h4, h5, Option.bind_eq_bind, Option.bind_some]

/-- One step only looks at the next token. -/
theorem astep_shift_local {st : List Cell} {log : List Call} {inp inp' : List Token} {top : Cell} {s : Nat}
    (h1 : st[0]? = some top) (h2 : top.state ≠ yyfinal)
    (h3 : action top.state (inp'.headD eofTok).kind = some (.shift s)) :
    astep ⟨st, inp', log⟩ = some (.cont ⟨⟨s, tokVal (inp'.headD eofTok)⟩ :: st, inp'.tail, log⟩) := by
  unfold astep
  simp only [h1, Option.bind_eq_bind, Option.bind_some, if_neg h2, ACfg.next, h3]

theorem astep_reduce_local {st st' : List Cell} {log : List Call} {inp' : List Token} {top : Cell} {n : Nat}
    {calls : List Call} (h1 : st[0]? = some top) (h2 : top.state ≠ yyfinal)
    (h3 : action top.state (inp'.headD eofTok).kind = some (.reduce n))
    (h4 : ∀ inp log, areduce ⟨st, inp, log⟩ n = some (.cont ⟨st', inp, log ++ calls⟩)) :
    astep ⟨st, inp', log⟩ = some (.cont ⟨st', inp', log ++ calls⟩) := by
  unfold astep
  simp only [h1, Option.bind_eq_bind, Option.bind_some, if_neg h2, ACfg.next, h3, h4]

theorem astep_error_local {st : List Cell} {log log' : List Call} {inp inp' : List Token}
    (hn : (inp.headD eofTok).kind = (inp'.headD eofTok).kind)
    (h : astep ⟨st, inp, log⟩ = some .error) : astep ⟨st, inp', log'⟩ = some .error := by
  unfold astep at h ⊢
  cases htop : st[0]? with
  | none => simp only [htop] at h; cases h
  | some top =>
    simp only [htop, Option.bind_eq_bind, Option.bind_some, ACfg.next, hn] at h ⊢
    by_cases hf : top.state = yyfinal
    · rw [if_pos hf] at h; cases h
    · rw [if_neg hf] at h ⊢
      cases hact : action top.state (inp'.headD eofTok).kind with
      | none => rw [hact] at h; cases h
      | some x =>
        rw [hact] at h
        cases x with
        | error => rfl
        | shift s => cases h
        | reduce n =>
          simp only at h
          rcases reduce_areduce (c := ⟨st, none, inp, log⟩) (n := n) (inp := inp) (Or.inl rfl) with ⟨_, e⟩ | ⟨_, _, _, e⟩
          · rw [show areduce ⟨st, inp, log⟩ n = none from e] at h; cases h
          · rw [show areduce ⟨st, inp, log⟩ n = _ from e] at h; cases h

theorem astep_inp {a a' : ACfg} (h : astep a = some (.cont a')) : a'.inp = a.inp ∨ a'.inp = a.inp.tail := by
  rcases astep_cases h with ⟨s, rfl, _⟩ | ⟨n, st, calls, rfl, _⟩
  · exact Or.inr rfl
  · exact Or.inl rfl

theorem asteps_len (n : Nat) {a b : ACfg} (h : asteps n a = some b) : b.inp.length ≤ a.inp.length := by
  induction n generalizing a with
  | zero => cases h; exact Nat.le_refl _
  | succ n ih =>
    unfold asteps at h
    split at h
    · next a' e =>
      have := ih h
      rcases astep_inp e with e' | e' <;> rw [e'] at this
      · exact this
      · rw [List.length_tail] at this; omega
    · cases h

/-- A run that stops before shifting `t` does not depend on what follows `t`. -/
theorem asteps_local (n : Nat) {st st' : List Cell} {u : List Token} {t : Token} {q : List Token}
    {log log' : List Call} (h : asteps n ⟨st, u ++ t :: q, log⟩ = some ⟨st', t :: q, log'⟩)
    (q' : List Token) : asteps n ⟨st, u ++ t :: q', log⟩ = some ⟨st', t :: q', log'⟩ := by
  induction n generalizing st u log with
  | zero =>
    unfold asteps at h ⊢
    simp only [Option.some.injEq, ACfg.mk.injEq] at h ⊢
    refine ⟨h.1, ?_, h.2.2⟩
    have : u = [] := List.append_cancel_right (as := u) (bs := t :: q) (cs := []) (by simpa using h.2.1)
    simp [this]
  | succ n ih =>
    unfold asteps at h ⊢
    split at h
    · next a' e =>
      have hhead : ((u ++ t :: q).headD eofTok) = ((u ++ t :: q').headD eofTok) := by
        cases u <;> rfl
      rcases astep_cases e with ⟨s, rfl, top, h1, h2, h3⟩ | ⟨m, st2, calls, rfl, top, h1, h2, h3, h4⟩
      · have h3' : action top.state ((u ++ t :: q').headD eofTok).kind = some (.shift s) := by
          rw [← hhead]; exact h3
        rw [astep_shift_local (inp := u ++ t :: q) h1 h2 h3']
        simp only [ACfg.next] at h ⊢
        cases u with
        | nil =>
          exfalso
          have := asteps_len n h
          simp at this
          omega
        | cons x u =>
          simp only [List.cons_append, List.tail_cons, List.headD_cons] at h ⊢
          exact ih h
      · have h3' : action top.state ((u ++ t :: q').headD eofTok).kind = some (.reduce m) := by
          rw [← hhead]; exact h3
        rw [astep_reduce_local h1 h2 h3' h4]
        exact ih h
    · cases h

/-- A terminating run as a step sequence. -/
theorem arun_rejected {fuel : Nat} {a : ACfg} {log : List Call} {inp : List Token}
    (h : arun fuel a = .rejected log inp) :
    ∃ n st, asteps n a = some ⟨st, inp, log⟩ ∧ astep ⟨st, inp, log⟩ = some .error ∧
      recovers st = some false := by
  induction fuel generalizing a with
  | zero => cases h
  | succ k ih =>
    unfold arun at h
    split at h
    · cases h
    · cases h
    · next e =>
      split at h
      · cases h
      · cases h
      · next e' =>
        simp only [AResult.rejected.injEq] at h
        obtain ⟨rfl, rfl⟩ := h
        exact ⟨0, a.stack, rfl, e, e'⟩
    · next a' e =>
      obtain ⟨n, st, h1, h2, h3⟩ := ih h
      exact ⟨n + 1, st, by unfold asteps; rw [e]; exact h1, h2, h3⟩

theorem arun_accepted {fuel : Nat} {a : ACfg} {log : List Call} (h : arun fuel a = .accepted log) :
    ∃ n b, asteps n a = some b ∧ astep b = some .accept ∧ b.log = log := by
  induction fuel generalizing a with
  | zero => cases h
  | succ k ih =>
    unfold arun at h
    split at h
    · cases h
    · next e =>
      simp only [AResult.accepted.injEq] at h
      exact ⟨0, a, rfl, e, h⟩
    · split at h <;> cases h
    · next a' e =>
      obtain ⟨n, b, h1, h2, h3⟩ := ih h
      exact ⟨n + 1, b, by unfold asteps; rw [e]; exact h1, h2, h3⟩

theorem arun_steps_error (n fuel : Nat) {a b : ACfg} (h : asteps n a = some b)
    (hb : astep b = some .error) (hr : recovers b.stack = some false) :
    arun fuel a = .rejected b.log b.inp ∨ arun fuel a = .timeout := by
  induction n generalizing a fuel with
  | zero =>
    cases h
    cases fuel with
    | zero => right; rfl
    | succ k => left; unfold arun; rw [hb]; simp only [hr]
  | succ n ih =>
    cases fuel with
    | zero => right; rfl
    | succ k =>
      unfold asteps at h
      split at h
      · next a' e =>
        unfold arun
        rw [e]
        exact ih k h
      · cases h

theorem aparse_not_timeout (toks : List Token) : aparse toks ≠ .timeout := by
  unfold aparse
  intro e
  rcases arun_ok (fuelFor toks) (inv_init toks) (measure_init toks) with ⟨a, _, e', _⟩ | ⟨a, _, e', _⟩
  · rw [e] at e'; cases e'
  · rw [e] at e'; cases e'

/-- The log and the offending token do not depend on what follows. -/
theorem aparse_local {p : List Token} {t : Token} {q : List Token} {log : List Call}
    (h : aparse (p ++ t :: q) = .rejected log (t :: q)) (q' : List Token) :
    aparse (p ++ t :: q') = .rejected log (t :: q') := by
  obtain ⟨n, st, h1, h2, h3⟩ := arun_rejected h
  have h1' := asteps_local n h1 q'
  have h2' : astep ⟨st, t :: q', log⟩ = some .error :=
    astep_error_local (inp := t :: q) rfl h2
  rcases arun_steps_error n (fuelFor (p ++ t :: q')) h1' h2' h3 with e | e
  · exact e
  · exact absurd e (aparse_not_timeout _)

/-- What is left of the input is a suffix of it. -/
theorem asteps_suffix (n : Nat) {a b : ACfg} (h : asteps n a = some b) : ∃ u, a.inp = u ++ b.inp := by
  induction n generalizing a with
  | zero => cases h; exact ⟨[], rfl⟩
  | succ n ih =>
    unfold asteps at h
    split at h
    · next a' e =>
      obtain ⟨u, hu⟩ := ih h
      rcases astep_inp e with e' | e'
      · exact ⟨u, by rw [← e', hu]⟩
      · cases hi : a.inp with
        | nil => rw [hi] at e'; simp at e'; rw [e'] at hu; exact ⟨u, hu⟩
        | cons x xs =>
          rw [hi] at e'
          simp at e'
          rw [e'] at hu
          exact ⟨x :: u, by rw [hu]; rfl⟩
    · cases h

/-! ### Comparing with other continuations -/

/-- States in which a reduction makes no calls and leads to such a state again.  (Proof notion, models no code.) -/
def quiet : List Nat := [3, 4, 5, 13, 25, 26, 46, 47, 55, 63, 71]

/-- Symbol numbers of the nonterminals whose states are quiet.  (Proof notion, models no code.) -/
def quietSyms : List Nat := [32, 33, 34, 37, 60, 61, 64, 65]

/-- Rules without calls.  (Proof notion, models no code.) -/
def silent : List Nat := [2, 3, 4, 33, 34, 35, 42, 43]

/-- What the tables say about quiet states and states that look at the next token.  (Proof notion, models no code.) -/
def checkQuiet : Bool :=
  liveStates.all (fun s => allKinds.all (fun k => match action s k with
      | some (.reduce n) =>
        (yypact[s]? == some ninf && !quiet.contains s) ||
        ((match yyr1[n]? with
          | some x => quietSyms.contains x
          | none => false) &&
          ((quiet.contains s && silent.contains n) || (s == 24 && n == 36)))
      | _ => true)) &&
  -- gotos on quiet nonterminals lead to quiet states
  (List.range 96).all (fun s => quietSyms.all (fun x => match gotoState s x with
      | some s2 => quiet.contains s2
      | none => true)) &&
  -- a state that does not look at the next token behaves alike on all tokens
  liveStates.all (fun s => yypact[s]? != some ninf || allKinds.all (fun k => action s k == action s .eof))

theorem check_quiet : checkQuiet = true := by decide +kernel

theorem mem_live {s : Nat} (h : s < 96) (hf : s ≠ yyfinal) : s ∈ liveStates := by
  unfold liveStates
  rw [List.mem_filter]
  exact ⟨List.mem_range.2 h, by simp [hf]⟩

theorem reduce_quiet {s n : Nat} {k : TokKind} (h : s < 96) (hf : s ≠ yyfinal)
    (ha : action s k = some (.reduce n)) :
    (yypact[s]? = some ninf ∧ s ∉ quiet) ∨
    ((∃ x ∈ quietSyms, yyr1[n]? = some x) ∧ ((s ∈ quiet ∧ n ∈ silent) ∨ (s = 24 ∧ n = 36))) := by
  have h1 := check_quiet
  unfold checkQuiet at h1
  rw [Bool.and_eq_true, Bool.and_eq_true] at h1
  have h2 := List.all_eq_true.1 (List.all_eq_true.1 h1.1.1 _ (mem_live h hf)) _ (mem_allKinds k)
  rw [ha] at h2
  simp only [Bool.or_eq_true, Bool.and_eq_true, beq_iff_eq, Bool.not_eq_true', List.contains_iff_mem] at h2
  rcases h2 with ⟨e1, e2⟩ | ⟨e1, e2⟩
  · left
    refine ⟨e1, fun hm => ?_⟩
    rw [List.contains_iff_mem.2 hm] at e2
    cases e2
  · right
    refine ⟨?_, e2⟩
    cases hx : yyr1[n]? with
    | none => rw [hx] at e1; cases e1
    | some x => rw [hx] at e1; exact ⟨x, List.contains_iff_mem.1 e1, rfl⟩

theorem goto_quiet {s x s2 : Nat} (h : s < 96) (hx : x ∈ quietSyms) (hg : gotoState s x = some s2) :
    s2 ∈ quiet := by
  have h1 := check_quiet
  unfold checkQuiet at h1
  rw [Bool.and_eq_true, Bool.and_eq_true] at h1
  have h2 := List.all_eq_true.1 (List.all_eq_true.1 h1.1.2 _ (List.mem_range.2 h)) _ hx
  rw [hg] at h2
  exact List.contains_iff_mem.1 h2

theorem blind {s : Nat} (h : s < 96) (hf : s ≠ yyfinal) (hp : yypact[s]? = some ninf) (k k' : TokKind) :
    action s k = action s k' := by
  have h1 := check_quiet
  unfold checkQuiet at h1
  rw [Bool.and_eq_true, Bool.and_eq_true] at h1
  have h2 := List.all_eq_true.1 h1.2 _ (mem_live h hf)
  simp only [hp, bne_self_eq_false, Bool.false_or] at h2
  have a := List.all_eq_true.1 h2 _ (mem_allKinds k)
  have b := List.all_eq_true.1 h2 _ (mem_allKinds k')
  rw [beq_iff_eq] at a b
  rw [a, b]

/-- Parts of a reduction. -/
theorem areduce_parts {a : ACfg} {n : Nat} {st' : List Cell} {inp : List Token} {log calls : List Call}
    (h : areduce a n = some (.cont ⟨st', inp, log ++ calls⟩)) (hl : a.log = log) :
    ∃ below ∈ a.stack, ∃ x s v rest, yyr1[n]? = some x ∧ gotoState below.state x = some s ∧
      act n a.stack (lhsInit x) = some (v, calls) ∧ st' = ⟨s, v⟩ :: rest := by
  unfold areduce at h
  cases h1 : yyr2[n]? with
  | none => rw [h1] at h; cases h
  | some len =>
    cases h2 : yyr1[n]? with
    | none => rw [h1, h2] at h; cases h
    | some sym =>
      rw [h1, h2] at h
      simp only [Option.bind_eq_bind, Option.bind_some] at h
      cases h3 : a.stack[len]? with
      | none => rw [h3] at h; cases h
      | some below =>
        rw [h3] at h
        simp only [Option.bind_some] at h
        cases h4 : gotoState below.state sym with
        | none => rw [h4] at h; cases h
        | some s =>
          rw [h4] at h
          simp only [Option.bind_some] at h
          cases h5 : act n a.stack (lhsInit sym) with
          | none => rw [h5] at h; cases h
          | some vc =>
            rw [h5] at h
            obtain ⟨v, calls'⟩ := vc
            simp only [Option.bind_some, Option.some.injEq, AStep.cont.injEq, ACfg.mk.injEq] at h
            obtain ⟨e1, e2, e3⟩ := h
            rw [hl] at e3
            have e4 : calls' = calls := List.append_cancel_left e3
            subst e4
            exact ⟨below, List.mem_of_getElem? h3, sym, s, v, _, rfl, h4, h5, e1.symm⟩

theorem act_silent {n : Nat} (hn : n ∈ silent) (st : List Cell) (init : SemVal) :
    act n st init = some (init, []) := by
  simp only [silent, List.mem_cons, List.not_mem_nil, or_false] at hn
  rcases hn with rfl | rfl | rfl | rfl | rfl | rfl | rfl | rfl <;> rfl

theorem Inv.lt {toks : List Token} {a : ACfg} (h : Inv toks a) : ∀ c ∈ a.stack, c.state < 96 := by
  obtain ⟨w, hc, _⟩ := h
  exact hc.all_lt

theorem Inv.step {toks : List Token} {a a' : ACfg} (h : Inv toks a) (hs : astep a = some (.cont a')) :
    Inv toks a' := by
  obtain ⟨r, hr, hc⟩ := astep_ok h
  rw [hs] at hr
  cases hr
  exact (hc a' rfl).1

theorem Inv.steps {toks : List Token} (n : Nat) {a a' : ACfg} (h : Inv toks a) (hs : asteps n a = some a') :
    Inv toks a' := by
  induction n generalizing a with
  | zero => cases hs; exact h
  | succ n ih =>
    unfold asteps at hs
    split at hs
    · next b e => exact ih (h.step e) hs
    · cases hs

theorem astep_log {a a' : ACfg} (h : astep a = some (.cont a')) : ∃ calls, a'.log = a.log ++ calls := by
  rcases astep_cases h with ⟨s, rfl, _⟩ | ⟨n, st, calls, rfl, _⟩
  · exact ⟨[], by simp⟩
  · exact ⟨calls, rfl⟩

theorem asteps_log (n : Nat) {a b : ACfg} (h : asteps n a = some b) : ∃ calls, b.log = a.log ++ calls := by
  induction n generalizing a with
  | zero => cases h; exact ⟨[], by simp⟩
  | succ n ih =>
    unfold asteps at h
    split at h
    · next a' e =>
      obtain ⟨c1, h1⟩ := astep_log e
      obtain ⟨c2, h2⟩ := ih h
      exact ⟨c1 ++ c2, by rw [h2, h1, List.append_assoc]⟩
    · cases h

/-- After shifting the end of file the parser accepts. -/
theorem no_error_after_final {s : Cell} {st : List Cell} {inp : List Token} {log : List Call} {n : Nat} {b : ACfg}
    (hs : s.state = yyfinal) (h : asteps n ⟨s :: st, inp, log⟩ = some b) (he : astep b = some .error) : False := by
  have hacc : astep ⟨s :: st, inp, log⟩ = some .accept := by
    unfold astep; simp [hs]
  cases n with
  | zero => cases h; rw [hacc] at he; cases he
  | succ n => unfold asteps at h; rw [hacc] at h; cases h

/-- On the way to an error with the next token fixed, every step is a reduction. -/
theorem step_to_error {toks : List Token} {a a' b : ACfg} {n : Nat} (hi : Inv toks a)
    (hs : astep a = some (.cont a')) (hr : asteps n a' = some b) (he : astep b = some .error)
    (hinp : b.inp = a.inp) :
    ∃ m st calls, a' = ⟨st, a.inp, a.log ++ calls⟩ ∧
      ∃ top rest, a.stack = top :: rest ∧ top.state < 96 ∧ top.state ≠ yyfinal ∧
      action top.state a.next.kind = some (.reduce m) ∧
      ∀ inp log, areduce ⟨a.stack, inp, log⟩ m = some (.cont ⟨st, inp, log ++ calls⟩) := by
  have hlt := hi.lt
  rcases astep_cases hs with ⟨s, rfl, top, h1, h2, h3⟩ | ⟨m, st, calls, rfl, top, h1, h2, h3, h4⟩
  · exfalso
    have ht : top ∈ a.stack := List.mem_of_getElem? h1
    have hlen := asteps_len n hr
    rw [hinp] at hlen
    simp only [List.length_tail] at hlen
    have hnil : a.inp = [] := List.length_eq_zero_iff.1 (by omega)
    have hk : a.next.kind = .eof := by simp [ACfg.next, hnil, eofTok]
    have := shift_final (hlt top ht) h2 h3 hk
    exact no_error_after_final (s := ⟨s, tokVal a.next⟩) this hr he
  · obtain ⟨stk, inp, log⟩ := a
    cases stk with
    | nil => cases h1
    | cons c rest =>
      simp at h1
      subst h1
      exact ⟨m, st, calls, rfl, c, rest, rfl, hlt c (by simp), h2, h3, h4⟩

theorem quiet_run {toks : List Token} (n : Nat) {a b : ACfg} (hi : Inv toks a)
    (hq : ∃ top rest, a.stack = top :: rest ∧ top.state ∈ quiet) (hr : asteps n a = some b)
    (he : astep b = some .error) (hinp : b.inp = a.inp) : b.log = a.log := by
  induction n generalizing a with
  | zero => cases hr; rfl
  | succ n ih =>
    unfold asteps at hr
    split at hr
    · next a' e =>
      obtain ⟨m, st, calls, ha', top, rest, hst, hlt, hf, hact, hred⟩ := step_to_error hi e hr he hinp
      obtain ⟨top', rest', hst', hq⟩ := hq
      rw [hst] at hst'
      cases hst'
      rcases reduce_quiet hlt hf hact with ⟨_, e2⟩ | ⟨⟨x, hx, hx'⟩, e2⟩
      · exact absurd hq e2
      · obtain ⟨below, hb, x', s, v, rest2, g1, g2, g3, g4⟩ := areduce_parts (hred a.inp a.log) rfl
        have hxx : x' = x := by rw [hx'] at g1; cases g1; rfl
        subst hxx
        have hs := goto_quiet (hi.lt below hb) hx g2
        have hsil : m ∈ silent := by
          rcases e2 with ⟨_, h⟩ | ⟨h24, _⟩
          · exact h
          · rw [h24] at hq; exact absurd hq (by decide)
        rw [act_silent hsil] at g3
        simp at g3
        have hlog : a'.log = a.log := by rw [ha', g3.2]; simp
        rw [← hlog]
        refine ih (hi.step e) ⟨⟨s, v⟩, rest2, by rw [ha', g4], hs⟩ hr ?_
        rw [hinp, ha']
    · cases hr

/-- The log at an error against the log of another continuation. -/
theorem compare {toks : List Token} (n m : Nat) {st : List Cell} {inp inp' : List Token} {log : List Call}
    {b c : ACfg} (hi : Inv toks ⟨st, inp, log⟩) (hr : asteps n ⟨st, inp, log⟩ = some b)
    (he : astep b = some .error) (hinp : b.inp = inp)
    (hr' : asteps m ⟨st, inp', log⟩ = some c) (ha : astep c = some .accept) :
    b.log <+: c.log ∨ ∃ l name, b.log = l ++ [.enumLine name false c!"-"] ∧ l <+: c.log := by
  induction n generalizing st log m with
  | zero =>
    cases hr
    left
    obtain ⟨calls, e⟩ := asteps_log m hr'
    exact ⟨calls, e.symm⟩
  | succ n ih =>
    unfold asteps at hr
    split at hr
    · next a' e =>
      obtain ⟨k, st2, calls, ha', top, rest, hst, hlt, hf, hact, hred⟩ := step_to_error hi e hr he hinp
      simp only at ha' hst hact hred
      subst ha'
      have htop : st[0]? = some top := by rw [hst]; rfl
      rcases reduce_quiet hlt hf hact with ⟨e1, _⟩ | ⟨⟨x, hx, hx'⟩, e2⟩
      · -- the other run takes the same step
        have hact' : action top.state (inp'.headD eofTok).kind = some (.reduce k) := by
          rw [← hact]; exact blind hlt hf e1 _ _
        have e' := astep_reduce_local (log := log) htop hf hact' hred
        cases m with
        | zero => cases hr'; rw [e'] at ha; cases ha
        | succ m =>
          unfold asteps at hr'
          rw [e'] at hr'
          exact ih m (hi.step e) hr hr'
      · obtain ⟨below, hb, x', s, v, rest2, g1, g2, g3, g4⟩ := areduce_parts (hred inp log) rfl
        have hxx : x' = x := by rw [hx'] at g1; cases g1; rfl
        subst hxx
        have hs := goto_quiet (hi.lt below hb) hx g2
        have hlog := quiet_run n (hi.step e) ⟨⟨s, v⟩, rest2, g4, hs⟩ hr he (by rw [hinp])
        simp only at hlog
        obtain ⟨calls', ec⟩ := asteps_log m hr'
        simp only at ec
        rcases e2 with ⟨_, h⟩ | ⟨_, h36⟩
        · rw [act_silent h] at g3
          simp at g3
          left
          rw [hlog, g3.2, List.append_nil]
          exact ⟨calls', ec.symm⟩
        · right
          subst h36
          simp only [act, Option.bind_eq_bind] at g3
          cases hs0 : strAt st 0 with
          | none => rw [hs0] at g3; cases g3
          | some nm =>
            rw [hs0] at g3
            simp at g3
            exact ⟨log, nm, by rw [hlog, ← g3.2], ⟨calls', ec.symm⟩⟩
    · cases hr

/-- The moment the last token before the offending one has been shifted: a run on `u ++ inp` that
stops with `inp` left passes through a configuration that a run on `u ++ inp'` passes through, too. -/
theorem asteps_split (n : Nat) {st : List Cell} {u inp : List Token} {log : List Call} {b : ACfg}
    (h : asteps n ⟨st, u ++ inp, log⟩ = some b) (hb : b.inp = inp) :
    ∃ k j st2 log2, asteps k ⟨st, u ++ inp, log⟩ = some ⟨st2, inp, log2⟩ ∧
      asteps j ⟨st2, inp, log2⟩ = some b ∧
      ∀ inp', asteps k ⟨st, u ++ inp', log⟩ = some ⟨st2, inp', log2⟩ := by
  induction n generalizing st u log with
  | zero =>
    cases h
    simp only at hb
    have : u = [] := by
      have := congrArg List.length hb
      simp at this
      exact this
    subst this
    exact ⟨0, 0, st, log, rfl, rfl, fun _ => rfl⟩
  | succ n ih =>
    cases u with
    | nil => exact ⟨0, n + 1, st, log, rfl, h, fun _ => rfl⟩
    | cons x u =>
      unfold asteps at h
      split at h
      · next a' e =>
        rcases astep_cases e with ⟨s, rfl, top, h1, h2, h3⟩ | ⟨m, st2, calls, rfl, top, h1, h2, h3, h4⟩
        · simp only [List.cons_append, List.tail_cons, ACfg.next, List.headD_cons] at h h3 e
          obtain ⟨k, j, st2, log2, g1, g2, g3⟩ := ih h
          refine ⟨k + 1, j, st2, log2, ?_, g2, ?_⟩
          · unfold asteps; simp only [List.cons_append]; rw [e]; exact g1
          · intro inp'
            unfold asteps
            rw [astep_shift_local (inp := []) (inp' := x :: u ++ inp') h1 h2 h3]
            exact g3 inp'
        · obtain ⟨k, j, st3, log3, g1, g2, g3⟩ := ih (u := x :: u) h
          refine ⟨k + 1, j, st3, log3, ?_, g2, ?_⟩
          · unfold asteps; rw [e]; exact g1
          · intro inp'
            unfold asteps
            rw [astep_reduce_local (inp' := x :: u ++ inp') h1 h2 h3 h4]
            exact g3 inp'
      · cases h

theorem asteps_prefix {k m : Nat} {a b c : ACfg} (h1 : asteps k a = some b) (h2 : asteps m a = some c)
    (hc : astep c = some .accept) : ∃ j, asteps j b = some c := by
  by_cases hle : k ≤ m
  · obtain ⟨j, rfl⟩ := Nat.exists_eq_add_of_le hle
    rw [asteps_add, h1] at h2
    exact ⟨j, h2⟩
  · obtain ⟨j, rfl⟩ := Nat.exists_eq_add_of_le (Nat.le_of_lt (Nat.lt_of_not_le hle))
    have hj : j ≠ 0 := by omega
    rw [asteps_add, h2] at h1
    simp only [Option.bind_some] at h1
    cases j with
    | zero => exact absurd rfl hj
    | succ j => unfold asteps at h1; rw [hc] at h1; cases h1

/-- Rejected with `inp` left; any accepted continuation of the text before. -/
theorem aparse_compare {p inp r : List Token} {log log' : List Call}
    (h : aparse (p ++ inp) = .rejected log inp) (h' : aparse (p ++ r) = .accepted log') :
    log <+: log' ∨ ∃ l name, log = l ++ [.enumLine name false c!"-"] ∧ l <+: log' := by
  obtain ⟨n, st, h1, h2, h3⟩ := arun_rejected h
  obtain ⟨m, c, g1, g2, rfl⟩ := arun_accepted h'
  obtain ⟨k, j, st2, log2, e1, e2, e3⟩ := asteps_split n h1 rfl
  have hi : Inv (p ++ inp) ⟨st2, inp, log2⟩ := (inv_init (p ++ inp)).steps k e1
  obtain ⟨j', f⟩ := asteps_prefix (e3 r) g1 g2
  exact compare j j' hi e2 h2 rfl f g2

end Stfx.Parser
