import Verif.Lexer.Lines
/-
Line ends: a text in which every newline is preceded by a carriage return has the tokens of the text without.
-/
set_option autoImplicit false
namespace Stfx.Lexer

/-- The text with CR LF line ends.  (Specification notion, models no code.) -/
def crlf : Str → Str
  | [] => []
  | c :: w => if c = '\n' then '\r' :: '\n' :: crlf w else c :: crlf w

theorem crlf_append (u w : Str) : crlf (u ++ w) = crlf u ++ crlf w := by
  induction u with
  | nil => rfl
  | cons c u ih =>
    simp only [List.cons_append, crlf, ih]
    split <;> rfl

theorem crlf_id {u : Str} (h : '\n' ∉ u) : crlf u = u := by
  induction u with
  | nil => rfl
  | cons c u ih =>
    simp only [List.mem_cons, not_or] at h
    simp only [crlf, if_neg (Ne.symm h.1), ih h.2]

theorem crlf_head (w : Str) : (crlf w).head? ≠ some '\n' := by
  cases w with
  | nil => simp [crlf]
  | cons c w =>
    unfold crlf
    split
    · simp
    · rename_i h
      simpa using h

/-- What begins a text with CR LF line ends. -/
theorem prefix_crlf {x v : Str} (h : v <+: crlf x) :
    ∃ v0, v0 <+: x ∧ (v = crlf v0 ∨ v = crlf v0 ++ ['\r'] ∧ v0 ++ ['\n'] <+: x) := by
  induction x generalizing v with
  | nil =>
    rw [show v = [] from List.prefix_nil.1 h]
    exact ⟨[], List.prefix_refl _, Or.inl rfl⟩
  | cons c x ih =>
    cases v with
    | nil => exact ⟨[], List.nil_prefix, Or.inl rfl⟩
    | cons d v =>
      unfold crlf at h
      split at h
      · rename_i hc
        subst hc
        obtain ⟨hd, hp⟩ := List.cons_prefix_cons.1 h
        clear h
        subst hd
        cases v with
        | nil => exact ⟨[], List.nil_prefix, Or.inr ⟨rfl, by simp⟩⟩
        | cons e v =>
          obtain ⟨he, hq⟩ := List.cons_prefix_cons.1 hp
          clear hp
          subst he
          obtain ⟨v0, h1, h2⟩ := ih hq
          refine ⟨'\n' :: v0, List.cons_prefix_cons.2 ⟨rfl, h1⟩, ?_⟩
          rcases h2 with rfl | ⟨rfl, h2⟩
          · exact Or.inl rfl
          · exact Or.inr ⟨rfl, List.cons_prefix_cons.2 ⟨rfl, h2⟩⟩
      · rename_i hc
        obtain ⟨hd, hp⟩ := List.cons_prefix_cons.1 h
        clear h
        subst hd
        obtain ⟨v0, h1, h2⟩ := ih hp
        refine ⟨d :: v0, List.cons_prefix_cons.2 ⟨rfl, h1⟩, ?_⟩
        rcases h2 with rfl | ⟨rfl, h2⟩
        · exact Or.inl (by simp [crlf, hc])
        · exact Or.inr ⟨by simp [crlf, hc], List.cons_prefix_cons.2 ⟨rfl, h2⟩⟩

theorem cr_mem {a b v : Str} (hv : v ≠ []) (h : a ++ ['\r'] = b ++ v) : '\r' ∈ v := by
  rcases List.eq_nil_or_concat v with rfl | ⟨v', z, rfl⟩
  · exact absurd rfl hv
  · rw [List.concat_eq_append, ← List.append_assoc] at h
    have := (List.append_inj' h rfl).2
    injection this with e _
    rw [← e]
    simp

/-- Only a character that no rule matches ends in a carriage return. -/
theorem ruleLang_cr {bol : Bool} {r : Nat} {x : Str} (h : ruleLang bol .initial r (x ++ ['\r'])) : x = [] := by
  cases x with
  | nil => rfl
  | cons c t =>
    exfalso
    have hm : '\r' ∈ t ++ ['\r'] := by simp
    have last : ∀ {a b : Str} {d : Char}, d ≠ '\r' → a ++ ['\r'] = b ++ [d] → False := by
      intro a b d hd e
      have := congrArg List.getLast? e
      simp at this
      exact hd this.symm
    rcases ruleLang_head h with ⟨rfl, rfl, e⟩ | ⟨rfl, _, u, hu, e⟩ | ⟨rfl, _, _, s, u, hs, hu, e⟩ | ⟨rfl, ⟨_, e⟩ | ⟨_, e⟩⟩ | ⟨rfl, h1, h2⟩ |
      ⟨e, _⟩ | ⟨_, _, _, h3⟩ | ⟨rfl, e⟩ | ⟨rfl, e⟩ | ⟨rfl, _, h3⟩ | ⟨rfl, _, u, v, hu, hv, e⟩ | ⟨rfl, _, h2⟩ |
      ⟨rfl, rfl, u, _, hu, e⟩ | ⟨rfl, _, u, d, v, f, hu, hd, hv, hf, e⟩ | ⟨rfl, rfl, u, hu, e⟩ |
      ⟨rfl, rfl, d, hd, e⟩ | ⟨rfl, e⟩
    · exact last (b := []) (by decide) e
    · exact last (b := '/' :: u) (by decide) e
    · exact last (a := c :: t) (b := s ++ '#' :: u) (d := '\n') (by decide) (by simpa using e)
    · simp at e
    · exact last (b := []) (by decide) e
    · have := h2 _ hm; cases this
    · simp at e
    · have := h3 _ hm; cases this
    · exact last (a := c :: t) (b := c!"std::strin") (d := 'g') (by decide) e
    · exact last (a := c :: t) (b := c!"std::vecto") (d := 'r') (by decide) e
    · have := h3 _ hm; cases this
    · have hm' : '\r' ∈ v := by
        refine cr_mem (a := c :: t) (b := u ++ c!"::") ?_ (by simpa using e)
        rintro rfl
        obtain ⟨_, _, e, _⟩ := hv
        cases e
      have := hv.all _ hm'
      cases this
    · have := h2 _ hm; cases this
    · have := hu _ (cr_mem (b := ['x']) ‹_› e)
      cases this
    · rcases hf with rfl | rfl
      · have := hv.2 _ (cr_mem (a := c :: t) (b := u ++ [d]) hv.1 (by simpa using e))
        cases this
      · exact last (a := c :: t) (b := u ++ d :: v) (d := 'f') (by decide) (by simpa using e)
    · exact last (by decide) e
    · exact last (b := [d]) (by decide) e
    · simp at e

/-- Where a newline can be in a lexeme. -/
theorem ruleLang_nl {bol : Bool} {r : Nat} {w : Str} (h : ruleLang bol .initial r w) (hn : '\n' ∈ w) : r = 5 ∨ r = 6 ∨ r = 7 ∨ r = 37 := by
  cases w with
  | nil => cases hn
  | cons c t =>
    rcases ruleLang_head h with ⟨rfl, rfl, rfl⟩ | ⟨rfl, _⟩ | ⟨rfl, _⟩ | ⟨rfl, _⟩ | ⟨rfl, h1, h2⟩ |
      ⟨rfl, h'⟩ | ⟨_, _, h1, h3⟩ | ⟨rfl, e⟩ | ⟨rfl, e⟩ | ⟨rfl, h1, h3⟩ | ⟨rfl, _, u, v, hu, hv, e⟩ | ⟨rfl, h1, h2⟩ |
      ⟨rfl, rfl, u, _, hu, rfl⟩ | ⟨rfl, _, u, d, v, f, hu, hd, hv, hf, e⟩ | ⟨rfl, rfl, u, hu, rfl⟩ |
      ⟨rfl, rfl, d, hd, rfl⟩ | ⟨rfl, _⟩
    · simp at hn
    · exact Or.inl rfl
    · exact Or.inr (Or.inl rfl)
    · exact Or.inr (Or.inr (Or.inl rfl))
    · exfalso
      rcases List.mem_cons.1 hn with rfl | hn
      · cases h1
      · have := h2 _ hn; cases this
    · exfalso
      rcases h' with ⟨_, rfl⟩ | ⟨_, rfl⟩ | ⟨_, rfl⟩ | ⟨_, rfl⟩ | ⟨_, rfl⟩ | ⟨_, rfl⟩ | ⟨_, rfl⟩ <;> simp at hn
    · exact absurd hn (IsIdent.no_nl ⟨c, t, rfl, h1, h3⟩)
    · rw [e] at hn; exact absurd hn (by decide)
    · rw [e] at hn; exact absurd hn (by decide)
    · exact absurd hn (IsIdent.no_nl ⟨c, t, rfl, h1, h3⟩)
    · exfalso
      rw [e] at hn
      simp only [List.mem_append, List.mem_cons] at hn
      rcases hn with hn | hn | hn | hn
      · exact hu.no_nl hn
      · cases hn
      · cases hn
      · exact hv.no_nl hn
    · exfalso
      rcases List.mem_cons.1 hn with rfl | hn
      · cases h1
      · have := h2 _ hn; cases this
    · exfalso
      simp only [List.mem_cons] at hn
      rcases hn with hn | hn | hn
      · cases hn
      · cases hn
      · have := hu _ hn; cases this
    · exfalso
      rw [e] at hn
      simp only [List.mem_append, List.mem_cons] at hn
      rcases hn with hn | hn | hn | hn
      · exact hu.no_nl hn
      · exact hd hn.symm
      · exact hv.no_nl hn
      · rcases hf with rfl | rfl <;> simp at hn
    · exfalso
      simp only [List.mem_cons, List.mem_append, List.not_mem_nil, or_false] at hn
      rcases hn with hn | hn | hn
      · cases hn
      · exact hu _ hn rfl
      · cases hn
    · exfalso
      simp only [List.mem_cons, List.not_mem_nil, or_false] at hn
      rcases hn with hn | hn | hn
      · cases hn
      · exact hd hn.symm
      · cases hn
    · exact Or.inr (Or.inr (Or.inr rfl))

/-- A lexeme without newline is found in front of CR LF line ends, too. -/
theorem munch_line {bol : Bool} {t rest : Str} {r : Nat} (h : IsMunch .initial bol (t ++ rest) r t.length) (ht : '\n' ∉ t) :
    IsMunch .initial bol (t ++ crlf rest) r t.length := by
  obtain ⟨h1, _, h3⟩ := cand_iff.1 h.cand
  rw [List.take_left] at h3
  have cand : ∀ {r' u}, u ≠ [] → u <+: t ++ rest → ruleLang bol .initial r' u → u.length ≤ t.length := by
    intro r' u hu hp hl
    refine h.longest r' _ (cand_iff.2 ⟨List.length_pos_iff.2 hu, hp.length_le, ?_⟩)
    rw [← List.prefix_iff_eq_take.1 hp]
    exact hl
  refine ⟨cand_iff.2 ⟨h1, by simp, by rw [List.take_left]; exact h3⟩, ?_, ?_⟩
  · intro r' n' hc
    obtain ⟨c1, c2, c3⟩ := cand_iff.1 hc
    apply Classical.byContradiction
    intro hlt
    have hlt : t.length < n' := by omega
    have hsplit : (t ++ crlf rest).take n' = t ++ (crlf rest).take (n' - t.length) := by
      rw [List.take_append, List.take_of_length_le (Nat.le_of_lt hlt)]
    have hvne : (crlf rest).take (n' - t.length) ≠ [] := by
      intro e
      have := congrArg List.length e
      simp only [List.length_take, List.length_nil, List.length_append] at this c2
      omega
    rw [hsplit] at c3
    have hvp : (crlf rest).take (n' - t.length) <+: crlf rest := List.take_prefix _ _
    generalize (crlf rest).take (n' - t.length) = v at c3 hvne hvp
    have hv1 : 0 < v.length := List.length_pos_iff.2 hvne
    obtain ⟨v0, hv0, hv⟩ := prefix_crlf hvp
    have hpre : ∀ {x}, x <+: rest → t ++ x <+: t ++ rest := fun hx => (List.prefix_append_right_inj t).2 hx
    -- the lexeme does not end in a carriage return
    have hcr : v ≠ crlf v0 ++ ['\r'] := by
      rintro rfl
      rw [← List.append_assoc] at c3
      have := congrArg List.length (ruleLang_cr c3)
      simp only [List.length_append, List.length_nil] at this
      omega
    have hv : v = crlf v0 := hv.elim id fun e => absurd e.1 hcr
    clear hcr
    subst hv
    by_cases hn : '\n' ∉ v0
    · rw [crlf_id hn] at c3 hv1
      have := cand (by intro e; have := congrArg List.length e; simp only [List.length_append, List.length_nil] at this; omega) (hpre hv0) c3
      simp at this
      omega
    -- it ends in a newline
    have hn := Classical.not_not.1 hn
    have hin : '\n' ∈ crlf v0 := by
      obtain ⟨a, b, rfl⟩ := List.append_of_mem hn
      rw [crlf_append]
      simp [crlf]
    have ends : ∀ {x : Str}, (∀ c ∈ x, c ≠ '\n') → t ++ crlf v0 = x ++ ['\n'] → ∃ v1, v0 = v1 ++ ['\n'] ∧ x = t ++ v1 ++ ['\r'] := by
      intro x hx e
      rcases List.eq_nil_or_concat v0 with rfl | ⟨v1, z, rfl⟩
      · simp [crlf] at hv1
      rw [List.concat_eq_append, crlf_append] at e
      by_cases hz : z = '\n'
      · subst hz
        have e2 : t ++ crlf v1 ++ ['\r'] ++ ['\n'] = x ++ ['\n'] := by rw [← e]; simp [crlf]
        have e3 := (List.append_inj' e2 rfl).1
        refine ⟨v1, by simp, ?_⟩
        rw [← e3, crlf_id]
        intro hm
        refine hx '\n' ?_ rfl
        rw [← e3]
        obtain ⟨a, b, rfl⟩ := List.append_of_mem hm
        rw [crlf_append]
        simp [crlf]
      · exfalso
        rw [show crlf [z] = [z] from by simp [crlf, hz], ← List.append_assoc] at e
        have := (List.append_inj' e rfl).2
        injection this with e' _
        exact hz e'
    rcases ruleLang_nl c3 (List.mem_append_right _ hin) with rfl | rfl | rfl | rfl
    · simp only [ruleLang, Nat.reduceEqDiff, false_and, true_and, false_or, or_false] at c3
      obtain ⟨u, hu, e⟩ := c3
      obtain ⟨v1, rfl, e2⟩ := ends (x := '/' :: '/' :: u) (by simp only [List.mem_cons]; rintro c (rfl | rfl | hc) <;> first | decide | exact hu _ hc)
        (by rw [e]; rfl)
      have hu' : ∃ u', u = u' ++ ['\r'] ∧ t ++ v1 = '/' :: '/' :: u' := by
        rcases List.eq_nil_or_concat u with rfl | ⟨u', z, rfl⟩
        · exfalso
          have := (List.append_inj' (show ['/'] ++ ['/'] = _ from e2) rfl).2
          injection this with e' _
          cases e'
        · rw [List.concat_eq_append] at e2
          have e3 := List.append_inj' (show ('/' :: '/' :: u') ++ [z] = _ from e2) rfl
          refine ⟨u', ?_, e3.1.symm⟩
          rw [List.concat_eq_append, e3.2]
      obtain ⟨u', rfl, e3⟩ := hu'
      have := cand (u := t ++ (v1 ++ ['\n'])) (by simp) (hpre hv0) (r' := 5) (by
        simp only [ruleLang, Nat.reduceEqDiff, false_and, true_and, false_or, or_false]
        refine ⟨u', fun c hc => hu c (by simp [hc]), ?_⟩
        rw [← List.append_assoc, e3]
        rfl)
      simp at this
      omega
    · simp only [ruleLang, Nat.reduceEqDiff, false_and, true_and, false_or, or_false] at c3
      obtain ⟨hb, s, u, hs, hu, e⟩ := c3
      have hsn : ∀ c ∈ s, c ≠ '\n' := by
        rintro c hc rfl
        have := hs _ hc
        cases this
      obtain ⟨v1, rfl, e2⟩ := ends (x := s ++ '#' :: u)
        (by simp only [List.mem_append, List.mem_cons]; rintro c (hc | rfl | hc) <;> first | decide | exact hu _ hc | exact hsn _ hc)
        (by rw [e]; simp)
      have hu' : ∃ u', u = u' ++ ['\r'] ∧ t ++ v1 = s ++ '#' :: u' := by
        rcases List.eq_nil_or_concat u with rfl | ⟨u', z, rfl⟩
        · exfalso
          have := (List.append_inj' e2 rfl).2
          injection this with e' _
          cases e'
        · rw [List.concat_eq_append] at e2
          have e3 := List.append_inj' (show (s ++ '#' :: u') ++ [z] = (t ++ v1) ++ ['\r'] from by rw [← e2]; simp) rfl
          refine ⟨u', ?_, e3.1.symm⟩
          rw [List.concat_eq_append, e3.2]
      obtain ⟨u', rfl, e3⟩ := hu'
      have := cand (u := t ++ (v1 ++ ['\n'])) (by simp) (hpre hv0) (r' := 6) (by
        simp only [ruleLang, Nat.reduceEqDiff, false_and, true_and, false_or, or_false]
        refine ⟨hb, s, u', hs, fun c hc => hu c (by simp [hc]), ?_⟩
        rw [← List.append_assoc, e3]
        simp)
      simp at this
      omega
    · simp only [ruleLang, Nat.reduceEqDiff, false_and, true_and, false_or, or_false] at c3
      have hh : (crlf v0).head? ≠ some '\n' := crlf_head v0
      rcases c3 with e | e
      · have := congrArg List.length e
        simp at this
        omega
      · cases t with
        | nil => simp at h1
        | cons a t =>
          simp only [List.cons_append, List.cons.injEq] at e
          cases t with
          | nil =>
            rw [List.nil_append] at e
            rw [e.2] at hh
            exact hh rfl
          | cons b t =>
            have := congrArg List.length e.2
            simp only [List.length_append, List.length_cons, List.length_nil] at this
            omega
    · simp only [ruleLang, Nat.reduceEqDiff, false_and, true_and, false_or, or_false] at c3
      obtain ⟨c, e⟩ := c3
      have := congrArg List.length e
      simp at this
      omega
  · intro r' hc
    obtain ⟨c1, c2, c3⟩ := cand_iff.1 hc
    refine h.earliest r' (cand_iff.2 ⟨h1, by simp, ?_⟩)
    rw [List.take_left] at c3 ⊢
    exact c3

theorem comment_line (bol : Bool) (w : Str) : toks .cComment bol ('\r' :: '\n' :: w) = toks .cComment true w :=
  (toks_skip (t := ['\r']) (munch_commentChar bol (by decide) ('\n' :: w) (by intro e; cases e)) rfl rfl).trans
    (toks_skip (t := ['\n']) (munch_commentNl _ w) rfl rfl)

theorem munch_cr (bol : Bool) (rest : Str) (h : rest.head? ≠ some '\n') : IsMunch .initial bol (['\r'] ++ rest) 37 1 := by
  refine munch_intro (t := ['\r']) (by simp) (by simp [ruleLang]) ?_
  intro r' t' hp hl
  obtain ⟨t, rfl, hp'⟩ := prefix_cons hp (ruleLang_ne hl)
  rcases ruleLang_head hl with ⟨rfl, e, _⟩ | ⟨rfl, e, _⟩ | ⟨rfl, _, e | e, _⟩ | ⟨rfl, ⟨e, _⟩ | ⟨_, rfl⟩⟩ | ⟨rfl, e, _⟩ |
      ⟨rfl, e⟩ | ⟨_, _, e, _⟩ | ⟨rfl, e⟩ | ⟨rfl, e⟩ | ⟨rfl, e, _⟩ | ⟨rfl, e, _⟩ | ⟨rfl, e, _⟩ |
      ⟨rfl, e, _⟩ | ⟨rfl, e, _⟩ | ⟨rfl, e, _⟩ | ⟨rfl, e, _⟩ | ⟨rfl, rfl⟩
  all_goals first | (exfalso; revert e; decide) | skip
  · exfalso
    obtain ⟨y, rfl⟩ := hp'
    exact h rfl
  · exfalso
    rcases e with ⟨_, e⟩ | ⟨_, e⟩ | ⟨_, e⟩ | ⟨_, e⟩ | ⟨_, e⟩ | ⟨_, e⟩ | ⟨_, e⟩ <;> (revert e; decide)
  · injection e with e _; exact absurd e (by decide)
  · injection e with e _; exact absurd e (by decide)
  · simp

/-- The tokens do not depend on the line ends. -/
theorem toks_crlfText (sc : SC) (bol : Bool) (w : Str) : toks sc bol (crlf w) = toks sc bol w := by
  induction hn : w.length using Nat.strongRecOn generalizing sc bol w with
  | ind n ih =>
    cases w with
    | nil => rfl
    | cons c w =>
      cases sc with
      | cComment =>
        have hw := ih w.length (by rw [← hn]; simp)
        by_cases hc : c = '\n'
        · subst hc
          rw [show crlf ('\n' :: w) = '\r' :: '\n' :: crlf w from rfl, comment_line, hw _ _ _ rfl]
          exact (toks_skip (t := ['\n']) (munch_commentNl _ w) rfl rfl).symm
        · rw [show crlf (c :: w) = c :: crlf w from by simp [crlf, hc]]
          by_cases hs : c = '*' ∧ w.head? = some '/'
          · obtain ⟨rfl, hs⟩ := hs
            cases w with
            | nil => cases hs
            | cons d w =>
              cases hs
              rw [show crlf ('/' :: w) = '/' :: crlf w from by simp [crlf]]
              refine (toks_skip (t := c!"*/") (munch_close bol (crlf w)) rfl rfl).trans (Eq.trans ?_ (toks_skip (t := c!"*/") (munch_close bol w) rfl rfl).symm)
              exact ih w.length (by rw [← hn]; simp; omega) _ _ _ rfl
          · have hs' : c = '*' → (crlf w).head? ≠ some '/' := by
              rintro rfl e
              refine hs ⟨rfl, ?_⟩
              cases w with
              | nil => cases e
              | cons d w =>
                unfold crlf at e
                split at e
                · cases e
                · exact e
            refine (toks_skip (t := [c]) (munch_commentChar bol hc (crlf w) hs') rfl rfl).trans (Eq.trans ?_
              (toks_skip (t := [c]) (munch_commentChar bol hc w fun h e => hs ⟨h, e⟩) rfl rfl).symm)
            exact hw _ _ _ rfl
      | initial =>
        obtain ⟨r, k, hm, h1, h2, _⟩ := lexStep_spec ⟨.initial, bol, Loc.init⟩ (c :: w) (by simp)
        dsimp only at hm
        obtain ⟨c1, c2, c3⟩ := cand_iff.1 hm.cand
        have e0 : c :: w = (c :: w).take k ++ (c :: w).drop k := (List.take_append_drop _ _).symm
        have hk : ((c :: w).take k).length = k := by rw [List.length_take]; omega
        by_cases h5 : r = 5
        · subst h5
          simp only [ruleLang, Nat.reduceEqDiff, false_and, true_and, false_or, or_false] at c3
          obtain ⟨u, hu, e⟩ := c3
          rw [e] at e0
          have e1 : c :: w = c!"//" ++ (u ++ '\n' :: (c :: w).drop k) := e0.trans (by simp)
          generalize (c :: w).drop k = x at e1
          have hx : x.length < n := by rw [← hn, e1]; simp; omega
          have e2 : crlf (c :: w) = c!"//" ++ ((u ++ ['\r']) ++ '\n' :: crlf x) := by
            rw [e1, crlf_append, crlf_append, crlf_id (u := u) (fun h => hu _ h rfl)]
            simp [crlf]
          rw [e2, e1, toks_lineComment bol hu, toks_lineComment bol (u := u ++ ['\r']) (by
            intro d hd
            rcases List.mem_append.1 hd with hd | hd
            · exact hu d hd
            · rw [List.mem_singleton.1 hd]; decide)]
          exact ih _ hx _ _ _ rfl
        by_cases h6 : r = 6
        · subst h6
          simp only [ruleLang, Nat.reduceEqDiff, false_and, true_and, false_or, or_false] at c3
          obtain ⟨rfl, s, u, hs, hu, e⟩ := c3
          rw [e] at e0
          have e1 : c :: w = s ++ '#' :: (u ++ '\n' :: (c :: w).drop k) := e0.trans (by simp)
          generalize (c :: w).drop k = x at e1
          have hx : x.length < n := by rw [← hn, e1]; simp; omega
          have hsn : '\n' ∉ s := fun h => by have := hs _ h; cases this
          have e2 : crlf (c :: w) = s ++ '#' :: ((u ++ ['\r']) ++ '\n' :: crlf x) := by
            rw [e1, crlf_append, crlf_id hsn, show '#' :: (u ++ '\n' :: x) = c!"#" ++ (u ++ '\n' :: x) from rfl, crlf_append, crlf_append,
              crlf_id (u := u) (fun h => hu _ h rfl)]
            simp [crlf]
          rw [e2, e1, toks_preproc hs hu, toks_preproc (u := u ++ ['\r']) hs (by
            intro d hd
            rcases List.mem_append.1 hd with hd | hd
            · exact hu d hd
            · rw [List.mem_singleton.1 hd]; decide)]
          exact ih _ hx _ _ _ rfl
        by_cases h7 : r = 7
        · subst h7
          simp only [ruleLang, Nat.reduceEqDiff, false_and, true_and, false_or, or_false] at c3
          rcases c3 with e | e
          · rw [e] at e0
            generalize (c :: w).drop k = x at e0
            have hx : x.length < n := by rw [← hn, e0]; simp
            rw [e0]
            show toks .initial bol ('\r' :: '\n' :: crlf x) = toks .initial bol ('\n' :: x)
            rw [toks_crlf, toks_newline]
            exact ih _ hx _ _ _ rfl
          · rw [e] at e0
            generalize (c :: w).drop k = x at e0
            have hx : x.length < n := by rw [← hn, e0]; simp; omega
            rw [e0]
            show toks .initial bol ('\r' :: '\r' :: '\n' :: crlf x) = toks .initial bol ('\r' :: '\n' :: x)
            rw [toks_crlf]
            refine (toks_skip (t := ['\r']) (munch_cr bol ('\r' :: '\n' :: crlf x) (by simp)) rfl rfl).trans ?_
            rw [show nextSC .initial 37 = .initial from rfl, toks_crlf]
            exact ih _ hx _ _ _ rfl
        · have ha : adjLen r k = k := by simp [adjLen, h5, h6]
          have h2' : r ≠ 2 := by
            rintro rfl
            simp [ruleLang] at c3
          have hnl : '\n' ∉ (c :: w).take k := by
            have := munch_nls hm
            rw [ha, if_neg (by omega)] at this
            exact List.count_eq_zero.1 this
          have hx : ((c :: w).drop k).length < n := by rw [← hn, List.length_drop]; omega
          rw [e0] at hm ⊢
          generalize (c :: w).take k = t at hm hk hnl ⊢
          generalize (c :: w).drop k = x at hm hx ⊢
          subst hk
          rw [crlf_append, crlf_id hnl, toks_step (munch_line hm hnl) ha, toks_step hm ha, ih _ hx _ _ _ rfl]

end Stfx.Lexer
