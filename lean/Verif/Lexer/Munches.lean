import Verif.Lexer.Tok
/-
For every kind of lexeme: the condition on the following text under which it is cut off whole.
-/
namespace Stfx.Lexer

theorem ne_of_class {p : Char → Bool} {c d : Char} (h : p c = true) (hd : p d = false) : c ≠ d := by
  rintro rfl; rw [h] at hd; cases hd

theorem prefix_cons {c : Char} {w t : Str} (h : t <+: c :: w) (ht : t ≠ []) :
    ∃ t', t = c :: t' ∧ t' <+: w := by
  cases t with
  | nil => exact absurd rfl ht
  | cons d t =>
    rw [List.cons_prefix_cons] at h
    exact ⟨t, by rw [h.1], h.2⟩

theorem ruleLang_ne {bol sc r t} (h : ruleLang bol sc r t) : t ≠ [] := by
  rintro rfl
  have := ruleLang_len h
  simp [adjLen] at this

/-- Newline-free prefixes before a newline are unique. -/
theorem line_unique {a : Char} {u u' x y : Str} (hu : ∀ c ∈ u, c ≠ a) (hu' : ∀ c ∈ u', c ≠ a)
    (h : u ++ a :: x = u' ++ a :: y) : u = u' ∧ x = y := by
  induction u generalizing u' with
  | nil =>
    cases u' with
    | nil => simpa using h
    | cons d u' =>
      simp at h
      exact absurd h.1.symm (hu' d (by simp))
  | cons c u ih =>
    cases u' with
    | nil =>
      simp at h
      exact absurd h.1 (hu c (by simp))
    | cons d u' =>
      simp only [List.cons_append, List.cons.injEq] at h
      obtain ⟨h1, h2⟩ := h
      obtain ⟨e1, e2⟩ := ih (fun c hc => hu c (by simp [hc])) (fun c hc => hu' c (by simp [hc])) h2
      exact ⟨by rw [h1, e1], e2⟩

/-- Splitting at the end of a maximal run of a class is unique. -/
theorem run_unique {p : Char → Bool} {s s' x y : Str} {a b : Char} (hs : ∀ c ∈ s, p c = true)
    (hs' : ∀ c ∈ s', p c = true) (ha : p a = false) (hb : p b = false)
    (h : s ++ a :: x = s' ++ b :: y) : s = s' ∧ a = b ∧ x = y := by
  induction s generalizing s' with
  | nil =>
    cases s' with
    | nil => simpa using h
    | cons d u' =>
      simp at h
      have := hs' d (by simp)
      rw [← h.1, ha] at this; cases this
  | cons c u ih =>
    cases s' with
    | nil =>
      simp at h
      have := hs c (by simp)
      rw [h.1, hb] at this; cases this
    | cons d u' =>
      simp only [List.cons_append, List.cons.injEq] at h
      obtain ⟨h1, h2⟩ := h
      obtain ⟨e1, e2, e3⟩ := ih (fun c hc => hs c (by simp [hc])) (fun c hc => hs' c (by simp [hc])) h2
      exact ⟨by rw [h1, e1], e2, e3⟩

/-- A prefix consisting of class members is no longer than the run it starts. -/
theorem run_le {p : Char → Bool} {s s' rest : Str} (hs' : ∀ c ∈ s', p c = true)
    (hr : ∀ c, rest.head? = some c → p c = false) (h : s' <+: s ++ rest) : s'.length ≤ s.length := by
  induction s generalizing s' with
  | nil =>
    cases s' with
    | nil => simp
    | cons d s' =>
      cases rest with
      | nil => simp at h
      | cons e rest =>
        simp only [List.nil_append, List.cons_prefix_cons] at h
        have h1 := hs' d (by simp)
        have h2 := hr e rfl
        rw [h.1, h2] at h1; cases h1
  | cons c s ih =>
    cases s' with
    | nil => simp
    | cons d s' =>
      simp only [List.cons_append, List.cons_prefix_cons] at h
      have := ih (fun c hc => hs' c (by simp [hc])) h.2
      simp; omega

/-- The rule number of a punctuation character.  (Proof notion, models no code.) -/
def punctRule : Char → Option Nat
  | '{' => some 9 | '}' => some 10 | '=' => some 11 | ',' => some 12 | ';' => some 13
  | '<' => some 14 | '>' => some 15 | _ => none

theorem punctRule_cases {c : Char} {r : Nat} (h : punctRule c = some r) :
    (c = '{' ∧ r = 9) ∨ (c = '}' ∧ r = 10) ∨ (c = '=' ∧ r = 11) ∨ (c = ',' ∧ r = 12) ∨
    (c = ';' ∧ r = 13) ∨ (c = '<' ∧ r = 14) ∨ (c = '>' ∧ r = 15) := by
  unfold punctRule at h
  split at h <;> simp_all

theorem munch_punct (bol : Bool) {c : Char} {r : Nat} (h : punctRule c = some r) (rest : Str) :
    IsMunch .initial bol ([c] ++ rest) r 1 := by
  have hc := punctRule_cases h
  refine munch_intro (t := [c]) (by simp) ?_ ?_
  · rcases hc with ⟨rfl, rfl⟩ | ⟨rfl, rfl⟩ | ⟨rfl, rfl⟩ | ⟨rfl, rfl⟩ | ⟨rfl, rfl⟩ | ⟨rfl, rfl⟩ | ⟨rfl, rfl⟩ <;>
      simp [ruleLang]
  · intro r' t' hp hl
    obtain ⟨t, rfl, hp'⟩ := prefix_cons hp (ruleLang_ne hl)
    have hh := ruleLang_head hl
    rcases hc with ⟨rfl, rfl⟩ | ⟨rfl, rfl⟩ | ⟨rfl, rfl⟩ | ⟨rfl, rfl⟩ | ⟨rfl, rfl⟩ | ⟨rfl, rfl⟩ | ⟨rfl, rfl⟩ <;>
      simp [isBlank, isIdStart, isDig] at hh <;>
      (rcases hh with ⟨rfl, rfl⟩ | ⟨rfl, rfl⟩ <;> simp)

theorem munch_blank (bol : Bool) {s rest : Str} (hs : s ≠ []) (hb : ∀ c ∈ s, isBlank c = true)
    (hr : ∀ c, rest.head? = some c → isBlank c = false)
    (hpp : bol = true → rest.head? ≠ some '#') :
    IsMunch .initial bol (s ++ rest) 8 s.length := by
  refine munch_intro hs (Or.inr (Or.inr (Or.inr (Or.inr (Or.inl ⟨rfl, hs, hb⟩))))) ?_
  intro r' t' hp hl
  cases s with
  | nil => exact absurd rfl hs
  | cons b s =>
    obtain ⟨t, rfl, hp'⟩ := prefix_cons hp (ruleLang_ne hl)
    have hbb := hb b (by simp)
    have hh := ruleLang_head hl
    rcases hh with ⟨rfl, rfl, _⟩ | ⟨rfl, rfl, _⟩ | ⟨rfl, hbol, _, s', u, hs', hu, e⟩ | ⟨rfl, h⟩ | ⟨rfl, h1, h2⟩ |
      ⟨rfl, h⟩ | ⟨h1, h2, h, _⟩ | ⟨rfl, h⟩ | ⟨rfl, h⟩ | ⟨rfl, h, _⟩ | ⟨rfl, h, _⟩ | ⟨rfl, h, _⟩ | ⟨rfl, rfl, h⟩ |
      ⟨rfl, h, _⟩ | ⟨rfl, rfl, h⟩ | ⟨rfl, rfl, h⟩ | ⟨rfl, rfl⟩
    · cases hbb
    · cases hbb
    · -- preprocessor line: impossible, the run of blanks is not followed by '#'
      exfalso
      obtain ⟨x, hx⟩ := hp
      rw [e, List.append_assoc] at hx
      cases rest with
      | nil =>
        have : '#' ∈ b :: s := by
          have h0 : '#' ∈ s' ++ ('#' :: (u ++ ['\n']) ++ x) := by simp
          rw [hx] at h0
          simpa using h0
        have := hb _ this
        cases this
      | cons d rest =>
        have h1 := hr d rfl
        obtain ⟨_, h2, _⟩ := run_unique hs' hb (by decide) h1 hx
        exact hpp hbol (by rw [← h2]; rfl)
    · rcases h with ⟨rfl, _⟩ | ⟨rfl, _⟩ <;> cases hbb
    · have := run_le (s := b :: s) (s' := b :: t) (p := isBlank) (by simpa [h1] using h2) hr hp
      simp only [List.length_cons] at this ⊢
      omega
    · rcases h with ⟨rfl, rfl⟩ | ⟨rfl, rfl⟩ | ⟨rfl, rfl⟩ | ⟨rfl, rfl⟩ | ⟨rfl, rfl⟩ | ⟨rfl, rfl⟩ | ⟨rfl, rfl⟩ <;> cases hbb
    · rcases isBlank_iff.1 hbb with rfl | rfl <;> cases h
    · simp at h; rw [h.1] at hbb; cases hbb
    · simp at h; rw [h.1] at hbb; cases hbb
    · rcases isBlank_iff.1 hbb with rfl | rfl <;> cases h
    · rcases isBlank_iff.1 hbb with rfl | rfl <;> cases h
    · rcases isBlank_iff.1 hbb with rfl | rfl <;> cases h
    · cases hbb
    · rcases isBlank_iff.1 hbb with rfl | rfl <;> cases h
    · cases hbb
    · cases hbb
    · cases s <;> simp

theorem head_digit {bol : Bool} {r : Nat} {c : Char} {t : Str} (hc : isDig c = true)
    (hl : ruleLang bol .initial r (c :: t)) :
    (r = 32 ∧ ∀ d ∈ t, isDig d = true) ∨
    (r = 33 ∧ c = '0' ∧ ∃ u, u ≠ [] ∧ (∀ c ∈ u, isHexDig c = true) ∧ t = 'x' :: u) ∨
    (r = 34 ∧ ∃ u d v f, IsDigits u ∧ d ≠ '\n' ∧ IsDigits v ∧
      (f = [] ∨ f = ['f']) ∧ c :: t = u ++ d :: (v ++ f)) ∨
    (r = 37 ∧ t = []) := by
  have hb : isBlank c = false := by
    cases h : isBlank c with
    | false => rfl
    | true => rcases isBlank_iff.1 h with rfl | rfl <;> cases hc
  have hi : isIdStart c = false := by
    simp [isDig] at hc
    simp [isIdStart, eq_us]
    omega
  rcases ruleLang_head hl with ⟨rfl, rfl, _⟩ | ⟨rfl, rfl, _⟩ | ⟨rfl, hbol, h, _⟩ | ⟨rfl, h⟩ | ⟨rfl, h1, h2⟩ |
      ⟨rfl, h⟩ | ⟨h1, h2, h, _⟩ | ⟨rfl, h⟩ | ⟨rfl, h⟩ | ⟨rfl, h, _⟩ | ⟨rfl, h, _⟩ | ⟨rfl, _, h⟩ | ⟨rfl, rfl, h⟩ |
      ⟨rfl, _, h⟩ | ⟨rfl, rfl, h⟩ | ⟨rfl, rfl, h⟩ | ⟨rfl, rfl⟩
  · cases hc
  · cases hc
  · rcases h with h | rfl
    · rw [hb] at h; cases h
    · cases hc
  · rcases h with ⟨rfl, _⟩ | ⟨rfl, _⟩ <;> cases hc
  · rw [hb] at h1; cases h1
  · rcases h with ⟨rfl, rfl⟩ | ⟨rfl, rfl⟩ | ⟨rfl, rfl⟩ | ⟨rfl, rfl⟩ | ⟨rfl, rfl⟩ | ⟨rfl, rfl⟩ | ⟨rfl, rfl⟩ <;> cases hc
  · rw [hi] at h; cases h
  · simp at h; rw [h.1] at hc; cases hc
  · simp at h; rw [h.1] at hc; cases hc
  · rw [hi] at h; cases h
  · rw [hi] at h; cases h
  · exact Or.inl ⟨rfl, h⟩
  · exact Or.inr (Or.inl ⟨rfl, rfl, h⟩)
  · exact Or.inr (Or.inr (Or.inl ⟨rfl, h⟩))
  · cases hc
  · cases hc
  · simp

theorem head_idStart {bol : Bool} {r : Nat} {c : Char} {t : Str} (hc : isIdStart c = true)
    (hl : ruleLang bol .initial r (c :: t)) :
    (16 ≤ r ∧ r ≤ 30 ∧ ∀ d ∈ t, isIdChar d = true) ∨
    (28 ≤ r ∧ r ≤ 31 ∧ ∃ u v, IsIdent u ∧ IsIdent v ∧ c :: t = u ++ ':' :: ':' :: v) ∨
    (r = 37 ∧ t = []) := by
  have hb : isBlank c = false := by
    cases h : isBlank c with
    | false => rfl
    | true => rcases isBlank_iff.1 h with rfl | rfl <;> cases hc
  have hi : isDig c = false := by
    simp [isIdStart, eq_us] at hc
    simp [isDig]
    omega
  rcases ruleLang_head hl with ⟨rfl, rfl, _⟩ | ⟨rfl, rfl, _⟩ | ⟨rfl, hbol, h, _⟩ | ⟨rfl, h⟩ | ⟨rfl, h1, h2⟩ |
      ⟨rfl, h⟩ | ⟨h1, h2, _, h⟩ | ⟨rfl, h⟩ | ⟨rfl, h⟩ | ⟨rfl, _, h⟩ | ⟨rfl, _, h⟩ | ⟨rfl, h, _⟩ | ⟨rfl, rfl, h⟩ |
      ⟨rfl, h, _⟩ | ⟨rfl, rfl, h⟩ | ⟨rfl, rfl, h⟩ | ⟨rfl, rfl⟩
  · cases hc
  · cases hc
  · rcases h with h | rfl
    · rw [hb] at h; cases h
    · cases hc
  · rcases h with ⟨rfl, _⟩ | ⟨rfl, _⟩ <;> cases hc
  · rw [hb] at h1; cases h1
  · rcases h with ⟨rfl, rfl⟩ | ⟨rfl, rfl⟩ | ⟨rfl, rfl⟩ | ⟨rfl, rfl⟩ | ⟨rfl, rfl⟩ | ⟨rfl, rfl⟩ | ⟨rfl, rfl⟩ <;> cases hc
  · exact Or.inl ⟨h1, by omega, h⟩
  · refine Or.inr (Or.inl ⟨by omega, by omega, c!"std", c!"string", ?_, ?_, h⟩)
    · exact ⟨'s', c!"td", rfl, by decide, by decide⟩
    · exact ⟨'s', c!"tring", rfl, by decide, by decide⟩
  · refine Or.inr (Or.inl ⟨by omega, by omega, c!"std", c!"vector", ?_, ?_, h⟩)
    · exact ⟨'s', c!"td", rfl, by decide, by decide⟩
    · exact ⟨'v', c!"ector", rfl, by decide, by decide⟩
  · exact Or.inl ⟨by omega, by omega, h⟩
  · exact Or.inr (Or.inl ⟨by omega, by omega, h⟩)
  · rw [hi] at h; cases h
  · cases hc
  · rw [hi] at h; cases h
  · cases hc
  · cases hc
  · simp

theorem munch_newline (bol : Bool) (rest : Str) : IsMunch .initial bol (['\n'] ++ rest) 7 1 := by
  refine munch_intro (t := ['\n']) (by simp) (by simp [ruleLang]) ?_
  intro r' t' hp hl
  obtain ⟨t, rfl, hp'⟩ := prefix_cons hp (ruleLang_ne hl)
  have hh := ruleLang_head hl
  simp [isBlank, isIdStart, isDig] at hh
  rcases hh with ⟨rfl, rfl⟩ | ⟨rfl, rfl⟩ <;> simp

theorem munch_crlf (bol : Bool) (rest : Str) : IsMunch .initial bol (['\r', '\n'] ++ rest) 7 2 := by
  refine munch_intro (t := ['\r', '\n']) (by simp) (by simp [ruleLang]) ?_
  intro r' t' hp hl
  obtain ⟨t, rfl, hp'⟩ := prefix_cons hp (ruleLang_ne hl)
  have hh := ruleLang_head hl
  simp [isBlank, isIdStart, isDig] at hh
  rcases hh with ⟨rfl, rfl⟩ | ⟨rfl, rfl⟩ <;> simp

/-- A `//` comment up to (and, for the longest-match comparison, including) its newline. -/
theorem munch_lineComment (bol : Bool) {u : Str} (hu : ∀ c ∈ u, c ≠ '\n') (rest : Str) :
    IsMunch .initial bol ('/' :: '/' :: (u ++ '\n' :: rest)) 5 (u.length + 3) := by
  have := munch_intro (sc := .initial) (bol := bol) (t := '/' :: '/' :: (u ++ ['\n'])) (rest := rest) (r := 5)
    (by simp) (Or.inr (Or.inl ⟨rfl, u, hu, rfl⟩)) ?_
  · simpa using this
  · intro r' t' hp hl
    obtain ⟨t, rfl, hp'⟩ := prefix_cons hp (ruleLang_ne hl)
    have hh := ruleLang_head hl
    simp [isBlank, isIdStart, isDig] at hh
    rcases hh with ⟨rfl, rfl⟩ | ⟨rfl, u', hu', rfl⟩ | ⟨rfl, rfl⟩
    · simp
    · refine Or.inr ⟨?_, Nat.le_refl _⟩
      obtain ⟨x, hx⟩ := hp
      have hx' : u' ++ '\n' :: x = u ++ '\n' :: rest := by simpa using hx
      obtain ⟨rfl, _⟩ := line_unique hu' hu hx'
      simp
    · simp

/-- A preprocessor line at the beginning of a line. -/
theorem munch_pp {s u : Str} (hs : ∀ c ∈ s, isBlank c = true) (hu : ∀ c ∈ u, c ≠ '\n') (rest : Str) :
    IsMunch .initial true (s ++ '#' :: (u ++ '\n' :: rest)) 6 (s.length + u.length + 2) := by
  have := munch_intro (sc := .initial) (bol := true) (t := s ++ '#' :: (u ++ ['\n'])) (rest := rest) (r := 6)
    (by simp) (Or.inr (Or.inr (Or.inl ⟨rfl, rfl, s, u, hs, hu, rfl⟩))) ?_
  · have e : (s ++ '#' :: (u ++ ['\n'])).length = s.length + u.length + 2 := by simp; omega
    rw [e] at this
    simpa using this
  · intro r' t' hp hl
    have hlen : (s ++ '#' :: (u ++ ['\n'])).length = s.length + u.length + 2 := by simp; omega
    cases s with
    | nil =>
      obtain ⟨t, rfl, hp'⟩ := prefix_cons hp (ruleLang_ne hl)
      have hh := ruleLang_head hl
      simp [isBlank, isIdStart, isDig, -List.append_eq] at hh
      rcases hh with ⟨rfl, s', hs', u', hu', e⟩ | ⟨rfl, rfl⟩
      · refine Or.inr ⟨?_, Nat.le_refl _⟩
        cases s' with
        | cons d s' => simp at e; have := hs' d (by simp); rw [← e.1] at this; simp at this
        | nil =>
          simp at e
          subst e
          obtain ⟨x, hx⟩ := hp
          have hx' : u' ++ '\n' :: x = u ++ '\n' :: rest := by simpa using hx
          obtain ⟨rfl, _⟩ := line_unique hu' hu hx'
          simp
      · simp
    | cons b s =>
      obtain ⟨t, rfl, hp'⟩ := prefix_cons hp (ruleLang_ne hl)
      have hbb := hs b (by simp)
      rw [hlen]
      rcases ruleLang_head hl with ⟨rfl, rfl, _⟩ | ⟨rfl, rfl, _⟩ | ⟨rfl, hbol, _, s', u', hs', hu', e⟩ | ⟨rfl, h⟩ | ⟨rfl, h1, h2⟩ |
        ⟨rfl, h⟩ | ⟨h1, h2, h, _⟩ | ⟨rfl, h⟩ | ⟨rfl, h⟩ | ⟨rfl, h, _⟩ | ⟨rfl, h, _⟩ | ⟨rfl, h, _⟩ | ⟨rfl, rfl, h⟩ |
        ⟨rfl, h, _⟩ | ⟨rfl, rfl, h⟩ | ⟨rfl, rfl, h⟩ | ⟨rfl, rfl⟩
      · cases hbb
      · cases hbb
      · refine Or.inr ⟨?_, Nat.le_refl _⟩
        obtain ⟨x, hx⟩ := hp
        rw [e] at hx ⊢
        have hx1 : s' ++ '#' :: (u' ++ '\n' :: x) = (b :: s) ++ '#' :: (u ++ '\n' :: rest) := by
          simpa using hx
        obtain ⟨rfl, _, hx2⟩ := run_unique hs' hs (by decide) (by decide) hx1
        obtain ⟨rfl, _⟩ := line_unique hu' hu hx2
        simp; omega
      · rcases h with ⟨rfl, _⟩ | ⟨rfl, _⟩ <;> cases hbb
      · have := run_le (s := b :: s) (s' := b :: t) (p := isBlank) (rest := '#' :: (u ++ ['\n']) ++ rest)
          (by simpa [h1] using h2) (by intro c hc; simp at hc; subst hc; decide)
          (by simpa using hp)
        simp only [List.length_cons] at this ⊢
        omega
      · rcases h with ⟨rfl, rfl⟩ | ⟨rfl, rfl⟩ | ⟨rfl, rfl⟩ | ⟨rfl, rfl⟩ | ⟨rfl, rfl⟩ | ⟨rfl, rfl⟩ | ⟨rfl, rfl⟩ <;> cases hbb
      · rcases isBlank_iff.1 hbb with rfl | rfl <;> cases h
      · simp at h; rw [h.1] at hbb; cases hbb
      · simp at h; rw [h.1] at hbb; cases hbb
      · rcases isBlank_iff.1 hbb with rfl | rfl <;> cases h
      · rcases isBlank_iff.1 hbb with rfl | rfl <;> cases h
      · rcases isBlank_iff.1 hbb with rfl | rfl <;> cases h
      · cases hbb
      · rcases isBlank_iff.1 hbb with rfl | rfl <;> cases h
      · cases hbb
      · cases hbb
      · simp

theorem munch_open (bol : Bool) (rest : Str) : IsMunch .initial bol (c!"/*" ++ rest) 1 2 := by
  refine munch_intro (t := c!"/*") (by simp) (by simp [ruleLang]) ?_
  intro r' t' hp hl
  obtain ⟨t, rfl, hp'⟩ := prefix_cons hp (ruleLang_ne hl)
  have hh := ruleLang_head hl
  simp [isBlank, isIdStart, isDig] at hh
  rcases hh with ⟨rfl, rfl⟩ | ⟨rfl, u', hu', rfl⟩ | ⟨rfl, rfl⟩
  · simp
  · simp [List.cons_prefix_cons] at hp'
  · simp

theorem munch_close (bol : Bool) (rest : Str) : IsMunch .cComment bol (c!"*/" ++ rest) 4 2 := by
  refine munch_intro (t := c!"*/") (by simp) (by simp [ruleLang]) ?_
  intro r' t' hp hl
  simp only [ruleLang] at hl
  rcases hl with ⟨rfl, rfl⟩ | ⟨rfl, c, _, rfl⟩ | ⟨rfl, rfl⟩ | ⟨rfl, c, rfl⟩ <;> simp

theorem munch_commentNl (bol : Bool) (rest : Str) : IsMunch .cComment bol (['\n'] ++ rest) 2 1 := by
  refine munch_intro (t := ['\n']) (by simp) (by simp [ruleLang]) ?_
  intro r' t' hp hl
  obtain ⟨t, rfl, hp'⟩ := prefix_cons hp (ruleLang_ne hl)
  simp only [ruleLang] at hl
  rcases hl with ⟨rfl, h⟩ | ⟨rfl, c, _, h⟩ | ⟨rfl, h⟩ | ⟨rfl, c, h⟩ <;> simp_all

theorem munch_commentChar (bol : Bool) {c : Char} (hc : c ≠ '\n') (rest : Str)
    (h : c = '*' → rest.head? ≠ some '/') : IsMunch .cComment bol ([c] ++ rest) 3 1 := by
  refine munch_intro (t := [c]) (by simp) (by simp [ruleLang, hc]) ?_
  intro r' t' hp hl
  obtain ⟨t, rfl, hp'⟩ := prefix_cons hp (ruleLang_ne hl)
  simp only [ruleLang] at hl
  rcases hl with ⟨rfl, h'⟩ | ⟨rfl, d, _, h'⟩ | ⟨rfl, h'⟩ | ⟨rfl, d, h'⟩
  · simp at h'; exact absurd h'.1 hc
  · simp at h'; simp [h'.2]
  · simp only [List.cons.injEq] at h'
    obtain ⟨rfl, rfl⟩ := h'
    exfalso
    apply h rfl
    cases rest with
    | nil => simp at hp'
    | cons d rest => simp [List.cons_prefix_cons] at hp'; simp [hp'.symm]
  · simp at h'; simp [h'.2]

/-- The rule of a word: its keyword rule or the identifier rule.  (Proof notion, models no code.) -/
def wordRule (w : Str) : Nat :=
  if w = c!"enum" then 16 else if w = c!"class" then 17 else if w = c!"struct" then 18
  else if w = c!"int" then 19 else if w = c!"short" then 20 else if w = c!"long" then 21
  else if w = c!"unsigned" then 22 else if w = c!"float" then 23 else if w = c!"double" then 24
  else if w = c!"bool" then 25 else if w = c!"true" then 26 else if w = c!"false" then 27 else 30

theorem wordRule_cases (w : Str) :
    (wordRule w = 16 ∧ w = c!"enum") ∨
    (wordRule w = 17 ∧ w = c!"class") ∨
    (wordRule w = 18 ∧ w = c!"struct") ∨
    (wordRule w = 19 ∧ w = c!"int") ∨
    (wordRule w = 20 ∧ w = c!"short") ∨
    (wordRule w = 21 ∧ w = c!"long") ∨
    (wordRule w = 22 ∧ w = c!"unsigned") ∨
    (wordRule w = 23 ∧ w = c!"float") ∨
    (wordRule w = 24 ∧ w = c!"double") ∨
    (wordRule w = 25 ∧ w = c!"bool") ∨
    (wordRule w = 26 ∧ w = c!"true") ∨
    (wordRule w = 27 ∧ w = c!"false") ∨
    (wordRule w = 30 ∧ w ∉ [c!"enum", c!"class", c!"struct", c!"int", c!"short", c!"long", c!"unsigned", c!"float", c!"double", c!"bool", c!"true", c!"false"]) := by
  by_cases h0 : w = c!"enum"
  · subst h0; decide
  by_cases h1 : w = c!"class"
  · subst h1; decide
  by_cases h2 : w = c!"struct"
  · subst h2; decide
  by_cases h3 : w = c!"int"
  · subst h3; decide
  by_cases h4 : w = c!"short"
  · subst h4; decide
  by_cases h5 : w = c!"long"
  · subst h5; decide
  by_cases h6 : w = c!"unsigned"
  · subst h6; decide
  by_cases h7 : w = c!"float"
  · subst h7; decide
  by_cases h8 : w = c!"double"
  · subst h8; decide
  by_cases h9 : w = c!"bool"
  · subst h9; decide
  by_cases h10 : w = c!"true"
  · subst h10; decide
  by_cases h11 : w = c!"false"
  · subst h11; decide
  have : wordRule w = 30 := by
    unfold wordRule
    rw [if_neg h0, if_neg h1, if_neg h2, if_neg h3, if_neg h4, if_neg h5, if_neg h6, if_neg h7, if_neg h8, if_neg h9, if_neg h10, if_neg h11]
  simp [this, h0, h1, h2, h3, h4, h5, h6, h7, h8, h9, h10, h11]

theorem wordRule_lang (bol : Bool) {w : Str} (h : IsIdent w) : ruleLang bol .initial (wordRule w) w := by
  rcases wordRule_cases w with ⟨e, e2⟩ | ⟨e, e2⟩ | ⟨e, e2⟩ | ⟨e, e2⟩ | ⟨e, e2⟩ | ⟨e, e2⟩ | ⟨e, e2⟩ | ⟨e, e2⟩ | ⟨e, e2⟩ | ⟨e, e2⟩ | ⟨e, e2⟩ | ⟨e, e2⟩ | ⟨e, e2⟩ <;>
  · rw [e]
    simp only [ruleLang, Nat.reduceEqDiff, false_and, true_and, false_or, or_false]
    assumption

theorem wordRule_le (w : Str) : wordRule w ≤ 30 := by
  rcases wordRule_cases w with ⟨e, _⟩ | ⟨e, _⟩ | ⟨e, _⟩ | ⟨e, _⟩ | ⟨e, _⟩ | ⟨e, _⟩ | ⟨e, _⟩ | ⟨e, _⟩ | ⟨e, _⟩ | ⟨e, _⟩ | ⟨e, _⟩ | ⟨e, _⟩ | ⟨e, _⟩ <;> omega

theorem wordRule_min {bol : Bool} {w : Str} {r : Nat} (h : ruleLang bol .initial r w) (hi : IsIdent w) :
    wordRule w ≤ r := by
  obtain ⟨c, u, rfl, hc, hu⟩ := hi
  have hr := head_idStart hc h
  have h16 : 16 ≤ r := by omega
  by_cases hr30 : 30 ≤ r
  · refine Nat.le_trans ?_ hr30
    exact wordRule_le _
  · have hnc : ∀ a b, c :: u ≠ a ++ ':' :: b := by
      intro a b e
      have h1 : ':' ∈ c :: u := by rw [e]; simp
      rcases List.mem_cons.1 h1 with h1 | h1
      · rw [← h1] at hc; cases hc
      · have := hu _ h1; cases this
    simp only [ruleLang] at h
    have hcase : r = 16 ∨ r = 17 ∨ r = 18 ∨ r = 19 ∨ r = 20 ∨ r = 21 ∨ r = 22 ∨ r = 23 ∨ r = 24 ∨ r = 25 ∨
      r = 26 ∨ r = 27 ∨ r = 28 ∨ r = 29 := by omega
    rcases hcase with rfl | rfl | rfl | rfl | rfl | rfl | rfl | rfl | rfl | rfl | rfl | rfl | rfl | rfl
    all_goals (simp only [Nat.reduceEqDiff, false_and, true_and, false_or, or_false] at h)
    all_goals try (rw [h]; decide)
    · exact absurd h (hnc c!"std" c!":string")
    · exact absurd h (hnc c!"std" c!":vector")

/-- What may follow a word: no further word character, and no `::` plus word.  (Proof notion, models no code.) -/
def WordEnd (rest : Str) : Prop :=
  (∀ c, rest.head? = some c → isIdChar c = false) ∧
  ∀ d x, rest = ':' :: ':' :: d :: x → isIdStart d = false

theorem munch_word (bol : Bool) {t rest : Str} (ht : IsIdent t) (hr : WordEnd rest) :
    IsMunch .initial bol (t ++ rest) (wordRule t) t.length := by
  have hne : t ≠ [] := by obtain ⟨c, u, rfl, _⟩ := ht; simp
  refine munch_intro hne (wordRule_lang bol ht) ?_
  intro r' t' hp hl
  have hpw := hp
  obtain ⟨c, u, rfl, hc, hu⟩ := id ht
  obtain ⟨v, rfl, hp'⟩ := prefix_cons hp (ruleLang_ne hl)
  rcases head_idStart hc hl with ⟨_, _, h⟩ | ⟨h1, h2, a, b, ha, hb, e⟩ | ⟨rfl, rfl⟩
  · have hlen := run_le (p := isIdChar) (s := c :: u) (s' := c :: v) (rest := rest)
      (by simpa [isIdStart_idChar hc] using h) hr.1 hpw
    rcases Nat.lt_or_ge (c :: v).length (c :: u).length with hlt | hge
    · exact Or.inl hlt
    · have heq : (c :: v).length = (c :: u).length := by omega
      refine Or.inr ⟨heq, ?_⟩
      have : c :: v = c :: u := by
        have h3 : c :: u <+: c :: u ++ rest := List.prefix_append _ _
        exact (List.prefix_of_prefix_length_le hpw h3 (by omega)).eq_of_length heq
      rw [this] at hl
      exact wordRule_min hl ht
  · exfalso
    obtain ⟨x, hx⟩ := hpw
    rw [e] at hx
    cases rest with
    | nil =>
      have h0 : ':' ∈ c :: u := by
        have : ':' ∈ a ++ ':' :: ':' :: b ++ x := by simp
        rw [hx] at this; simpa using this
      have := ht.all _ h0
      cases this
    | cons d rest =>
      have hx' : a ++ ':' :: (':' :: (b ++ x)) = (c :: u) ++ d :: rest := by simpa using hx
      obtain ⟨_, rfl, h3⟩ := run_unique ha.all ht.all (by decide) (hr.1 d rfl) hx'
      obtain ⟨y, b, rfl, hy, _⟩ := hb
      have := hr.2 y (b ++ x) (by rw [← h3]; rfl)
      rw [this] at hy; cases hy
  · cases u with
    | nil =>
      refine Or.inr ⟨rfl, ?_⟩
      exact wordRule_min hl ht
    | cons => simp

theorem munch_enumValue (bol : Bool) {u v rest : Str} (hu : IsIdent u) (hv : IsIdent v)
    (h1 : u ++ ':' :: ':' :: v ≠ c!"std::string") (h2 : u ++ ':' :: ':' :: v ≠ c!"std::vector")
    (hr : ∀ c, rest.head? = some c → isIdChar c = false) :
    IsMunch .initial bol ((u ++ ':' :: ':' :: v) ++ rest) 31 (u ++ ':' :: ':' :: v).length := by
  refine munch_intro (by simp) ?_ ?_
  · simp only [ruleLang, Nat.reduceEqDiff, false_and, true_and, false_or, or_false]
    exact ⟨u, v, hu, hv, rfl⟩
  · intro r' t' hp hl
    obtain ⟨c, w, rfl, hc, hw⟩ := id hu
    have hp0 := hp
    obtain ⟨t, rfl, hp'⟩ := prefix_cons hp (ruleLang_ne hl)
    rcases head_idStart hc hl with ⟨_, _, h⟩ | ⟨h3, h4, a, b, ha, hb, e⟩ | ⟨rfl, rfl⟩
    · left
      have := run_le (p := isIdChar) (s := c :: w) (s' := c :: t) (rest := ':' :: ':' :: v ++ rest)
        (by simpa [isIdStart_idChar hc] using h) (by intro x hx; simp at hx; subst hx; decide) (by simpa using hp0)
      simp at this ⊢; omega
    · obtain ⟨x, hx⟩ := hp0
      rw [e] at hx
      have hx' : a ++ ':' :: (':' :: (b ++ x)) = (c :: w) ++ ':' :: (':' :: (v ++ rest)) := by simpa using hx
      obtain ⟨rfl, _, h5⟩ := run_unique ha.all hu.all (by decide) (by decide) hx'
      simp only [List.cons.injEq, true_and] at h5
      have hbp : b <+: v ++ rest := ⟨x, h5⟩
      have hle := run_le (p := isIdChar) hb.all hr hbp
      rw [e]
      rcases Nat.lt_or_ge b.length v.length with hlt | hge
      · left; simp; omega
      · right
        have heq : b.length = v.length := by omega
        refine ⟨by simp; omega, ?_⟩
        have hbv : b = v := (List.prefix_of_prefix_length_le hbp (List.prefix_append _ _) hle).eq_of_length heq
        subst hbv
        rw [e] at hl
        have hcase : r' = 28 ∨ r' = 29 ∨ r' = 30 ∨ r' = 31 := by omega
        have hni : ¬ IsIdent (c :: w ++ ':' :: ':' :: b) := by
          intro hi
          have := hi.all ':' (by simp)
          cases this
        rcases hcase with rfl | rfl | rfl | rfl
        all_goals (simp only [ruleLang, Nat.reduceEqDiff, false_and, true_and, false_or, or_false] at hl)
        · exact absurd hl h1
        · exact absurd hl h2
        · exact absurd hl hni
        · exact Nat.le_refl _
    · left; simp; omega

theorem munch_stdString (bol : Bool) {rest : Str}
    (hr : ∀ c, rest.head? = some c → isIdChar c = false) :
    IsMunch .initial bol (c!"std::string" ++ rest) 28 11 := by
  refine munch_intro (t := c!"std::string") (by simp) (by simp [ruleLang]) ?_
  intro r' t' hp hl
  have hp0 := hp
  obtain ⟨t, rfl, hp'⟩ := prefix_cons hp (ruleLang_ne hl)
  rcases head_idStart (by decide) hl with ⟨_, _, h⟩ | ⟨h3, h4, a, b, ha, hb, e⟩ | ⟨rfl, rfl⟩
  · left
    have := run_le (p := isIdChar) (s := c!"std") (s' := 's' :: t) (rest := c!"::string" ++ rest)
      (by simpa using ⟨by decide, h⟩) (by intro x hx; simp at hx; subst hx; decide) (by simpa using hp0)
    simp at this ⊢; omega
  · obtain ⟨x, hx⟩ := hp0
    rw [e] at hx
    have hx' : a ++ ':' :: (':' :: (b ++ x)) = c!"std" ++ ':' :: (':' :: (c!"string" ++ rest)) := by simpa using hx
    obtain ⟨rfl, _, h5⟩ := run_unique (p := isIdChar) ha.all (by decide) (by decide) (by decide) hx'
    simp only [List.cons.injEq, true_and] at h5
    have hle := run_le (p := isIdChar) hb.all hr ⟨x, h5⟩
    rw [e]
    simp at hle ⊢
    omega
  · left; simp

theorem munch_stdVector (bol : Bool) {rest : Str}
    (hr : ∀ c, rest.head? = some c → isIdChar c = false) :
    IsMunch .initial bol (c!"std::vector" ++ rest) 29 11 := by
  refine munch_intro (t := c!"std::vector") (by simp) (by simp [ruleLang]) ?_
  intro r' t' hp hl
  have hp0 := hp
  obtain ⟨t, rfl, hp'⟩ := prefix_cons hp (ruleLang_ne hl)
  rcases head_idStart (by decide) hl with ⟨_, _, h⟩ | ⟨h3, h4, a, b, ha, hb, e⟩ | ⟨rfl, rfl⟩
  · left
    have := run_le (p := isIdChar) (s := c!"std") (s' := 's' :: t) (rest := c!"::vector" ++ rest)
      (by simpa using ⟨by decide, h⟩) (by intro x hx; simp at hx; subst hx; decide) (by simpa using hp0)
    simp at this ⊢; omega
  · obtain ⟨x, hx⟩ := hp0
    rw [e] at hx
    have hx' : a ++ ':' :: (':' :: (b ++ x)) = c!"std" ++ ':' :: (':' :: (c!"vector" ++ rest)) := by simpa using hx
    obtain ⟨rfl, _, h5⟩ := run_unique (p := isIdChar) ha.all (by decide) (by decide) (by decide) hx'
    simp only [List.cons.injEq, true_and] at h5
    have hbp : b <+: c!"vector" ++ rest := ⟨x, h5⟩
    have hle := run_le (p := isIdChar) hb.all hr hbp
    rcases Nat.lt_or_ge b.length 6 with hlt | hge
    · left; rw [e]; simp; omega
    · right
      have hbv : b = c!"vector" :=
        (List.prefix_of_prefix_length_le hbp (List.prefix_append _ _) hle).eq_of_length (by simp at hle ⊢; omega)
      have he : 's' :: t = c!"std::vector" := by rw [e, hbv]; rfl
      rw [he] at hl ⊢
      have hcase : r' = 28 ∨ 29 ≤ r' := by omega
      rcases hcase with rfl | h6
      · simp [ruleLang] at hl
      · exact ⟨rfl, h6⟩
  · left; simp

/-- What may follow a number: no word character, and not (any character, digit).  (Proof notion, models no code.) -/
def NumEnd (rest : Str) : Prop :=
  (∀ c, rest.head? = some c → isIdChar c = false) ∧
  ∀ d e x, rest = d :: e :: x → d ≠ '\n' → isDig e = false

theorem dig_idChar {c : Char} (h : isIdChar c = false) : isDig c = false := by
  simp [isIdChar] at h; exact h.2

/-- An `FVALUE` match inside a digit run followed by a number end cannot leave the run. -/
theorem fvalue_in_digits {t rest u v f : Str} {d : Char} (ht : IsDigits t) (hr : NumEnd rest)
    (hu : IsDigits u) (hd : d ≠ '\n') (hv : IsDigits v) (hf : f = [] ∨ f = ['f'])
    (hp : u ++ d :: (v ++ f) <+: t ++ rest) : (u ++ d :: (v ++ f)).length ≤ t.length := by
  have hdig : ∀ c, rest.head? = some c → isDig c = false := fun c hc => dig_idChar (hr.1 c hc)
  have hule : u.length ≤ t.length := by
    refine run_le (p := isDig) hu.2 hdig (List.IsPrefix.trans ?_ hp)
    exact List.prefix_append _ _
  rcases Nat.lt_or_ge u.length t.length with hlt | hge
  · -- `d` lies inside `t`
    have hut : u <+: t :=
      List.prefix_of_prefix_length_le ((List.prefix_append _ _).trans hp) (List.prefix_append _ _) hule
    obtain ⟨y, rfl⟩ := hut
    cases y with
    | nil => simp at hlt
    | cons z y =>
      have hp1 : d :: (v ++ f) <+: (z :: y) ++ rest := by
        rw [List.append_assoc, List.prefix_append_right_inj] at hp
        exact hp
      have hp2 : v ++ f <+: y ++ rest := by
        simp only [List.cons_append, List.cons_prefix_cons] at hp1
        exact hp1.2
      have hvl : v.length ≤ y.length :=
        run_le (p := isDig) hv.2 hdig ((List.prefix_append _ _).trans hp2)
      rcases hf with rfl | rfl
      · simp at hvl ⊢; omega
      · -- the `f` is not a digit and not in the rest
        rcases Nat.lt_or_ge v.length y.length with h1 | h1
        · simp; omega
        · exfalso
          have hvy : v = y := (List.prefix_of_prefix_length_le ((List.prefix_append _ _).trans hp2)
            (List.prefix_append _ _) hvl).eq_of_length (by omega)
          subst hvy
          rw [List.prefix_append_right_inj] at hp2
          cases rest with
          | nil => simp at hp2
          | cons a rest =>
            simp [List.cons_prefix_cons] at hp2
            have := hr.1 a rfl
            rw [← hp2] at this; cases this
  · exfalso
    have hut : u = t := (List.prefix_of_prefix_length_le ((List.prefix_append _ _).trans hp)
      (List.prefix_append _ _) hule).eq_of_length (by omega)
    subst hut
    rw [List.prefix_append_right_inj] at hp
    cases v with
    | nil => exact hv.1 rfl
    | cons e v =>
      cases rest with
      | nil => simp at hp
      | cons a rest =>
        simp only [List.cons_prefix_cons] at hp
        cases rest with
        | nil => simp at hp
        | cons b rest =>
          simp only [List.cons_append, List.cons_prefix_cons] at hp
          have := hr.2 a b rest rfl (hp.1 ▸ hd)
          have h2 := hv.2 e (by simp)
          rw [hp.2.1, this] at h2; cases h2

theorem munch_value (bol : Bool) {t rest : Str} (ht : IsDigits t) (hr : NumEnd rest) :
    IsMunch .initial bol (t ++ rest) 32 t.length := by
  refine munch_intro ht.1 ?_ ?_
  · simp only [ruleLang, Nat.reduceEqDiff, false_and, true_and, false_or, or_false]
    exact ht
  · intro r' t' hp hl
    have hp0 := hp
    obtain ⟨hne, hall⟩ := id ht
    cases t with
    | nil => exact absurd rfl hne
    | cons c t =>
      have hc := hall c (by simp)
      obtain ⟨w, rfl, hp'⟩ := prefix_cons hp (ruleLang_ne hl)
      have hdig : ∀ c, rest.head? = some c → isDig c = false := fun c hc => dig_idChar (hr.1 c hc)
      rcases head_digit hc hl with ⟨rfl, h⟩ | ⟨rfl, rfl, u, hu, huh, rfl⟩ | ⟨rfl, u, d, v, f, hu, hd, hv, hf, e⟩ | ⟨rfl, rfl⟩
      · have := run_le (p := isDig) (s := c :: t) (s' := c :: w) (rest := rest) (by simpa [hc] using h) hdig hp0
        omega
      · exfalso
        cases t with
        | nil =>
          cases rest with
          | nil => simp at hp'
          | cons a rest =>
            simp [List.cons_prefix_cons] at hp'
            have := hr.1 a rfl
            rw [← hp'.1] at this; cases this
        | cons a t =>
          simp [List.cons_prefix_cons] at hp'
          have := hall a (by simp)
          rw [← hp'.1] at this; cases this
      · rw [e] at hp0 ⊢
        have := fvalue_in_digits ht hr hu hd hv hf hp0
        omega
      · cases t <;> simp

theorem hex_idChar {c : Char} (h : isHexDig c = true) : isIdChar c = true := by
  simp [isHexDig, isIdChar, isIdStart, isDig, eq_us] at h ⊢
  omega

theorem dig_hex {c : Char} (h : isDig c = true) : isHexDig c = true := by simp [isHexDig, h]

theorem munch_hex (bol : Bool) {u rest : Str} (hu : u ≠ []) (hh : ∀ c ∈ u, isHexDig c = true)
    (hr : ∀ c, rest.head? = some c → isIdChar c = false) :
    IsMunch .initial bol (('0' :: 'x' :: u) ++ rest) 33 (u.length + 2) := by
  refine munch_intro (t := '0' :: 'x' :: u) (by simp) ?_ ?_
  · simp only [ruleLang, Nat.reduceEqDiff, false_and, true_and, false_or, or_false]
    exact ⟨u, hu, hh, rfl⟩
  · intro r' t' hp hl
    obtain ⟨w, rfl, hp'⟩ := prefix_cons hp (ruleLang_ne hl)
    have hhex : ∀ c, rest.head? = some c → isHexDig c = false := by
      intro c hc
      cases h : isHexDig c with
      | false => rfl
      | true => have := hr c hc; rw [hex_idChar h] at this; cases this
    rcases head_digit (by decide) hl with ⟨rfl, h⟩ | ⟨rfl, _, u', hu', huh, rfl⟩ | ⟨rfl, a, d, v, f, ha, hd, hv, hf, e⟩ | ⟨rfl, rfl⟩
    · left
      cases w with
      | nil => simp
      | cons x w =>
        simp [List.cons_prefix_cons] at hp'
        have := h x (by simp)
        rw [hp'.1] at this; cases this
    · have hp2 : u' <+: u ++ rest := by
        simp [List.cons_prefix_cons] at hp'; exact hp'
      have := run_le (p := isHexDig) huh hhex hp2
      simp; omega
    · -- FVALUE reading `0` any digits: no longer than the hexadecimal run
      cases a with
      | nil => exact absurd rfl ha.1
      | cons z a =>
        simp only [List.cons_append, List.cons.injEq] at e
        obtain ⟨rfl, rfl⟩ := e
        cases a with
        | cons y a =>
          simp [List.cons_prefix_cons] at hp'
          have := ha.2 y (by simp)
          rw [hp'.1] at this; cases this
        | nil =>
          have hp2 : v ++ f <+: u ++ rest := by
            simp [List.cons_prefix_cons] at hp'; exact hp'.2
          have := run_le (p := isHexDig) (s := u) (s' := v ++ f) (by
            intro c hc
            rcases List.mem_append.1 hc with hc | hc
            · exact dig_hex (hv.2 c hc)
            · rcases hf with rfl | rfl
              · simp at hc
              · simp at hc; subst hc; decide) hhex hp2
          simp at this ⊢; omega
    · simp

theorem munch_fvalue (bol : Bool) {u v f rest : Str} (hu : IsDigits u) (hv : IsDigits v)
    (hf : f = [] ∨ f = ['f']) (hr : ∀ c, rest.head? = some c → isIdChar c = false) :
    IsMunch .initial bol ((u ++ '.' :: (v ++ f)) ++ rest) 34 (u ++ '.' :: (v ++ f)).length := by
  have hdig : ∀ c, rest.head? = some c → isDig c = false := fun c hc => dig_idChar (hr c hc)
  have hvf : ∀ c, (f ++ rest).head? = some c → isDig c = false := by
    intro c hc
    rcases hf with rfl | rfl
    · exact hdig c hc
    · simp at hc; subst hc; decide
  refine munch_intro (by simp) ?_ ?_
  · simp only [ruleLang, Nat.reduceEqDiff, false_and, true_and, false_or, or_false]
    exact ⟨u, '.', v, f, hu, by decide, hv, hf, rfl⟩
  · intro r' t' hp hl
    have hp0 := hp
    have hut' : ∀ s : Str, (∀ c ∈ s, isDig c = true) → s <+: u ++ '.' :: (v ++ f) ++ rest → s.length ≤ u.length := by
      intro s hs hsp
      refine run_le (p := isDig) hs (rest := '.' :: (v ++ f) ++ rest) ?_ (by simpa using hsp)
      intro c hc; simp at hc; subst hc; decide
    obtain ⟨hne, hall⟩ := id hu
    cases u with
    | nil => exact absurd rfl hne
    | cons c u =>
      have hc := hall c (by simp)
      obtain ⟨w, rfl, hp'⟩ := prefix_cons hp (ruleLang_ne hl)
      rcases head_digit hc hl with ⟨rfl, h⟩ | ⟨rfl, rfl, u', hu', huh, rfl⟩ | ⟨rfl, a, d, b, g, ha, hd, hb, hg, e⟩ | ⟨rfl, rfl⟩
      · left
        have := hut' (c :: w) (by simpa [hc] using h) hp0
        simp at this ⊢; omega
      · exfalso
        cases u with
        | nil => simp [List.cons_prefix_cons] at hp'
        | cons a t =>
          simp [List.cons_prefix_cons] at hp'
          have := hall a (by simp)
          rw [← hp'.1] at this; cases this
      · rw [e] at hp0 ⊢
        have hale := hut' a ha.2 ((List.prefix_append _ _).trans hp0)
        have hau : a <+: c :: u :=
          List.prefix_of_prefix_length_le ((List.prefix_append _ _).trans hp0)
            (by rw [List.append_assoc]; exact List.prefix_append _ _) hale
        obtain ⟨y, hy⟩ := hau
        rw [← hy] at hp0 ⊢
        simp only [List.append_assoc] at hp0
        rw [List.prefix_append_right_inj] at hp0
        cases y with
        | nil =>
          simp only [List.nil_append, List.cons_append, List.cons_prefix_cons] at hp0
          -- same integer part: compare fractions
          have hbl : b.length ≤ v.length :=
            run_le (p := isDig) hb.2 hvf (by
              have := (List.prefix_append b g).trans hp0.2
              simpa using this)
          rcases Nat.lt_or_ge b.length v.length with h1 | h1
          · have hgl : g.length ≤ 1 := by rcases hg with rfl | rfl <;> simp
            -- a shorter fraction cannot be followed by `f`
            have hgn : g = [] := by
              rcases hg with rfl | rfl
              · rfl
              · exfalso
                have hbv : b <+: v := List.prefix_of_prefix_length_le
                  ((List.prefix_append b _).trans hp0.2) (by simp [List.append_assoc]) hbl
                obtain ⟨z, hz⟩ := hbv
                rw [← hz] at hp0 h1
                have h3 := hp0.2
                simp only [List.append_assoc] at h3
                rw [List.prefix_append_right_inj] at h3
                cases z with
                | nil => simp at h1
                | cons k z =>
                  simp [List.cons_prefix_cons] at h3
                  have := hv.2 k (by rw [← hz]; simp)
                  rw [← h3] at this; cases this
            subst hgn
            left; simp; omega
          · have hbv : b = v := (List.prefix_of_prefix_length_le
                  ((List.prefix_append b _).trans hp0.2) (by simp [List.append_assoc]) hbl).eq_of_length (by omega)
            subst hbv
            have h3 := hp0.2
            simp only [List.append_assoc] at h3
            rw [List.prefix_append_right_inj] at h3
            have : g.length ≤ f.length := by
              rcases hg with rfl | rfl
              · simp
              · rcases hf with rfl | rfl
                · cases rest with
                  | nil => simp at h3
                  | cons k rest =>
                    simp [List.cons_prefix_cons] at h3
                    have := hr k rfl
                    rw [← h3] at this; cases this
                · simp
            simp; omega
        | cons z y =>
          left
          simp only [List.cons_append, List.cons_prefix_cons] at hp0
          have hbl : b.length ≤ y.length :=
            run_le (p := isDig) hb.2 (rest := '.' :: (v ++ (f ++ rest))) (by intro c hc; simp at hc; subst hc; decide)
              (by have := (List.prefix_append b g).trans hp0.2
                  simpa [List.append_assoc] using this)
          have hgl : g.length ≤ 1 := by rcases hg with rfl | rfl <;> simp
          have hvl : 0 < v.length := List.length_pos_iff.2 hv.1
          simp; omega
      · left; simp; omega

/-- No double quote before the next newline.  (Proof notion, models no code.) -/
def LineNoQuote (rest : Str) : Prop := ∀ c ∈ rest.takeWhile (fun c => c != '\n'), c ≠ '"'

theorem munch_string (bol : Bool) {u rest : Str} (hu : ∀ c ∈ u, c ≠ '\n') (hr : LineNoQuote rest) :
    IsMunch .initial bol (('"' :: (u ++ ['"'])) ++ rest) 35 (u.length + 2) := by
  have := munch_intro (sc := .initial) (bol := bol) (t := '"' :: (u ++ ['"'])) (rest := rest) (r := 35) (by simp) ?_ ?_
  · simpa using this
  · simp only [ruleLang, Nat.reduceEqDiff, false_and, true_and, false_or, or_false]
    exact ⟨u, hu, rfl⟩
  · intro r' t' hp hl
    obtain ⟨w, rfl, hp'⟩ := prefix_cons hp (ruleLang_ne hl)
    have hh := ruleLang_head hl
    simp [isBlank, isIdStart, isDig] at hh
    rcases hh with ⟨rfl, u', hu', rfl⟩ | ⟨rfl, rfl⟩
    · have : u'.length ≤ u.length := by
        apply Nat.le_of_not_lt
        intro hlt
        -- the closing quote of the longer match would lie on the rest of the line
        have hp2 : u' ++ ['"'] <+: u ++ '"' :: rest := by simpa using hp'
        have hu1 : u ++ ['"'] <+: u' := by
          refine List.prefix_of_prefix_length_le (l₃ := u ++ '"' :: rest) ?_ ((List.prefix_append _ _).trans hp2) (by simp; omega)
          exact ⟨rest, by simp⟩
        obtain ⟨x, rfl⟩ := hu1
        have hp3 : x ++ ['"'] <+: rest := by
          have : u ++ ('"' :: (x ++ ['"'])) <+: u ++ '"' :: rest := by simpa using hp2
          rw [List.prefix_append_right_inj, List.cons_prefix_cons] at this
          exact this.2
        obtain ⟨y, rfl⟩ := hp3
        refine hr '"' ?_ rfl
        have hx : ∀ c ∈ x, (c != '\n') = true := by
          intro c hc
          have : c ≠ '\n' := by
            rintro rfl
            exact hu' _ (by simp [hc]) rfl
          simp [this]
        rw [List.append_assoc, List.takeWhile_append_of_pos hx]
        simp
      simp; omega
    · simp

theorem munch_char (bol : Bool) {c : Char} (hc : c ≠ '\n') (rest : Str) :
    IsMunch .initial bol (['\'', c, '\''] ++ rest) 36 3 := by
  refine munch_intro (t := ['\'', c, '\'']) (by simp) ?_ ?_
  · simp only [ruleLang, Nat.reduceEqDiff, false_and, true_and, false_or, or_false]
    exact ⟨c, hc, rfl⟩
  · intro r' t' hp hl
    obtain ⟨w, rfl, hp'⟩ := prefix_cons hp (ruleLang_ne hl)
    have hh := ruleLang_head hl
    simp [isBlank, isIdStart, isDig] at hh
    rcases hh with ⟨rfl, d, _, rfl⟩ | ⟨rfl, rfl⟩ <;> simp

end Stfx.Lexer
