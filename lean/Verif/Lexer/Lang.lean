import Verif.Lexer.Munch
/-
Plain descriptions of the languages of the rules of struct_lex.l.
-/
namespace Stfx.Lexer
open Re

/-- Blank or tab (`SEP_CHAR`).  (Proof notion, models no code.) -/
def isBlank (c : Char) : Bool := c == ' ' || c == '\t'
/-- Decimal digit.  (Proof notion, models no code.) -/
def isDig (c : Char) : Bool := 48 ≤ c.toNat && c.toNat ≤ 57
/-- Hexadecimal digit.  (Proof notion, models no code.) -/
def isHexDig (c : Char) : Bool :=
  isDig c || (65 ≤ c.toNat && c.toNat ≤ 70) || (97 ≤ c.toNat && c.toNat ≤ 102)
/-- Letter or underscore.  (Proof notion, models no code.) -/
def isIdStart (c : Char) : Bool :=
  (97 ≤ c.toNat && c.toNat ≤ 122) || (65 ≤ c.toNat && c.toNat ≤ 90) || c == '_'
/-- Letter, underscore or digit.  (Proof notion, models no code.) -/
def isIdChar (c : Char) : Bool := isIdStart c || isDig c

/-- A C identifier.  (Proof notion, models no code.) -/
def IsIdent (w : Str) : Prop := ∃ c u, w = c :: u ∧ isIdStart c = true ∧ ∀ d ∈ u, isIdChar d = true
/-- A non-empty run of decimal digits.  (Proof notion, models no code.) -/
def IsDigits (w : Str) : Prop := w ≠ [] ∧ ∀ d ∈ w, isDig d = true

theorem mem_takeWhile_imp {α} {p : α → Bool} {l : List α} {x : α} (h : x ∈ l.takeWhile p) :
    p x = true := by
  induction l with
  | nil => simp at h
  | cons a l ih =>
    rw [List.takeWhile_cons] at h
    split at h
    · rcases List.mem_cons.1 h with rfl | h
      · assumption
      · exact ih h
    · simp at h

theorem dropWhile_head {α} {p : α → Bool} {l v : List α} {d : α} (h : l.dropWhile p = d :: v) :
    p d = false := by
  induction l with
  | nil => simp at h
  | cons a l ih =>
    rw [List.dropWhile_cons] at h
    split at h
    · exact ih h
    · rename_i hn
      simp only [List.cons.injEq] at h
      obtain ⟨rfl, rfl⟩ := h
      simpa using hn

theorem char_ext_toNat {c d : Char} : c.toNat = d.toNat ↔ c = d :=
  ⟨fun h => Char.ext (UInt32.toNat_inj.1 h), fun h => h ▸ rfl⟩

theorem matches_chr {c : Char} {w : Str} : Matches (chr c) w ↔ w = [c] := by
  rw [chr, matches_set]
  constructor
  · rintro ⟨d, hd, rfl⟩
    simp [CSet.mem, CSet.memN] at hd
    have : d.toNat = c.toNat := by omega
    rw [char_ext_toNat.1 this]
  · rintro rfl
    exact ⟨c, by simp [CSet.mem, CSet.memN], rfl⟩

theorem matches_lit {s w : Str} : Matches (lit s) w ↔ w = s := by
  induction s generalizing w with
  | nil => simp [lit, matches_eps]
  | cons c s ih =>
    cases s with
    | nil => simp [lit, matches_chr]
    | cons d s =>
      simp only [lit, matches_seq, matches_chr]
      constructor
      · rintro ⟨u, v, rfl, h, rfl⟩
        rw [ih.1 h]; rfl
      · rintro rfl
        exact ⟨[c], d :: s, rfl, ih.2 rfl, rfl⟩

theorem mem_dot {c : Char} : (⟨true, [(10, 10)]⟩ : CSet).mem c = true ↔ c ≠ '\n' := by
  have : c ≠ '\n' ↔ c.toNat ≠ 10 := by
    rw [Ne, ← char_ext_toNat]; rfl
  rw [this]
  simp [CSet.mem, CSet.memN]
  omega

theorem matches_dot {w : Str} : Matches dot w ↔ ∃ c, c ≠ '\n' ∧ w = [c] := by
  rw [dot, matches_set]
  simp only [mem_dot]

theorem matches_star_of {a : Re} {P : Char → Prop} (h : ∀ w, Matches a w ↔ ∃ c, P c ∧ w = [c])
    {w : Str} : Matches (.star a) w ↔ ∀ c ∈ w, P c := by
  constructor
  · intro hm
    induction w with
    | nil => simp
    | cons c v ih =>
      obtain ⟨u1, u2, rfl, h1, h2⟩ := star_cons_inv hm c v rfl
      obtain ⟨d, hd, e⟩ := (h _).1 h1
      simp only [List.cons.injEq] at e
      obtain ⟨rfl, rfl⟩ := e
      simp only [List.nil_append] at ih ⊢
      intro x hx
      rcases List.mem_cons.1 hx with rfl | hx
      · exact hd
      · exact ih h2 x hx
  · intro hw
    induction w with
    | nil => exact .starNil
    | cons c v ih =>
      exact .starCons (u := [c]) ((h _).2 ⟨c, hw c (List.mem_cons_self ..), rfl⟩)
        (ih fun x hx => hw x (List.mem_cons_of_mem _ hx))

theorem matches_plus_of {a : Re} {P : Char → Prop} (h : ∀ w, Matches a w ↔ ∃ c, P c ∧ w = [c])
    {w : Str} : Matches (plus a) w ↔ w ≠ [] ∧ ∀ c ∈ w, P c := by
  rw [plus, matches_seq]
  constructor
  · rintro ⟨u, v, hu, hv, rfl⟩
    obtain ⟨c, hc, rfl⟩ := (h _).1 hu
    refine ⟨by simp, fun x hx => ?_⟩
    rcases List.mem_cons.1 hx with rfl | hx
    · exact hc
    · exact (matches_star_of h).1 hv x hx
  · rintro ⟨hne, hw⟩
    cases w with
    | nil => exact absurd rfl hne
    | cons c v =>
      exact ⟨[c], v, (h _).2 ⟨c, hw c (List.mem_cons_self ..), rfl⟩,
        (matches_star_of h).2 fun x hx => hw x (List.mem_cons_of_mem _ hx), rfl⟩

theorem matches_digit {w : Str} : Matches reDigit w ↔ ∃ c, isDig c = true ∧ w = [c] := by
  simp [reDigit, matches_set, CSet.mem, CSet.memN, isDig]

theorem matches_hex {w : Str} : Matches reHexDigit w ↔ ∃ c, isHexDig c = true ∧ w = [c] := by
  simp [reHexDigit, matches_set, CSet.mem, CSet.memN, isHexDig, isDig, or_assoc]

theorem mem_blank {c : Char} : (⟨false, [(32, 32), (9, 9)]⟩ : CSet).mem c = true ↔ isBlank c = true := by
  have h1 : c = ' ' ↔ c.toNat = 32 := by rw [← char_ext_toNat]; rfl
  have h2 : c = '\t' ↔ c.toNat = 9 := by rw [← char_ext_toNat]; rfl
  simp [isBlank, h1, h2, CSet.mem, CSet.memN]
  omega

theorem matches_sep {w : Str} : Matches reSep w ↔ ∃ c, isBlank c = true ∧ w = [c] := by
  rw [reSep, matches_set]
  simp only [mem_blank]

theorem eq_us {c : Char} : c = '_' ↔ c.toNat = 95 := by rw [← char_ext_toNat]; rfl

theorem mem_idStart {c : Char} :
    (⟨false, [(97, 122), (65, 90), (95, 95)]⟩ : CSet).mem c = true ↔ isIdStart c = true := by
  simp [isIdStart, eq_us, CSet.mem, CSet.memN]
  omega

theorem mem_idRest {c : Char}
    (h : (⟨false, [(97, 122), (65, 65), (95, 95), (90, 90), (48, 57), (95, 95)]⟩ : CSet).mem c = true) :
    isIdChar c = true := by
  simp [isIdChar, isIdStart, isDig, eq_us, CSet.mem, CSet.memN] at h ⊢
  omega

theorem idChar_cases {c : Char} (h : isIdChar c = true) : isIdStart c = true ∨
    (⟨false, [(97, 122), (65, 65), (95, 95), (90, 90), (48, 57), (95, 95)]⟩ : CSet).mem c = true := by
  simp [isIdChar, isIdStart, isDig, eq_us, CSet.mem, CSet.memN] at h ⊢
  omega

theorem isIdStart_idChar {c : Char} (h : isIdStart c = true) : isIdChar c = true := by
  simp [isIdChar, h]

theorem matches_ID {w : Str} (h : Matches reID w) : IsIdent w := by
  obtain ⟨u, v, hu, hv, rfl⟩ := matches_seq.1 h
  obtain ⟨c, hc, rfl⟩ := matches_set.1 hu
  refine ⟨c, v, rfl, mem_idStart.1 hc, fun d hd => mem_idRest ?_⟩
  exact (matches_star_of (P := fun c => _ = true) (fun w => matches_set)).1 hv d hd

theorem isIdent_append {u v : Str} (hu : IsIdent u) (hv : ∀ d ∈ v, isIdChar d = true) :
    IsIdent (u ++ v) := by
  obtain ⟨c, u, rfl, h1, h2⟩ := hu
  refine ⟨c, u ++ v, rfl, h1, fun d hd => ?_⟩
  rcases List.mem_append.1 hd with h | h
  · exact h2 d h
  · exact hv d h

theorem IsIdent.all {w : Str} (h : IsIdent w) : ∀ d ∈ w, isIdChar d = true := by
  obtain ⟨c, u, rfl, h1, h2⟩ := h
  intro d hd
  rcases List.mem_cons.1 hd with rfl | hd
  · exact isIdStart_idChar h1
  · exact h2 d hd

theorem star_ID_all {w : Str} : Matches (.star reID) w → ∀ d ∈ w, isIdChar d = true := by
  induction hn : w.length using Nat.strongRecOn generalizing w with
  | ind n ih =>
    intro h
    cases w with
    | nil => simp
    | cons c v =>
      obtain ⟨u1, u2, rfl, h1, h2⟩ := star_cons_inv h c v rfl
      have := (matches_ID h1).all
      intro d hd
      rw [← List.cons_append] at hd
      rcases List.mem_append.1 hd with h | h
      · exact this d h
      · exact ih u2.length (by simp at hn; omega) rfl h2 d h

/-- `{ID}+` denotes exactly the C identifiers, despite the `A_Z` in its character class. -/
theorem matches_plusID {w : Str} : Matches (plus reID) w ↔ IsIdent w := by
  constructor
  · intro h
    obtain ⟨u, v, hu, hv, rfl⟩ := matches_seq.1 h
    exact isIdent_append (matches_ID hu) (star_ID_all hv)
  · rintro ⟨c, u, rfl, hc, hu⟩
    induction hn : u.length using Nat.strongRecOn generalizing c u with
    | ind n ih =>
      -- split off the longest prefix of `u` in the narrower class
      let R : CSet := ⟨false, [(97, 122), (65, 65), (95, 95), (90, 90), (48, 57), (95, 95)]⟩
      have hsplit : u = u.takeWhile R.mem ++ u.dropWhile R.mem := List.takeWhile_append_dropWhile.symm
      have h1 : Matches reID (c :: u.takeWhile R.mem) := by
        refine matches_seq.2 ⟨[c], _, matches_set.2 ⟨c, mem_idStart.2 hc, rfl⟩, ?_, rfl⟩
        refine (matches_star_of (P := fun c => R.mem c = true) (fun w => matches_set)).2 ?_
        intro d hd
        exact mem_takeWhile_imp hd
      cases hd : u.dropWhile R.mem with
      | nil =>
        rw [hd, List.append_nil] at hsplit
        refine matches_seq.2 ⟨_, [], h1, .starNil, ?_⟩
        rw [← hsplit]; simp
      | cons d v =>
        have hmem : ∀ x ∈ d :: v, x ∈ u := by
          intro x hx; rw [hsplit, hd]; exact List.mem_append_right _ hx
        have hdR : R.mem d = false := by
          exact dropWhile_head hd
        have hds : isIdStart d = true := by
          rcases idChar_cases (hu d (hmem d (List.mem_cons_self ..))) with h | h
          · exact h
          · have h' : R.mem d = true := h
            rw [hdR] at h'; simp at h'
        have hlen : v.length < n := by
          have := congrArg List.length hsplit
          rw [hd] at this
          simp at this; omega
        have := ih v.length hlen d v hds (fun x hx => hu x (hmem x (List.mem_cons_of_mem _ hx))) rfl
        obtain ⟨a, b, ha, hb, hab⟩ := matches_seq.1 this
        refine matches_seq.2 ⟨_, d :: v, h1, ?_, ?_⟩
        · rw [hab]; exact .starCons ha hb
        · rw [List.cons_append, ← hd, ← hsplit]

/-- What each rule of struct_lex.l matches (trailing newline context included), in words. -/
def ruleLang (bol : Bool) (sc : SC) (r : Nat) (w : Str) : Prop :=
  match sc with
  | .cComment =>
    (r = 2 ∧ w = ['\n']) ∨ (r = 3 ∧ ∃ c, c ≠ '\n' ∧ w = [c]) ∨ (r = 4 ∧ w = c!"*/") ∨
    (r = 37 ∧ ∃ c, w = [c])
  | .initial =>
    (r = 1 ∧ w = c!"/*") ∨
    (r = 5 ∧ ∃ u, (∀ c ∈ u, c ≠ '\n') ∧ w = '/' :: '/' :: (u ++ ['\n'])) ∨
    (r = 6 ∧ bol = true ∧ ∃ s u, (∀ c ∈ s, isBlank c = true) ∧ (∀ c ∈ u, c ≠ '\n') ∧
      w = s ++ '#' :: (u ++ ['\n'])) ∨
    (r = 7 ∧ (w = ['\n'] ∨ w = ['\r', '\n'])) ∨
    (r = 8 ∧ w ≠ [] ∧ ∀ c ∈ w, isBlank c = true) ∨
    (r = 9 ∧ w = ['{']) ∨ (r = 10 ∧ w = ['}']) ∨ (r = 11 ∧ w = ['=']) ∨ (r = 12 ∧ w = [',']) ∨
    (r = 13 ∧ w = [';']) ∨ (r = 14 ∧ w = ['<']) ∨ (r = 15 ∧ w = ['>']) ∨
    (r = 16 ∧ w = c!"enum") ∨ (r = 17 ∧ w = c!"class") ∨ (r = 18 ∧ w = c!"struct") ∨
    (r = 19 ∧ w = c!"int") ∨ (r = 20 ∧ w = c!"short") ∨ (r = 21 ∧ w = c!"long") ∨
    (r = 22 ∧ w = c!"unsigned") ∨ (r = 23 ∧ w = c!"float") ∨ (r = 24 ∧ w = c!"double") ∨
    (r = 25 ∧ w = c!"bool") ∨ (r = 26 ∧ w = c!"true") ∨ (r = 27 ∧ w = c!"false") ∨
    (r = 28 ∧ w = c!"std::string") ∨ (r = 29 ∧ w = c!"std::vector") ∨
    (r = 30 ∧ IsIdent w) ∨
    (r = 31 ∧ ∃ u v, IsIdent u ∧ IsIdent v ∧ w = u ++ ':' :: ':' :: v) ∨
    (r = 32 ∧ IsDigits w) ∨
    (r = 33 ∧ ∃ u, u ≠ [] ∧ (∀ c ∈ u, isHexDig c = true) ∧ w = '0' :: 'x' :: u) ∨
    (r = 34 ∧ ∃ u c v f, IsDigits u ∧ c ≠ '\n' ∧ IsDigits v ∧ (f = [] ∨ f = ['f']) ∧
      w = u ++ c :: (v ++ f)) ∨
    (r = 35 ∧ ∃ u, (∀ c ∈ u, c ≠ '\n') ∧ w = '"' :: (u ++ ['"'])) ∨
    (r = 36 ∧ ∃ c, c ≠ '\n' ∧ w = ['\'', c, '\'']) ∨
    (r = 37 ∧ ∃ c, w = [c])

theorem m5 {w : Str} : Matches (.seq (.seq (.seq (chr '/') (chr '/')) (.star dot)) (chr '\n')) w ↔
    ∃ u, (∀ c ∈ u, c ≠ '\n') ∧ w = '/' :: '/' :: (u ++ ['\n']) := by
  simp only [matches_seq, matches_chr, matches_star_of (fun w => matches_dot)]
  constructor
  · rintro ⟨_, _, ⟨_, u, ⟨_, _, rfl, rfl, rfl⟩, hu, rfl⟩, rfl, rfl⟩
    exact ⟨u, hu, by simp⟩
  · rintro ⟨u, hu, rfl⟩
    exact ⟨_, _, ⟨_, u, ⟨_, _, rfl, rfl, rfl⟩, hu, rfl⟩, rfl, by simp⟩

theorem m6 {w : Str} :
    Matches (.seq (.seq (.star reSep) (.seq (chr '#') (.star dot))) (chr '\n')) w ↔
    ∃ s u, (∀ c ∈ s, isBlank c = true) ∧ (∀ c ∈ u, c ≠ '\n') ∧ w = s ++ '#' :: (u ++ ['\n']) := by
  simp only [matches_seq, matches_chr, matches_star_of (fun w => matches_dot),
    matches_star_of (fun w => matches_sep)]
  constructor
  · rintro ⟨_, _, ⟨s, _, hs, ⟨_, u, rfl, hu, rfl⟩, rfl⟩, rfl, rfl⟩
    exact ⟨s, u, hs, hu, by simp⟩
  · rintro ⟨s, u, hs, hu, rfl⟩
    exact ⟨_, _, ⟨s, _, hs, ⟨_, u, rfl, hu, rfl⟩, rfl⟩, rfl, by simp⟩

theorem m7 {w : Str} : Matches (.seq (opt (chr '\r')) (chr '\n')) w ↔
    (w = ['\n'] ∨ w = ['\r', '\n']) := by
  simp only [opt, matches_seq, matches_alt, matches_chr, matches_eps]
  constructor
  · rintro ⟨_, _, rfl | rfl, rfl, rfl⟩ <;> simp
  · rintro (rfl | rfl)
    · exact ⟨_, _, Or.inr rfl, rfl, rfl⟩
    · exact ⟨_, _, Or.inl rfl, rfl, rfl⟩

theorem m31 {w : Str} : Matches (.seq (plus reID) (.seq (lit c!"::") (plus reID))) w ↔
    ∃ u v, IsIdent u ∧ IsIdent v ∧ w = u ++ ':' :: ':' :: v := by
  simp only [matches_seq, matches_lit, matches_plusID]
  constructor
  · rintro ⟨u, _, hu, ⟨_, v, rfl, hv, rfl⟩, rfl⟩
    exact ⟨u, v, hu, hv, rfl⟩
  · rintro ⟨u, v, hu, hv, rfl⟩
    exact ⟨u, _, hu, ⟨_, v, rfl, hv, rfl⟩, rfl⟩

theorem m33 {w : Str} : Matches (.seq (lit c!"0x") (plus reHexDigit)) w ↔
    ∃ u, u ≠ [] ∧ (∀ c ∈ u, isHexDig c = true) ∧ w = '0' :: 'x' :: u := by
  simp only [matches_seq, matches_lit, matches_plus_of (fun w => matches_hex)]
  constructor
  · rintro ⟨_, u, rfl, ⟨h1, h2⟩, rfl⟩
    exact ⟨u, h1, h2, rfl⟩
  · rintro ⟨u, h1, h2, rfl⟩
    exact ⟨_, u, rfl, ⟨h1, h2⟩, rfl⟩

theorem m34 {w : Str} :
    Matches (.seq (plus reDigit) (.seq dot (.seq (plus reDigit) (opt (chr 'f'))))) w ↔
    ∃ u c v f, IsDigits u ∧ c ≠ '\n' ∧ IsDigits v ∧ (f = [] ∨ f = ['f']) ∧
      w = u ++ c :: (v ++ f) := by
  simp only [matches_seq, matches_plus_of (fun w => matches_digit), opt, matches_alt, matches_chr,
    matches_eps, matches_dot]
  constructor
  · rintro ⟨u, _, hu, ⟨_, _, ⟨c, hc, rfl⟩, ⟨v, f, hv, hf, rfl⟩, rfl⟩, rfl⟩
    exact ⟨u, c, v, f, hu, hc, hv, hf.symm, rfl⟩
  · rintro ⟨u, c, v, f, hu, hc, hv, hf, rfl⟩
    exact ⟨u, _, hu, ⟨_, _, ⟨c, hc, rfl⟩, ⟨v, f, hv, hf.symm, rfl⟩, rfl⟩, rfl⟩

theorem m35 {w : Str} : Matches (.seq (chr '"') (.seq (.star dot) (chr '"'))) w ↔
    ∃ u, (∀ c ∈ u, c ≠ '\n') ∧ w = '"' :: (u ++ ['"']) := by
  simp only [matches_seq, matches_chr, matches_star_of (fun w => matches_dot)]
  constructor
  · rintro ⟨_, _, rfl, ⟨u, _, hu, rfl, rfl⟩, rfl⟩
    exact ⟨u, hu, rfl⟩
  · rintro ⟨u, hu, rfl⟩
    exact ⟨_, _, rfl, ⟨u, _, hu, rfl, rfl⟩, rfl⟩

theorem m36 {w : Str} : Matches (.seq (chr '\'') (.seq dot (chr '\''))) w ↔
    ∃ c, c ≠ '\n' ∧ w = ['\'', c, '\''] := by
  simp only [matches_seq, matches_chr, matches_dot]
  constructor
  · rintro ⟨_, _, rfl, ⟨_, _, ⟨c, hc, rfl⟩, rfl, rfl⟩, rfl⟩
    exact ⟨c, hc, rfl⟩
  · rintro ⟨c, hc, rfl⟩
    exact ⟨_, _, rfl, ⟨_, _, ⟨c, hc, rfl⟩, rfl, rfl⟩, rfl⟩

theorem m37 {w : Str} : Matches (.alt dot (chr '\n')) w ↔ ∃ c, w = [c] := by
  simp only [matches_alt, matches_chr, matches_dot]
  constructor
  · rintro (⟨c, _, rfl⟩ | rfl) <;> exact ⟨_, rfl⟩
  · rintro ⟨c, rfl⟩
    by_cases h : c = '\n'
    · exact Or.inr (h ▸ rfl)
    · exact Or.inl ⟨c, h, rfl⟩

theorem rule_lang (sc : SC) (bol : Bool) (r : Nat) (w : Str) :
    (∃ rule ∈ activeRules sc bol, rule.num = r ∧ rule.full.Matches w) ↔ ruleLang bol sc r w := by
  cases sc <;> cases bol <;>
  · simp only [activeRules, rules, List.filter, Rule.full, decide_true, decide_false, Bool.not_true,
      Bool.not_false, Bool.or_true, Bool.or_false, Bool.and_true, Bool.and_false, reduceCtorEq, List.mem_cons, List.not_mem_nil, or_false,
      exists_eq_or_imp, exists_eq_left, if_true, if_false, Bool.false_eq_true, ruleLang,
      m5, m6, m7, m31, m33, m34, m35, m36, m37, matches_lit, matches_chr, matches_plusID,
      matches_dot, matches_plus_of (fun w => matches_sep), matches_plus_of (fun w => matches_digit),
      IsDigits, false_and, and_false, false_or, true_and, eq_comm (b := r)]

/-- A candidate match, in terms of the plain descriptions. -/
theorem cand_iff {sc : SC} {bol : Bool} {w : Str} {r n : Nat} :
    Candidate sc bol w r n ↔ 0 < n ∧ n ≤ w.length ∧ ruleLang bol sc r (w.take n) := by
  simp only [Candidate, rule_lang]

end Stfx.Lexer
