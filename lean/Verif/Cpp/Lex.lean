import Verif.Text
/-
The text of the generated files as C++ tokens: the lexical rules of C++17 ([lex.phases], [lex.pptoken]) as far as the
generated code needs them.

The generators of /repo/src/creation print text; what the generated code does is what the C++ rules make of this text.
This file, `Parse.lean` and `Eval.lean` are a reading of the C++ standard, not of /repo.
-/
set_option autoImplicit false
namespace Stfx.Cpp

/-- Keywords that occur in the generated code; `other`: one of the remaining keywords of C++17.  C++ [lex.key]. -/
inductive Kw where
  | if_ | else_ | while_ | for_ | switch_ | case_ | default_ | break_ | continue_ | return_ | try_ | catch_
  | bool_ | char_ | short_ | int_ | long_ | unsigned_ | float_ | double_ | const_ | auto_
  | true_ | false_ | nullptr_
  | class_ | struct_ | enum_ | private_ | protected_ | public_ | virtual_ | namespace_ | template_ | typename_
  | other
deriving DecidableEq, Repr

/-- Operators and punctuators ([lex.operators]).  C++ [lex.operators]. -/
inductive Op where
  | lpar | rpar | lbrace | rbrace | lbrack | rbrack | semi | comma | colon | scope | dot | arrow
  | assign | plusAssign | eq | ne | or | and | not | lt | gt | plus | minus | star | amp | question
  | other
deriving DecidableEq, Repr

/-- A token; the text of string literals is given with escape sequences replaced.  `dir`: a preprocessor directive.  C++ [lex.token]. -/
inductive Tok where
  | kw (k : Kw)
  | id (s : Str)
  | num (s : Str)
  | str (s : Str)
  | chr (s : Str)
  | op (o : Op)
  | dir
deriving DecidableEq, Repr

/-- Keywords by spelling ([lex.key], and the alternative tokens of [lex.digraph]).  C++ [lex.key]. -/
def keywords : List (Str × Kw) :=
  [(c!"if", .if_), (c!"else", .else_), (c!"while", .while_), (c!"for", .for_), (c!"switch", .switch_), (c!"case", .case_),
   (c!"default", .default_), (c!"break", .break_), (c!"continue", .continue_), (c!"return", .return_), (c!"try", .try_),
   (c!"catch", .catch_), (c!"bool", .bool_), (c!"char", .char_), (c!"short", .short_), (c!"int", .int_), (c!"long", .long_),
   (c!"unsigned", .unsigned_), (c!"float", .float_), (c!"double", .double_), (c!"const", .const_), (c!"auto", .auto_),
   (c!"true", .true_), (c!"false", .false_), (c!"nullptr", .nullptr_), (c!"class", .class_), (c!"struct", .struct_), (c!"enum", .enum_),
   (c!"private", .private_), (c!"protected", .protected_), (c!"public", .public_), (c!"virtual", .virtual_),
   (c!"namespace", .namespace_), (c!"template", .template_), (c!"typename", .typename_)] ++
  ([c!"alignas", c!"alignof", c!"asm", c!"char16_t", c!"char32_t", c!"constexpr", c!"const_cast", c!"decltype",
    c!"delete", c!"do", c!"dynamic_cast", c!"explicit", c!"export", c!"extern", c!"friend", c!"goto", c!"inline",
    c!"mutable", c!"new", c!"noexcept", c!"operator", c!"register",
    c!"reinterpret_cast", c!"signed", c!"sizeof", c!"static", c!"static_assert", c!"static_cast",
    c!"this", c!"thread_local", c!"throw", c!"typedef", c!"typeid", c!"union", c!"using", c!"void",
    c!"volatile", c!"wchar_t", c!"and", c!"and_eq", c!"bitand", c!"bitor", c!"compl", c!"not", c!"not_eq", c!"or", c!"or_eq",
    c!"xor", c!"xor_eq"].map fun s => (s, .other))

/-- Operators by spelling ([lex.operators]).  C++ [lex.operators]. -/
def operators : List (Str × Op) :=
  [(c!"(", .lpar), (c!")", .rpar), (c!"{", .lbrace), (c!"}", .rbrace), (c!"[", .lbrack), (c!"]", .rbrack), (c!";", .semi),
   (c!",", .comma), (c!":", .colon), (c!"::", .scope), (c!".", .dot), (c!"->", .arrow), (c!"=", .assign), (c!"+=", .plusAssign),
   (c!"==", .eq), (c!"!=", .ne), (c!"||", .or), (c!"&&", .and), (c!"!", .not), (c!"<", .lt), (c!">", .gt), (c!"+", .plus),
   (c!"-", .minus), (c!"*", .star), (c!"&", .amp), (c!"?", .question)] ++
  ([c!"/", c!"%", c!"^", c!"|", c!"~", c!"-=", c!"*=", c!"/=", c!"%=", c!"^=", c!"&=", c!"|=", c!"<<", c!">>", c!"<<=", c!">>=",
    c!"<=", c!">=", c!"++", c!"--", c!"->*", c!".*", c!"..."].map fun s => (s, .other))

/-- The token of a word.  C++ [lex.key], [lex.name]. -/
def wordTok (w : Str) : Tok :=
  match keywords.lookup w with
  | some k => .kw k
  | none => .id w

/-- The token of an operator.  C++ [lex.operators]. -/
def opTok (p : Str) : Tok := .op ((operators.lookup p).getD .other)

/-- Letters of identifiers ([lex.name], without the extended characters).  C++ [lex.name]. -/
def isLetter (c : Char) : Bool := ('a' ≤ c && c ≤ 'z') || ('A' ≤ c && c ≤ 'Z') || c = '_'
/-- Digits.  C++ [lex.name]. -/
def isDigit (c : Char) : Bool := '0' ≤ c && c ≤ '9'
/-- White space.  C++ [lex.token]. -/
def isBlank (c : Char) : Bool := c = ' ' || c = '\t' || c = '\n' || c = '\r' || c = '\x0b' || c = '\x0c'
/-- Can this character start an operator?  C++ [lex.operators]. -/
def isOpChar (c : Char) : Bool := (operators.lookup [c]).isSome

/-- What a simple escape sequence stands for ([lex.ccon]); octal and hexadecimal ones are left out.  C++ [lex.ccon]. -/
def escape (c : Char) : Option Char :=
  if c = 'n' then some '\n' else if c = 't' then some '\t' else if c = 'r' then some '\r'
  else if c = '\\' then some '\\' else if c = '"' then some '"' else if c = '\'' then some '\''
  else none

/-- Where the scan of a text is.  `line`, `dir`: in a `//` comment or a directive; `bad`: no tokens, or what the
generated code does not have: `/*` comments, backslashes in `//` comments and directives, digit separators.  C++ [lex.phases]. -/
inductive Mode where
  | start
  | word (w : Str) | num (w : Str) | op (w : Str)
  | str (w : Str) | strEsc (w : Str) | chr (w : Str) | chrEsc (w : Str)
  | line | dir
  | bad
deriving DecidableEq, Repr

/-- The first character of a token.  `letter`: the test for letters.  C++ [lex.pptoken]. -/
def first (letter : Char → Bool) (c : Char) : List Tok × Mode :=
  if letter c then ([], .word [c])
  else if isDigit c then ([], .num [c])
  else if isBlank c then ([], .start)
  else if c = '"' then ([], .str [])
  else if c = '\'' then ([], .chr [])
  else if c = '#' then ([.dir], .dir)
  else if isOpChar c then ([], .op [c])
  else ([], .bad)

/-- Put tokens in front.  C++ [lex.pptoken]. -/
def emit (t : Tok) (r : List Tok × Mode) : List Tok × Mode := (t :: r.1, r.2)

/-- One character.  `mk`: the tokens of words.  C++ [lex.pptoken]. -/
def step (letter : Char → Bool) (mk : Str → Tok) (m : Mode) (c : Char) : List Tok × Mode :=
  match m with
  | .start => first letter c
  | .word w => if letter c || isDigit c then ([], .word (w ++ [c])) else emit (mk w) (first letter c)
  | .num w =>
    if letter c || isDigit c || c = '.' then ([], .num (w ++ [c])) else if c = '\'' then ([], .bad)
    else emit (.num w) (first letter c)
  | .op w =>
    if w = c!"/" ∧ c = '/' then ([], .line)
    else if w = c!"/" ∧ c = '*' then ([], .bad)
    else if (operators.lookup (w ++ [c])).isSome then ([], .op (w ++ [c]))
    else emit (opTok w) (first letter c)
  | .str w =>
    if c = '"' then ([.str w], .start) else if c = '\\' then ([], .strEsc w) else if c = '\n' then ([], .bad)
    else ([], .str (w ++ [c]))
  | .strEsc w => match escape c with
    | some d => ([], .str (w ++ [d]))
    | none => ([], .bad)
  | .chr w =>
    if c = '\'' then (if w = [] then ([], .bad) else ([.chr w], .start)) else if c = '\\' then ([], .chrEsc w)
    else if c = '\n' then ([], .bad) else ([], .chr (w ++ [c]))
  | .chrEsc w => match escape c with
    | some d => ([], .chr (w ++ [d]))
    | none => ([], .bad)
  | .line => if c = '\n' then ([], .start) else if c = '\\' then ([], .bad) else ([], .line)
  | .dir => if c = '\n' then ([], .start) else if c = '\\' then ([], .bad) else ([], .dir)
  | .bad => ([], .bad)

/-- A text.  C++ [lex.phases]. -/
def scan (letter : Char → Bool) (mk : Str → Tok) : Mode → Str → List Tok × Mode
  | m, [] => ([], m)
  | m, c :: s =>
    let r := step letter mk m c
    let q := scan letter mk r.2 s
    (r.1 ++ q.1, q.2)

/-- The tokens of a text with a newline at its end.  C++ [lex.phases]. -/
def lex (s : Str) : Option (List Tok) :=
  match scan isLetter wordTok .start s with
  | (ts, .start) => some ts
  | _ => none

theorem scan_append (letter : Char → Bool) (mk : Str → Tok) (m : Mode) (a b : Str) :
    scan letter mk m (a ++ b) = ((scan letter mk m a).1 ++ (scan letter mk (scan letter mk m a).2 b).1,
      (scan letter mk (scan letter mk m a).2 b).2) := by
  induction a generalizing m with
  | nil => rfl
  | cons c a ih =>
    simp only [List.cons_append, scan, ih, List.append_assoc]

/-! ### Texts with holes

A template of the generators is a text with holes.  It is scanned once, with a character standing for each hole; the tokens of
the text with the holes filled are those of the template with the holes in the tokens filled. -/

/-- The character that stands for hole `i`: an identifier for `i < 4`, else part of a string literal or comment.  (Proof notion, models no code.) -/
def hole (i : Nat) : Char := Char.ofNat (0xE000 + i)

/-- Is this character a hole for an identifier?  (Proof notion, models no code.) -/
def isIdHole (c : Char) : Bool := 0xE000 ≤ c.toNat && c.toNat < 0xE004
/-- Is this character a hole for text?  (Proof notion, models no code.) -/
def isTextHole (c : Char) : Bool := 0xE004 ≤ c.toNat && c.toNat < 0xE008

/-- Identifiers that are no keywords.  C++ [lex.name]. -/
def Ident (w : Str) : Prop :=
  (∃ c s, w = c :: s ∧ isLetter c = true ∧ ∀ d ∈ s, (isLetter d || isDigit d) = true) ∧ keywords.lookup w = none

/-- Text that does not end the string literal, comment or directive it is in.  C++ [lex.string]. -/
def Plain (w : Str) : Prop := w ≠ [] ∧ ∀ c ∈ w, c ≠ '"' ∧ c ≠ '\'' ∧ c ≠ '\\' ∧ c ≠ '\n'

/-- The hole characters for identifiers are letters.  (Proof notion, models no code.) -/
def letterH (c : Char) : Bool := isLetter c || isIdHole c

/-- A word with holes that is no keyword, however the holes are filled.  (Proof notion, models no code.) -/
def neverKw (w : Str) : Bool :=
  (match w with
   | [c] => isIdHole c
   | _ => false) ||
  c!"do_".isPrefixOf w || c!"string_to_".isPrefixOf w || c!"_to_string".isSuffixOf w

/-- What the scan of a template gives for a word that may or may not be a keyword, depending on how its holes are filled.  (Proof notion, models no code.) -/
def noTok : Tok := .num []

/-- The token of a word with holes.  (Proof notion, models no code.) -/
def wordTokH (w : Str) : Tok :=
  if w.any isIdHole then (if neverKw w then .id w else noTok) else wordTok w

/-- The text for a character, the holes being filled with `F`.  (Proof notion, models no code.) -/
def fillChar (F : List Str) (c : Char) : Str :=
  if isIdHole c then (F[c.toNat - 0xE000]?).getD c!"x"
  else if isTextHole c then (F[c.toNat - 0xE000]?).getD c!"x"
  else [c]

/-- Fill the holes of a text.  (Proof notion, models no code.) -/
def fill (F : List Str) : Str → Str
  | [] => []
  | [c] => fillChar F c
  | c :: d :: s => fillChar F c ++ fill F (d :: s)

/-- Fill the holes of a token.  (Proof notion, models no code.) -/
def Tok.fill (F : List Str) : Tok → Tok
  | .id s => .id (Cpp.fill F s)
  | .num s => .num (Cpp.fill F s)
  | .str s => .str (Cpp.fill F s)
  | .chr s => .chr (Cpp.fill F s)
  | .kw k => .kw k
  | .op o => .op o
  | .dir => .dir

/-- Fill the holes of a mode.  (Proof notion, models no code.) -/
def Mode.fill (F : List Str) : Mode → Mode
  | .word s => .word (Cpp.fill F s)
  | .num s => .num (Cpp.fill F s)
  | .str s => .str (Cpp.fill F s)
  | .strEsc s => .strEsc (Cpp.fill F s)
  | .chr s => .chr (Cpp.fill F s)
  | .chrEsc s => .chrEsc (Cpp.fill F s)
  | m => m

/-- The holes are filled with identifiers and plain text.  (Proof notion, models no code.) -/
def GoodFill (F : List Str) : Prop := ∀ i w, F[i]? = some w → (i < 4 → Ident w) ∧ (4 ≤ i → Plain w)

theorem letter_plain {c : Char} (h : (isLetter c || isDigit c) = true) :
    c ≠ '"' ∧ c ≠ '\'' ∧ c ≠ '\\' ∧ c ≠ '\n' ∧ c ≠ '/' ∧ c ≠ '*' := by
  refine ⟨?_, ?_, ?_, ?_, ?_, ?_⟩ <;> rintro rfl <;> exact absurd h (by decide)

theorem hole_plain {c : Char} (h : isIdHole c = true ∨ isTextHole c = true) :
    isLetter c = false ∧ isDigit c = false ∧ isBlank c = false ∧ c ≠ '"' ∧ c ≠ '\'' ∧ c ≠ '\\' ∧ c ≠ '\n' ∧ c ≠ '/' ∧ c ≠ '*' ∧
    c ≠ '#' ∧ c ≠ '.' ∧ isOpChar c = false ∧ escape c = none := by
  have hn : 0xE000 ≤ c.toNat := by
    rcases h with h | h <;> simp only [isIdHole, isTextHole, Bool.and_eq_true, decide_eq_true_eq] at h <;> omega
  have ne : ∀ d : Char, d.toNat < 0xE000 → c ≠ d := by rintro d hd rfl; omega
  have le : ∀ d : Char, d.toNat < 0xE000 → decide (c ≤ d) = false := by
    intro d hd
    rw [decide_eq_false_iff_not]
    intro h'
    have : c.toNat ≤ d.toNat := h'
    omega
  refine ⟨?_, ?_, ?_, ne _ (by decide), ne _ (by decide), ne _ (by decide), ne _ (by decide), ne _ (by decide), ne _ (by decide),
    ne _ (by decide), ne _ (by decide), ?_, ?_⟩
  · simp [isLetter, le 'z' (by decide), le 'Z' (by decide), ne '_' (by decide)]
  · simp [isDigit, le '9' (by decide)]
  · simp [isBlank, ne ' ' (by decide), ne '\t' (by decide), ne '\n' (by decide), ne '\r' (by decide), ne '\x0b' (by decide), ne '\x0c' (by decide)]
  · rw [isOpChar, Option.isSome_eq_false_iff, Option.isNone_iff_eq_none, List.lookup_eq_none_iff]
    intro p hp
    have : ∀ p ∈ operators, ∀ d ∈ p.1, d.toNat < 0xE000 := by decide +kernel
    have h1 := this p hp
    simp only [ne_eq, bne, Bool.not_eq_true', beq_eq_false_iff_ne]
    intro h2
    have := h1 c (by rw [← h2]; simp)
    omega
  · simp [escape, ne 'n' (by decide), ne 't' (by decide), ne 'r' (by decide), ne '\\' (by decide), ne '"' (by decide), ne '\'' (by decide)]

/-- No operator contains a letter, digit or hole. -/
theorem not_operator {w : Str} {c : Char} (h : (isLetter c || isDigit c) = true ∨ 0xE000 ≤ c.toNat) :
    (operators.lookup (w ++ [c])).isSome = false := by
  rw [Option.isSome_eq_false_iff, Option.isNone_iff_eq_none, List.lookup_eq_none_iff]
  intro p hp
  have : ∀ p ∈ operators, ∀ d ∈ p.1, d.toNat < 0xE000 ∧ (isLetter d || isDigit d) = false := by decide +kernel
  have h1 := this p hp
  simp only [bne, Bool.not_eq_true', beq_eq_false_iff_ne, ne_eq]
  intro h2
  have h3 := h1 c (by rw [← h2]; simp)
  rcases h with h | h
  · rw [h3.2] at h; cases h
  · omega

section
variable {F : List Str}

theorem fill_cons (c : Char) (s : Str) : fill F (c :: s) = fillChar F c ++ fill F s := by
  cases s <;> simp [fill]

theorem fill_append (a b : Str) : fill F (a ++ b) = fill F a ++ fill F b := by
  induction a with
  | nil => rfl
  | cons c a ih => rw [List.cons_append, fill_cons, fill_cons, ih, List.append_assoc]

theorem fillChar_plain {c : Char} (h1 : isIdHole c = false) (h2 : isTextHole c = false) : fillChar F c = [c] := by
  simp [fillChar, h1, h2]

theorem fillChar_id (hF : GoodFill F) {c : Char} (h : isIdHole c = true) : Ident (fillChar F c) := by
  unfold fillChar
  rw [if_pos h]
  simp only [isIdHole, Bool.and_eq_true, decide_eq_true_eq] at h
  cases hw : F[c.toNat - 0xE000]? with
  | none => exact ⟨⟨'x', [], rfl, by decide, by simp⟩, by decide +kernel⟩
  | some w => exact (hF _ _ hw).1 (by omega)

theorem fillChar_text (hF : GoodFill F) {c : Char} (h1 : isIdHole c = false) (h2 : isTextHole c = true) : Plain (fillChar F c) := by
  unfold fillChar
  rw [if_neg (by simp [h1]), if_pos h2]
  simp only [isTextHole, Bool.and_eq_true, decide_eq_true_eq] at h2
  cases hw : F[c.toNat - 0xE000]? with
  | none => exact ⟨by decide, by decide⟩
  | some w => exact (hF _ _ hw).2 (by omega)

theorem Ident.word {w : Str} (h : Ident w) : ∀ c ∈ w, (isLetter c || isDigit c) = true := by
  obtain ⟨⟨c, s, rfl, h1, h2⟩, _⟩ := h
  intro d hd
  rcases List.mem_cons.1 hd with rfl | hd
  · simp [h1]
  · exact h2 d hd

theorem Ident.plain {w : Str} (h : Ident w) : Plain w :=
  ⟨by obtain ⟨⟨c, s, rfl, _⟩, _⟩ := h; simp, fun c hc => by
    have := letter_plain (h.word c hc); exact ⟨this.1, this.2.1, this.2.2.1, this.2.2.2.1⟩⟩

/-- Word characters go on with the word. -/
theorem scan_word {mk : Str → Tok} (w s : Str) (h : ∀ c ∈ s, (isLetter c || isDigit c) = true) :
    scan isLetter mk (.word w) s = ([], .word (w ++ s)) := by
  induction s generalizing w with
  | nil => simp [scan]
  | cons c s ih =>
    have hc := h c List.mem_cons_self
    simp only [scan, step, hc, if_true]
    rw [ih _ fun d hd => h d (List.mem_cons_of_mem _ hd)]
    simp

theorem scan_num {mk : Str → Tok} (w s : Str) (h : ∀ c ∈ s, (isLetter c || isDigit c) = true) :
    scan isLetter mk (.num w) s = ([], .num (w ++ s)) := by
  induction s generalizing w with
  | nil => simp [scan]
  | cons c s ih =>
    have hc := h c List.mem_cons_self
    simp only [scan, step, hc, Bool.true_or, if_true]
    rw [ih _ fun d hd => h d (List.mem_cons_of_mem _ hd)]
    simp

theorem scan_str {letter : Char → Bool} {mk : Str → Tok} (w s : Str) (h : ∀ c ∈ s, c ≠ '"' ∧ c ≠ '\\' ∧ c ≠ '\n') :
    scan letter mk (.str w) s = ([], .str (w ++ s)) := by
  induction s generalizing w with
  | nil => simp [scan]
  | cons c s ih =>
    obtain ⟨h1, h2, h3⟩ := h c List.mem_cons_self
    simp only [scan, step, if_neg h1, if_neg h2, if_neg h3]
    rw [ih _ fun d hd => h d (List.mem_cons_of_mem _ hd)]
    simp

theorem scan_chr {letter : Char → Bool} {mk : Str → Tok} (w s : Str) (h : ∀ c ∈ s, c ≠ '\'' ∧ c ≠ '\\' ∧ c ≠ '\n') :
    scan letter mk (.chr w) s = ([], .chr (w ++ s)) := by
  induction s generalizing w with
  | nil => simp [scan]
  | cons c s ih =>
    obtain ⟨h1, h2, h3⟩ := h c List.mem_cons_self
    simp only [scan, step, if_neg h1, if_neg h2, if_neg h3]
    rw [ih _ fun d hd => h d (List.mem_cons_of_mem _ hd)]
    simp

theorem scan_line {letter : Char → Bool} {mk : Str → Tok} (s : Str) (h : ∀ c ∈ s, c ≠ '\\' ∧ c ≠ '\n') :
    scan letter mk .line s = ([], .line) := by
  induction s with
  | nil => simp [scan]
  | cons c s ih =>
    obtain ⟨h2, h3⟩ := h c List.mem_cons_self
    simp only [scan, step, if_neg h2, if_neg h3]
    rw [ih fun d hd => h d (List.mem_cons_of_mem _ hd)]
    simp

theorem scan_dir {letter : Char → Bool} {mk : Str → Tok} (s : Str) (h : ∀ c ∈ s, c ≠ '\\' ∧ c ≠ '\n') :
    scan letter mk .dir s = ([], .dir) := by
  induction s with
  | nil => simp [scan]
  | cons c s ih =>
    obtain ⟨h2, h3⟩ := h c List.mem_cons_self
    simp only [scan, step, if_neg h2, if_neg h3]
    rw [ih fun d hd => h d (List.mem_cons_of_mem _ hd)]
    simp

theorem lookup_of_any {w : Str} (h : keywords.lookup w ≠ none) : ∃ p ∈ keywords, p.1 = w := by
  obtain ⟨k, hk⟩ := Option.ne_none_iff_exists'.1 h
  have := List.lookup_eq_some_iff.1 hk
  obtain ⟨l1, l2, h1, _⟩ := this
  exact ⟨(w, k), by rw [h1]; simp, rfl⟩

theorem fill_plain {w : Str} (h : w.any (fun c => isIdHole c || isTextHole c) = false) : fill F w = w := by
  induction w with
  | nil => rfl
  | cons c w ih =>
    simp only [List.any_cons, Bool.or_eq_false_iff] at h
    have := ih h.2
    rw [fill_cons, this, fillChar_plain h.1.1 h.1.2]
    rfl

/-- Words of a template with no identifier hole in them have no text hole either, once scanned: they are made of letters.  C++ [lex.name]. -/
def wordOk (w : Str) : Prop := w.any isTextHole = false

theorem wordTok_fill (hF : GoodFill F) {w : Str} (hw : wordOk w) (h : wordTokH w ≠ noTok) :
    wordTok (fill F w) = (wordTokH w).fill F := by
  unfold wordTokH at h ⊢
  by_cases hh : w.any isIdHole = true
  · rw [if_pos hh] at h ⊢
    by_cases hk : neverKw w = true
    · rw [if_pos hk]
      suffices hl : keywords.lookup (fill F w) = none by simp [wordTok, hl, Tok.fill]
      by_cases hl : keywords.lookup (fill F w) = none
      · exact hl
      exfalso
      obtain ⟨p, hp, he⟩ := lookup_of_any hl
      have hkw : ∀ p ∈ keywords, c!"do_".isPrefixOf p.1 = false ∧ c!"string_to_".isPrefixOf p.1 = false ∧
          c!"_to_string".isSuffixOf p.1 = false := by decide +kernel
      obtain ⟨k1, k2, k3⟩ := hkw p hp
      simp only [neverKw, Bool.or_eq_true] at hk
      rcases hk with ((hk | hk) | hk) | hk
      · match w, hk with
        | [c], hk =>
          have := (fillChar_id hF hk).2
          apply hl
          simpa [fill] using this
      · rw [List.isPrefixOf_iff_prefix] at hk
        obtain ⟨t, rfl⟩ := hk
        rw [← Bool.not_eq_true, List.isPrefixOf_iff_prefix] at k1
        apply k1
        rw [he, fill_append]
        exact ⟨_, congrArg (· ++ _) (fill_plain (by decide +kernel)).symm⟩
      · rw [List.isPrefixOf_iff_prefix] at hk
        obtain ⟨t, rfl⟩ := hk
        rw [← Bool.not_eq_true, List.isPrefixOf_iff_prefix] at k2
        apply k2
        rw [he, fill_append]
        exact ⟨_, congrArg (· ++ _) (fill_plain (by decide +kernel)).symm⟩
      · rw [List.isSuffixOf_iff_suffix] at hk
        obtain ⟨t, rfl⟩ := hk
        rw [← Bool.not_eq_true, List.isSuffixOf_iff_suffix] at k3
        apply k3
        rw [he, fill_append]
        exact ⟨_, congrArg (_ ++ ·) (fill_plain (by decide +kernel)).symm⟩
    · rw [if_neg hk] at h
      exact absurd rfl h
  · rw [if_neg hh]
    have hp : fill F w = w := fill_plain (by
      rw [Bool.not_eq_true] at hh
      rw [List.any_eq_false] at hh ⊢
      intro c hc
      have h1 := hh c hc
      have h2 := (List.any_eq_false.1 hw) c hc
      simp_all)
    rw [hp]
    unfold wordTok
    cases keywords.lookup w <;> simp [Tok.fill, hp]

/-- The words in the mode of a scan of a template hold no text holes.  (Proof notion, models no code.) -/
def Mode.ok : Mode → Prop
  | .word w => wordOk w
  | _ => True

theorem not_text_of_letter {c : Char} (h : (letterH c || isDigit c) = true) : isTextHole c = false := by
  rw [← Bool.not_eq_true]
  intro hc
  have := hole_plain (.inr hc)
  have h3 : isIdHole c = false := by
    rw [← Bool.not_eq_true]
    simp only [isIdHole, isTextHole, Bool.and_eq_true, decide_eq_true_eq] at hc ⊢
    omega
  simp [letterH, this.1, this.2.1, h3] at h

theorem first_ok (c : Char) : (first letterH c).2.ok := by
  unfold first
  (repeat' split) <;> try trivial
  rename_i h
  simp [Mode.ok, wordOk, not_text_of_letter (c := c) (by simp [h])]

theorem step_ok {m : Mode} (h : m.ok) (c : Char) : (step letterH wordTokH m c).2.ok := by
  unfold step
  split <;> (repeat' split) <;> try first | trivial | exact first_ok c
  rename_i w _ hc
  simp only [Mode.ok, wordOk, List.any_append, List.any_cons, List.any_nil, Bool.or_false, Bool.or_eq_false_iff] at h ⊢
  exact ⟨h, not_text_of_letter hc⟩

theorem scan_ok {m : Mode} (h : m.ok) (s : Str) : (scan letterH wordTokH m s).2.ok := by
  induction s generalizing m with
  | nil => exact h
  | cons c s ih => exact ih (step_ok h c)

theorem first_fill {c : Char} (h1 : isIdHole c = false) (h2 : isTextHole c = false) :
    first isLetter c = ((first letterH c).1.map (Tok.fill F), (first letterH c).2.fill F) := by
  have hc : fill F [c] = [c] := by simp [fill, fillChar_plain h1 h2]
  unfold first
  rw [show letterH c = isLetter c by simp [letterH, h1]]
  (repeat' split) <;> simp [Mode.fill, Tok.fill, hc] <;> rfl

theorem first_text {c : Char} (h1 : isIdHole c = false) (h2 : isTextHole c = true) : (first letterH c).2 = .bad := by
  obtain ⟨a1, a2, a3, a4, a5, a6, a7, a8, a9, a10, a11, a12, _⟩ := hole_plain (.inr h2)
  simp [first, letterH, a1, h1, a2, a3, a4, a5, a10, a12]

theorem first_id {c : Char} (h : isIdHole c = true) : first letterH c = ([], .word [c]) := by
  simp [first, letterH, h]

theorem scan_start_id {mk : Str → Tok} {w : Str} (h : Ident w) : scan isLetter mk .start w = ([], .word w) := by
  obtain ⟨⟨c, s, rfl, h1, h2⟩, _⟩ := h
  simp only [scan, step, first, h1, if_true]
  rw [scan_word _ _ h2]
  simp

theorem isHole_nat {c : Char} (h : isIdHole c = true ∨ isTextHole c = true) : 0xE000 ≤ c.toNat := by
  rcases h with h | h <;> simp only [isIdHole, isTextHole, Bool.and_eq_true, decide_eq_true_eq] at h <;> omega

/-- After a complete token, an identifier starts a word. -/
theorem scan_after_id {mk : Str → Tok} {m : Mode} {t : Tok} {w : Str} (h : Ident w)
    (hm : ∀ c, isLetter c = true → step isLetter mk m c = emit t (first isLetter c)) :
    scan isLetter mk m w = ([t], .word w) := by
  have hs := scan_start_id (mk := mk) h
  obtain ⟨⟨c, s, rfl, h1, h2⟩, _⟩ := h
  simp only [scan, hm c h1, emit]
  simp only [scan, step] at hs
  simp only [Prod.mk.injEq] at hs
  simp only [List.cons_append, hs.1, hs.2]

theorem fillChar_ne (hF : GoodFill F) (c : Char) : fillChar F c ≠ [] := by
  by_cases hi : isIdHole c = true
  · exact (fillChar_id hF hi).plain.1
  · rw [Bool.not_eq_true] at hi
    by_cases ht : isTextHole c = true
    · exact (fillChar_text hF hi ht).1
    · rw [Bool.not_eq_true] at ht
      simp [fillChar_plain hi ht]

theorem fill_eq_nil (hF : GoodFill F) {w : Str} : fill F w = [] ↔ w = [] := by
  constructor
  · intro h
    match w, h with
    | [], _ => rfl
    | [c], h => exact absurd h (fillChar_ne hF c)
    | c :: d :: s, h =>
      simp only [fill, List.append_eq_nil_iff] at h
      exact absurd h.1 (fillChar_ne hF c)
  · rintro rfl; rfl

theorem step_fill (hF : GoodFill F) {m : Mode} (hm : m.ok) (c : Char) (h : (step letterH wordTokH m c).2 ≠ .bad)
    (h2 : noTok ∉ (step letterH wordTokH m c).1) :
    scan isLetter wordTok (m.fill F) (fillChar F c) =
      ((step letterH wordTokH m c).1.map (Tok.fill F), (step letterH wordTokH m c).2.fill F) := by
  by_cases hi : isIdHole c = true
  · -- an identifier
    have hI := fillChar_id hF hi
    have hP := hI.plain
    have hW := hI.word
    have hl : letterH c = true := by simp [letterH, hi]
    have hc : fill F [c] = fillChar F c := by simp [fill]
    obtain ⟨a1, a2, a3, a4, a5, a6, a7, a8, a9, a10, a11, a12, a13⟩ := hole_plain (.inl hi)
    cases m with
    | start =>
      simp only [step, first_id hi, Mode.fill, List.map_nil, hc]
      exact scan_start_id hI
    | word w =>
      simp only [step, hl, Bool.true_or, if_true, Mode.fill, fill_append, hc, List.map_nil]
      exact scan_word _ _ hW
    | num w =>
      simp only [step, hl, Bool.true_or, if_true, Mode.fill, fill_append, hc, List.map_nil]
      exact scan_num _ _ hW
    | op w =>
      have hn := not_operator (w := w) (.inr (isHole_nat (.inl hi)))
      have hs : step letterH wordTokH (.op w) c = ([opTok w], .word [c]) := by simp [step, a8, a9, hn, first_id hi, emit]
      rw [hs, show Mode.fill F (.op w) = .op w from rfl, scan_after_id hI (t := opTok w)]
      · simp [Mode.fill, hc, opTok, Tok.fill]
      · intro d hd
        have hd' : (isLetter d || isDigit d) = true := by simp [hd]
        obtain ⟨b1, b2, b3, b4, b5, b6⟩ := letter_plain hd'
        simp [step, b5, b6, not_operator (w := w) (.inl hd')]
    | str w =>
      simp only [step, if_neg a4, if_neg a6, if_neg a7, Mode.fill, fill_append, hc, List.map_nil]
      exact scan_str _ _ fun d hd => ⟨(hP.2 d hd).1, (hP.2 d hd).2.2.1, (hP.2 d hd).2.2.2⟩
    | strEsc w => simp [step, a13] at h
    | chr w =>
      simp only [step, if_neg a5, if_neg a6, if_neg a7, Mode.fill, fill_append, hc, List.map_nil]
      exact scan_chr _ _ fun d hd => ⟨(hP.2 d hd).2.1, (hP.2 d hd).2.2.1, (hP.2 d hd).2.2.2⟩
    | chrEsc w => simp [step, a13] at h
    | line =>
      simp only [step, if_neg a6, if_neg a7, Mode.fill, List.map_nil]
      exact scan_line _ fun d hd => ⟨(hP.2 d hd).2.2.1, (hP.2 d hd).2.2.2⟩
    | dir =>
      simp only [step, if_neg a6, if_neg a7, Mode.fill, List.map_nil]
      exact scan_dir _ fun d hd => ⟨(hP.2 d hd).2.2.1, (hP.2 d hd).2.2.2⟩
    | bad => simp [step] at h
  · rw [Bool.not_eq_true] at hi
    by_cases ht : isTextHole c = true
    · have hP := fillChar_text hF hi ht
      have hb := first_text hi ht
      have hc : fill F [c] = fillChar F c := by simp [fill]
      obtain ⟨a1, a2, a3, a4, a5, a6, a7, a8, a9, a10, a11, a12, a13⟩ := hole_plain (.inr ht)
      have hl : letterH c = false := by simp [letterH, hi, a1]
      cases m with
      | start => simp [step, hb] at h
      | word w => simp [step, hl, a2, emit, hb] at h
      | num w => simp [step, hl, a2, a11, a5, emit, hb] at h
      | op w => simp [step, a8, a9, not_operator (w := w) (.inr (isHole_nat (.inr ht))), emit, hb] at h
      | str w =>
        simp only [step, if_neg a4, if_neg a6, if_neg a7, Mode.fill, fill_append, hc, List.map_nil]
        exact scan_str _ _ fun d hd => ⟨(hP.2 d hd).1, (hP.2 d hd).2.2.1, (hP.2 d hd).2.2.2⟩
      | strEsc w => simp [step, a13] at h
      | chr w =>
        simp only [step, if_neg a5, if_neg a6, if_neg a7, Mode.fill, fill_append, hc, List.map_nil]
        exact scan_chr _ _ fun d hd => ⟨(hP.2 d hd).2.1, (hP.2 d hd).2.2.1, (hP.2 d hd).2.2.2⟩
      | chrEsc w => simp [step, a13] at h
      | line =>
        simp only [step, if_neg a6, if_neg a7, Mode.fill, List.map_nil]
        exact scan_line _ fun d hd => ⟨(hP.2 d hd).2.2.1, (hP.2 d hd).2.2.2⟩
      | dir =>
        simp only [step, if_neg a6, if_neg a7, Mode.fill, List.map_nil]
        exact scan_dir _ fun d hd => ⟨(hP.2 d hd).2.2.1, (hP.2 d hd).2.2.2⟩
      | bad => simp [step] at h
    · -- an ordinary character
      rw [Bool.not_eq_true] at ht
      have hc : ∀ w, fill F (w ++ [c]) = fill F w ++ [c] := fun w => by
        rw [fill_append]; simp [fill, fillChar_plain hi ht]
      have hl : letterH c = isLetter c := by simp [letterH, hi]
      have hff := first_fill (F := F) hi ht
      rw [fillChar_plain hi ht]
      suffices hs : step isLetter wordTok (m.fill F) c =
          ((step letterH wordTokH m c).1.map (Tok.fill F), (step letterH wordTokH m c).2.fill F) by
        simp [scan, hs]
      have he : ∀ d, escape c = some d → ∀ w, fill F (w ++ [d]) = fill F w ++ [d] := by
        intro d hd w
        rw [fill_append]
        congr 1
        apply fill_plain
        unfold escape at hd
        (repeat' split at hd) <;> first | (cases hd; decide) | cases hd
      cases m with
      | start => exact hff
      | word w =>
        show step isLetter wordTok (.word (fill F w)) c = _
        simp only [step, hl] at h2 ⊢
        by_cases hb : (isLetter c || isDigit c) = true
        · simp [hb, Mode.fill, hc]
        · rw [if_neg hb] at h2
          rw [if_neg hb, if_neg hb]
          simp only [emit, List.map_cons]
          rw [wordTok_fill hF hm fun h' => h2 (by simp [emit, h']), hff]
      | num w =>
        show step isLetter wordTok (.num (fill F w)) c = _
        simp only [step, hl]
        by_cases hb : (isLetter c || isDigit c || decide (c = '.')) = true
        · simp [hb, Mode.fill, hc]
        · rw [if_neg hb, if_neg hb]
          by_cases hq : c = '\''
          · rw [if_pos hq, if_pos hq]; rfl
          · rw [if_neg hq, if_neg hq]
            simp only [emit, List.map_cons, hff]; rfl
      | op w =>
        show step isLetter wordTok (.op w) c = _
        simp only [step]
        by_cases b1 : w = c!"/" ∧ c = '/'
        · rw [if_pos b1, if_pos b1]; rfl
        rw [if_neg b1, if_neg b1]
        by_cases b2 : w = c!"/" ∧ c = '*'
        · rw [if_pos b2, if_pos b2]; rfl
        rw [if_neg b2, if_neg b2]
        by_cases b3 : (operators.lookup (w ++ [c])).isSome = true
        · rw [if_pos b3, if_pos b3]; rfl
        rw [if_neg b3, if_neg b3]
        simp only [emit, List.map_cons, hff]; rfl
      | str w =>
        show step isLetter wordTok (.str (fill F w)) c = _
        simp only [step]
        (repeat' split) <;> simp [Mode.fill, Tok.fill, hc]
      | strEsc w =>
        show step isLetter wordTok (.strEsc (fill F w)) c = _
        simp only [step]
        cases hd : escape c with
        | some d => simp [Mode.fill, he d hd]
        | none => rfl
      | chr w =>
        show step isLetter wordTok (.chr (fill F w)) c = _
        have hn : fill F w = [] ↔ w = [] := fill_eq_nil hF
        simp only [step, hn]
        (repeat' split) <;> simp [Mode.fill, Tok.fill, hc]
      | chrEsc w =>
        show step isLetter wordTok (.chrEsc (fill F w)) c = _
        simp only [step]
        cases hd : escape c with
        | some d => simp [Mode.fill, he d hd]
        | none => rfl
      | line => show step isLetter wordTok .line c = _; simp only [step]; (repeat' split) <;> rfl
      | dir => show step isLetter wordTok .dir c = _; simp only [step]; (repeat' split) <;> rfl
      | bad => rfl

theorem scan_bad {letter : Char → Bool} {mk : Str → Tok} (s : Str) : scan letter mk .bad s = ([], .bad) := by
  induction s with
  | nil => rfl
  | cons c s ih => simp [scan, step, ih]

/-- **The tokens of a filled template are the filled tokens of the template.** -/
theorem scan_fill (hF : GoodFill F) {m : Mode} (hm : m.ok) (s : Str) (h : (scan letterH wordTokH m s).2 ≠ .bad)
    (h2 : noTok ∉ (scan letterH wordTokH m s).1) :
    scan isLetter wordTok (m.fill F) (fill F s) =
      ((scan letterH wordTokH m s).1.map (Tok.fill F), (scan letterH wordTokH m s).2.fill F) := by
  induction s generalizing m with
  | nil => rfl
  | cons c s ih =>
    simp only [scan] at h h2 ⊢
    simp only [List.mem_append, not_or] at h2
    have hb : (step letterH wordTokH m c).2 ≠ .bad := fun h' => h (by rw [h', scan_bad])
    rw [fill_cons, scan_append, step_fill hF hm c hb h2.1]
    simp only []
    rw [ih (step_ok hm c) h h2.2]
    simp

end

end Stfx.Cpp
