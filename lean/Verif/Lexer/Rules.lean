import Verif.Lexer.Regex
/-
The scanner specification: the pattern section of /repo/src/lex_parse/struct_lex.l, rule by
rule, as regular expressions, together with flex's disambiguation rule (longest match, then
earliest rule).  Nothing here refers to the generated tables of tokenize.cpp.
-/
namespace Stfx.Lexer
open Re

/-- `DIGIT [0-9]`, struct_lex.l:19. -/
def reDigit : Re := .set ⟨false, [(48, 57)]⟩
/-- `HEXDIGIT [0-9A-Fa-f]`, struct_lex.l:20. -/
def reHexDigit : Re := .set ⟨false, [(48, 57), (65, 70), (97, 102)]⟩
/-- `ID [a-zA-Z_][a-zA_Z0-9_]*`, struct_lex.l:21.  The second class is as written in the source:
`a-z`, `A`, `_`, `Z`, `0-9`, `_` (note `A_Z`, not `A-Z`). -/
def reID : Re :=
  .seq (.set ⟨false, [(97, 122), (65, 90), (95, 95)]⟩)
       (.star (.set ⟨false, [(97, 122), (65, 65), (95, 95), (90, 90), (48, 57), (95, 95)]⟩))
/-- `SEP_CHAR [ \t]`, struct_lex.l:22. -/
def reSep : Re := .set ⟨false, [(32, 32), (9, 9)]⟩

/-- Start conditions: `INITIAL` and the exclusive `%x C_COMMENT`, struct_lex.l:14. -/
inductive SC where
  | initial
  | cComment
deriving DecidableEq, Repr

/-- A rule of the pattern section, struct_lex.l:31-224. -/
structure Rule where
  /-- rule number, in source order, as flex numbers them -/
  num : Nat
  /-- start condition in which the rule is active -/
  sc : SC
  /-- pattern anchored at beginning of line (`^`) -/
  bol : Bool
  /-- pattern ends with `$`, i.e. must be followed by a newline which is not consumed -/
  eol : Bool
  /-- the pattern itself (without `^` and `$`) -/
  re : Re

/-- The 36 rules of struct_lex.l:31-224, plus flex's implicit default rule 37 (`.|\n`, ECHO),
which is active in every start condition (listed once per start condition). -/
def rules : List Rule := [
  ⟨1,  .initial,  false, false, lit c!"/*"⟩,                                             -- l.31
  ⟨2,  .cComment, false, false, chr '\n'⟩,                                               -- l.35
  ⟨3,  .cComment, false, false, dot⟩,                                                    -- l.39
  ⟨4,  .cComment, false, false, lit c!"*/"⟩,                                             -- l.43
  ⟨5,  .initial,  false, true,  .seq (.seq (chr '/') (chr '/')) (.star dot)⟩,            -- l.48
  ⟨6,  .initial,  true,  true,  .seq (.star reSep) (.seq (chr '#') (.star dot))⟩,        -- l.54
  ⟨7,  .initial,  false, false, .seq (opt (chr '\r')) (chr '\n')⟩,                       -- l.62
  ⟨8,  .initial,  false, false, plus reSep⟩,                                             -- l.70
  ⟨9,  .initial,  false, false, chr '{'⟩,                                                -- l.78
  ⟨10, .initial,  false, false, chr '}'⟩,                                                -- l.83
  ⟨11, .initial,  false, false, chr '='⟩,                                                -- l.88
  ⟨12, .initial,  false, false, chr ','⟩,                                                -- l.93
  ⟨13, .initial,  false, false, chr ';'⟩,                                                -- l.98
  ⟨14, .initial,  false, false, chr '<'⟩,                                                -- l.103
  ⟨15, .initial,  false, false, chr '>'⟩,                                                -- l.108
  ⟨16, .initial,  false, false, lit c!"enum"⟩,                                           -- l.113
  ⟨17, .initial,  false, false, lit c!"class"⟩,                                          -- l.118
  ⟨18, .initial,  false, false, lit c!"struct"⟩,                                         -- l.123
  ⟨19, .initial,  false, false, lit c!"int"⟩,                                            -- l.128
  ⟨20, .initial,  false, false, lit c!"short"⟩,                                          -- l.133
  ⟨21, .initial,  false, false, lit c!"long"⟩,                                           -- l.138
  ⟨22, .initial,  false, false, lit c!"unsigned"⟩,                                       -- l.143
  ⟨23, .initial,  false, false, lit c!"float"⟩,                                          -- l.148
  ⟨24, .initial,  false, false, lit c!"double"⟩,                                         -- l.153
  ⟨25, .initial,  false, false, lit c!"bool"⟩,                                           -- l.158
  ⟨26, .initial,  false, false, lit c!"true"⟩,                                           -- l.163
  ⟨27, .initial,  false, false, lit c!"false"⟩,                                          -- l.168
  ⟨28, .initial,  false, false, lit c!"std::string"⟩,                                    -- l.173
  ⟨29, .initial,  false, false, lit c!"std::vector"⟩,                                    -- l.178
  ⟨30, .initial,  false, false, plus reID⟩,                                              -- l.183
  ⟨31, .initial,  false, false, .seq (plus reID) (.seq (lit c!"::") (plus reID))⟩,       -- l.189
  ⟨32, .initial,  false, false, plus reDigit⟩,                                           -- l.195
  ⟨33, .initial,  false, false, .seq (lit c!"0x") (plus reHexDigit)⟩,                    -- l.201
  ⟨34, .initial,  false, false,
      .seq (plus reDigit) (.seq dot (.seq (plus reDigit) (opt (chr 'f'))))⟩,             -- l.207
  ⟨35, .initial,  false, false, .seq (chr '"') (.seq (.star dot) (chr '"'))⟩,            -- l.213
  ⟨36, .initial,  false, false, .seq (chr '\'') (.seq dot (chr '\''))⟩,                  -- l.219
  ⟨37, .initial,  false, false, .alt dot (chr '\n')⟩,                                    -- default
  ⟨37, .cComment, false, false, .alt dot (chr '\n')⟩ ]                                   -- default

/-- The pattern of a rule including its trailing context: `$` abbreviates `/\n`, and the trailing
context takes part in the longest-match comparison (flex manual, "Patterns"/"Matching").  (Specification notion, models no code.) -/
def Rule.full (r : Rule) : Re := if r.eol then .seq r.re (chr '\n') else r.re

/-- The rules that are active in a start condition, at (`bol`) or not at the beginning of a line.
(Specification notion, models no code.) -/
def activeRules (sc : SC) (bol : Bool) : List Rule :=
  rules.filter fun r => decide (r.sc = sc) && (!r.bol || bol)

/-- `Candidate sc bol w r n`: rule `r` is active and its full pattern matches exactly the first
`n ≥ 1` characters of `w`.  (Specification notion, models no code.) -/
def Candidate (sc : SC) (bol : Bool) (w : Str) (r n : Nat) : Prop :=
  0 < n ∧ n ≤ w.length ∧ ∃ rule ∈ activeRules sc bol, rule.num = r ∧ rule.full.Matches (w.take n)

/-- flex's disambiguation: `(r, n)` is the longest candidate, and among the longest ones the
earliest rule.  (Specification notion, models no code.) -/
structure IsMunch (sc : SC) (bol : Bool) (w : Str) (r n : Nat) : Prop where
  cand : Candidate sc bol w r n
  longest : ∀ r' n', Candidate sc bol w r' n' → n' ≤ n
  earliest : ∀ r', Candidate sc bol w r' n → r ≤ r'

end Stfx.Lexer
