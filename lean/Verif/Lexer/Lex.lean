import Verif.Lexer.Scan
/-
The scanner loop: actions, start conditions, beginning-of-line flag, locations and tokens.
Models yy::Lexer::lex, /repo/src/lex_parse/tokenize.cpp:630-1160, called repeatedly until it
returns end of file.
-/
namespace Stfx

/-- Token kinds, Parser.hpp:480-513 (`S_YYEOF`, `S_BLOCK_START`, ...). -/
inductive TokKind where
  | eof | blockStart | blockEnd | equals | comma | semicolon | lessthan | greaterthan
  | enum | class_ | struct | int | short | long | unsigned | float | double | bool
  | true_ | false_ | stdString | stdVector
  | name | enumValue | value | hexValue | fValue | stringConstant | charConstant
deriving DecidableEq, Repr

/-- Symbol number of a token kind, Parser.hpp:480-513. -/
def TokKind.code : TokKind → Nat
  | .eof => 0 | .blockStart => 3 | .blockEnd => 4 | .equals => 5 | .comma => 6 | .semicolon => 7
  | .lessthan => 8 | .greaterthan => 9 | .enum => 10 | .class_ => 11 | .struct => 12 | .int => 13
  | .short => 14 | .long => 15 | .unsigned => 16 | .float => 17 | .double => 18 | .bool => 19
  | .true_ => 20 | .false_ => 21 | .stdString => 22 | .stdVector => 23 | .name => 24
  | .enumValue => 25 | .value => 26 | .hexValue => 27 | .fValue => 28 | .stringConstant => 29
  | .charConstant => 30

/-- A token as handed to the parser: kind and semantic value.  `text` is the `std::string` value
for kinds that carry one (struct_yacc.y:49-55) and empty for the others. -/
structure Token where
  kind : TokKind
  text : Str
deriving DecidableEq, Repr

namespace Lexer

/-- `yy::position` without the file name, Location.hpp:60-123.  Simplification: unbounded counters
(the code uses `int`). -/
structure Pos where
  line : Nat
  col : Nat
deriving DecidableEq, Repr

/-- `position::lines(1)`, Location.hpp:88-95. -/
def Pos.newline (p : Pos) : Pos := ⟨p.line + 1, 1⟩
/-- `position::columns(k)`, Location.hpp:98-101 (for `k ≥ 0` the clamp at 1 only matters at 0). -/
def Pos.columns (p : Pos) (k : Nat) : Pos := ⟨p.line, max 1 (p.col + k)⟩

/-- `yy::location`, Location.hpp:172-247. -/
structure Loc where
  first : Pos
  last : Pos
deriving DecidableEq, Repr

/-- `location ()`, Location.hpp:187-190. -/
def Loc.init : Loc := ⟨⟨1, 1⟩, ⟨1, 1⟩⟩

/-- Scanner state between two matches: start condition (`yy_start`), `yy_at_bol`, and the
location object of the parser's lookahead, which the actions update in place, tokenize.cpp:640-682. -/
structure LexSt where
  sc : SC
  bol : Bool
  loc : Loc
deriving DecidableEq, Repr

/-- State of a fresh scanner: `yy_start = 1` (tokenize.cpp:644-645), `yy_at_bol = 1`
(tokenize.cpp:1785), default location. -/
def LexSt.init : LexSt := ⟨.initial, true, Loc.init⟩

/-- Length of `yytext` after the trailing context of rules 5 and 6 has been given back
(tokenize.cpp:758-761, 770-773: `yy_cp -= 1`). -/
def adjLen (r n : Nat) : Nat := if r = 5 ∨ r = 6 then n - 1 else n

/-- Effect of an action on the start condition: rule 1 `BEGIN(C_COMMENT)` (tokenize.cpp:725-731),
rule 4 `BEGIN(INITIAL)` (tokenize.cpp:750-756). -/
def nextSC (sc : SC) (r : Nat) : SC :=
  if r = 1 then .cComment else if r = 4 then .initial else sc

/-- Effect of an action on the location: rules 2 and 7 `begin = end; lines(1)`; rules 1, 4 and 37
leave it alone; all other rules `begin = end; columns(YYLeng())` (tokenize.cpp:725-1038). -/
def nextLoc (l : Loc) (r len : Nat) : Loc :=
  if r = 1 ∨ r = 4 ∨ r = 37 then l
  else if r = 2 ∨ r = 7 then ⟨l.last, l.last.newline⟩
  else ⟨l.last, l.last.columns len⟩

/-- The token kind returned by each action, tokenize.cpp:804-1033 (`none`: the action does not
return, scanning continues). -/
def actKind : Nat → Option TokKind
  | 9 => some .blockStart | 10 => some .blockEnd | 11 => some .equals | 12 => some .comma
  | 13 => some .semicolon | 14 => some .lessthan | 15 => some .greaterthan | 16 => some .enum
  | 17 => some .class_ | 18 => some .struct | 19 => some .int | 20 => some .short
  | 21 => some .long | 22 => some .unsigned | 23 => some .float | 24 => some .double
  | 25 => some .bool | 26 => some .true_ | 27 => some .false_ | 28 => some .stdString
  | 29 => some .stdVector | 30 => some .name | 31 => some .enumValue | 32 => some .value
  | 33 => some .hexValue | 34 => some .fValue | 35 => some .stringConstant
  | 36 => some .charConstant | _ => none

/-- Whether the action stores `yytext` as semantic value (rules 30-36, tokenize.cpp:981-1033). -/
def actText (r : Nat) (text : Str) : Str := if 30 ≤ r ∧ r ≤ 36 then text else []

/-- One lexeme: matched rule, `yytext`, and the location after its action, tokenize.cpp:713-1038. -/
structure Lexeme where
  rule : Nat
  text : Str
  loc : Loc
deriving DecidableEq, Repr

/-- The token of a lexeme, if its action returns one, tokenize.cpp:804-1033. -/
def Lexeme.token? (l : Lexeme) : Option Token := (actKind l.rule).map fun k => ⟨k, actText l.rule l.text⟩

/-- Scanner state after the action of rule `r` on `yytext = text`: start condition, `yy_at_bol`
(`YY_RULE_SETUP`, tokenize.cpp:623-627: last character of `yytext` is a newline), location. -/
def LexSt.next (st : LexSt) (r : Nat) (text : Str) : LexSt where
  sc := nextSC st.sc r
  bol := match text.getLast? with
    | some c => c == '\n'
    | none => st.bol
  loc := nextLoc st.loc r text.length

/-- One turn of the `while (1)` loop, tokenize.cpp:669-720: match, then perform the action.
`none`: undefined behaviour in the matcher. -/
def lexStep (st : LexSt) (w : Str) : Option (Lexeme × LexSt × Str) := do
  let (r, n) ← matchOne st.sc st.bol w
  let text := w.take (adjLen r n)
  let st' := st.next r text
  some (⟨r, text, st'.loc⟩, st', w.drop (adjLen r n))

/-- The whole scan.  `fuel` bounds the number of lexemes; `none` is undefined behaviour or lack of
progress, tokenize.cpp:669-1160. -/
def lexFuel : Nat → LexSt → Str → Option (List Lexeme)
  | _, _, [] => some []
  | 0, _, _ :: _ => none
  | fuel + 1, st, c :: w => do
    let (l, st', w') ← lexStep st (c :: w)
    let ls ← lexFuel fuel st' w'
    some (l :: ls)

/-- All lexemes of a text from a given scanner state, tokenize.cpp:669-1160. -/
def lexFrom (st : LexSt) (w : Str) : Option (List Lexeme) := lexFuel w.length st w

/-- All lexemes of a file, tokenize.cpp:669-1160. -/
def lexFile (w : Str) : Option (List Lexeme) := lexFrom LexSt.init w

/-- The tokens returned by successive calls of `lex` before end of file, the calls of `yylex`, Parser.cpp:653-668. -/
def tokensOf (ls : List Lexeme) : List Token := ls.filterMap Lexeme.token?

/-- Tokens of a text from a given state, Parser.cpp:653-668. -/
def toksFrom (st : LexSt) (w : Str) : Option (List Token) := (lexFrom st w).map tokensOf

/-- Tokens of a file, Parser.cpp:653-668. -/
def toksFile (w : Str) : Option (List Token) := toksFrom LexSt.init w

end Lexer
end Stfx
