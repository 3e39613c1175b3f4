import Verif.Parser.Driver
import Verif.Run.Num
/-
What the scanner prints on standard output while a file is parsed: struct_lex.l:54-58 and the default rule.
-/
set_option autoImplicit false
namespace Stfx.Parser
open Stfx.Lexer

/-- Printed by the action of a rule: `printf` of rule 6, tokenize.cpp:775-780 (`%s` stops at a null character), and
`ECHO` of the default rule, tokenize.cpp:569, 1035-1038, 1290-1293.  The other actions print nothing, tokenize.cpp:725-1033. -/
def lexemeSays (l : Lexeme) : Str :=
  if l.rule = 6 then
    c!"WARNING : [" ++ Stfx.Run.natText l.loc.first.line ++ c!", " ++ Stfx.Run.natText l.loc.first.col ++
    c!"] ignoring pre-processor line : " ++ l.text.takeWhile (· != '\x00') ++ c!"\n"
  else if l.rule = 37 then l.text
  else []

/-- The lexemes matched until the scanner has returned `n` tokens, tokenize.cpp:669-1038. -/
def upTo : Nat → List Lexeme → List Lexeme
  | 0, _ => []
  | _ + 1, [] => []
  | n + 1, l :: ls => l :: upTo (if l.token?.isSome then n else n + 1) ls

/-- The lexemes matched when the parser stops with lookahead `la` and the tokens `rest` not read, Parser.cpp:653-668. -/
def matched (ls : List Lexeme) (la : Token) (rest : List Token) : List Lexeme :=
  if la.kind = .eof then ls else upTo ((tokensOf ls).length - rest.length) ls

/-- What the scanner prints during `process_input_file`, items.cpp:60-66, for a file with this text.  The parser reads
up to the end of the file unless it finds an error before.  `none`: undefined behaviour. -/
def fileEchoes (w : Str) : Option Str :=
  match lexFile w with
  | none => none
  | some ls =>
    match parse (tokensOf ls) with
    | .accepted _ => some (ls.flatMap lexemeSays)
    | .rejected _ (some la) rest => some ((matched ls la rest).flatMap lexemeSays)
    | _ => none

end Stfx.Parser
