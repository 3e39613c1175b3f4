import Verif.Parser.Driver
import Verif.Run.Num
/-
The report of a syntax error: what the parser writes on standard error, src/lex_parse/Parser.cpp:998-1008 and
1149-1292, src/lex_parse/struct_yacc.y:199-208.
-/
set_option autoImplicit false
namespace Stfx.Parser
open Stfx.Lexer

/-- `yy_sname`, Parser.cpp:1152-1168, the entries of the tokens (the other entries are never used: a token is
reported as unexpected and tokens as expected). -/
def yysname : List Str :=
  [c!"end of file", c!"error", c!"invalid token", c!"{", c!"}", c!"=", c!",", c!";", c!"<",
   c!">", c!"enum", c!"class", c!"struct", c!"int", c!"short", c!"long", c!"unsigned",
   c!"float", c!"double", c!"bool", c!"true", c!"false", c!"std::string", c!"std::vector",
   c!"NAME", c!"ENUM_VALUE", c!"VALUE", c!"HEXVALUE", c!"FVALUE", c!"STRING_CONSTANT",
   c!"CHAR_CONSTANT"]

/-- The loop of `expected_tokens`, Parser.cpp:1193-1203, with `n` turns left at `yyx = x`; `acc` holds the entries
written to `yyarg`, which has room for 4 (`YYARGS_MAX - 1`).  `none`: out of bounds.  `yy_table_value_is_error_` is
false for all entries of `yytable`, which are natural numbers. -/
def expectLoop (p : Int) : Nat → Nat → List Nat → Option (List Nat)
  | 0, _, acc => some acc
  | n + 1, x, acc => do
    let c ← at? yycheck (x + p)
    if c = x ∧ x ≠ 1 then
      let _ ← at? yytable (x + p)
      if acc.length = 4 then some [] else expectLoop p n (x + 1) (acc ++ [x])
    else expectLoop p n (x + 1) acc

/-- `context::expected_tokens`, Parser.cpp:1180-1209, for the state on top of the stack. -/
def expectedTokens (state : Nat) : Option (List Nat) := do
  let p ← yypact[state]?
  if p = ninf then some []
  else
    let first : Nat := if p < 0 then (-p).toNat else 0
    let lim := yylast - p + 1
    let last : Int := if lim < ntokens then lim else ntokens
    expectLoop p (last.toNat - first) first []

/-- `yy_syntax_error_arguments_`, Parser.cpp:1213-1252: the unexpected token and the expected ones. -/
def errorArguments (state : Nat) (la : Option Token) : Option (List Nat) :=
  match la with
  | none => some []
  | some t => (expectedTokens state).map (t.kind.code :: ·)

/-- `yyformat`, Parser.cpp:1265-1280. -/
def errorFormat : Nat → Str
  | 1 => c!"syntax error, unexpected %s"
  | 2 => c!"syntax error, unexpected %s, expecting %s"
  | 3 => c!"syntax error, unexpected %s, expecting %s or %s"
  | 4 => c!"syntax error, unexpected %s, expecting %s or %s or %s"
  | 5 => c!"syntax error, unexpected %s, expecting %s or %s or %s or %s"
  | _ => c!"syntax error"

/-- The loop filling in the format, Parser.cpp:1283-1292.  `none`: a name that is not in the table. -/
def fillFormat : Str → List Nat → Option Str
  | '%' :: 's' :: f, a :: as => do
    let n ← yysname[a]?
    let r ← fillFormat f as
    some (n ++ r)
  | c :: f, as => (fillFormat f as).map (c :: ·)
  | [], _ => some []

/-- `yysyntax_error_`, Parser.cpp:1256-1292. -/
def errorText (state : Nat) (la : Option Token) : Option Str := do
  let args ← errorArguments state la
  fillFormat (errorFormat args.length) args

/-- What a run of the parser has reported when it returns.  (Models the calls of `error`, Parser.cpp:1000-1007.) -/
inductive Report where
  /-- `error` was not called -/
  | nothing
  /-- `error` was called once, with this text -/
  | text (s : Str)
  /-- undefined behaviour, or the run did not stop -/
  | undefined
deriving DecidableEq, Repr

/-- The driver loop again, Parser.cpp:630-1008, keeping the text given to `error`.  Every run that gets to `yyerrlab`
gets there once (`yyerrstatus_` is 0): no state shifts the error token, so the parser returns afterwards. -/
def runReport : Nat → Cfg → Report
  | 0, _ => .undefined
  | fuel + 1, c =>
    match step c with
    | none => .undefined
    | some .accept => .nothing
    | some .error =>
      match c.stack[0]? with
      | none => .undefined
      | some top =>
        match errorText top.state (laAfter c).1 with
        | none => .undefined
        | some s => .text s
    | some (.cont c') => runReport fuel c'

/-- The text reported while parsing a token sequence, Parser.cpp:590-1140. -/
def parseReport (toks : List Token) : Report := runReport (fuelFor toks) (Cfg.init toks)

/-- `Parser::error`, struct_yacc.y:199-208. -/
def errorLine (l : Loc) (e : Str) : Str :=
  c!"Location " ++ Stfx.Run.natText l.first.line ++ c!":" ++ Stfx.Run.natText l.first.col ++
  (if l.last.line ≠ l.first.line then
     c!"-" ++ Stfx.Run.natText l.last.line ++ c!":" ++ Stfx.Run.natText (l.last.col - 1)
   else if l.first.col + 1 < l.last.col then c!"-" ++ Stfx.Run.natText (l.last.col - 1)
   else []) ++
  c!", " ++ e ++ c!"\n"

/-- `yyla.location` when `error` is called: the location object the scanner updates in place, Parser.cpp:653-668, 1006.
For a token it is the location its own action leaves; at the end of the file it is what the last action of the scanner
left.  `rest` are the tokens not delivered yet. -/
def reportLoc (ls : List Lexeme) (la : Token) (rest : List Token) : Option Loc :=
  if la.kind = .eof then some ((ls.getLast?.map (·.loc)).getD Loc.init)
  else
    let locs := (ls.filter (·.token?.isSome)).map (·.loc)
    locs[locs.length - rest.length - 1]?

/-- What `process_input_file` writes on standard error for a file with this text, items.cpp:60-66.  `none`: undefined
behaviour. -/
def fileErrors (w : Str) : Option Str :=
  match lexFile w with
  | none => none
  | some ls =>
    match parse (tokensOf ls), parseReport (tokensOf ls) with
    | .accepted _, .nothing => some []
    | .rejected _ (some la) rest, .text e => (reportLoc ls la rest).map (errorLine · e)
    | _, _ => none

end Stfx.Parser
