import Verif.Parser.Echo
/-
In which order the parser calls the scanner and the functions of `info_items_C`.
-/
set_option autoImplicit false
namespace Stfx.Parser
open Stfx.Lexer

/-- What the driver does that can be seen from outside: it calls `yylex` (Parser.cpp:653-668) or, in a semantic action,
a function of `info_items_C` (Parser.cpp:771-975). -/
inductive Event where
  | read
  | call (c : Call)
deriving DecidableEq, Repr

/-- Does the pass of the driver that begins here call `yylex`?  Parser.cpp:636-668: not in the final state, not in a
state with a default action only, not if there is a lookahead token. -/
def Cfg.calls (c : Cfg) : Bool :=
  match c.stack[0]? with
  | none => false
  | some top => decide (top.state ≠ yyfinal) && decide (yypact[top.state]? ≠ some ninf) && c.la.isNone

/-- The events of the driver loop in order, Parser.cpp:630-1077: in each pass `yylex` is called before the action is
carried out. -/
def events : Nat → Cfg → List Event
  | 0, _ => []
  | fuel + 1, c =>
    (if c.calls then [.read] else []) ++
    (match step c with
     | some (.cont c') => (c'.log.drop c.log.length).map .call ++ events fuel c'
     | _ => [])

/-- The events of `Parser::parse ()` on a token sequence, Parser.cpp:590-1140. -/
def parseEvents (toks : List Token) : List Event := events (fuelFor toks) (Cfg.init toks)

/-- Number of calls of the scanner.  (Proof notion, models no code.) -/
def readsOf (es : List Event) : Nat := es.countP (· == .read)

/-- The calls of `info_items_C`.  (Proof notion, models no code.) -/
def callsOf : List Event → List Call
  | [] => []
  | .read :: es => callsOf es
  | .call c :: es => c :: callsOf es

end Stfx.Parser
