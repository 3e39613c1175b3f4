import Verif.Parser.Tables
import Verif.Lexer.Lex
/-
The bison driver: /repo/src/lex_parse/Parser.cpp:568-1140, and the semantic actions.
-/
namespace Stfx.Parser

/-- `simple_item_type_E`, src/items.h:24-36. -/
inductive SimpleTy where
  | bool | int | short | long | unsignedInt | unsignedShort | unsignedLong | float | double | stdString
deriving DecidableEq, Repr

/-- `complex_item_type_E`, src/items.h:45-52. -/
inductive ComplexTy where
  | unknown | enumOrStruct | enum | struct | vector
deriving DecidableEq, Repr

/-- The calls the semantic actions make on the `info_items_C` object (src/items.h:119-124). -/
inductive Call where
  /-- `process_enum (name, is_class_enum)` -/
  | enum (name : Str) (isClass : Bool)
  /-- `process_enum_line (name, initialize_value, value)` -/
  | enumLine (name : Str) (init : Bool) (value : Str)
  /-- `process_struct (name)` -/
  | struct (name : Str)
  /-- `process_struct_line_simple (line_type, name, default_value)` -/
  | simple (ty : SimpleTy) (name deflt : Str)
  /-- `process_struct_line_complex (line_type, type_name, name)` -/
  | complex (ty : ComplexTy) (tyName name : Str)
deriving DecidableEq, Repr

/-- A `semantic_type` variant (Parser.hpp:180-400): empty, a `std::string` or a
`simple_item_type_E`.  Reading it as a type it does not hold is undefined behaviour. -/
inductive SemVal where
  | none
  | str (s : Str)
  | ty (t : SimpleTy)
deriving DecidableEq, Repr

/-- `value.as<std::string> ()`, Parser.hpp:180-400. -/
def SemVal.asStr : SemVal → Option Str
  | .str s => some s
  | _ => Option.none

/-- `value.as<simple_item_type_E> ()`, Parser.hpp:180-400. -/
def SemVal.asTy : SemVal → Option SimpleTy
  | .ty t => some t
  | _ => Option.none

/-- A `stack_symbol_type`: LR state and semantic value.  Simplification: locations of stacked symbols
are left out (they are only used for `yyerror_range`, which nothing reads back), Parser.hpp:1472-1492. -/
structure Cell where
  state : Nat
  val : SemVal
deriving DecidableEq, Repr

/-- Parser configuration: `yystack_` (top first), lookahead `yyla` (`none`: empty), the tokens the
scanner has still to deliver, and the log of the calls made so far, Parser.cpp:600-628. -/
structure Cfg where
  stack : List Cell
  la : Option Token
  toks : List Token
  log : List Call
deriving DecidableEq, Repr

/-- C++ array access with an `int` index: `none` is out of bounds (undefined behaviour), used for the tables of
Parser.cpp:1295-1400. -/
def at? {α} (l : List α) (i : Int) : Option α := if i < 0 then none else l[i.toNat]?

/-- `yypact_ninf_`, Parser.cpp:1295. -/
def ninf : Int := -59
/-- `yylast_`, Parser.hpp:1638. -/
def yylast : Int := 65
/-- `yyfinal_`, Parser.hpp:1640. -/
def yyfinal : Nat := 12
/-- `YYNTOKENS`, Parser.hpp:481. -/
def ntokens : Int := 31

/-- `yy_lr_goto_state_`, Parser.cpp:568-576. -/
def gotoState (state : Nat) (sym : Nat) : Option Nat := do
  let p ← at? yypgoto (sym - ntokens)
  let r := p + state
  let useDef : Option Nat := do
    let d ← at? yydefgoto (sym - ntokens)
    if d < 0 then none else some d.toNat
  if 0 ≤ r ∧ r ≤ yylast then
    let c ← at? yycheck r
    if c = state then at? yytable r else useDef
  else useDef

/-- Semantic value the left-hand side starts with, Parser.cpp:734-757: the value-initialised
`simple_item_type_E` (first enumerator), the empty string, or nothing. -/
def lhsInit (sym : Nat) : SemVal :=
  if sym = 66 then .ty .bool
  else if sym ∈ [24, 25, 26, 27, 28, 29, 30, 56, 67, 68, 69] then .str []
  else .none

/-- `yystack_[i].value.as<std::string> ()`, Parser.cpp:771-975. -/
def strAt (st : List Cell) (i : Nat) : Option Str := do (← st[i]?).val.asStr
/-- `yystack_[i].value.as<simple_item_type_E> ()`, Parser.cpp:771-975. -/
def tyAt (st : List Cell) (i : Nat) : Option SimpleTy := do (← st[i]?).val.asTy

/-- The semantic actions, Parser.cpp:771-975: value of the left-hand side and call made.
`none`: an empty stack slot or a value of the wrong type was read. -/
def act (n : Nat) (st : List Cell) (init : SemVal) : Option (SemVal × List Call) :=
  match n with
  | 28 => do let s ← strAt st 0; some (.str s, [])
  | 30 => do let s ← strAt st 0; some (init, [.enum s false])
  | 31 => do let s ← strAt st 0; some (init, [.enum s true])
  | 36 => do let s ← strAt st 0; some (init, [.enumLine s false c!"-"])
  | 37 => do let s ← strAt st 2; let v ← strAt st 0; some (init, [.enumLine s true v])
  | 38 => do let s ← strAt st 2; let v ← strAt st 0; some (init, [.enumLine s true v])
  | 39 => do let s ← strAt st 2; let v ← strAt st 0; some (init, [.enumLine s true v])
  | 41 => do let s ← strAt st 0; some (init, [.struct s])
  | 44 => do let t ← tyAt st 2; let s ← strAt st 1; some (init, [.simple t s c!"-"])
  | 45 => do let t ← tyAt st 3; let s ← strAt st 2; let d ← strAt st 1; some (init, [.simple t s d])
  | 46 => do let t ← strAt st 2; let s ← strAt st 1; some (init, [.complex .enumOrStruct t s])
  | 47 => do let t ← strAt st 3; let s ← strAt st 2; some (init, [.complex .enumOrStruct t s])
  | 48 => do let t ← strAt st 2; let s ← strAt st 1; some (init, [.complex .vector t s])
  | 49 => some (.ty .bool, [])
  | 50 => some (.ty .int, [])
  | 51 => some (.ty .short, [])
  | 52 => some (.ty .long, [])
  | 53 => some (.ty .unsignedInt, [])
  | 54 => some (.ty .unsignedShort, [])
  | 55 => some (.ty .unsignedLong, [])
  | 56 => some (.ty .float, [])
  | 57 => some (.ty .double, [])
  | 58 => some (.ty .stdString, [])
  | 59 => some (.str c!"{}", [])
  | 60 => do let s ← strAt st 1; some (.str (c!"{" ++ s ++ c!"}"), [])
  | 61 => do let s ← strAt st 0; some (.str s, [])
  | 62 => do let s ← strAt st 0; some (.str s, [])
  | 63 => some (.str c!"true", [])
  | 64 => some (.str c!"false", [])
  | 65 => do let s ← strAt st 0; some (.str s, [])
  | 66 => do let s ← strAt st 0; some (.str s, [])
  | 67 => do let s ← strAt st 0; some (.str s, [])
  | 68 => do let s ← strAt st 1; some (.str s, [])
  | _ => some (init, [])

/-- The value a token carries into the parser (Lexer actions 30-36 build a `std::string`), tokenize.cpp:981-1033. -/
def tokVal (t : Token) : SemVal :=
  match t.kind with
  | .name | .enumValue | .value | .hexValue | .fValue | .stringConstant | .charConstant => .str t.text
  | _ => .none

/-- Result of one turn of the driver, Parser.cpp:630-1049. -/
inductive Step where
  | cont (c : Cfg)
  /-- `YYACCEPT` -/
  | accept
  /-- `yyerrlab` reached: a syntax error is reported at the lookahead -/
  | error
deriving DecidableEq, Repr

/-- `yyreduce`, Parser.cpp:725-992. -/
def reduce (c : Cfg) (n : Nat) : Option Step := do
  let len ← yyr2[n]?
  let sym ← yyr1[n]?
  let below ← c.stack[len]?
  let s ← gotoState below.state sym
  let (v, calls) ← act n c.stack (lhsInit sym)
  some (.cont { c with stack := ⟨s, v⟩ :: c.stack.drop len, log := c.log ++ calls })

/-- `yydefault`, Parser.cpp:714-719. -/
def default (c : Cfg) (state : Nat) : Option Step := do
  let n ← yydefact[state]?
  if n = 0 then some .error else reduce c n

/-- The lookahead token: the one already read, or else the next token of the scanner, which returns
EOF at the end of the file (Parser.cpp:653-668); with the tokens left afterwards. -/
def Cfg.read (c : Cfg) : Token × List Token :=
  match c.la with
  | some t => (t, c.toks)
  | none => match c.toks with
    | [] => (⟨.eof, []⟩, [])
    | t :: ts => (t, ts)

/-- One pass from `yynewstate` to the next `goto yynewstate` / `yyerrlab`, Parser.cpp:630-719.
`none`: undefined behaviour. The branch for `S_YYerror` tokens (Parser.cpp:675-683) is left out:
no scanner action returns that token. The branch for `yytable_ninf_` is dead because `yytable`
has no negative entry (it is transcribed as natural numbers). -/
def step (c : Cfg) : Option Step := do
  let top ← c.stack[0]?
  if top.state = yyfinal then some .accept
  else
    let p ← yypact[top.state]?
    if p = ninf then default c top.state
    else
      let t := c.read.1
      let c := { c with la := some t, toks := c.read.2 }
      let i := p + t.kind.code
      if i < 0 ∨ yylast < i then default c top.state
      else
        let chk ← at? yycheck i
        if chk ≠ t.kind.code then default c top.state
        else
          let n ← at? yytable i
          if n = 0 then reduce c 0
          else some (.cont { c with stack := ⟨n, tokVal t⟩ :: c.stack, la := none })

/-- Does state `s` shift the error token? Parser.cpp:1054-1066 -/
def shiftsError (s : Nat) : Option Bool := do
  let p ← yypact[s]?
  if p = ninf then some false
  else
    let i := p + 1
    if 0 ≤ i ∧ i ≤ yylast then
      let k ← at? yycheck i
      if k = 1 then
        let n ← at? yytable i
        some (decide (0 < n))
      else some false
    else some false

/-- `yyerrlab1`, Parser.cpp:1049-1077: does the popping loop find a state that shifts the error
token?  `none`: undefined behaviour; `some false`: the stack is exhausted and `parse` returns 1. -/
def recovers : List Cell → Option Bool
  | [] => none
  | c :: rest => do
    let here ← shiftsError c.state
    if here then some true
    else if rest = [] then some false
    else recovers rest

/-- Outcome of `parse`, Parser.cpp:590-1140. -/
inductive Result where
  /-- returned 0 -/
  | accepted (log : List Call)
  /-- returned 1 after one error report at lookahead `la`; `rest` is what the scanner had not
  delivered yet -/
  | rejected (log : List Call) (la : Option Token) (rest : List Token)
  /-- went into error recovery (shifted the error token) -/
  | recovering
  /-- undefined behaviour -/
  | stuck
  /-- did not stop within the given number of steps -/
  | timeout
deriving DecidableEq, Repr

/-- The lookahead when `step` reports an error (the scanner may have been called in that step), Parser.cpp:653-668. -/
def laAfter (c : Cfg) : Option Token × List Token :=
  match c.stack[0]? with
  | none => (c.la, c.toks)
  | some top =>
    if yypact[top.state]? = some ninf then (c.la, c.toks)
    else (some c.read.1, c.read.2)

/-- The driver loop, Parser.cpp:630-1077. -/
def run : Nat → Cfg → Result
  | 0, _ => .timeout
  | fuel + 1, c =>
    match step c with
    | none => .stuck
    | some .accept => .accepted c.log
    | some .error =>
      match recovers c.stack with
      | none => .stuck
      | some true => .recovering
      | some false => .rejected c.log (laAfter c).1 (laAfter c).2
    | some (.cont c') => run fuel c'

/-- Initial configuration, Parser.cpp:622-628: state 0 with an empty symbol. -/
def Cfg.init (toks : List Token) : Cfg := ⟨[⟨0, .none⟩], none, toks, []⟩

/-- Number of steps that always suffices (proved in `parse_total`), bounds the jumps back to `yynewstate`,
Parser.cpp:630. -/
def fuelFor (toks : List Token) : Nat := 300 * (toks.length + 2)

/-- `Parser::parse ()` on a token sequence, Parser.cpp:590-1140. -/
def parse (toks : List Token) : Result := run (fuelFor toks) (Cfg.init toks)

end Stfx.Parser
