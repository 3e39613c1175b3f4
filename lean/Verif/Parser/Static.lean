import Verif.Parser.Driver
import Verif.Parser.Grammar
/-
Static facts about the LALR tables: which state can lie directly below which on the stack, and that
every reduction finds the right-hand side of its rule on the stack.
-/
namespace Stfx.Parser

/-- Symbol number of a nonterminal, Parser.hpp:514-552. -/
def NT.code : NT → Nat
  | .accept => 31 | .fileContent => 32 | .parts => 33 | .part => 34 | .blockStart => 35
  | .blockEnd => 36 | .comma => 37 | .semicolon => 38 | .equals => 39 | .lessthan => 40
  | .greaterthan => 41 | .true_ => 42 | .false_ => 43 | .unsigned => 44 | .int => 45
  | .short => 46 | .long => 47 | .stdString => 48 | .stdVector => 49 | .enum => 50
  | .class_ => 51 | .struct => 52 | .float => 53 | .double => 54 | .bool => 55 | .name => 56
  | .enumPart => 57 | .enumStart => 58 | .enumBlock => 59 | .enumBlockEnts => 60
  | .enumEnt => 61 | .structPart => 62 | .structStart => 63 | .structBlockEnts => 64
  | .structBlockEnt => 65 | .simpleType => 66 | .simpleDefaultValue => 67 | .value => 68
  | .structBlockVector => 69

/-- Symbol number.  (Proof notion, models no code.) -/
def Sym.code : Sym → Nat
  | .t k => k.code
  | .n x => x.code

/-- Transitions of the automaton: (state below, state above).  Found by closing the tables under
shifts and gotos; that the list is closed is what `static_ok` checks.  (Proof notion, models no code.) -/
def edges : List (Nat × Nat) :=
  [(0, 1), (0, 2), (0, 3), (0, 4), (0, 5), (0, 6), (0, 7), (0, 8), (0, 9), (0, 10), (0, 11), (3, 12),
   (5, 1), (5, 2), (5, 5), (5, 6), (5, 7), (5, 8), (5, 9), (5, 10), (5, 11), (5, 13), (6, 14), (6, 15),
   (6, 16), (7, 17), (7, 18), (9, 19), (9, 20), (9, 21), (11, 19), (11, 22), (16, 17), (16, 23), (20, 17), (20, 24),
   (20, 25), (20, 26), (22, 17), (22, 27), (22, 28), (22, 29), (22, 30), (22, 31), (22, 32), (22, 33), (22, 34), (22, 35),
   (22, 36), (22, 37), (22, 38), (22, 39), (22, 40), (22, 41), (22, 42), (22, 43), (22, 44), (22, 45), (22, 46), (22, 47),
   (22, 48), (22, 49), (24, 50), (24, 51), (25, 52), (25, 53), (26, 54), (26, 55), (36, 27), (36, 28), (36, 29), (36, 56),
   (36, 57), (36, 58), (41, 59), (41, 60), (45, 17), (45, 61), (46, 52), (46, 62), (47, 17), (47, 27), (47, 28), (47, 29),
   (47, 30), (47, 31), (47, 32), (47, 33), (47, 34), (47, 35), (47, 36), (47, 37), (47, 38), (47, 39), (47, 40), (47, 41),
   (47, 42), (47, 43), (47, 44), (47, 45), (47, 47), (47, 48), (47, 49), (47, 63), (48, 17), (48, 64), (49, 17), (49, 65),
   (51, 66), (51, 67), (51, 68), (53, 69), (53, 70), (55, 17), (55, 24), (55, 26), (55, 71), (60, 17), (60, 72), (61, 19),
   (61, 69), (61, 73), (61, 74), (61, 75), (62, 69), (62, 76), (64, 19), (64, 69), (64, 73), (64, 77), (64, 78), (65, 69),
   (65, 79), (72, 80), (72, 81), (73, 52), (73, 82), (73, 83), (73, 84), (73, 85), (73, 86), (73, 87), (73, 88), (73, 89),
   (73, 90), (73, 91), (73, 92), (75, 69), (75, 93), (78, 69), (78, 94), (92, 52), (92, 95)]

/-- States that can lie below a state.  (Proof notion, models no code.) -/
def preds (s : Nat) : List Nat := (edges.filter fun e => e.2 == s).map (·.1)

/-- All tokens.  (Proof notion, models no code.) -/
def allKinds : List TokKind :=
  [.eof, .blockStart, .blockEnd, .equals, .comma, .semicolon, .lessthan, .greaterthan, .enum,
   .class_, .struct, .int, .short, .long, .unsigned, .float, .double, .bool, .true_, .false_,
   .stdString, .stdVector, .name, .enumValue, .value, .hexValue, .fValue, .stringConstant,
   .charConstant]

theorem mem_allKinds (k : TokKind) : k ∈ allKinds := by cases k <;> decide

/-- All symbols.  (Proof notion, models no code.) -/
def allSyms : List Sym := allKinds.map .t ++
  ([.fileContent, .parts, .part, .blockStart, .blockEnd, .comma, .semicolon, .equals,
    .lessthan, .greaterthan, .true_, .false_, .unsigned, .int, .short, .long, .stdString,
    .stdVector, .enum, .class_, .struct, .float, .double, .bool, .name, .enumPart, .enumStart,
    .enumBlock, .enumBlockEnts, .enumEnt, .structPart, .structStart, .structBlockEnts,
    .structBlockEnt, .simpleType, .simpleDefaultValue, .value, .structBlockVector] : List NT).map .n

/-- The symbol by which a state is entered (from `yystos`).  (Proof notion, models no code.) -/
def symOf (s : Nat) : Option Sym := (yystos[s]?).bind fun c => allSyms.find? (fun x => x.code == c)

/-- What a state does on a lookahead: shift, reduce or error.  (Proof notion, models no code.) -/
inductive Action where
  | shift (s : Nat)
  | reduce (n : Nat)
  | error
deriving DecidableEq, Repr

/-- The action of a state on a token (`none`: undefined behaviour).  (Proof notion, models no code.) -/
def action (s : Nat) (k : TokKind) : Option Action := do
  let p ← yypact[s]?
  let dflt : Option Action := do
    let n ← yydefact[s]?
    some (if n = 0 then .error else .reduce n)
  if p = ninf then dflt
  else
    let i := p + k.code
    if i < 0 ∨ yylast < i then dflt
    else
      let chk ← at? yycheck i
      if chk ≠ k.code then dflt
      else
        let n ← at? yytable i
        some (if n = 0 then .reduce 0 else .shift n)

/-- Check one reduction: walking down from state `s` along the transitions, the states are entered
by the symbols `xs` (top first), and below them the goto on `lhs` exists and is a transition.  (Proof notion, models no code.) -/
def checkPath (lhs : NT) : List Sym → Nat → Bool
  | [], s => match gotoState s lhs.code with
    | some s2 => edges.contains (s, s2) && symOf s2 == some (.n lhs)
    | none => false
  | x :: xs, s => s != 0 && symOf s == some x && (preds s).all (checkPath lhs xs)

/-- The action of state `s` on token `k` is defined and consistent with the transitions.  (Proof notion, models no code.) -/
def checkAction (s : Nat) (k : TokKind) : Bool :=
  match action s k with
  | none => false
  | some .error => true
  | some (.shift s2) => edges.contains (s, s2) && symOf s2 == some (.t k)
  | some (.reduce n) => match prods.tail[n - 1]? with
    | none => false
    | some p => n != 0 && yyr1[n]? == some p.lhs.code && yyr2[n]? == some p.rhs.length &&
        p.rhs != [] && checkPath p.lhs p.rhs.reverse s

/-- States reachable on the stack, except the final one.  (Proof notion, models no code.) -/
def liveStates : List Nat := (List.range 96).filter (· != yyfinal)

/-- All table facts.  (Proof notion, models no code.) -/
def staticOk : Bool :=
  liveStates.all (fun s => allKinds.all (checkAction s)) &&
  edges.all (fun e => e.1 < 96 && e.2 < 96 && e.2 != 0 && e.1 != yyfinal)

theorem static_ok : staticOk = true := by decide +kernel

end Stfx.Parser
