import Verif.Lexer.Tables
import Verif.Lexer.Rules
/-
Executable model of the flex-generated scanner, /repo/src/lex_parse/tokenize.cpp.

This is the scanner as a function of the whole text:
* the input stream is the list of all its bytes: reaching the end of the list is
  `EOB_ACT_LAST_MATCH` (some text matched) or `EOB_ACT_END_OF_FILE` (no text);
* a NUL byte in the input takes the class 1 transition, which is what `yy_try_NUL_trans` and
  `yy_get_previous_state` (tokenize.cpp:1440-1494) do.
The buffer of the code and its refilling (tokenize.cpp:1045-1165, 1302-1494) is the subject of
Verif.Lexer.Buffer; C58 proves that it has no other effect.
-/
namespace Stfx.Lexer

/-- `yy_ec[YY_SC_TO_UI(*yy_cp)]`, tokenize.cpp:686, with NUL treated as class 1
(tokenize.cpp:1450, 1478). -/
def ec (c : Char) : Nat :=
  if c.toNat = 0 then 1 else
  match yyEc[c.toNat]? with
  | some k => k
  | none => 1

/-- The inner table-decompression loop and the transition, tokenize.cpp:692-698
(`while (yy_chk[yy_base[s]+yy_c] != s) {...}; s = yy_nxt[yy_base[s]+yy_c];`).
`none` is undefined behaviour: an out-of-bounds table access, or more than `fuel` rounds. -/
def yyTrans : Nat → Nat → Nat → Option Nat
  | 0, _, _ => none
  | fuel + 1, s, c => do
    let b ← yyBase[s]?
    let k ← yyChk[b + c]?
    if k = s then yyNxt[b + c]?
    else
      let d ← yyDef[s]?
      if d ≥ 134 then
        let m ← yyMeta[c]?
        yyTrans fuel d m
      else yyTrans fuel d c

/-- One transition of the scanner automaton (default chains have length ≤ 4), tokenize.cpp:692-698. -/
def delta (s c : Nat) : Option Nat := yyTrans 5 s c

/-- Result of matching one token: rule number (`yy_act`) and number of characters up to `yy_cp`
(before a trailing-context adjustment), tokenize.cpp:703-711. -/
abbrev Match := Nat × Nat

/-- `yy_find_action`, tokenize.cpp:703-711: take the action of the current state, or back up to
the last accepting state.  `none`: no accepting state was recorded (undefined behaviour). -/
def findAction (s n : Nat) (last : Option Match) : Option Match := do
  let a ← yyAccept[s]?
  if a = 0 then last else some (a, n)

/-- `yy_match`, tokenize.cpp:683-701: the `do { ... } while (yy_base[s] != 289)` loop from state
`s`, `n` characters into the token, `last` the recorded accepting rule and position.
Simplification: instead of `yy_last_accepting_state` the recorded value is
`yy_accept[yy_last_accepting_state]`, the only thing it is used for. -/
def yyMatch (s n : Nat) (last : Option Match) : Str → Option Match
  | [] => findAction s n last
  | c :: rest => do
    let a ← yyAccept[s]?
    let last' := if a = 0 then last else some (a, n)
    let s' ← delta s (ec c)
    let b ← yyBase[s']?
    if b = 289 then findAction s' (n + 1) last'
    else yyMatch s' (n + 1) last' rest

/-- `yy_start + YY_AT_BOL()`, tokenize.cpp:681-682; `BEGIN(k)` sets `yy_start = 1 + 2*k`,
`INITIAL = 0`, `C_COMMENT = 1` (tokenize.cpp:533-534). -/
def startState (sc : SC) (bol : Bool) : Nat :=
  (match sc with | .initial => 1 | .cComment => 3) + (if bol then 1 else 0)

/-- Match one token at the front of `w`, tokenize.cpp:677-711. -/
def matchOne (sc : SC) (bol : Bool) (w : Str) : Option Match :=
  yyMatch (startState sc bol) 0 none w

end Stfx.Lexer
