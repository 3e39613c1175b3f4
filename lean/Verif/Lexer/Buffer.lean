import Verif.Lexer.Lex
/-
The input buffer of the flex-generated scanner, /repo/src/lex_parse/tokenize.cpp: `yy_ch_buf` as
an array of cells, the pointers into it, the end-of-buffer action, `yy_get_next_buffer`,
`yy_get_previous_state`, `yy_try_NUL_trans`, `yyrestart`.

`Verif.Lexer.Scan` and `Verif.Lexer.Lex` describe the scanner as a function of the whole text that
is still to be read; this file describes what the code does with its buffer.  C58 proves that the
two agree.

Conventions and simplifications:
* pointers into `yy_ch_buf` are indices (the buffer is the only object they point into, and
  `yy_get_next_buffer` re-bases them when it moves the buffer);
* a cell is `none` until something is stored in it, so that reading memory which was only
  allocated is visible;
* `none` as the result of a function is undefined behaviour (access outside the buffer, reading an
  uninitialised cell, reading `yy_last_accepting_*` before they are set), one of the fatal errors
  of the scanner, or lack of fuel;
* `int` sizes do not overflow, allocation does not fail, and the stream does not go bad;
* the reader is a parameter: `rd max w` is the number of characters which `LexerInput` delivers
  when asked for at most `max` and `w` is what the stream still holds.  `lexerInput` is the one
  the code has.
-/
set_option autoImplicit false
namespace Stfx.Lexer

/-- `yy_buffer_status`: `YY_BUFFER_NEW`, `YY_BUFFER_NORMAL`, `YY_BUFFER_EOF_PENDING`,
tokenize.cpp:239-253. -/
inductive BufStatus where
  | new | normal | eofPending
deriving DecidableEq, Repr

/-- `yy_ch_buf`, tokenize.cpp:199, one cell per allocated `char`. -/
abbrev Cells := List (Option Char)

/-- The members of `yyFlexLexer` and of its current `yy_buffer_state` which the scanner uses,
tokenize.cpp:194-255 and `FlexLexer.h`: `yy_ch_buf`, `yy_buf_size`, `yy_buffer_state::yy_n_chars`
(`bufChars`), `yy_buffer_status`, `yyFlexLexer::yy_n_chars` (`nChars`), `yy_c_buf_p` (`cp`),
`yytext_ptr` (`text`), `yy_hold_char`, `yy_last_accepting_state` and `yy_last_accepting_cpos`
(`last`, `none` until first set), what the stream still holds (`input`), and the start condition,
`yy_at_bol` and location (`st`). -/
structure Flex where
  buf : Cells
  size : Nat
  bufChars : Nat
  status : BufStatus
  nChars : Nat
  cp : Nat
  text : Nat
  hold : Char
  last : Option (Nat × Nat)
  input : Str
  st : LexSt
deriving DecidableEq, Repr

/-- `YY_END_OF_BUFFER_CHAR`, tokenize.cpp:139. -/
def nul : Char := Char.ofNat 0

/-- `*p` of a `char *` into the buffer: `none` outside of it or where nothing was stored,
tokenize.cpp:686, 1450. -/
def load (b : Cells) (i : Nat) : Option Char := (b[i]?).join

/-- `*p = c`, tokenize.cpp:314, 674, 759: `none` outside of the buffer. -/
def store (b : Cells) (i : Nat) (c : Char) : Option Cells :=
  if i < b.length then some (b.set i (some c)) else none

/-- `yy_ec[YY_SC_TO_UI(*yy_cp)]`, tokenize.cpp:686: here NUL has its own class, 0. -/
def ecRaw (c : Char) : Nat := if c.toNat = 0 then 0 else ec c

/-- Recording the last accepting state, tokenize.cpp:687-691, 1451-1455 and 1479-1483. -/
def record (s pos : Nat) (last : Option (Nat × Nat)) : Option (Option (Nat × Nat)) := do
  let a ← yyAccept[s]?
  some (if a = 0 then last else some (s, pos))

/-- `yy_match`, the loop of tokenize.cpp:683-701, from state `s` with `yy_cp = pos`; the list is the
buffer from `yy_cp` on.  The result is `yy_current_state`, `yy_cp` and the last accepting state. -/
def matchLoop (s pos : Nat) (last : Option (Nat × Nat)) :
    Cells → Option (Nat × Nat × Option (Nat × Nat))
  | [] => none
  | none :: _ => none
  | some c :: rest => do
    let last' ← record s pos last
    let s' ← delta s (ecRaw c)
    let b ← yyBase[s']?
    if b = 289 then some (s', pos + 1, last') else matchLoop s' (pos + 1) last' rest

/-- The loop of `yy_get_previous_state`, tokenize.cpp:1448-1463, `n` characters of the buffer
starting at `pos`; NUL has class 1 here. -/
def prevLoop (b : Cells) : Nat → Nat → Nat → Option (Nat × Nat) →
    Option (Nat × Option (Nat × Nat))
  | 0, s, _, last => some (s, last)
  | n + 1, s, pos, last => do
    let c ← load b pos
    let last' ← record s pos last
    let s' ← delta s (ec c)
    prevLoop b n s' (pos + 1) last'

/-- `yy_get_previous_state`, tokenize.cpp:1440-1466: the state reached by the characters from
`yytext_ptr` to `yy_c_buf_p`. -/
def prevState (F : Flex) : Option (Nat × Flex) := do
  let (s, last) ← prevLoop F.buf (F.cp - F.text) (startState F.st.sc F.st.bol) F.text F.last
  some (s, { F with last := last })

/-- `yy_try_NUL_trans`, tokenize.cpp:1473-1494: `0` if the scanner jams on NUL. -/
def tryNul (F : Flex) (s : Nat) : Option (Nat × Flex) := do
  let last ← record s F.cp F.last
  let s' ← delta s 1
  some (if s' = 133 then 0 else s', { F with last := last })

/-- `YY_DO_BEFORE_ACTION`, tokenize.cpp:311-316 (`yyleng` is `cp - text` of the result). -/
def doBefore (F : Flex) (bp cp : Nat) : Option Flex := do
  let h ← load F.buf cp
  let b ← store F.buf cp nul
  some { F with text := bp, hold := h, buf := b, cp := cp }

/-- `yy_find_action` and the line after it, tokenize.cpp:703-712: `yy_act` and the members after
`YY_DO_BEFORE_ACTION`. -/
def findAct (F : Flex) (s cp bp : Nat) : Option (Nat × Flex) := do
  let a ← yyAccept[s]?
  if a = 0 then
    let (s', cp') ← F.last
    let a' ← yyAccept[s']?
    let F' ← doBefore F bp cp'
    some (a', F')
  else
    let F' ← doBefore F bp cp
    some (a, F')

/-- The characters of `n` cells, all of which must have been stored: `yytext` as the actions see
it, `std::string{YYText(), YYText() + YYLeng()}`, tokenize.cpp:981-1033. -/
def cellsText (b : Cells) (i : Nat) : Nat → Option Str
  | 0 => some []
  | n + 1 => do
    let c ← load b i
    let cs ← cellsText b (i + 1) n
    some (c :: cs)

/-- The actions of rules 1 to 37, tokenize.cpp:725-1038: rules 5 and 6 first give back their
trailing context (758-761, 770-773); `YY_RULE_SETUP` and the action proper are `LexSt.next`. -/
def action (F : Flex) (a : Nat) : Option (Lexeme × Flex) := do
  let F ← if a = 5 ∨ a = 6 then do
      let b ← store F.buf F.cp F.hold
      if F.cp = 0 then none else doBefore { F with buf := b } F.text (F.cp - 1)
    else some F
  let text ← cellsText F.buf F.text (F.cp - F.text)
  let st := F.st.next a text
  some (⟨a, text, st.loc⟩, { F with st := st })

/-- The copying loop of `yy_get_next_buffer`, tokenize.cpp:1337-1338. -/
def copyDown : Nat → Nat → Nat → Cells → Option Cells
  | 0, _, _, b => some b
  | n + 1, dest, source, b => do
    let c ← load b source
    let b ← store b dest c
    copyDown n (dest + 1) (source + 1) b

/-- Storing the characters which the reader delivers, one after the other, tokenize.cpp:1270, 1281. -/
def storeAll : Cells → Nat → Str → Option Cells
  | b, _, [] => some b
  | b, i, c :: cs => do
    let b ← store b i c
    storeAll b (i + 1) cs

/-- The loop of tokenize.cpp:1351-1387 which doubles `yy_buf_size` until there is room for one more
character after the `moved` ones.  Simplification: no overflow of `int` (line 1364). -/
def growSize (moved : Nat) : Nat → Nat → Option Nat
  | 0, _ => none
  | k + 1, size => if moved + 1 < size then some size else growSize moved k (size * 2)

/-- `yyrealloc`, tokenize.cpp:1371 and 1421: the old contents, new cells uninitialised. -/
def realloc (b : Cells) (n : Nat) : Cells := (b ++ List.replicate (n - b.length) none).take n

/-- `LexerInput` as compiled, tokenize.cpp:1260-1279: `YY_INTERACTIVE` is defined (302), so one
character at a time; 0 at the end of the stream. -/
def lexerInput (_max : Nat) (w : Str) : Nat := if w = [] then 0 else 1

/-- What `yy_get_next_buffer` returns, tokenize.cpp:1297-1300. -/
inductive Eob where
  | continueScan | endOfFile | lastMatch
deriving DecidableEq, Repr

/-- `yy_flush_buffer` on the current buffer, tokenize.cpp:1769-1790, with `yy_load_buffer_state`
(1670-1676). -/
def flush (F : Flex) : Option Flex := do
  let b ← store F.buf 0 nul
  let b ← store b 1 nul
  let h ← load b 0
  some { F with buf := b, bufChars := 0, status := .new, nChars := 0, text := 0, cp := 0, hold := h,
                st := { F.st with bol := true } }

/-- The part of `yy_get_next_buffer` which gets more characters, tokenize.cpp:1340-1397: how many
there are, after moving `moved` characters to the front. -/
def refill (rd : Nat → Str → Nat) (F : Flex) (moved : Nat) : Option Flex :=
  if F.status = .eofPending then some { F with bufChars := 0, nChars := 0 }
  else do
    let size ← growSize moved (moved + 2) F.size
    let b := if size = F.size then F.buf else realloc F.buf (size + 2)
    let got := F.input.take (rd (min (size - moved - 1) 8192) F.input)
    let b ← storeAll b moved got
    some { F with buf := b, size := size, bufChars := got.length, nChars := got.length,
                  input := F.input.drop got.length }

/-- `yy_get_next_buffer`, tokenize.cpp:1302-1436.  `yy_fill_buffer` is always 1 (1750), so lines
1313-1330 are left out. -/
def getNextBuffer (rd : Nat → Str → Nat) (F : Flex) : Option (Eob × Flex) := do
  if F.cp > F.nChars + 1 then none else
  if F.cp < F.text + 1 then none else
  let moved := F.cp - F.text - 1
  let b ← copyDown moved 0 F.text F.buf
  let F ← refill rd { F with buf := b } moved
  let (r, F) ←
    if F.nChars = 0 then
      if moved = 0 then do
        let F ← flush F
        some (Eob.endOfFile, F)
      else some (Eob.lastMatch, { F with status := .eofPending })
    else some (Eob.continueScan, F)
  let F :=
    if F.nChars + moved > F.size then
      { F with buf := realloc F.buf (F.nChars + moved + F.nChars / 2),
               size := F.nChars + moved + F.nChars / 2 - 2 }
    else F
  let n := F.nChars + moved
  let b ← store F.buf n nul
  let b ← store b (n + 1) nul
  some (r, { F with buf := b, nChars := n, text := 0 })

/-- The labels the scanner jumps to, tokenize.cpp:683 and 703, with `yy_current_state`, `yy_cp` and
`yy_bp`. -/
inductive Jump where
  | atMatch (s cp bp : Nat)
  | atFind (s cp bp : Nat)
deriving DecidableEq, Repr

/-- The beginning of the action of `YY_END_OF_BUFFER`, tokenize.cpp:1050-1068. -/
def eobEnter (F : Flex) : Option Flex := do
  let b ← store F.buf F.cp F.hold
  let F := { F with buf := b }
  some (if F.status = .new then { F with nChars := F.bufChars, status := .normal } else F)

/-- "This was really a NUL", tokenize.cpp:1078-1111. -/
def eobNul (F : Flex) (amount : Nat) : Option (Option Jump × Flex) := do
  let (s, F) ← prevState { F with cp := F.text + amount }
  let (s', F) ← tryNul F s
  if s' ≠ 0 then some (some (.atMatch s' (F.cp + 1) F.text), { F with cp := F.cp + 1 })
  else some (some (.atFind s F.cp F.text), F)

/-- The end of the buffer, tokenize.cpp:1113-1163; `yywrap` returns 1 (306). -/
def eobMore (rd : Nat → Str → Nat) (F : Flex) (amount : Nat) : Option (Option Jump × Flex) := do
  let (r, F) ← getNextBuffer rd F
  match r with
  | .endOfFile => some (none, { F with cp := F.text })
  | .continueScan => do
    let (s, F) ← prevState { F with cp := F.text + amount }
    some (some (.atMatch s F.cp F.text), F)
  | .lastMatch => do
    let (s, F) ← prevState { F with cp := F.nChars }
    some (some (.atFind s F.cp F.text), F)

/-- The action of `YY_END_OF_BUFFER`, tokenize.cpp:1045-1165.  The result is the label to go to, or
`none` for the return of end of file. -/
def endOfBuffer (rd : Nat → Str → Nat) (F : Flex) : Option (Option Jump × Flex) := do
  if F.cp < F.text + 1 then none else
  let amount := F.cp - F.text - 1
  let F ← eobEnter F
  if F.cp ≤ F.nChars then eobNul F amount else eobMore rd F amount

/-- From a label to the end of an action of rules 1 to 37 (the lexeme) or to the return of end of
file (`none`), tokenize.cpp:683-1171.  `fuel` bounds the number of `goto`s.  Action 0 (718-723)
would loop for ever and is `none`, and so is the default case (1167-1169). -/
def runTurn (rd : Nat → Str → Nat) : Nat → Flex → Jump → Option (Option Lexeme × Flex)
  | 0, _, _ => none
  | fuel + 1, F, lbl => do
    let (s, cp, bp, F) ← match lbl with
      | .atMatch s cp bp => do
        let (s, cp, last) ← matchLoop s cp F.last (F.buf.drop cp)
        some (s, cp, bp, { F with last := last })
      | .atFind s cp bp => some (s, cp, bp, F)
    let (a, F) ← findAct F s cp bp
    if a = 0 ∨ 38 < a then none
    else if a = 38 then
      let (l, F) ← endOfBuffer rd F
      match l with
      | none => some (none, F)
      | some lbl => runTurn rd fuel F lbl
    else
      let (l, F) ← action F a
      some (some l, F)

/-- One turn of the `while (1)` loop of the scanner, tokenize.cpp:669-1172. -/
def turn (rd : Nat → Str → Nat) (fuel : Nat) (F : Flex) : Option (Option Lexeme × Flex) := do
  let b ← store F.buf F.cp F.hold
  runTurn rd fuel { F with buf := b } (.atMatch (startState F.st.sc F.st.bol) F.cp F.cp)

/-- A scanner set up on a stream, tokenize.cpp:637-661: `yy_create_buffer` (1684-1706) with a buffer
of `size` characters, `yy_init_buffer` and `yy_load_buffer_state`. -/
def Flex.create (size : Nat) (w : Str) : Option Flex :=
  flush { buf := List.replicate (size + 2) none, size := size, bufChars := 0, status := .new,
          nChars := 0, cp := 0, text := 0, hold := nul, last := none, input := w, st := LexSt.init }

/-- Turns of the loop until end of file, `fuel` bounding both their number and the `goto`s in each,
tokenize.cpp:669-1172: the lexemes and the scanner at the end. -/
def turns (rd : Nat → Str → Nat) (fuel : Nat) : Nat → Flex → Option (List Lexeme × Flex)
  | 0, _ => none
  | n + 1, F => do
    let (l, F) ← turn rd fuel F
    match l with
    | none => some ([], F)
    | some l => do
      let (ls, F) ← turns rd fuel n F
      some (l :: ls, F)

/-- All lexemes of a file through a buffer of `size` characters which is filled by `rd`,
tokenize.cpp:637-1172. -/
def bufLex (rd : Nat → Str → Nat) (size fuel : Nat) (w : Str) : Option (List Lexeme × Flex) := do
  let F ← Flex.create size w
  turns rd fuel fuel F

/-- `YY_BUF_SIZE`, tokenize.cpp:142-152 (the value outside of IA-64). -/
def yyBufSize : Nat := 16384

end Stfx.Lexer
