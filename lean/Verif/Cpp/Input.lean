import Verif.Cpp.Parse
import Verif.Run.Val
/-
The headers that are given to stfx, read as C++: translation phases 2 to 4 and 7 ([lex.phases]) and the grammar of enums and structs.

stfx reads these headers with its own scanner and parser (struct_lex.l, struct_yacc.y); the compiler of the generated code reads them
with the rules of C++.  Like `Lex.lean` and `Parse.lean` this file is a reading of the C++ standard, not of /repo.  What it does not know
it rejects.
-/
set_option autoImplicit false
namespace Stfx.Cpp
open Stfx.Run Stfx.Items Stfx.Parser

/-! ### Preprocessing tokens -/

/-- Phase 2: a backslash at the end of a line joins it with the next one.  C++ [lex.phases]. -/
def splice : Str → Str
  | '\\' :: '\n' :: s => splice s
  | '\\' :: '\r' :: '\n' :: s => splice s
  | c :: s => c :: splice s
  | [] => []

/-- A preprocessing token; `dir`: the text of a directive after its `#`.  C++ [lex.pptoken]. -/
inductive PTok where
  | word (w : Str)
  | tok (t : Tok)
  | dir (u : Str)
deriving DecidableEq, Repr

/-- Where the scan of a header is; `star`: in a comment, after `*`.  Left out: raw string literals, prefixes and suffixes of literals,
digraphs.  C++ [lex.phases]. -/
inductive PMode where
  | start
  | word (w : Str) | num (w : Str) | op (w : Str)
  | str (w : Str) | strEsc (w : Str) | chr (w : Str) | chrEsc (w : Str)
  | line | comment | star
  | dir (u : Str)
  | bad
deriving DecidableEq, Repr

/-- The first character of a preprocessing token.  Simplification: directives need not be on a line of their own.
C++ [lex.pptoken], [cpp.pre]. -/
def pfirst (c : Char) : PMode :=
  if isLetter c then .word [c]
  else if isDigit c then .num [c]
  else if isBlank c then .start
  else if c = '"' then .str []
  else if c = '\'' then .chr []
  else if c = '#' then .dir []
  else if isOpChar c then .op [c]
  else .bad

/-- One character of a header.  C++ [lex.pptoken], [lex.comment]. -/
def pstep (m : PMode) (c : Char) : List PTok × PMode :=
  match m with
  | .start => ([], pfirst c)
  | .word w => if isLetter c || isDigit c then ([], .word (w ++ [c])) else ([.word w], pfirst c)
  | .num w => if isLetter c || isDigit c || c = '.' || c = '\'' then ([], .num (w ++ [c])) else ([.tok (.num w)], pfirst c)
  | .op w =>
    if w = c!"/" ∧ c = '/' then ([], .line)
    else if w = c!"/" ∧ c = '*' then ([], .comment)
    else if (operators.lookup (w ++ [c])).isSome then ([], .op (w ++ [c]))
    else ([.tok (opTok w)], pfirst c)
  | .str w =>
    if c = '"' then ([.tok (.str w)], .start) else if c = '\\' then ([], .strEsc w) else if c = '\n' then ([], .bad)
    else ([], .str (w ++ [c]))
  | .strEsc w => match escape c with
    | some d => ([], .str (w ++ [d]))
    | none => ([], .bad)
  | .chr w =>
    if c = '\'' then (if w = [] then ([], .bad) else ([.tok (.chr w)], .start)) else if c = '\\' then ([], .chrEsc w)
    else if c = '\n' then ([], .bad) else ([], .chr (w ++ [c]))
  | .chrEsc w => match escape c with
    | some d => ([], .chr (w ++ [d]))
    | none => ([], .bad)
  | .line => if c = '\n' then ([], .start) else ([], .line)
  | .comment => if c = '*' then ([], .star) else ([], .comment)
  | .star => if c = '/' then ([], .start) else if c = '*' then ([], .star) else ([], .comment)
  | .dir u => if c = '\n' then ([.dir u], .start) else ([], .dir (u ++ [c]))
  | .bad => ([], .bad)

/-- A text.  C++ [lex.phases]. -/
def pscan : PMode → Str → List PTok × PMode
  | m, [] => ([], m)
  | m, c :: s =>
    let r := pstep m c
    let q := pscan r.2 s
    (r.1 ++ q.1, q.2)

/-- Phase 3: the preprocessing tokens of a header; a newline is added at its end.  C++ [lex.phases]. -/
def pptoks (s : Str) : Option (List PTok) :=
  match pscan .start (splice s ++ ['\n']) with
  | (ts, .start) => some ts
  | _ => none

/-! ### Directives -/

/-- The directives this reading knows.  C++ [cpp]. -/
inductive Dir where
  | include | pragma
  | ifdef (n : Str) | ifndef (n : Str) | if0 | if1 | else_ | endif
  | define (n : Str)
deriving DecidableEq, Repr

/-- The text before a `//` comment; `none` if there is a `/*` comment.  C++ [lex.comment]. -/
def beforeComment : Str → Option Str
  | '/' :: '/' :: _ => some []
  | '/' :: '*' :: _ => none
  | c :: s => (beforeComment s).map (c :: ·)
  | [] => some []

/-- Words separated by blanks.  C++ [cpp.pre]. -/
def splitBlank : Str → List Str
  | [] => []
  | c :: s =>
    if isBlank c then splitBlank s
    else match s, splitBlank s with
      | d :: _, w :: ws => if isBlank d then [c] :: w :: ws else (c :: w) :: ws
      | _, ws => [c] :: ws

/-- Is this word an identifier?  C++ [lex.name]. -/
def isIdent : Str → Bool
  | c :: s => isLetter c && s.all fun d => isLetter d || isDigit d
  | [] => false

/-- The directive with the text `u` after its `#`.  Macros have no parameters and no replacement.  What an included header declares is not
looked at.  C++ [cpp]. -/
def dirOf (u : Str) : Option Dir :=
  match beforeComment u with
  | none => none
  | some t =>
    let t := t.dropWhile isBlank
    let name := t.takeWhile isLetter
    let rest := t.drop name.length
    if name = c!"include" then some .include
    else if name = c!"pragma" then some .pragma
    else if name = c!"ifdef" then match splitBlank rest with
      | [n] => if isIdent n then some (.ifdef n) else none
      | _ => none
    else if name = c!"ifndef" then match splitBlank rest with
      | [n] => if isIdent n then some (.ifndef n) else none
      | _ => none
    else if name = c!"if" then
      if splitBlank rest = [c!"0"] then some .if0 else if splitBlank rest = [c!"1"] then some .if1 else none
    else if name = c!"else" then if splitBlank rest = [] then some .else_ else none
    else if name = c!"endif" then if splitBlank rest = [] then some .endif else none
    else if name = c!"define" then match splitBlank rest with
      | [n] => if isIdent n then some (.define n) else none
      | _ => none
    else none

/-- Phase 4: tokens of skipped groups and names of macros (which have no replacement) are dropped.  `macros`: the macros defined so far;
`groups`: for every open `#if`, whether its current group is kept.  Simplification: a second `#else` of an `#if` is not rejected.  C++
[cpp.cond], [cpp.replace]. -/
def preprocess : List Str → List Bool → List PTok → Option (List Tok)
  | _, groups, [] => if groups = [] then some [] else none
  | macros, groups, .word w :: ts =>
    if groups.all id && !macros.contains w then (preprocess macros groups ts).map (wordTok w :: ·) else preprocess macros groups ts
  | macros, groups, .tok t :: ts =>
    if groups.all id then (preprocess macros groups ts).map (t :: ·) else preprocess macros groups ts
  | macros, groups, .dir u :: ts =>
    match dirOf u with
    | none => none
    | some .include | some .pragma => preprocess macros groups ts
    | some (.ifdef n) => preprocess macros (macros.contains n :: groups) ts
    | some (.ifndef n) => preprocess macros ((!macros.contains n) :: groups) ts
    | some .if0 => preprocess macros (false :: groups) ts
    | some .if1 => preprocess macros (true :: groups) ts
    | some .else_ => match groups with
      | g :: gs => preprocess macros ((!g) :: gs) ts
      | [] => none
    | some .endif => match groups with
      | _ :: gs => preprocess macros gs ts
      | [] => none
    | some (.define n) => if groups.all id then preprocess (n :: macros) groups ts else preprocess macros groups ts

/-! ### Grammar -/

/-- Types of members.  C++ [dcl.type], [temp.names]. -/
inductive ITy where
  | prim (p : Prim)
  | name (q : List Str)
  | tmpl (q : List Str) (arg : ITy)
  | ptr (t : ITy)
  | ref (t : ITy)
deriving DecidableEq, Repr

/-- A member of a struct: a data member with its array bound and default member initialiser, or a function.  C++ [class.mem]. -/
inductive IMember where
  | field (t : ITy) (n : Str) (bound init : Option Expr)
  | fn (ret : ITy) (n : Str) (params : List (ITy × Str))
deriving Repr

/-- A declaration of a header.  C++ [dcl.enum], [class]. -/
inductive IDecl where
  | enum (isClass : Bool) (n : Str) (under : Option ITy) (es : List (Str × Option Expr))
  | struct (n : Str) (ms : List IMember)
deriving Repr

/-- `*` and `&` after a type.  C++ [dcl.ptr], [dcl.ref]. -/
def piPtr : ITy → List Tok → ITy × List Tok
  | t, .op .star :: ts => piPtr (.ptr t) ts
  | t, .op .amp :: ts => (.ref t, ts)
  | t, ts => (t, ts)

/-- A type; templates have one argument.  C++ [dcl.name]. -/
def piTy : Nat → List Tok → Option (ITy × List Tok)
  | 0, _ => none
  | fuel + 1, ts =>
    match dropConst ts with
    | .kw k :: r => match pPrim (.kw k :: r) with
      | some (p, r) => some (piPtr (.prim p) (dropConst r))
      | none => none
    | ts => match pQual ts with
      | some (q, .op .lt :: r) => match piTy fuel r with
        | some (a, .op .gt :: r) => some (piPtr (.tmpl q a) (dropConst r))
        | _ => none
      | some (q, r) => some (piPtr (.name q) (dropConst r))
      | none => none

/-- Parameters up to the closing parenthesis, at least one.  C++ [dcl.fct]. -/
def piParams (fuel : Nat) : Nat → List Tok → Option (List (ITy × Str) × List Tok)
  | 0, _ => none
  | n + 1, ts => match piTy fuel ts with
    | some (t, .id x :: .op .comma :: r) => match piParams fuel n r with
      | some (ps, r) => some ((t, x) :: ps, r)
      | none => none
    | some (t, .id x :: .op .rpar :: r) => some ([(t, x)], r)
    | _ => none

/-- A member.  C++ [class.mem]. -/
def piMember (fuel : Nat) (ts : List Tok) : Option (IMember × List Tok) :=
  match piTy fuel ts with
  | some (t, .id n :: .op .semi :: r) => some (.field t n none none, r)
  | some (t, .id n :: .op .assign :: r) => match pInit false fuel r with
    | some (e, .op .semi :: r) => some (.field t n none (some e), r)
    | _ => none
  | some (t, .id n :: .op .lbrace :: r) => match pInit false fuel (.op .lbrace :: r) with
    | some (e, .op .semi :: r) => some (.field t n none (some e), r)
    | _ => none
  | some (t, .id n :: .op .lbrack :: r) => match pExpr false fuel r with
    | some (e, .op .rbrack :: .op .semi :: r) => some (.field t n (some e) none, r)
    | _ => none
  | some (t, .id n :: .op .lpar :: .op .rpar :: .op .semi :: r) => some (.fn t n [], r)
  | some (t, .id n :: .op .lpar :: r) => match piParams fuel fuel r with
    | some (ps, .op .semi :: r) => some (.fn t n ps, r)
    | _ => none
  | _ => none

/-- Members up to a closing brace.  C++ [class.mem]. -/
def piMembers (fuel : Nat) : Nat → List Tok → Option (List IMember × List Tok)
  | 0, _ => none
  | _ + 1, .op .rbrace :: r => some ([], r)
  | n + 1, ts => match piMember fuel ts with
    | some (m, r) => match piMembers fuel n r with
      | some (ms, r) => some (m :: ms, r)
      | none => none
    | none => none

/-- An enumerator.  C++ [dcl.enum]. -/
def piEnumerator (fuel : Nat) : List Tok → Option ((Str × Option Expr) × List Tok)
  | .id n :: .op .assign :: r => match pExpr false fuel r with
    | some (e, r) => some ((n, some e), r)
    | none => none
  | .id n :: r => some ((n, none), r)
  | _ => none

/-- The enumerators of an enum and its end.  C++ [dcl.enum]. -/
def piEnum (fuel : Nat) (isClass : Bool) (n : Str) (under : Option ITy) (ts : List Tok) : Option (IDecl × List Tok) :=
  match pList (piEnumerator fuel) fuel ts with
  | some (es, .op .semi :: r) => some (.enum isClass n under es, r)
  | _ => none

/-- The name of an enum, its underlying type and its enumerators.  C++ [dcl.enum]. -/
def piEnumHead (fuel : Nat) (isClass : Bool) : List Tok → Option (IDecl × List Tok)
  | .id n :: .op .lbrace :: r => piEnum fuel isClass n none r
  | .id n :: .op .colon :: r => match piTy fuel r with
    | some (t, .op .lbrace :: r) => piEnum fuel isClass n (some t) r
    | _ => none
  | _ => none

/-- A declaration of a header.  C++ [dcl.pre]. -/
def piDecl (fuel : Nat) : List Tok → Option (IDecl × List Tok)
  | .kw .enum_ :: .kw .class_ :: r => piEnumHead fuel true r
  | .kw .enum_ :: .kw .struct_ :: r => piEnumHead fuel true r
  | .kw .enum_ :: r => piEnumHead fuel false r
  | .kw .struct_ :: .id n :: .op .lbrace :: r => match piMembers fuel fuel r with
    | some (ms, .op .semi :: r) => some (.struct n ms, r)
    | _ => none
  | _ => none

/-- The declarations of a header; empty declarations are dropped.  C++ [basic.link]. -/
def piFile (fuel : Nat) : Nat → List Tok → Option (List IDecl)
  | _, [] => some []
  | 0, _ => none
  | n + 1, .op .semi :: ts => piFile fuel n ts
  | n + 1, ts => match piDecl fuel ts with
    | some (d, r) => match piFile fuel n r with
      | some ds => some (d :: ds)
      | none => none
    | none => none

/-- The declarations of the text of a header, if it is C++.  C++ [lex.phases]. -/
def parseInput (text : Str) : Option (List IDecl) :=
  match pptoks text with
  | some ps => match preprocess [] [] ps with
    | some ts => piFile (ts.length + 20) (ts.length + 1) ts
    | none => none
  | none => none

end Stfx.Cpp
