import Verif.Cpp.Input
/-
Translation units: a source file with its `#include` directives replaced, C++ [cpp.include], [lex.phases] 4.

The generated .cpp files include the generated .h files and the headers that were given to stfx.  Like `Lex.lean` and `Input.lean` this
file is a reading of the C++ standard, not of /repo.  What it does not know it rejects.
-/
set_option autoImplicit false
namespace Stfx.Cpp
open Stfx.Run Stfx.Items Stfx.Parser

/-! ### Directives -/

/-- The name of the directive with the text `u` after its `#` and what follows the name.  C++ [cpp.pre]. -/
def dirName (u : Str) : Str × Str :=
  let t := u.dropWhile isBlank
  let name := t.takeWhile isLetter
  (name, (t.drop name.length).dropWhile isBlank)

/-- What an `#include` names: a header of the implementation or of a library (`<...>`), or a source file.  C++ [cpp.include]. -/
inductive Inc where
  | system
  | quoted (f : Str)
deriving DecidableEq, Repr

/-- Does nothing but a comment follow?  C++ [cpp.pre]. -/
def restBlank (s : Str) : Bool :=
  match beforeComment s with
  | some t => t.all isBlank
  | none => false

/-- The text after the name `include`.  Macros are not expanded in it.  C++ [cpp.include], [lex.header]. -/
def incOf (s : Str) : Option Inc :=
  match s with
  | '"' :: s => match s.dropWhile (· ≠ '"') with
    | _ :: r => if restBlank r then some (.quoted (s.takeWhile (· ≠ '"'))) else none
    | [] => none
  | '<' :: s => match s.dropWhile (· ≠ '>') with
    | _ :: r => if restBlank r then some .system else none
    | [] => none
  | _ => none

/-- Is this `#pragma once`?  Every compiler the generated code is meant for knows it.  C++ [cpp.pragma]. -/
def isOnce (u : Str) : Bool :=
  match beforeComment u with
  | some t => splitBlank t = [c!"pragma", c!"once"]
  | none => false

/-! ### Inclusion -/

/-- The macros that are defined and the files that said `#pragma once`.  C++ [cpp.replace], [cpp.pragma]. -/
structure PState where
  macros : List Str
  once : List Str
deriving DecidableEq, Repr

/-- The tokens of the file `self` with its directives executed.  `inc`: what the inclusion of a file gives; `groups` as in
`preprocess`.  Library headers give nothing: the contracts of the library stand for them.  C++ [cpp]. -/
def execDirs (inc : Str → PState → Option (List Tok × PState)) (self : Str) :
    List Bool → PState → List PTok → Option (List Tok × PState)
  | groups, s, [] => if groups = [] then some ([], s) else none
  | groups, s, .word w :: ts =>
    if groups.all id && !s.macros.contains w then (execDirs inc self groups s ts).map fun r => (wordTok w :: r.1, r.2)
    else execDirs inc self groups s ts
  | groups, s, .tok t :: ts =>
    if groups.all id then (execDirs inc self groups s ts).map fun r => (t :: r.1, r.2) else execDirs inc self groups s ts
  | groups, s, .dir u :: ts =>
    if (dirName u).1 = c!"include" then
      if groups.all id then
        match incOf (dirName u).2 with
        | some .system => execDirs inc self groups s ts
        | some (.quoted f) => match inc f s with
          | some (a, s') => (execDirs inc self groups s' ts).map fun r => (a ++ r.1, r.2)
          | none => none
        | none => none
      else execDirs inc self groups s ts
    else match dirOf u with
      | none | some .include => none
      | some .pragma =>
        if groups.all id && isOnce u then execDirs inc self groups { s with once := self :: s.once } ts else execDirs inc self groups s ts
      | some (.ifdef n) => execDirs inc self (s.macros.contains n :: groups) s ts
      | some (.ifndef n) => execDirs inc self ((!s.macros.contains n) :: groups) s ts
      | some .if0 => execDirs inc self (false :: groups) s ts
      | some .if1 => execDirs inc self (true :: groups) s ts
      | some .else_ => match groups with
        | g :: gs => execDirs inc self ((!g) :: gs) s ts
        | [] => none
      | some .endif => match groups with
        | _ :: gs => execDirs inc self gs s ts
        | [] => none
      | some (.define n) =>
        if groups.all id then execDirs inc self groups { s with macros := n :: s.macros } ts else execDirs inc self groups s ts

/-- Include the file `f`; `find`: the text of a file (simplification: a file has one name).  The number is the depth of inclusions that
is not exceeded.  C++ [cpp.include]. -/
def incl (find : Str → Option Str) : Nat → Str → PState → Option (List Tok × PState)
  | 0, _, _ => none
  | n + 1, f, s =>
    if s.once.contains f then some ([], s)
    else match find f with
      | none => none
      | some text => match pptoks text with
        | none => none
        | some ps => execDirs (incl find n) f [] s ps

/-- The tokens of the translation unit of the source file `f`, no macros being predefined.  C++ [lex.phases]. -/
def unitToks (find : Str → Option Str) (n : Nat) (f : Str) : Option (List Tok) :=
  (incl find n f ⟨[], []⟩).map Prod.fst

end Stfx.Cpp
