/-
Text as used throughout the model: a C++ `std::string` / file content is a list of
characters, each `Char` standing for one byte (Latin-1 reading of the byte).  Characters with
code point ≥ 256 never occur in real input; the definitions are total on them and the theorems
cover them as well.
-/
namespace Stfx

/-- A byte string (`std::string`, or the content of a file).  C++ [basic.string]. -/
abbrev Str := List Char

/-- `c!"abc"` is the explicit list of characters `['a','b','c']`. -/
syntax:max "c!" str : term

open Lean in
macro_rules
  | `(c! $s:str) => do
    let cs := (s.getString.toList.map (fun c => Syntax.mkCharLit c)).toArray
    `(([$cs,*] : Stfx.Str))

end Stfx
