import Verif.Text
/-
Regular expressions and the languages they denote.  This is the *specification language* for
the scanner: it is independent of the generated tables.
-/
namespace Stfx.Lexer

/-- A character class: a finite union of code point ranges, possibly complemented.  (Specification notion, models no code.) -/
structure CSet where
  neg : Bool
  ranges : List (Nat × Nat)
deriving DecidableEq, Repr

/-- Membership of a code point in a character class.  (Specification notion, models no code.) -/
def CSet.memN (s : CSet) (n : Nat) : Bool :=
  xor s.neg (s.ranges.any fun r => r.1 ≤ n && n ≤ r.2)

/-- Membership of a character in a character class.  (Specification notion, models no code.) -/
def CSet.mem (s : CSet) (c : Char) : Bool := s.memN c.toNat

/-- Regular expressions.  (Specification notion, models no code.) -/
inductive Re where
  | eps
  | set (s : CSet)
  | seq (a b : Re)
  | alt (a b : Re)
  | star (a : Re)
deriving DecidableEq, Repr

/-- `Re.Matches r w`: the whole word `w` belongs to the language of `r`.  (Specification notion, models no code.) -/
inductive Re.Matches : Re → Str → Prop
  | eps : Re.Matches .eps []
  | set {s c} : s.mem c = true → Re.Matches (.set s) [c]
  | seq {a b u v} : Re.Matches a u → Re.Matches b v → Re.Matches (.seq a b) (u ++ v)
  | altL {a b u} : Re.Matches a u → Re.Matches (.alt a b) u
  | altR {a b u} : Re.Matches b u → Re.Matches (.alt a b) u
  | starNil {a} : Re.Matches (.star a) []
  | starCons {a u v} : Re.Matches a u → Re.Matches (.star a) v → Re.Matches (.star a) (u ++ v)

namespace Re

/-- One or more.  (Specification notion, models no code.) -/
def plus (a : Re) : Re := .seq a (.star a)
/-- Zero or one.  (Specification notion, models no code.) -/
def opt (a : Re) : Re := .alt a .eps
/-- A single character.  (Specification notion, models no code.) -/
def chr (c : Char) : Re := .set ⟨false, [(c.toNat, c.toNat)]⟩
/-- A literal string (flex `"..."`).  (Specification notion, models no code.) -/
def lit : Str → Re
  | [] => .eps
  | [c] => chr c
  | c :: cs => .seq (chr c) (lit cs)
/-- flex `.`: any character except newline.  (Specification notion, models no code.) -/
def dot : Re := .set ⟨true, [(10, 10)]⟩

end Re
end Stfx.Lexer
