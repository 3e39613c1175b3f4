import Lean
import Verif.Lexer.Scan
import Verif.Lexer.Deriv
/-
For every automaton state, the residual patterns (rule number, residual regular expression) that
describe what can still be matched from it.  The table is computed at elaboration time and
written out as an explicit literal; its correctness is *checked* by the kernel (`checkAll_ok`),
so nothing about the way it was computed is trusted.
-/
namespace Stfx.Lexer
open Re

deriving instance Lean.ToExpr for CSet
deriving instance Lean.ToExpr for Re

/-- Residual patterns of a state.  (Proof notion, models no code.) -/
abbrev Label := List (Nat × Re)

/-- A representative code point of each equivalence class of `yy_ec`.  (Proof notion, models no code.) -/
def classRep : List Nat :=
  [0, 1, 9, 10, 13, 34, 35, 39, 42, 44, 47, 48, 49, 58, 59, 60, 61, 62, 65, 66, 71, 90, 97, 98,
   99, 100, 101, 102, 103, 104, 105, 108, 109, 110, 111, 114, 115, 116, 117, 118, 120, 123, 125]

/-- See the definition before it.  (Proof notion, models no code.) -/
def rep (k : Nat) : Nat := classRep.getD k 1

/-- See the definition before it.  (Proof notion, models no code.) -/
def startLabel (sc : SC) (bol : Bool) : Label := (activeRules sc bol).map fun r => (r.num, r.full)

/-- Partial derivatives of a label.  (Proof notion, models no code.) -/
def pdLabel (n : Nat) (l : Label) : Label :=
  l.flatMap fun p => (pd n p.2).map fun r => (p.1, r)

/-- See the definition before it.  (Proof notion, models no code.) -/
def dedupL (l : Label) : Label := l.foldl (fun acc p => if p ∈ acc then acc else acc ++ [p]) []

/-- Breadth-first computation of the labels (elaboration time only).  (Proof notion, models no code.) -/
def computeLabels : List Label := Id.run do
  let mut tab : Array (Option Label) := Array.replicate 134 none
  let mut work : List Nat := []
  for (sc, bol) in [(SC.initial, false), (SC.initial, true), (SC.cComment, false), (SC.cComment, true)] do
    tab := tab.set! (startState sc bol) (some (startLabel sc bol))
    work := work ++ [startState sc bol]
  let mut fuel := 1000
  while !work.isEmpty && fuel > 0 do
    fuel := fuel - 1
    let s := work.head!
    work := work.tail!
    let l := (tab[s]!).getD []
    for k in [1:43] do
      match delta s k with
      | some s' =>
        if tab[s']!.isNone then
          tab := tab.set! s' (some (dedupL (pdLabel (rep k) l)))
          work := work ++ [s']
      | none => pure ()
  return tab.toList.map fun o => o.getD []

open Lean Elab Term in
elab "labels%" : term => do
  return Lean.toExpr computeLabels

/-- The labels, as a literal (index = state).  (Proof notion, models no code.) -/
def labels : List Label := labels%

/-- See the definition before it.  (Proof notion, models no code.) -/
def label (s : Nat) : Label := labels.getD s []

/-- States that are reachable in the automaton (all but 0 and the end-of-buffer state 5).  (Proof notion, models no code.) -/
def realStates : List Nat := (List.range 134).filter fun s => s ≠ 0 && s ≠ 5

open Lean Elab Term in
elab "atoms%" : term => do
  return Lean.toExpr (rules.flatMap fun r => atoms r.full).eraseDups

/-- Character classes occurring in struct_lex.l (as a literal). -/
def atomList : List CSet := atoms%

/-- See the definition before it.  (Proof notion, models no code.) -/
def subsetB (a b : Label) : Bool := a.all fun p => b.contains p

/-- See the definition before it.  (Proof notion, models no code.) -/
def minNullable (l : Label) : Nat :=
  l.foldl (fun m p => if nullable p.2 && (m == 0 || p.1 < m) then p.1 else m) 0

/-- The check done by the kernel for one state.  (Proof notion, models no code.) -/
def checkState (s : Nat) : Bool :=
  let l := label s
  (yyAccept[s]? == some (minNullable l)) &&
  (l.all fun p => (atoms p.2).all fun a => atomList.contains a) &&
  (l.all fun p => 0 < p.1) &&
  (match yyBase[s]? with
   | none => false
   | some b => b != 289 || (List.range 43).all fun k => (pdLabel (rep k) l).isEmpty) &&
  (List.range 43).all fun k => k == 0 ||
    match delta s k with
    | none => false
    | some s' => realStates.contains s' &&
        subsetB (pdLabel (rep k) l) (label s') && subsetB (label s') (pdLabel (rep k) l)

end Stfx.Lexer
