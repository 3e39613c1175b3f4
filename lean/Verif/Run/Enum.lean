import Verif.Run.Num
import Verif.Items.Items
/-
The generated enum conversion functions `s_from_e` and `s_to_e`: what the code written by `process_enum`
(process_items.cpp:140-208, `Item.defSFromE`, `Item.defSToE`) does when it runs.

The values of the enumerators are those the C++ compiler gives them; they enter as a function from enumerator names to
integers.
-/
set_option autoImplicit false
namespace Stfx.Run
open Stfx.Items

/-- Values of the enumerators of one enum, the enum of an input header, process_items.cpp:140-208. -/
abbrev EnumVals := Str → Int

/-- Smallest power of two above a number, for the parameter type of `s_to_e`, process_items.cpp:170. -/
def pow2Above (k : Nat) : Int := if k = 0 then 1 else (2 : Int) ^ (Nat.log2 k + 1)

/-- The values an enum type can hold: all of `int` for a scoped enum, the bit-field range of the enumerators for an
unscoped one (C++17 [dcl.enum]/8).  Simplification: underlying types wider than `int` are left out,
process_items.cpp:186-206. -/
def holds (e : EnumS) (val : EnumVals) (x : Int) : Bool :=
  if e.isClass then decide (inSigned 32 x)
  else
    let vs := e.enums.map fun l => val l.name
    let k := (vs.map fun v => if 0 ≤ v then v.toNat else (-v - 1).toNat).foldl max 0
    decide (x < pow2Above k) && (decide (0 ≤ x) || (vs.any (· < 0) && decide (-pow2Above k ≤ x)))

/-- `s_from_e`, the code of process_items.cpp:146-163.  Of several enumerators with the same value the initialiser list
of the map keeps the first. -/
def sFromE (e : EnumS) (val : EnumVals) (x : Int) : Str :=
  match e.enums.find? fun l => val l.name = x with
  | some l => l.name
  | none => intText x

/-- Outcome of `s_to_e`: its return value and the value assigned to the target (`none`: the target is not written),
process_items.cpp:168-206. -/
inductive ToERes where
  | ok (rv : Bool) (x : Option Int)
  /-- the number is no value of the enum type: undefined behaviour -/
  | ub
deriving DecidableEq, Repr

/-- `s_to_e`, the code of process_items.cpp:169-206. -/
def sToE (e : EnumS) (val : EnumVals) (s : Str) : ToERes :=
  match e.enums.find? fun l => l.name = s with
  | some l => .ok true (some (val l.name))
  | none =>
    match stoSigned 32 s with
    | .throws => .ok false none
    | .val i => if holds e val i then .ok false (some i) else .ub

/-- Identifiers: neither a number nor a signed number, process_items.cpp:174-184. -/
def IsName (s : Str) : Prop := ∃ c r, s = c :: r ∧ isDigit c = false ∧ isSpace c = false ∧ c ≠ '-' ∧ c ≠ '+'

instance (s : Str) : Decidable (IsName s) :=
  match s with
  | [] => .isFalse (by rintro ⟨c, r, h, _⟩; cases h)
  | c :: r => decidable_of_iff (isDigit c = false ∧ isSpace c = false ∧ c ≠ '-' ∧ c ≠ '+')
      ⟨fun h => ⟨c, r, rfl, h⟩, by rintro ⟨c', r', h, h'⟩; cases h; exact h'⟩

theorem IsName.not_scan {s : Str} (h : IsName s) : scanDec s = none := by
  obtain ⟨c, r, rfl, hd, hs, h1, h2⟩ := h
  unfold scanDec
  rw [dropSpace_cons hs]
  have : sign (c :: r) = (false, c :: r) := by
    unfold sign
    split
    · rename_i heq; injection heq with h3 _; exact absurd h3 h1
    · rename_i heq; injection heq with h3 _; exact absurd h3 h2
    · rfl
  simp [this, hd]

theorem IsName.ne_intText {s : Str} (h : IsName s) (i : Int) : s ≠ intText i := by
  rintro rfl
  have := h.not_scan
  rw [scanDec_intText] at this
  cases this

end Stfx.Run
