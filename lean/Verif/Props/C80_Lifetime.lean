import Verif.Parser.Lifetime
import Verif.Props.C08_C11_Parser
/-
C80: the semantic values of the parser live in raw buffers, each is made once and destroyed once, at its own type.
-/
set_option autoImplicit false
namespace Stfx.Parser
open Stfx.Lexer

/-- C80: whatever the tokens, and whenever the vector of the parser stack gets a larger array, no buffer is used or destroyed at a type
of which it holds no object, none is overwritten while it holds one, and no object is left when the parser is gone (`0` objects before and after).
The parser returns 0 or 1 and makes the calls that it makes according to the model without buffers. -/
theorem C80_lifetime (grow : Nat → Bool) (toks : List Token) :
    ∃ rv log, lifeOf grow toks 0 = some (.returned rv log, 0) ∧
      (rv = 0 ∧ parse toks = .accepted log ∨ rv = 1 ∧ ∃ la rest, parse toks = .rejected log la rest) := by
  have hr : (∃ log, parse toks = .accepted log) ∨ ∃ log la rest, parse toks = .rejected log la rest :=
    (C09_total toks).imp id fun ⟨log, t, rest, h⟩ => ⟨log, some t, rest, h⟩
  obtain ⟨r, h1, h2⟩ := run_low grow (fuelFor toks) (c := Cfg.init toks)
    (fun x hx => by rw [List.mem_singleton.1 hx]; exact empty_typed) hr
  have h3 : lifeOf grow toks 0 = some (r, 0) := by rw [life_start]; exact h2
  rw [show run (fuelFor toks) (Cfg.init toks) = parse toks from rfl] at h1
  rcases hr with ⟨log, hr⟩ | ⟨log, la, rest, hr⟩
  · rw [hr] at h1
    cases r with
    | returned rv log' =>
      obtain ⟨rfl, rfl⟩ := h1
      exact ⟨0, _, h3, Or.inl ⟨rfl, hr⟩⟩
    | _ => exact h1.elim
  · rw [hr] at h1
    cases r with
    | returned rv log' =>
      obtain ⟨rfl, rfl⟩ := h1
      exact ⟨1, _, h3, Or.inr ⟨rfl, la, rest, hr⟩⟩
    | _ => exact h1.elim

/-- A header that is accepted; the vector grows at every size. -/
example : lifeOf (fun _ => true) sampleHeader.toks 0 = some (.returned 0 sampleHeader.calls, 0) := by decide +kernel
/-- An error with strings on the stack and in `yyla`; the vector never grows. -/
example : lifeOf (fun _ => false) [tk .struct, ⟨.name, c!"a"⟩, ⟨.name, c!"b"⟩] 0 = some (.returned 1 [.struct c!"a"], 0) := by decide +kernel
/-- A buffer that is overwritten leaves an object behind. -/
example : (do let _ ← emplace (.str c!"a"); let v ← emplace (.str c!"b"); destroy .str v : Life SemVal) 0 = some (.none, 1) := by decide +kernel
/-- A buffer destroyed twice is undefined behaviour. -/
example : (do let v ← destroy .str (.str c!"a"); destroy .str v : Life SemVal) 2 = none := by decide +kernel

end Stfx.Parser
