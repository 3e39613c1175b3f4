import Verif.Main.Process
import Verif.Main.SelfHostData
/-
A check of the model against the code: stfx's configuration reader was generated by stfx itself
(src/configuration/_do_stfx.bat runs `stfx config_data.h`).  The model, run on the same header,
produces the four checked-in files character by character.  This is a test of the model on one input,
not a property.
-/
namespace Stfx.Main.SelfHost
open Stfx.Items

/-- See the definition before it.  (Proof notion, models no code.) -/
def env : Env where
  canWrite := fun _ => true
  makeDir := some
  ident := id
  stamp := c!"stfx built at : Jan 29 2025 01:45:46, " ++ c!"Software Version : 25.01"

/-- See the definition before it.  (Proof notion, models no code.) -/
def world : World where
  heap := []
  files := fun p => if p = c!"/c/config_data.h" then some header else none
  attempts := []

/-- The run of stfx on its own configuration header.  (Proof notion, models no code.) -/
def result : Res Nat := processSingleHeader env c!"/c/config_data.h" world

/-- See the definition before it.  (Proof notion, models no code.) -/
def Res.code : Res Nat → Option Nat
  | .ok n _ => some n
  | .stop _ _ => none

/-- Comparison the kernel can run on long lists.  (Proof notion, models no code.) -/
def same : Str → Str → Bool
  | [], [] => true
  | a :: as, b :: bs => match Nat.beq a.toNat b.toNat with
    | true => same as bs
    | false => false
  | _, _ => false

/-- See the definition before it.  (Proof notion, models no code.) -/
def sameFile (o : Option Str) (s : Str) : Bool :=
  match o with
  | some t => same t s
  | none => false

theorem same_eq {a b : Str} (h : same a b = true) : a = b := by
  induction a generalizing b with
  | nil => cases b <;> simp_all [same]
  | cons x a ih =>
    cases b with
    | nil => simp [same] at h
    | cons y b =>
      unfold same at h
      split at h
      · next e => rw [Char.toNat_inj' (Nat.eq_of_beq_eq_true e), ih h]
      · cases h

theorem sameFile_eq {o : Option Str} {s : Str} (h : sameFile o s = true) : o = some s := by
  cases o with
  | none => cases h
  | some t => rw [same_eq h]

theorem self_hosted :
    Res.code result = some 0 ∧
    result.world.files c!"/c/enums.cpp" = some enumsCpp ∧
    result.world.files c!"/c/enums.h" = some enumsH ∧
    result.world.files c!"/c/structs.cpp" = some structsCpp ∧
    result.world.files c!"/c/structs.h" = some structsH := by
  refine ⟨?_, sameFile_eq ?_, sameFile_eq ?_, sameFile_eq ?_, sameFile_eq ?_⟩ <;> decide +kernel

end Stfx.Main.SelfHost
