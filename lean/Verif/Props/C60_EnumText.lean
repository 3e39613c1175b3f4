import Verif.Cpp.RunEnum
import Verif.Props.C59_Syntax
import Verif.Run.XmlLeaf
import Verif.Props.C26_C29_Enum
/-
Property C60: running the text of the generated enum functions does what their model does.

The text of the enums .cpp file is read as C++ (`Cpp/Parse.lean`) and run by the rules of C++ (`Cpp/Eval.lean`), which know nothing
of the generators.  A call `stfx::s_from_e(x)` or `stfx::s_to_e(s, x)` then finds the overload of the enum and gives the results of
`sFromE` and `sToE` (`Run/Enum.lean`), about which C26-C29 speak.

The exception: the functions have parameters and variables of their own, and these hide enumerators of unscoped enums and the
names of enums.  With an enumerator named `e`, `s_from_e` gives wrong names.
-/
set_option autoImplicit false
set_option maxRecDepth 4000
namespace Stfx.Cpp
open Stfx.Run Stfx.Parser Stfx.Items Stfx.Gen

/-- The generated enums file is part of the program, and nothing else is in the namespace `stfx`.
(Specification notion, models no code.) -/
structure EnumProgram (E : Env) (ES : SMap EnumS) : Prop where
  prog : ∃ stamp nameCpp nameH inputs enumFile pre fs post, FileNamed stamp nameCpp nameH inputs enumFile ∧
    parse false (fileText (enumsCpp stamp nameCpp nameH inputs ES)) = some fs ∧ E.prog = pre ++ fs ++ post ∧
    ∀ f ∈ pre ++ post, f.name.head? ≠ some c!"stfx"
  names : ∀ p ∈ ES, EnumNamed p.2
  distinct : (ES.map fun p => p.2.name).Nodup

/-- The enum is declared by the headers: its name means it, and its enumerators mean their values.
(Specification notion, models no code.) -/
structure EnumDecl (E : Env) (e : EnumS) (val : EnumVals) : Prop where
  enm : E.T.enm e.name = some (e, val)
  cls : E.T.cls e.name = none
  nested : e.name ∉ E.nested
  ifScoped : e.isClass = true → e.name ≠ c!"tinyxml2"
  ifUnscoped : e.isClass = false → ∀ l ∈ e.enums, E.enumerator l.name = some (e.name, val l.name)

theorem ident_cStr {w : Str} (h : Ident w) : cStr w = w := by
  refine cStr_id fun h0 => ?_
  obtain ⟨⟨c, s, rfl, h1, h2⟩, _⟩ := h
  rcases List.mem_cons.1 h0 with rfl | h0
  · revert h1; decide
  · have := h2 _ h0; revert this; decide

theorem EnumDecl.ok {E : Env} {e : EnumS} {val : EnumVals} (h : EnumDecl E e val) (hn : EnumNamed e) : EnumOK E e val where
  enm := h.enm
  cls := h.cls
  nested := h.nested
  vals := by
    unfold Enumerators
    cases hk : e.isClass
    · exact h.ifUnscoped hk
    · exact h.ifScoped hk
  named := fun l hl => ident_cStr (hn.2 l hl)

theorem EnumProgram.funs {E : Env} {ES : SMap EnumS} (h : EnumProgram E ES) : EnumFuns E (ES.map Prod.snd) := by
  obtain ⟨stamp, nameCpp, nameH, inputs, enumFile, pre, fs, post, hf, hp, hE, hr⟩ := h.prog
  rw [enumsCpp_parse hf h.names] at hp
  cases hp
  have h0 : ∀ (n : Str) (fs : List Fun), (∀ f ∈ fs, f.name.head? ≠ some c!"stfx") →
      fs.filter (fun f => f.name = [c!"stfx", n]) = [] := by
    intro n fs h
    rw [List.filter_eq_nil_iff]
    intro f hf hn
    exact h f hf (by rw [of_decide_eq_true hn]; rfl)
  have h1 : ∀ l : SMap EnumS, (l.flatMap fun p => [sFromFun p.2, sToFun p.2]).filter (fun f => f.name = [c!"stfx", c!"s_from_e"]) =
      (l.map Prod.snd).map sFromFun := by
    intro l
    induction l with
    | nil => rfl
    | cons p l ih =>
      rw [List.flatMap_cons, List.filter_append, ih]
      rfl
  have h2 : ∀ l : SMap EnumS, (l.flatMap fun p => [sFromFun p.2, sToFun p.2]).filter (fun f => f.name = [c!"stfx", c!"s_to_e"]) =
      (l.map Prod.snd).map sToFun := by
    intro l
    induction l with
    | nil => rfl
    | cons p l ih =>
      rw [List.flatMap_cons, List.filter_append, ih]
      rfl
  refine ⟨?_, ?_, ?_⟩
  · rw [hE, List.filter_append, List.filter_append, h0 _ pre fun f hf => hr f (by simp [hf]), h0 _ post fun f hf => hr f (by simp [hf]),
      h1, List.nil_append, List.append_nil]
  · rw [hE, List.filter_append, List.filter_append, h0 _ pre fun f hf => hr f (by simp [hf]), h0 _ post fun f hf => hr f (by simp [hf]),
      h2, List.nil_append, List.append_nil]
  · have := h.distinct
    rw [List.map_map]
    exact this

/-- C60 as stated: the calls give what the model says, whatever the enums.  (Specification notion, models no code.) -/
def C60_statement : Prop :=
  ∀ (E : Env) (ES : SMap EnumS), EnumProgram E ES → ∀ p ∈ ES, ∀ val : EnumVals, EnumDecl E p.2 val →
  ∀ (cls : Option Str) (self : List (Str × Var)) (fuel : Nat) (s : St) (x : Int) (a : EV), EnumArg s.mem p.2.name x a → inSigned 32 x →
    callId ⟨E, cls, self, run E self (fuel + 1), fuel⟩ [c!"stfx", c!"s_from_e"] [a] s =
      .ok (.rv .str (.val (.str (sFromE p.2 val x)))) s

/-- Variables of `s_from_e` hide no name it uses.  (Specification notion, models no code.) -/
def FromClear (e : EnumS) : Prop :=
  e.name ≠ c!"e" ∧ (e.isClass = false → ∀ l ∈ e.enums, l.name ≠ c!"e" ∧ l.name ≠ e.name ++ c!"_to_string")

/-- Variables of `s_to_e` hide no name it uses.  (Specification notion, models no code.) -/
def ToClear (e : EnumS) : Prop :=
  (e.name ≠ c!"e" ∧ e.name ≠ c!"s" ∧ e.name ≠ c!"rv" ∧ e.name ≠ c!"i") ∧
  (e.isClass = false → ∀ l ∈ e.enums, l.name ≠ c!"e" ∧ l.name ≠ c!"s" ∧ l.name ≠ c!"rv" ∧ l.name ≠ c!"string_to_" ++ e.name)

/-- A call of `s_from_e` gives the text of the model and changes nothing, if no name is hidden. -/
theorem C60_from_partial {E : Env} {ES : SMap EnumS} (hp : EnumProgram E ES) {p : Str × EnumS} (hm : p ∈ ES) {val : EnumVals}
    (hd : EnumDecl E p.2 val) (hc : FromClear p.2) (cls : Option Str) (self : List (Str × Var)) (fuel k : Nat) (s : St) {x : Int} {a : EV}
    (ha : EnumArg s.mem p.2.name x a) (hx : inSigned 32 x) :
    callId ⟨E, cls, self, run E self (fuel + 1), k⟩ [c!"stfx", c!"s_from_e"] [a] s =
      .ok (.rv .str (.val (.str (sFromE p.2 val x)))) s := by
  have hok := hd.ok (hp.names p hm)
  rw [call_sFrom hp.funs (List.mem_map.2 ⟨p, hm, rfl⟩) hok rfl ha.ty]
  exact run_sFrom hok hc.1 hc.2 (fun vars => ha.load vars _ _) hx

/-- A call of `s_to_e` gives the result of the model, and writes the target as the model says, if no name is hidden. -/
theorem C60_to_partial {E : Env} {ES : SMap EnumS} (hp : EnumProgram E ES) {p : Str × EnumS} (hm : p ∈ ES) {val : EnumVals}
    (hd : EnumDecl E p.2 val) (hc : ToClear p.2) (cls : Option Str) (self : List (Str × Var)) (fuel k : Nat) (s : St) {x : Str} {a : EV}
    (ha : StrArg s.mem x a) {t : Place} {old : Val} (ht : getAt s.mem t = some old) :
    callId ⟨E, cls, self, run E self (fuel + 1), k⟩ [c!"stfx", c!"s_to_e"] [a, .lv (.enum p.2.name) t] s =
      match sToE p.2 val x with
      | .ok rv none => .ok (.rv (.prim .bool) (.val (.bool rv))) s
      | .ok rv (some i) => .ok (.rv (.prim .bool) (.val (.bool rv))) { s with mem := setAt s.mem t (.num i) }
      | .ub => .ub := by
  have hok := hd.ok (hp.names p hm)
  rw [call_sTo hp.funs (List.mem_map.2 ⟨p, hm, rfl⟩) hok hc.1.2.1 rfl ha.fits rfl]
  exact run_sTo hok hc.1 hc.2 (fun vars => ha.init vars _ _) ht

/-- C26 for the text of the functions: a declared value is converted to text and back. -/
theorem C60_trip_partial {E : Env} {ES : SMap EnumS} (hp : EnumProgram E ES) {p : Str × EnumS} (hm : p ∈ ES) {val : EnumVals}
    (hd : EnumDecl E p.2 val) (hc : FromClear p.2) (hc' : ToClear p.2) (hnd : (p.2.enums.map EnumLine.name).Nodup) (cls : Option Str)
    (self : List (Str × Var)) (fuel k : Nat) (s : St) {x : Int} {a : EV} (ha : EnumArg s.mem p.2.name x a) (hx : inSigned 32 x)
    (hv : DeclaredVal p.2 val x) {t : Place} {old : Val} (ht : getAt s.mem t = some old) :
    ∃ r, callId ⟨E, cls, self, run E self (fuel + 1), k⟩ [c!"stfx", c!"s_from_e"] [a] s = .ok r s ∧
      callId ⟨E, cls, self, run E self (fuel + 1), k⟩ [c!"stfx", c!"s_to_e"] [r, .lv (.enum p.2.name) t] s =
        .ok (.rv (.prim .bool) (.val (.bool true))) { s with mem := setAt s.mem t (.num x) } := by
  refine ⟨_, C60_from_partial hp hm hd hc cls self fuel k s ha hx, ?_⟩
  rw [C60_to_partial hp hm hd hc' cls self fuel k s .rv ht, C26_round_trip _ _ hnd hv]

/-! ### Examples -/

/-- A scoped and an unscoped enum.  (Specification notion, models no code.) -/
def exEnums (n : Str) : SMap EnumS :=
  [(c!"S", ⟨c!"S", true, [⟨c!"e", false, c!"-"⟩, ⟨c!"rv", false, c!"-"⟩]⟩),
   (c!"U", ⟨c!"U", false, [⟨c!"b", false, c!"-"⟩, ⟨n, false, c!"-"⟩, ⟨c!"f", false, c!"-"⟩]⟩)]

/-- Their values.  (Specification notion, models no code.) -/
def exEVals : EnumVals := fun n => if n = c!"b" then 0 else if n = c!"f" then 2 else if n = c!"rv" then 7 else 1

/-- A program that consists of their functions.  (Example, models no code.) -/
def exEnv (n : Str) : Env where
  T := ⟨fun _ => none, fun k => ((exEnums n).lookup k).map fun e => (e, exEVals), fun _ => .undef, 64⟩
  L := ⟨fun _ => [], fun _ => [], fun _ => none, fun _ => none, 0⟩
  I := ⟨fun _ => [], fun _ => [], fun _ => none, fun _ => none⟩
  prog := (exEnums n).flatMap fun p => [sFromFun p.2, sToFun p.2]
  base := fun _ => none
  nested := []
  enumerator := fun k => if k = c!"b" ∨ k = n ∨ k = c!"f" then some (c!"U", exEVals k) else none
  load := fun _ => .error
  canSave := fun _ => false
  text := fun _ => none
  canWrite := fun _ => false

theorem exProgram {n : Str} (hn : Ident n) : EnumProgram (exEnv n) (exEnums n) := by
  have hf : FileNamed c!"stfx 1.0" c!"enums.cpp" c!"enums.h" [c!"data.h"] [] :=
    ⟨⟨by decide, by decide⟩, ⟨by decide, by decide⟩, ⟨by decide, by decide⟩,
      fun f hf => by simp only [List.mem_cons, List.not_mem_nil, or_false] at hf; subst hf; exact ⟨by decide, by decide⟩,
      .inl rfl⟩
  have hn' : ∀ p ∈ exEnums n, EnumNamed p.2 := by
    intro p hp
    simp only [exEnums, List.mem_cons, List.not_mem_nil, or_false] at hp
    rcases hp with rfl | rfl
    · refine ⟨ident_of (by decide), fun l hl => ?_⟩
      simp only [List.mem_cons, List.not_mem_nil, or_false] at hl
      rcases hl with rfl | rfl <;> exact ident_of (by decide)
    · refine ⟨ident_of (by decide), fun l hl => ?_⟩
      simp only [List.mem_cons, List.not_mem_nil, or_false] at hl
      rcases hl with rfl | rfl | rfl
      · exact ident_of (by decide)
      · exact hn
      · exact ident_of (by decide)
  exact ⟨⟨_, _, _, _, _, [], _, [], hf, enumsCpp_parse hf hn', by simp [exEnv], by simp⟩, hn', by simp [exEnums]⟩

theorem exDecl {n : Str} (p : Str × EnumS) (hp : p ∈ exEnums n) : EnumDecl (exEnv n) p.2 exEVals := by
  simp only [exEnums, List.mem_cons, List.not_mem_nil, or_false] at hp
  rcases hp with rfl | rfl
  · exact ⟨rfl, rfl, by simp [exEnv], by simp, by simp⟩
  · refine ⟨rfl, rfl, by simp [exEnv], by simp, fun _ l hl => ?_⟩
    simp only [List.mem_cons, List.not_mem_nil, or_false] at hl
    rcases hl with rfl | rfl | rfl <;> simp [exEnv]

/-- `S::rv` and `f` have the names of enumerators as text; 5 is no enumerator. -/
example : ∃ C : Ctx, C.E = exEnv c!"d" ∧ ∀ s : St,
    callId C [c!"stfx", c!"s_from_e"] [.rv (.enum c!"S") (.val (.num 7))] s = .ok (.rv .str (.val (.str c!"rv"))) s ∧
    callId C [c!"stfx", c!"s_from_e"] [.rv (.enum c!"U") (.val (.num 2))] s = .ok (.rv .str (.val (.str c!"f"))) s ∧
    callId C [c!"stfx", c!"s_from_e"] [.rv (.enum c!"S") (.val (.num 5))] s = .ok (.rv .str (.val (.str c!"5"))) s := by
  have hE := exProgram (n := c!"d") (ident_of (by decide))
  refine ⟨⟨exEnv c!"d", none, [], run (exEnv c!"d") [] 1, 0⟩, rfl, fun s => ⟨?_, ?_, ?_⟩⟩
  · exact C60_from_partial hE (x := 7) (p := (exEnums c!"d")[0]) (by simp) (exDecl _ (by simp)) (by simp [FromClear, exEnums]) _ _ 0 _ s .rv (by decide)
  · exact C60_from_partial hE (x := 2) (p := (exEnums c!"d")[1]) (by simp) (exDecl _ (by simp)) (by simp [FromClear, exEnums]) _ _ 0 _ s .rv (by decide)
  · have := C60_from_partial hE (x := 5) (p := (exEnums c!"d")[0]) (by simp) (exDecl _ (by simp)) (by simp [FromClear, exEnums]) none [] 0 0 s .rv (by decide)
    rw [show sFromE (exEnums c!"d")[0].2 exEVals 5 = c!"5" by decide +kernel] at this
    exact this

/-- `"rv"` becomes `S::rv`, `"9"` becomes 9 though it is no enumerator, `"9"` is no value of the unscoped enum. -/
example : ∃ C : Ctx, C.E = exEnv c!"d" ∧
    callId C [c!"stfx", c!"s_to_e"] [.rv (.ptr (.prim .char)) (.cstr c!"rv"), .lv (.enum c!"S") ⟨0, []⟩] ⟨[.val .undef], [], [], []⟩ =
      .ok (.rv (.prim .bool) (.val (.bool true))) ⟨[.val (.num 7)], [], [], []⟩ ∧
    callId C [c!"stfx", c!"s_to_e"] [.rv (.ptr (.prim .char)) (.cstr c!"9"), .lv (.enum c!"S") ⟨0, []⟩] ⟨[.val .undef], [], [], []⟩ =
      .ok (.rv (.prim .bool) (.val (.bool false))) ⟨[.val (.num 9)], [], [], []⟩ ∧
    callId C [c!"stfx", c!"s_to_e"] [.rv (.ptr (.prim .char)) (.cstr c!"9"), .lv (.enum c!"U") ⟨0, []⟩] ⟨[.val .undef], [], [], []⟩ =
      .ub := by
  have hE := exProgram (n := c!"d") (ident_of (by decide))
  refine ⟨⟨exEnv c!"d", none, [], run (exEnv c!"d") [] 1, 0⟩, rfl, ?_, ?_, ?_⟩
  · exact C60_to_partial hE (p := (exEnums c!"d")[0]) (by simp) (exDecl _ (by simp)) (by simp [ToClear, exEnums]) _ _ 0 _
      ⟨[.val .undef], [], [], []⟩ .lit (t := ⟨0, []⟩) (old := .undef) rfl
  · exact C60_to_partial hE (p := (exEnums c!"d")[0]) (by simp) (exDecl _ (by simp)) (by simp [ToClear, exEnums]) _ _ 0 _
      ⟨[.val .undef], [], [], []⟩ .lit (t := ⟨0, []⟩) (old := .undef) rfl
  · exact C60_to_partial hE (p := (exEnums c!"d")[1]) (by simp) (exDecl _ (by simp)) (by simp [ToClear, exEnums]) _ _ 0 _
      ⟨[.val .undef], [], [], []⟩ .lit (t := ⟨0, []⟩) (old := .undef) rfl

/-- The value 7 of `S` goes to its text and back. -/
example : ∃ r, callId ⟨exEnv c!"d", none, [], run (exEnv c!"d") [] 1, 0⟩ [c!"stfx", c!"s_from_e"] [.rv (.enum c!"S") (.val (.num 7))]
      ⟨[.val .undef], [], [], []⟩ = .ok r ⟨[.val .undef], [], [], []⟩ ∧
    callId ⟨exEnv c!"d", none, [], run (exEnv c!"d") [] 1, 0⟩ [c!"stfx", c!"s_to_e"] [r, .lv (.enum c!"S") ⟨0, []⟩]
      ⟨[.val .undef], [], [], []⟩ = .ok (.rv (.prim .bool) (.val (.bool true))) ⟨[.val (.num 7)], [], [], []⟩ :=
  C60_trip_partial (exProgram (n := c!"d") (ident_of (by decide))) (p := (exEnums c!"d")[0]) (by simp) (exDecl _ (by simp))
    (by simp [FromClear, exEnums]) (by simp [ToClear, exEnums]) (by decide) none [] 0 0 ⟨[.val .undef], [], [], []⟩ .rv (by decide)
    ⟨⟨c!"rv", false, c!"-"⟩, by decide, by decide⟩ (t := ⟨0, []⟩) (old := .undef) rfl

/-- The statement is false: with an unscoped enumerator `e`, the parameter `e` hides it, and the entry `{ e, "e" }` of the table
maps the argument itself to `"e"`.  `s_from_e(f)` is `"e"`. -/
theorem C60_wrong_name : callId ⟨exEnv c!"e", none, [], run (exEnv c!"e") [] 1, 0⟩ [c!"stfx", c!"s_from_e"]
    [.rv (.enum c!"U") (.val (.num 2))] ⟨[], [], [], []⟩ = .ok (.rv .str (.val (.str c!"e"))) ⟨[], [], [], []⟩ := by
  kernel_rfl

theorem C60_refuted : ¬ C60_statement := by
  intro h
  have h1 := h (exEnv c!"e") (exEnums c!"e") (exProgram (ident_of (by decide))) (exEnums c!"e")[1] (by simp) exEVals (exDecl _ (by simp))
    none [] 0 ⟨[], [], [], []⟩ 2 (.rv (.enum c!"U") (.val (.num 2))) .rv (by decide)
  rw [show callId _ _ _ _ = _ from C60_wrong_name] at h1
  simp only [Res.ok.injEq, EV.rv.injEq, V.val.injEq, Val.str.injEq, true_and, and_true] at h1
  exact absurd h1 (by decide)

/-- With an unscoped enumerator `e`, `s_to_e("e", x)` assigns `x` its own value: undefined behaviour if it has none. -/
theorem C60_to_itself : callId ⟨exEnv c!"e", none, [], run (exEnv c!"e") [] 1, 0⟩ [c!"stfx", c!"s_to_e"]
    [.rv (.ptr (.prim .char)) (.cstr c!"e"), .lv (.enum c!"U") ⟨0, []⟩] ⟨[.val (.num 2)], [], [], []⟩ =
      .ok (.rv (.prim .bool) (.val (.bool true))) ⟨[.val (.num 2)], [], [], []⟩ ∧
    callId ⟨exEnv c!"e", none, [], run (exEnv c!"e") [] 1, 0⟩ [c!"stfx", c!"s_to_e"]
    [.rv (.ptr (.prim .char)) (.cstr c!"e"), .lv (.enum c!"U") ⟨0, []⟩] ⟨[.val .undef], [], [], []⟩ = .ub :=
  ⟨by kernel_rfl, by kernel_rfl⟩

end Stfx.Cpp
