import Verif.Run.XmlTyped
import Verif.Run.Samples
/-
Property theorems C48-C49: reading any XML file whatever.

`fs` are header files, `prog` the structs file generated from them, `T` the classes the compiler makes of the headers and
`L` the parts of tinyxml2 that are left open; `d` is what the parser finds in the file.
-/
set_option autoImplicit false
namespace Stfx.Run
open Stfx.Items Stfx.Parser Stfx.Gen Stfx.Lexer

/-! ### C48 -/

/-- C48: whatever is in the file, reading it is undefined behaviour, or it gives an object of the declared type.  With
`u = false` all its members have values, if those of the target and of default objects have.  The reader reports success
exactly if the file is well-formed; if it is not, the target is unchanged. -/
theorem C48_typed {fs : List (Str × Header)} {k : Kind} {out : OutSpec} {prog : List Item} {T : CTable} {L : Lib}
    (hG : Generated fs k out prog) (hk : k = .xml ∨ k = .attrib) (hT : Compiled (fs.flatMap fun f => f.2.decls) T)
    (hE : T.EnumInts) (hL : L.Bits) {u : Bool} (hu : T.Defined u) {n : Str} (hn : TopStruct (fs.flatMap fun f => f.2.decls) n)
    {t : Val} (ht : CTable.WT T u (.struct n) t) (d : Doc) :
    readFile T L prog n d t = .ub ∨
      ∃ w, readFile T L prog n d t = .ok (d.loads, w) ∧ CTable.WT T u (.struct n) w ∧ (d.loads = false → w = t) := by
  obtain ⟨hc, hr⟩ := hG.rdCode hk hT
  rcases readFile_typed (L := L) (B := True) (Q := fun _ => True) hc hL (hG.readable hT hE hu) (fun _ _ _ _ _ _ _ _ _ => trivial)
    (hr n hn) ht d (fun _ _ => trivial) (fun _ => trivial) with h | h
  · exact Or.inl h.2
  · exact Or.inr h

theorem someLib_bits : someLib.Bits where
  float s b h := by
    simp only [someLib, Option.some.injEq] at h
    rw [← h]
    exact Nat.mod_lt _ (by decide)
  double s b h := by
    simp only [someLib, Option.some.injEq] at h
    rw [← h]
    exact Nat.mod_lt _ (by decide)

theorem CData.enumInts {D : CData} (h : (D.enm.all fun p => p.2.1.enums.all fun l => decide (inSigned 32 ((p.2.2.lookup l.name).getD 0))) = true) :
    D.table.EnumInts := by
  intro n e val he l hl
  simp only [CData.table, Option.map_eq_some_iff] at he
  obtain ⟨q, hq, he⟩ := he
  injection he with h1 h2
  subst h1 h2
  have := List.all_eq_true.1 (List.all_eq_true.1 h _ (mem_of_lookup hq)) l hl
  simpa using this

theorem CData.defined {D : CData} {u : Bool} (h : (D.cls.all fun p => wtb D.table u (D.table.dflt p.1) (.struct p.1)) = true) :
    D.table.Defined u := by
  intro c ms hc
  exact wtb_sound _ _ (List.all_eq_true.1 h _ (mem_of_lookup hc))

/-- Non-vacuity: any document read into a shape. -/
example (d : Doc) : readFile shapeData.table someLib (progOf shapeFiles .xml plainOut) c!"Shape" d (shapeVal c!"x" 2 0 (pointVal 1 7) []) = .ub ∨
    ∃ w, readFile shapeData.table someLib (progOf shapeFiles .xml plainOut) c!"Shape" d (shapeVal c!"x" 2 0 (pointVal 1 7) []) = .ok (d.loads, w) ∧
      CTable.WT shapeData.table false (.struct c!"Shape") w ∧ (d.loads = false → w = shapeVal c!"x" 2 0 (pointVal 1 7) []) :=
  C48_typed (shape_generated _ _) (Or.inl rfl) shape_compiled (CData.enumInts (by decide +kernel)) someLib_bits
    (CData.defined (by decide +kernel)) shape_top (wtb_sound _ _ (by decide +kernel)) d
/-- One that is read. -/
example : readFile shapeData.table someLib (progOf shapeFiles .xml plainOut) c!"Shape" (.ok [.comment, .elem c!"Anything" [] [
      .elem c!"id" [] [.text c!"0x10"], .elem c!"color" [] [.text c!"5 "], .elem c!"at" [(c!"y", c!"3")] [.elem c!"x" [] [.text c!"x"]]]])
    (shapeVal c!"x" 2 0 (pointVal 1 7) []) = .ok (true, shapeVal c!"x" 16 5 (pointVal 1 7) []) := by decide +kernel
/-- Non-vacuity with an uninitialised member. -/
example (d : Doc) : readFile rawData.table someLib (progOf rawFiles .attrib plainOut) c!"Raw" d (rawVal .undef true) = .ub ∨
    ∃ w, readFile rawData.table someLib (progOf rawFiles .attrib plainOut) c!"Raw" d (rawVal .undef true) = .ok (d.loads, w) ∧
      CTable.WT rawData.table true (.struct c!"Raw") w ∧ (d.loads = false → w = rawVal .undef true) :=
  C48_typed (raw_generated _ _) (Or.inr rfl) raw_compiled (CData.enumInts (by decide +kernel)) someLib_bits
    (CData.defined (by decide +kernel)) raw_top (wtb_sound _ _ (by decide +kernel)) d

/-! ### C49 -/

/-- C49 as stated: reading a file is never undefined behaviour.  (Specification notion, models no code.) -/
def C49_AsStated (k : Kind) : Prop :=
  ∀ (fs : List (Str × Header)) (out : OutSpec) (prog : List Item) (T : CTable) (L : Lib) (n : Str) (t : Val) (d : Doc),
    Generated fs k out prog → Compiled (fs.flatMap fun f => f.2.decls) T → T.EnumInts →
    TopStruct (fs.flatMap fun f => f.2.decls) n → CTable.WT T false (.struct n) t → readFile T L prog n d t ≠ .ub

theorem not_C49 {k : Kind} {t : Val} {d : Doc}
    (hv : wtb shapeData.table false t (.struct c!"Shape") = true)
    (hr : readFile shapeData.table someLib (progOf shapeFiles k plainOut) c!"Shape" d t = .ub) : ¬ C49_AsStated k := fun h =>
  h shapeFiles plainOut _ shapeData.table someLib c!"Shape" _ d (shape_generated _ _) shape_compiled
    (CData.enumInts (by decide +kernel)) shape_top (wtb_sound _ _ hv) hr

/-- C49 is false: a document without root element (a comment is well-formed for tinyxml2). -/
theorem C49_refuted_rootless (k : Kind) (hk : k = .xml ∨ k = .attrib) : ¬ C49_AsStated k := by
  rcases hk with rfl | rfl <;>
  exact not_C49 (t := shapeVal c!"x" 2 0 (pointVal 1 7) []) (d := .ok [.comment]) (by decide +kernel) (by decide +kernel)

/-- C49 is false: a number that does not fit. -/
theorem C49_refuted_number : ¬ C49_AsStated .xml :=
  not_C49 (t := shapeVal c!"x" 2 0 (pointVal 1 7) []) (d := .ok [.elem c!"Shape" [] [
    .elem c!"at" [] [.elem c!"x" [] [.text c!"3000000000"]]]]) (by decide +kernel) (by decide +kernel)

/-- C49 is false: a member of type long without value. -/
theorem C49_refuted_missing : ¬ C49_AsStated .attrib :=
  not_C49 (t := shapeVal c!"x" 2 0 (pointVal 1 7) []) (d := .ok [.elem c!"Shape" [] []]) (by decide +kernel) (by decide +kernel)
theorem C49_refuted_empty : ¬ C49_AsStated .xml :=
  not_C49 (t := shapeVal c!"x" 2 0 (pointVal 1 7) []) (d := .ok [.elem c!"Shape" [] [.elem c!"id" [] []]]) (by decide +kernel)
    (by decide +kernel)

/-- No number that a text starts with is too large for its conversion.  (Example, models no code.) -/
structure SafeText (T : CTable) (s : Str) : Prop where
  int : toInt s ≠ .ub
  unsigned : toUnsigned s ≠ .ub
  enum : ∀ n e val, T.enm n = some (e, val) → sToE e val s ≠ .ub

/-- No member has a type that readers convert by way of an uninitialised variable.  (Specification notion, models no code.) -/
def NoLocals (T : CTable) : Prop := ∀ c ms, T.cls c = some ms → ∀ m ∈ ms, ∀ ty, m.ty = .simple ty → viaLocal ty = false

theorem safe_ubOnly {T : CTable} {L : Lib} (hl : NoLocals T) : UbOnly T L (SafeText T) False := by
  intro c ms hc m hm s hs t h
  have hsc : ∀ (f : Int → Int) (r : ScanRes), r ≠ .ub → scanVal f r ≠ .ub := by
    intro f r hr h
    cases r <;> simp_all [scanVal]
  cases hty : m.ty with
  | struct n => rw [hty] at h; cases h
  | vec n => rw [hty] at h; cases h
  | simple ty =>
    rw [hty] at h
    have hv := hl c ms hc m hm ty hty
    unfold readLeaf at h
    have ha : ∀ o, assign ty t o ≠ .ub := by
      intro o
      unfold assign
      rw [hv]
      cases o <;> simp
    cases s with
    | none => exact ha none h
    | some s =>
      obtain ⟨hi, hu, _⟩ := hs s rfl
      have hcv : conv L ty s ≠ .ub := by
        cases ty with
        | bool =>
          intro h
          simp only [conv] at h
          rcases toBool_cases s with ⟨h', _⟩ | ⟨o, h'⟩
          · exact hi h'
          · rw [h'] at h; cases h
        | int => exact hsc _ _ hi
        | unsignedInt => exact hsc _ _ hu
        | short => cases hv
        | unsignedShort => cases hv
        | long => cases hv
        | unsignedLong => cases hv
        | float => intro h; cases h
        | double => intro h; cases h
        | stdString => intro h; cases h
      unfold readSimple at h
      dsimp only at h
      cases hr : conv L ty s with
      | ub => exact hcv hr
      | stuck => rw [hr] at h; cases h
      | ok o => rw [hr] at h; exact ha o h
  | enum n =>
    rw [hty] at h
    unfold readLeaf readEnum at h
    cases s with
    | none => cases h
    | some s =>
      dsimp only at h
      cases hn : T.enm n with
      | none => rw [hn] at h; cases h
      | some p =>
        obtain ⟨e, val⟩ := p
        rw [hn] at h
        dsimp only at h
        have := (hs s rfl).enum n e val hn
        split at h
        · cases h
        · cases h
        · rename_i heq; exact this heq

/-- C49 for headers without short and long members, files with a root element and numbers that fit. -/
theorem C49_defined_partial {fs : List (Str × Header)} {k : Kind} {out : OutSpec} {prog : List Item} {T : CTable} {L : Lib}
    (hG : Generated fs k out prog) (hk : k = .xml ∨ k = .attrib) (hT : Compiled (fs.flatMap fun f => f.2.decls) T)
    (hE : T.EnumInts) (hL : L.Bits) (hl : NoLocals T) {u : Bool} (hu : T.Defined u) {n : Str}
    (hn : TopStruct (fs.flatMap fun f => f.2.decls) n) {t : Val} (ht : CTable.WT T u (.struct n) t) {d : Doc}
    (hr : d.rootless = false) (hs : ∀ s ∈ d.texts, SafeText T s) :
    ∃ w, readFile T L prog n d t = .ok (d.loads, w) ∧ CTable.WT T u (.struct n) w ∧ (d.loads = false → w = t) := by
  obtain ⟨hc, hrf⟩ := hG.rdCode hk hT
  have hR := hG.readable hT hE hu
  rcases readFile_typed (L := L) (B := False) (Q := SafeText T) hc hL hR
    (safe_ubOnly hl) (hrf n hn) ht d hs (fun h => by rw [hr] at h; cases h) with h | h
  · exact h.1.elim
  · exact h

theorem CData.noLocals {D : CData} (h : (D.cls.all fun p => p.2.all fun m =>
    match m.ty with | .simple ty => !viaLocal ty | _ => true) = true) : NoLocals D.table := by
  intro c ms hc m hm ty hty
  have := List.all_eq_true.1 (List.all_eq_true.1 h _ (mem_of_lookup hc)) m hm
  rw [hty] at this
  simpa using this

/-- Non-vacuity: a file with a number, text that is none, a number in text and things that are not read. -/
example : ∃ w, readFile rawData.table someLib (progOf rawFiles .attrib plainOut) c!"Raw"
      (.ok [.misc, .elem c!"Raw" [(c!"b", c!"no"), (c!"c", c!" -2147483648."), (c!"d", c!"0xffffffffg")] [.text c!"7up"]])
      (rawVal .undef true) = .ok (true, w) ∧
    CTable.WT rawData.table true (.struct c!"Raw") w ∧ ((true : Bool) = false → w = rawVal .undef true) :=
  C49_defined_partial (raw_generated _ _) (Or.inr rfl) raw_compiled (CData.enumInts (by decide +kernel)) someLib_bits
    (CData.noLocals (by decide))
    (CData.defined (by decide +kernel)) raw_top (wtb_sound _ _ (by decide +kernel)) (by decide) (by
      intro s hs
      have : s ∈ [c!"no", c!" -2147483648.", c!"0xffffffffg", c!"7up"] := by
        simpa [Doc.texts, textsL, texts] using hs
      have h := List.all_eq_true.1 (show ([c!"no", c!" -2147483648.", c!"0xffffffffg", c!"7up"].all fun s =>
        decide (toInt s ≠ .ub) && decide (toUnsigned s ≠ .ub)) = true by decide +kernel) s this
      simp only [Bool.and_eq_true, decide_eq_true_eq] at h
      exact ⟨h.1, h.2, fun n e val he => by cases he⟩)
/-- The object of that example. -/
example : readFile rawData.table someLib (progOf rawFiles .attrib plainOut) c!"Raw"
      (.ok [.misc, .elem c!"Raw" [(c!"b", c!"no"), (c!"c", c!" -2147483648."), (c!"d", c!"0xffffffffg")] [.text c!"7up"]])
      (rawVal .undef true) = .ok (true, rawVal (.num (-2147483648)) true) := by decide +kernel

end Stfx.Run
