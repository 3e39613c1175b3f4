import Verif.Run.XmlExact
import Verif.Run.Samples
/-
Property theorems C30-C33: objects written to an XML file and read back.

`fs` are header files, `prog` the structs file generated from them, `T` the classes the compiler makes of the headers and
`L` the parts of tinyxml2 that are left open.
-/
set_option autoImplicit false
namespace Stfx.Run
open Stfx.Items Stfx.Parser Stfx.Gen Stfx.Lexer

/-- The provisos of C30: longs fit in int (unsigned), strings contain no NUL.  (That enum values are ints is in the type
of the object.)  (Specification notion, models no code.) -/
def Provisos : MTy → Val → Prop
  | .simple .long, .num i => -2 ^ 31 ≤ i ∧ i < 2 ^ 31
  | .simple .unsignedLong, .num i => 0 ≤ i ∧ i < 2 ^ 32
  | .simple .stdString, .str s => '\x00' ∉ s
  | _, _ => True

/-- C30-C33 as stated, for a kind of file and a setting of `delta_only`.  (Specification notion, models no code.) -/
def AsStated (k : Kind) (delta : Bool) : Prop :=
  ∀ (fs : List (Str × Header)) (out : OutSpec) (prog : List Item) (T : CTable) (L : Lib) (n : Str) (v : Val),
    Generated fs k out prog → out.onlyRead = false → Compiled (fs.flatMap fun f => f.2.decls) T →
    TopStruct (fs.flatMap fun f => f.2.decls) n → CTable.WT T false (.struct n) v → nesting v ≤ L.maxDepth →
    Leaves T Provisos (.struct n) v → FileGives T L prog delta n v (T.dflt n) v

/-- Check `Provisos`.  (Specification notion, models no code.) -/
def provisosb (ty : MTy) (v : Val) : Bool :=
  match ty, v with
  | .simple .long, .num i => decide (-2 ^ 31 ≤ i ∧ i < 2 ^ 31)
  | .simple .unsignedLong, .num i => decide (0 ≤ i ∧ i < 2 ^ 32)
  | .simple .stdString, .str s => decide ('\x00' ∉ s)
  | _, _ => true

theorem provisos_of {T : CTable} (hg : T.Good) {ty : MTy} {d v : Val} (h : leavesb T (fun ty _ v => provisosb ty v) v ty d = true) :
    Leaves T Provisos ty v := by
  refine (leavesb_sound (P := fun ty _ v => Provisos ty v) ?_ v ty d h).leaves hg
  intro ty d v h
  unfold provisosb at h
  unfold Provisos
  split at h <;> simp_all

/-- Refuting a statement by an object whose trip through a file can be computed. -/
theorem not_asStated {k : Kind} {delta : Bool} {fs : List (Str × Header)} {D : CData} {n : Str} {v : Val}
    {r : R (Bool × Val)} (hG : Generated fs k plainOut (progOf fs k plainOut)) (hT : Compiled (fs.flatMap fun f => f.2.decls) D.table)
    (hn : TopStruct (fs.flatMap fun f => f.2.decls) n) (hv : wtb D.table false v (.struct n) = true)
    (hd : nesting v ≤ 500) (hp : leavesb D.table (fun ty _ v => provisosb ty v) v (.struct n) (D.table.dflt n) = true)
    (hr : writeRead D.table someLib (progOf fs k plainOut) delta n v (D.table.dflt n) = r) (hne : r ≠ .ok (true, v)) :
    ¬ AsStated k delta := by
  intro h
  have := h fs plainOut _ D.table someLib n v hG rfl hT hn (wtb_sound _ _ hv) hd (provisos_of hT.good hp)
  unfold FileGives at this
  rw [hr] at this
  exact hne this

/-! ### C30 -/

/-- C30 as stated is false: a carriage return in a string comes back as a newline. -/
theorem C30_refuted : ¬ AsStated .attrib false :=
  not_asStated (shape_generated _ _) shape_compiled shape_top
    (v := shapeVal c!"a\rb" 3 0 (pointVal 1 7) [])
    (r := .ok (true, shapeVal c!"a\nb" 3 0 (pointVal 1 7) [])) (by decide +kernel) (by decide +kernel) (by decide +kernel)
    (by decide +kernel) (by decide +kernel)

/-- C30 for strings without carriage returns, floating point values that survive tinyxml2's text conversion, and objects
not nested deeper than its parser allows.  The target may be any object with empty vectors, not only a default one. -/
theorem C30_attrib_full_partial {fs : List (Str × Header)} {out : OutSpec} {prog : List Item} {T : CTable} {L : Lib}
    (hG : Generated fs .attrib out prog) (ho : out.onlyRead = false) (hT : Compiled (fs.flatMap fun f => f.2.decls) T)
    {n : Str} (hn : TopStruct (fs.flatMap fun f => f.2.decls) n) {delta : Bool} (hdelta : delta = false ∨ out.noDelta = true)
    {v : Val} (hv : CTable.WT T false (.struct n) v) (hd : nesting v ≤ L.maxDepth) (hl : Leaves T (Fits L) (.struct n) v)
    {t : Val} (ht : Fresh T (.struct n) t) : FileGives T L prog delta n v t v := by
  refine full_fresh hG (Or.inr rfl) ho hdelta hT hn hv hd (hl.imp ?_) ht
  intro ty v hf
  refine ⟨hf, ?_⟩
  unfold Visible
  split
  · intro h; cases h
  · trivial

/-- `C30_attrib_full_partial` leaves out nothing: these are exactly the objects that come back.  (Texts of floating point
values must be printed characters and be read as some number.) -/
theorem C30_exact_partial {fs : List (Str × Header)} {out : OutSpec} {prog : List Item} {T : CTable} {L : Lib}
    (hL : L.Sane) (hG : Generated fs .attrib out prog) (ho : out.onlyRead = false)
    (hT : Compiled (fs.flatMap fun f => f.2.decls) T)
    {n : Str} (hn : TopStruct (fs.flatMap fun f => f.2.decls) n) {delta : Bool} (hdelta : delta = false ∨ out.noDelta = true)
    {v : Val} (hv : CTable.WT T false (.struct n) v) (hd : nesting v ≤ L.maxDepth)
    {t : Val} (htw : CTable.WT T true (.struct n) t) (ht : Fresh T (.struct n) t) :
    FileGives T L prog delta n v t v ↔ Leaves T (Fits L) (.struct n) v :=
  ⟨full_fresh_inv hL hG ho hdelta hT hv htw ht, fun h => C30_attrib_full_partial hG ho hT hn hdelta hv hd h ht⟩

/-- In particular a default object is such a target. -/
theorem C30_attrib_full_default_partial {fs : List (Str × Header)} {out : OutSpec} {prog : List Item} {T : CTable} {L : Lib}
    (hG : Generated fs .attrib out prog) (ho : out.onlyRead = false) (hT : Compiled (fs.flatMap fun f => f.2.decls) T)
    {n : Str} (hn : TopStruct (fs.flatMap fun f => f.2.decls) n) {v : Val} (hv : CTable.WT T false (.struct n) v)
    (hd : nesting v ≤ L.maxDepth) (hl : Leaves T (Fits L) (.struct n) v) : FileGives T L prog false n v (T.dflt n) v := by
  obtain ⟨m, ms, hdecl⟩ := hn.1
  obtain ⟨cs, hc, _⟩ := hT.cls n m ms hdecl
  exact C30_attrib_full_partial hG ho hT hn (Or.inl rfl) hv hd hl (hT.freshDefaults n cs hc)

/-- Deeper objects can be written, but the file is not read: the reader reports failure and leaves the target alone. -/
theorem C30_too_deep {T : CTable} {L : Lib} {prog : List Item} {n : Str} {v t : Val} {delta : Bool} {root : Node}
    (hr : hasReadFile prog n = true) (hw : writeFile T L prog delta n v = .ok root) (hd : L.maxDepth < depth root) :
    writeRead T L prog delta n v t = .ok (false, t) := by
  unfold writeRead
  rw [hw, R.ok_bind]
  exact file_too_deep hr hd

/-- A value that is no default.  (Specification notion, models no code.) -/
def someShape : Val := shapeVal c!" a<b\n" (-42) 5 (pointVal (-3) 7) [pointVal 1 7, pointVal 2 4000000000]

theorem someShape_wt : CTable.WT shapeData.table false (.struct c!"Shape") someShape := wtb_sound _ _ (by decide +kernel)
theorem someShape_fits (L : Lib) : Leaves shapeData.table (fun ty v => Fits L ty v ∧ Visible .xml ty v) (.struct c!"Shape") someShape := by
  refine (leavesb_sound (p := fun ty _ v => fitsb ty v && visibleb .xml ty v)
    (P := fun ty _ v => Fits L ty v ∧ Visible .xml ty v) ?_ _ _ .undef (by decide +kernel)).leaves shape_compiled.good
  intro ty d v h
  rw [Bool.and_eq_true] at h
  exact ⟨fits_of h.1, visible_of h.2⟩

/-- Non-vacuity of C30. -/
example : FileGives shapeData.table someLib (progOf shapeFiles .attrib plainOut) false c!"Shape" someShape
    (shapeVal c!"old" 9 9 (pointVal 0 0) []) someShape :=
  C30_attrib_full_partial (shape_generated _ _) rfl shape_compiled shape_top (Or.inl rfl) someShape_wt (by decide +kernel)
    ((someShape_fits _).imp fun _ _ h => h.1) (freshb_sound _ _ (by decide +kernel))
theorem someLib_sane : someLib.Sane where
  plainF b := by
    have := plain_intText (b : Int)
    unfold intText at this
    rwa [if_neg (by omega), Int.natAbs_natCast] at this
  plainD b := by
    have := plain_intText (b : Int)
    unfold intText at this
    rwa [if_neg (by omega), Int.natAbs_natCast] at this
  scansF _ := rfl
  scansD _ := rfl

/-- Non-vacuity of the exact form, with an object that comes back and one that does not. -/
example : FileGives shapeData.table someLib (progOf shapeFiles .attrib plainOut) false c!"Shape" someShape
    (shapeData.table.dflt c!"Shape") someShape ↔ Leaves shapeData.table (Fits someLib) (.struct c!"Shape") someShape :=
  C30_exact_partial someLib_sane (shape_generated _ _) rfl shape_compiled shape_top (Or.inl rfl) someShape_wt (by decide +kernel)
    (wtb_sound _ _ (by decide +kernel)) (freshb_sound _ _ (by decide +kernel))
example : ¬ Leaves shapeData.table (Fits someLib) (.struct c!"Shape") (shapeVal c!"a" (2 ^ 31) 0 (pointVal 1 7) []) := by
  intro h
  have := (C30_exact_partial (prog := progOf shapeFiles .attrib plainOut) someLib_sane (shape_generated _ _) rfl shape_compiled
    shape_top (Or.inl (rfl : false = false)) (wtb_sound _ _ (by decide +kernel)) (by decide +kernel) (t := shapeData.table.dflt c!"Shape")
    (wtb_sound _ _ (by decide +kernel)) (freshb_sound _ _ (by decide +kernel))).2 h
  revert this
  unfold FileGives
  decide +kernel
/-- The file of that example. -/
example : writeFile shapeData.table someLib (progOf shapeFiles .attrib plainOut) false c!"Shape" someShape =
    .ok (.elem c!"Shape" [(c!"name", c!" a<b\n"), (c!"id", c!"-42"), (c!"color", c!"green")] [
      .elem c!"at" [(c!"x", c!"-3"), (c!"y", c!"7")] [],
      .elem c!"pts" [] [.elem c!"Point" [(c!"x", c!"1"), (c!"y", c!"7")] [],
        .elem c!"Point" [(c!"x", c!"2"), (c!"y", c!"4000000000")] []]]) := by decide +kernel
/-- Non-vacuity of the depth limit. -/
example : writeRead shapeData.table { someLib with maxDepth := 2 } (progOf shapeFiles .attrib plainOut) false c!"Shape" someShape
    (pointVal 0 0) = .ok (false, pointVal 0 0) :=
  C30_too_deep (root := (match writeFile shapeData.table { someLib with maxDepth := 2 } (progOf shapeFiles .attrib plainOut)
    false c!"Shape" someShape with | .ok r => r | _ => .comment)) (by decide +kernel) (by decide +kernel) (by decide +kernel)

/-! ### C31 -/

/-- C31 as stated is false: a member of type short or long that equals its default is left out, and the reader assigns an
uninitialised variable to it. -/
theorem C31_refuted : ¬ AsStated .attrib true :=
  not_asStated (shape_generated _ _) shape_compiled shape_top
    (v := shapeVal c!"abc" 3 0 (pointVal 1 7) []) (r := .ub) (by decide +kernel) (by decide +kernel) (by decide +kernel)
    (by decide +kernel) (by decide +kernel)

/-- A member without initialiser makes writing a delta file undefined behaviour. -/
theorem C31_refuted_uninitialised : ¬ AsStated .attrib true :=
  not_asStated (raw_generated _ _) raw_compiled raw_top
    (v := rawVal (.num 1) true) (r := .ub) (by decide +kernel) (by decide +kernel) (by decide +kernel)
    (by decide +kernel) (by decide +kernel)

/-- A struct member with an initialiser: what equals the default of the inner struct is left out and comes back as the
default of the outer one. -/
theorem C31_refuted_struct_initialiser : ¬ AsStated .attrib true :=
  not_asStated (line_generated _ _) line_compiled line_top
    (v := lineVal (pointVal 1 7) 9) (r := .ok (true, lineVal (pointVal 5 7) 9)) (by decide +kernel) (by decide +kernel)
    (by decide +kernel) (by decide +kernel) (by decide +kernel)

/-- C31 for headers where no struct member has an initialiser, and objects each of whose simple and enum members has an
initialised default and either is equal to it and of a type that may be left out, or is different and survives its text. -/
theorem C31_attrib_delta_partial {fs : List (Str × Header)} {out : OutSpec} {prog : List Item} {T : CTable} {L : Lib}
    (hG : Generated fs .attrib out prog) (ho : out.onlyRead = false) (hnd : out.noDelta = false)
    (hT : Compiled (fs.flatMap fun f => f.2.decls) T) (hni : NoStructInits (fs.flatMap fun f => f.2.decls))
    {n : Str} (hn : TopStruct (fs.flatMap fun f => f.2.decls) n) {v : Val} (hv : CTable.WT T false (.struct n) v)
    (hd : nesting v ≤ L.maxDepth) (hl : LeavesD T (KeptDelta L .attrib) (.struct n) (T.dflt n) v) :
    FileGives T L prog true n v (T.dflt n) v :=
  delta_default hG (Or.inr rfl) ho hnd hT hni hn hv hd hl

/-- These are exactly the objects that come back. -/
theorem C31_exact_partial {fs : List (Str × Header)} {out : OutSpec} {prog : List Item} {T : CTable} {L : Lib}
    (hL : L.Sane) (hG : Generated fs .attrib out prog) (ho : out.onlyRead = false) (hnd : out.noDelta = false)
    (hT : Compiled (fs.flatMap fun f => f.2.decls) T) (hni : NoStructInits (fs.flatMap fun f => f.2.decls))
    {n : Str} (hn : TopStruct (fs.flatMap fun f => f.2.decls) n) 
    {v : Val} (hv : CTable.WT T false (.struct n) v) (hd : nesting v ≤ L.maxDepth) :
    FileGives T L prog true n v (T.dflt n) v ↔ LeavesD T (KeptDelta L .attrib) (.struct n) (T.dflt n) v :=
  ⟨delta_default_inv hL hG (Or.inr rfl) ho hnd hT hni hv, delta_default hG (Or.inr rfl) ho hnd hT hni hn hv hd⟩

/-- Non-vacuity of C31: `name`, `at` and one point are defaults. -/
example : FileGives shapeData.table someLib (progOf shapeFiles .attrib plainOut) true c!"Shape"
    (shapeVal c!"abc" 4 5 (pointVal 1 7) [pointVal 1 7, pointVal 2 7]) (shapeData.table.dflt c!"Shape")
    (shapeVal c!"abc" 4 5 (pointVal 1 7) [pointVal 1 7, pointVal 2 7]) :=
  C31_attrib_delta_partial (shape_generated _ _) rfl rfl shape_compiled shape_noInits shape_top (wtb_sound _ _ (by decide +kernel))
    (by decide +kernel) (leavesb_sound (p := keptDeltab .attrib) (fun _ _ _ h => keptDelta_of h) _ _ _ (by decide +kernel))
/-- The file of that example. -/
example : writeFile shapeData.table someLib (progOf shapeFiles .attrib plainOut) true c!"Shape"
    (shapeVal c!"abc" 4 5 (pointVal 1 7) [pointVal 1 7, pointVal 2 7]) =
    .ok (.elem c!"Shape" [(c!"id", c!"4"), (c!"color", c!"green")] [.elem c!"at" [] [],
      .elem c!"pts" [] [.elem c!"Point" [] [], .elem c!"Point" [(c!"x", c!"2")] []]]) := by decide +kernel

/-- Non-vacuity of the exact form. -/
example (v : Val) (hv : CTable.WT shapeData.table false (.struct c!"Shape") v) (hd : nesting v ≤ 500) :
    FileGives shapeData.table someLib (progOf shapeFiles .attrib plainOut) true c!"Shape" v (shapeData.table.dflt c!"Shape") v ↔
      LeavesD shapeData.table (KeptDelta someLib .attrib) (.struct c!"Shape") (shapeData.table.dflt c!"Shape") v :=
  C31_exact_partial someLib_sane (shape_generated _ _) rfl rfl shape_compiled shape_noInits shape_top hv hd

/-! ### C32 -/

/-- C32 as stated is false: an empty string comes back as the default. -/
theorem C32_refuted : ¬ AsStated .xml false :=
  not_asStated (shape_generated _ _) shape_compiled shape_top
    (v := shapeVal [] 3 0 (pointVal 1 7) []) (r := .ok (true, shapeVal c!"abc" 3 0 (pointVal 1 7) [])) (by decide +kernel)
    (by decide +kernel) (by decide +kernel) (by decide +kernel) (by decide +kernel)

/-- C32 for strings with a character that is not white space (and the restrictions of C30): any target with empty
vectors. -/
theorem C32_element_full_partial {fs : List (Str × Header)} {out : OutSpec} {prog : List Item} {T : CTable} {L : Lib}
    (hG : Generated fs .xml out prog) (ho : out.onlyRead = false) (hT : Compiled (fs.flatMap fun f => f.2.decls) T)
    {n : Str} (hn : TopStruct (fs.flatMap fun f => f.2.decls) n) {delta : Bool} (hdelta : delta = false ∨ out.noDelta = true)
    {v : Val} (hv : CTable.WT T false (.struct n) v) (hd : nesting v ≤ L.maxDepth)
    (hl : Leaves T (fun ty v => Fits L ty v ∧ Visible .xml ty v) (.struct n) v)
    {t : Val} (ht : Fresh T (.struct n) t) : FileGives T L prog delta n v t v :=
  full_fresh hG (Or.inl rfl) ho hdelta hT hn hv hd hl ht

/-- Read into a default object, strings of white space survive if they are the default; no struct member may have an
initialiser. -/
theorem C32_element_full_default_partial {fs : List (Str × Header)} {out : OutSpec} {prog : List Item} {T : CTable} {L : Lib}
    (hG : Generated fs .xml out prog) (ho : out.onlyRead = false)
    (hT : Compiled (fs.flatMap fun f => f.2.decls) T) (hni : NoStructInits (fs.flatMap fun f => f.2.decls))
    {n : Str} (hn : TopStruct (fs.flatMap fun f => f.2.decls) n) {v : Val} (hv : CTable.WT T false (.struct n) v)
    (hd : nesting v ≤ L.maxDepth) (hl : LeavesD T (KeptFull L .xml) (.struct n) (T.dflt n) v) :
    FileGives T L prog false n v (T.dflt n) v :=
  full_default hG (Or.inl rfl) ho (Or.inl rfl) hT hni hn hv hd hl

/-- These are exactly the objects that come back. -/
theorem C32_exact_partial {fs : List (Str × Header)} {out : OutSpec} {prog : List Item} {T : CTable} {L : Lib}
    (hL : L.Sane) (hG : Generated fs .xml out prog) (ho : out.onlyRead = false)
    (hT : Compiled (fs.flatMap fun f => f.2.decls) T) (hni : NoStructInits (fs.flatMap fun f => f.2.decls))
    {n : Str} (hn : TopStruct (fs.flatMap fun f => f.2.decls) n) {delta : Bool} (hdelta : delta = false ∨ out.noDelta = true) 
    {v : Val} (hv : CTable.WT T false (.struct n) v) (hd : nesting v ≤ L.maxDepth) :
    FileGives T L prog delta n v (T.dflt n) v ↔ LeavesD T (KeptFull L .xml) (.struct n) (T.dflt n) v :=
  ⟨full_default_inv hL hG (Or.inl rfl) ho hdelta hT hni hv, full_default hG (Or.inl rfl) ho hdelta hT hni hn hv hd⟩

/-- Non-vacuity of C32. -/
example : FileGives shapeData.table someLib (progOf shapeFiles .xml plainOut) false c!"Shape" someShape
    (shapeVal c!"old" 9 9 (pointVal 0 0) []) someShape :=
  C32_element_full_partial (shape_generated _ _) rfl shape_compiled shape_top (Or.inl rfl) someShape_wt (by decide +kernel)
    (someShape_fits _) (freshb_sound _ _ (by decide +kernel))
/-- Part of the file of that example. -/
example : (writeFile shapeData.table someLib (progOf shapeFiles .xml plainOut) false c!"Shape" someShape >>= fun r =>
    .ok (r.kids.take 2)) = .ok [.elem c!"name" [] [.text c!" a<b\n"], .elem c!"id" [] [.text c!"-42"]] := by decide +kernel

/-- A header whose only string default is empty.  (Example, models no code.) -/
def noteFiles : List (Str × Header) :=
  [(c!"struct Note{std::string s;};", ⟨.struct c!"Note" (.simple .stdString c!"s" .absent) [], []⟩)]
/-- (Example, models no code.) -/
def noteData : CData where
  cls := [(c!"Note", [⟨c!"s", .simple .stdString, none⟩])]
  enm := []
  dflt := [(c!"Note", .struct [(c!"s", .str [])])]
  longBits := 32

/-- Non-vacuity of the second form: the empty string is the default. -/
example : FileGives noteData.table someLib (progOf noteFiles .xml plainOut) false c!"Note" (.struct [(c!"s", .str [])])
    (noteData.table.dflt c!"Note") (.struct [(c!"s", .str [])]) := by
  refine C32_element_full_default_partial (generated_of (by decide +kernel) _ _) rfl (CData.compiled (by decide +kernel))
    (noStructInits_of (by decide +kernel)) (topStruct_of (by decide +kernel)) (wtb_sound _ _ (by decide +kernel))
    (by decide +kernel) ?_
  refine leavesb_sound (p := fun ty d v => ty == .simple .stdString && v == .str [] && v == d) ?_ _ _ _ (by decide +kernel)
  intro ty d v h
  simp only [Bool.and_eq_true, beq_iff_eq] at h
  obtain ⟨⟨rfl, rfl⟩, rfl⟩ := h
  exact Or.inr ⟨⟨rfl, rfl⟩, rfl⟩

/-- Non-vacuity of the exact form. -/
example (v : Val) (hv : CTable.WT shapeData.table false (.struct c!"Shape") v) (hd : nesting v ≤ 500) :
    FileGives shapeData.table someLib (progOf shapeFiles .xml plainOut) false c!"Shape" v (shapeData.table.dflt c!"Shape") v ↔
      LeavesD shapeData.table (KeptFull someLib .xml) (.struct c!"Shape") (shapeData.table.dflt c!"Shape") v :=
  C32_exact_partial someLib_sane (shape_generated _ _) rfl  shape_compiled shape_noInits shape_top (Or.inl rfl) hv hd

/-! ### C33 -/

/-- C33 as stated is false, for the reason of `C31_refuted_struct_initialiser`. -/
theorem C33_refuted : ¬ AsStated .xml true :=
  not_asStated (line_generated _ _) line_compiled line_top
    (v := lineVal (pointVal 1 7) 9) (r := .ok (true, lineVal (pointVal 5 7) 9)) (by decide +kernel) (by decide +kernel)
    (by decide +kernel) (by decide +kernel) (by decide +kernel)

/-- A member without initialiser makes writing a delta file undefined behaviour. -/
theorem C33_refuted_uninitialised : ¬ AsStated .xml true :=
  not_asStated (raw_generated _ _) raw_compiled raw_top
    (v := rawVal (.num 1) true) (r := .ub) (by decide +kernel) (by decide +kernel) (by decide +kernel)
    (by decide +kernel) (by decide +kernel)

/-- C33 with the restrictions of C31, except that short and long members may equal their defaults, and of C32. -/
theorem C33_element_delta_partial {fs : List (Str × Header)} {out : OutSpec} {prog : List Item} {T : CTable} {L : Lib}
    (hG : Generated fs .xml out prog) (ho : out.onlyRead = false) (hnd : out.noDelta = false)
    (hT : Compiled (fs.flatMap fun f => f.2.decls) T) (hni : NoStructInits (fs.flatMap fun f => f.2.decls))
    {n : Str} (hn : TopStruct (fs.flatMap fun f => f.2.decls) n) {v : Val} (hv : CTable.WT T false (.struct n) v)
    (hd : nesting v ≤ L.maxDepth) (hl : LeavesD T (KeptDelta L .xml) (.struct n) (T.dflt n) v) :
    FileGives T L prog true n v (T.dflt n) v :=
  delta_default hG (Or.inl rfl) ho hnd hT hni hn hv hd hl

/-- These are exactly the objects that come back. -/
theorem C33_exact_partial {fs : List (Str × Header)} {out : OutSpec} {prog : List Item} {T : CTable} {L : Lib}
    (hL : L.Sane) (hG : Generated fs .xml out prog) (ho : out.onlyRead = false) (hnd : out.noDelta = false)
    (hT : Compiled (fs.flatMap fun f => f.2.decls) T) (hni : NoStructInits (fs.flatMap fun f => f.2.decls))
    {n : Str} (hn : TopStruct (fs.flatMap fun f => f.2.decls) n) 
    {v : Val} (hv : CTable.WT T false (.struct n) v) (hd : nesting v ≤ L.maxDepth) :
    FileGives T L prog true n v (T.dflt n) v ↔ LeavesD T (KeptDelta L .xml) (.struct n) (T.dflt n) v :=
  ⟨delta_default_inv hL hG (Or.inl rfl) ho hnd hT hni hv, delta_default hG (Or.inl rfl) ho hnd hT hni hn hv hd⟩

/-- Non-vacuity of C33: everything but one point is a default. -/
example : FileGives shapeData.table someLib (progOf shapeFiles .xml plainOut) true c!"Shape"
    (shapeVal c!"abc" 3 0 (pointVal 1 7) [pointVal 1 7, pointVal 2 7]) (shapeData.table.dflt c!"Shape")
    (shapeVal c!"abc" 3 0 (pointVal 1 7) [pointVal 1 7, pointVal 2 7]) :=
  C33_element_delta_partial (shape_generated _ _) rfl rfl shape_compiled shape_noInits shape_top (wtb_sound _ _ (by decide +kernel))
    (by decide +kernel) (leavesb_sound (p := keptDeltab .xml) (fun _ _ _ h => keptDelta_of h) _ _ _ (by decide +kernel))
/-- The file of that example. -/
example : writeFile shapeData.table someLib (progOf shapeFiles .xml plainOut) true c!"Shape"
    (shapeVal c!"abc" 3 0 (pointVal 1 7) [pointVal 1 7, pointVal 2 7]) =
    .ok (.elem c!"Shape" [] [.elem c!"at" [] [],
      .elem c!"pts" [] [.elem c!"Point" [] [], .elem c!"Point" [] [.elem c!"x" [] [.text c!"2"]]]]) := by decide +kernel

/-- Non-vacuity of the exact form. -/
example (v : Val) (hv : CTable.WT shapeData.table false (.struct c!"Shape") v) (hd : nesting v ≤ 500) :
    FileGives shapeData.table someLib (progOf shapeFiles .xml plainOut) true c!"Shape" v (shapeData.table.dflt c!"Shape") v ↔
      LeavesD shapeData.table (KeptDelta someLib .xml) (.struct c!"Shape") (shapeData.table.dflt c!"Shape") v :=
  C33_exact_partial someLib_sane (shape_generated _ _) rfl rfl shape_compiled shape_noInits shape_top hv hd

end Stfx.Run
