import Verif.Cpp.Check
import Verif.Props.C48_C49_Typed
/-
Property C61: running the text of the generated XML readers does what their model does.

The texts of the structs .cpp file and of the enums .cpp file are read as C++ (`Cpp/Parse.lean`) and run by the rules of C++
(`Cpp/Eval.lean`), which know nothing of the generators: names are looked up where they are used, overloads are chosen by the types
of the arguments, pointers point to places in memory, variables of functions hide names outside of them.  A call
`read_from_file(filename, x)` then finds the overload of the struct of `x` and does with `x` what `readFile` (`Run/Xml.lean`) says,
about which C30-C57 speak; other objects of the program are not changed.

The exception: names of structs can be hidden by variables and functions in the generated class.
-/
set_option autoImplicit false
set_option maxRecDepth 4000
namespace Stfx.Cpp
open Stfx.Lexer Stfx.Run Stfx.Parser Stfx.Items Stfx.Gen

/-- The data members of the object `read_from_file` is called on: none of a reader, `m_delta_only` of a writer.
(Specification notion, models no code.) -/
def ReaderSelf (self : List (Str × Var)) : Prop := self = [] ∨ ∃ x, self = [(c!"m_delta_only", x)]

/-- Enough fuel for the elements of the document.  (Specification notion, models no code.) -/
def DocDepth (d : Doc) (fuel : Nat) : Prop := ∀ ks, d = .ok ks → ∀ k ∈ ks, depth k ≤ fuel

/-- What the call does in C++: the object `q` gets the value, the result is returned, nothing else is changed.
(Specification notion, models no code.) -/
def ReadDone (r : R (Bool × Val)) (q : Place) (s : St) (x : Res EV) : Prop :=
  match r with
  | .ok (b, v) => x = .ok (.rv (.prim .bool) (.val (.bool b))) { s with mem := setAt s.mem q v }
  | .ub => x = .ub
  | .stuck => x = .stuck

/-- C61 as stated: a call of `read_from_file` does what the model says, whatever the structs.  (Specification notion, models no code.) -/
def C61_statement : Prop :=
  ∀ (fs : List (Str × Header)) (k : Kind) (out : OutSpec) (prog : List Item) (E : Env), XmlBuilt fs k out prog E →
  E.T.EnumInts → E.L.Bits → ∀ u : Bool, E.T.Defined u → ∀ n, TopStruct (declsOf fs) n →
  ∀ (self : List (Str × Var)) (s : St) (t q : Place) (f : Str) (old : Val) (fuel : Nat), ReaderSelf self →
    getAt s.mem t = some (.str f) → getAt s.mem q = some old → CTable.WT E.T u (.struct n) old → DocDepth (E.load (cStr f)) fuel →
    ReadDone (readFile E.T E.L prog n (E.load (cStr f)) old) q s
      (callMethod E self (fuel + 2) out.readerClass c!"read_from_file" [.lv .str t, .lv (.struct n) q] s)

theorem ReaderSelf.lookup {self : List (Str × Var)} (h : ReaderSelf self) (n : Str) (hn : n ≠ c!"m_delta_only") : self.lookup n = none := by
  rcases h with rfl | ⟨x, rfl⟩
  · rfl
  · rw [lookup_cons_ne hn]; rfl

/-- Reading does what the model says, if no name is hidden. -/
theorem C61_read_partial {fs : List (Str × Header)} {k : Kind} {out : OutSpec} {prog : List Item} {E : Env} (h : XmlBuilt fs k out prog E)
    (hc : ReaderClear (declsOf fs) out) (hE : E.T.EnumInts) (hL : E.L.Bits) {u : Bool} (hu : E.T.Defined u) {n : Str}
    (hn : TopStruct (declsOf fs) n) {self : List (Str × Var)} (hs : ReaderSelf self) {s : St} {t q : Place} {f : Str} {old : Val}
    (ht : getAt s.mem t = some (.str f)) (hq : getAt s.mem q = some old) (hw : CTable.WT E.T u (.struct n) old) {fuel : Nat}
    (hd : DocDepth (E.load (cStr f)) fuel) :
    ReadDone (readFile E.T E.L prog n (E.load (cStr f)) old) q s
      (callMethod E self (fuel + 2) out.readerClass c!"read_from_file" [.lv .str t, .lv (.struct n) q] s) := by
  obtain ⟨hp, ns, hnd, hm, htop, hsn⟩ := h.rdProgram hc
  have hsim := read_file hp hs.lookup hnd hsn ((htop n).2 hn) hm ht hq hd
  rcases C48_typed h.gen h.kind h.compiled hE hL hu hn hw (E.load (cStr f)) with he | ⟨w, he, _⟩
  · rw [he] at hsim ⊢; exact hsim
  · rw [he] at hsim ⊢; exact hsim

/-- C48 for the text of the functions: a call is undefined behaviour or returns, with an object of the struct in the place given;
it returns `true` exactly if the file is a document, and leaves the object as it was if not. -/
theorem C61_typed_partial {fs : List (Str × Header)} {k : Kind} {out : OutSpec} {prog : List Item} {E : Env} (h : XmlBuilt fs k out prog E)
    (hc : ReaderClear (declsOf fs) out) (hE : E.T.EnumInts) (hL : E.L.Bits) {u : Bool} (hu : E.T.Defined u) {n : Str}
    (hn : TopStruct (declsOf fs) n) {self : List (Str × Var)} (hs : ReaderSelf self) {s : St} {t q : Place} {f : Str} {old : Val}
    (ht : getAt s.mem t = some (.str f)) (hq : getAt s.mem q = some old) (hw : CTable.WT E.T u (.struct n) old) {fuel : Nat}
    (hd : DocDepth (E.load (cStr f)) fuel) :
    callMethod E self (fuel + 2) out.readerClass c!"read_from_file" [.lv .str t, .lv (.struct n) q] s = .ub ∨
    ∃ w, callMethod E self (fuel + 2) out.readerClass c!"read_from_file" [.lv .str t, .lv (.struct n) q] s =
        .ok (.rv (.prim .bool) (.val (.bool (E.load (cStr f)).loads))) { s with mem := setAt s.mem q w } ∧
      CTable.WT E.T u (.struct n) w ∧ ((E.load (cStr f)).loads = false → w = old) := by
  have h1 := C61_read_partial h hc hE hL hu hn hs ht hq hw hd
  rcases C48_typed h.gen h.kind h.compiled hE hL hu hn hw (E.load (cStr f)) with he | ⟨w, he, hw⟩
  · rw [he] at h1; exact .inl h1
  · rw [he] at h1; exact .inr ⟨w, h1, hw⟩

/-- A file that can not be loaded changes nothing. -/
theorem C61_unloaded_partial {fs : List (Str × Header)} {k : Kind} {out : OutSpec} {prog : List Item} {E : Env} (h : XmlBuilt fs k out prog E)
    (hc : ReaderClear (declsOf fs) out) {n : Str} (hn : TopStruct (declsOf fs) n) {self : List (Str × Var)} (hs : ReaderSelf self) {s : St}
    {t q : Place} {f : Str} {old : Val} (ht : getAt s.mem t = some (.str f)) (hq : getAt s.mem q = some old) (hl : E.load (cStr f) = .error)
    (fuel : Nat) : callMethod E self (fuel + 2) out.readerClass c!"read_from_file" [.lv .str t, .lv (.struct n) q] s =
      .ok (.rv (.prim .bool) (.val (.bool false))) s := by
  obtain ⟨hp, ns, hnd, hm, htop, hsn⟩ := h.rdProgram hc
  have hsim := read_file hp hs.lookup hnd hsn ((htop n).2 hn) hm ht hq (fuel := fuel) (by rw [hl]; intro ks h; cases h)
  have hr : readFile E.T E.L prog n (E.load (cStr f)) old = .ok (false, old) := by
    obtain ⟨i, stamp, fc, fh, inputs, hi, hp', _⟩ := h.reader hc
    have : hasReadFile prog n = true := by
      rw [hp', hasReadFile_gen]
      exact ((tables_all h.texts h.distinct hi).2.2 n).2 hn
    unfold readFile
    rw [hl, if_pos this]
  rw [hr] at hsim
  rw [show callMethod _ _ _ _ _ _ _ = _ from hsim, setAt_self hq]

/-! ### Examples -/

/-- A program that reads shapes.  (Specification notion, models no code.) -/
def shapeDoc : Doc := .ok [.comment, .elem c!"Anything" [(c!"id", c!"16")] [
  .elem c!"id" [] [.text c!"0x10"], .elem c!"color" [] [.text c!"green"], .elem c!"at" [(c!"y", c!"3")] [.elem c!"x" [] [.text c!"x"]],
  .elem c!"pts" [] [.elem c!"item" [] [.elem c!"x" [] [.text c!"4"]], .elem c!"item" [(c!"x", c!"5")] []]]]

/-- (Example, models no code.) -/
def shapeEnv (k : Kind) : Env := xmlEnv shapeFiles k plainOut shapeData fun f => if f = c!"f.xml" then shapeDoc else .error

theorem shape_built {k : Kind} (hk : k = .xml ∨ k = .attrib) : XmlBuilt shapeFiles k plainOut (sampleProg shapeFiles k plainOut) (shapeEnv k) :=
  built_of hk (by decide +kernel)

theorem shape_clear : ReaderClear (declsOf shapeFiles) plainOut := readerClear_of (by decide +kernel)

/-- Memory with the name of a file, some number and a shape.  (Specification notion, models no code.) -/
def shapeMem (f : Str) (v : Val) : St := ⟨[.val (.str f), .val (.num 77), .val v], [], [], []⟩

/-- Reading shapes from a file with nested elements. -/
example : callMethod (shapeEnv .xml) [] 9 c!"R" c!"read_from_file" [.lv .str ⟨0, []⟩, .lv (.struct c!"Shape") ⟨2, []⟩]
      (shapeMem c!"f.xml" (shapeVal c!"x" 2 0 (pointVal 1 7) [])) =
    .ok (.rv (.prim .bool) (.val (.bool true))) (shapeMem c!"f.xml" (shapeVal c!"x" 16 5 (pointVal 1 7) [pointVal 4 7, pointVal 1 7])) := by
  have h := C61_read_partial (shape_built (.inl rfl)) shape_clear (CData.enumInts (by decide +kernel)) someLib_bits (CData.defined (u := false) (by decide +kernel))
    shape_top (self := []) (.inl rfl) (s := shapeMem c!"f.xml" (shapeVal c!"x" 2 0 (pointVal 1 7) [])) (t := ⟨0, []⟩) (q := ⟨2, []⟩) rfl rfl
    (wtb_sound _ _ (by decide +kernel)) (fuel := 7) (by
      intro ks hk
      cases hk
      decide)
  have hr : readFile (shapeEnv .xml).T (shapeEnv .xml).L (sampleProg shapeFiles .xml plainOut) c!"Shape" ((shapeEnv .xml).load (cStr c!"f.xml"))
      (shapeVal c!"x" 2 0 (pointVal 1 7) []) = .ok (true, shapeVal c!"x" 16 5 (pointVal 1 7) [pointVal 4 7, pointVal 1 7]) := by decide +kernel
  rw [hr] at h
  exact h

/-- The same file read by the attribute form. -/
example : callMethod (shapeEnv .attrib) [(c!"m_delta_only", ⟨.prim .bool, ⟨1, []⟩⟩)] 9 c!"R" c!"read_from_file" [.lv .str ⟨0, []⟩, .lv (.struct c!"Shape") ⟨2, []⟩]
      (shapeMem c!"f.xml" (shapeVal c!"x" 2 0 (pointVal 1 7) [])) =
    .ok (.rv (.prim .bool) (.val (.bool true))) (shapeMem c!"f.xml" (shapeVal c!"x" 16 0 (pointVal 1 3) [pointVal 1 7, pointVal 5 7])) := by
  have h := C61_read_partial (shape_built (.inr rfl)) shape_clear (CData.enumInts (by decide +kernel)) someLib_bits (CData.defined (u := false) (by decide +kernel))
    shape_top (self := [(c!"m_delta_only", ⟨.prim .bool, ⟨1, []⟩⟩)]) (.inr ⟨_, rfl⟩) (s := shapeMem c!"f.xml" (shapeVal c!"x" 2 0 (pointVal 1 7) [])) (t := ⟨0, []⟩) (q := ⟨2, []⟩) rfl rfl
    (wtb_sound _ _ (by decide +kernel)) (fuel := 7) (by
      intro ks hk
      cases hk
      decide)
  have hr : readFile (shapeEnv .attrib).T (shapeEnv .attrib).L (sampleProg shapeFiles .attrib plainOut) c!"Shape" ((shapeEnv .attrib).load (cStr c!"f.xml"))
      (shapeVal c!"x" 2 0 (pointVal 1 7) []) = .ok (true, shapeVal c!"x" 16 0 (pointVal 1 3) [pointVal 1 7, pointVal 5 7]) := by decide +kernel
  rw [hr] at h
  exact h

/-- A file that is not there. -/
example : callMethod (shapeEnv .xml) [] 9 c!"R" c!"read_from_file" [.lv .str ⟨0, []⟩, .lv (.struct c!"Shape") ⟨2, []⟩]
      (shapeMem c!"g.xml" (shapeVal c!"x" 2 0 (pointVal 1 7) [])) =
    .ok (.rv (.prim .bool) (.val (.bool false))) (shapeMem c!"g.xml" (shapeVal c!"x" 2 0 (pointVal 1 7) [])) :=
  C61_unloaded_partial (shape_built (.inl rfl)) shape_clear shape_top (self := []) (.inl rfl)
    (s := shapeMem c!"g.xml" (shapeVal c!"x" 2 0 (pointVal 1 7) [])) (t := ⟨0, []⟩) (q := ⟨2, []⟩) rfl rfl rfl 7

/-- Any document. -/
example (d : Doc) (fuel : Nat) (hd : DocDepth d fuel) : ∃ r, r = callMethod (xmlEnv shapeFiles .xml plainOut shapeData fun _ => d) [] (fuel + 2) c!"R" c!"read_from_file"
      [.lv .str ⟨0, []⟩, .lv (.struct c!"Shape") ⟨2, []⟩] (shapeMem c!"f.xml" (shapeVal c!"x" 2 0 (pointVal 1 7) [])) ∧ (r = .ub ∨ ∃ b s, r = .ok b s) := by
  refine ⟨_, rfl, ?_⟩
  rcases C61_typed_partial (E := xmlEnv shapeFiles .xml plainOut shapeData fun _ => d) (built_of (.inl rfl) (by decide +kernel)) shape_clear (CData.enumInts (by decide +kernel)) someLib_bits (CData.defined (u := false) (by decide +kernel))
    shape_top (self := []) (.inl rfl) (s := shapeMem c!"f.xml" (shapeVal c!"x" 2 0 (pointVal 1 7) [])) (t := ⟨0, []⟩) (q := ⟨2, []⟩) rfl rfl
    (wtb_sound (T := shapeData.table) _ _ (by decide +kernel)) hd with h | ⟨w, h, _⟩
  · exact .inl h
  · exact .inr ⟨_, _, h⟩

/-! ### Hidden names -/

/-- A header with two structs of these names.  (Example, models no code.) -/
def hiddenText (a b : Str) : Str := c!"struct " ++ a ++ c!"{int x{1};};struct " ++ b ++ c!"{int x{1};};"
/-- (Example, models no code.) -/
def hiddenDecls (a b : Str) : Header where
  first := .struct a (.simple .int c!"x" (.val (.int c!"1"))) []
  more := [.struct b (.simple .int c!"x" (.val (.int c!"1"))) []]
/-- (Example, models no code.) -/
def hiddenFiles (a b : Str) : List (Str × Header) := [(hiddenText a b, hiddenDecls a b)]
/-- (Example, models no code.) -/
def hiddenVal (x : Int) : Val := .struct [(c!"x", .num x)]
/-- (Example, models no code.) -/
def hiddenData (a b : Str) : CData where
  cls := [(a, [⟨c!"x", .simple .int, some (.num 1)⟩]), (b, [⟨c!"x", .simple .int, some (.num 1)⟩])]
  enm := []
  dflt := [(a, hiddenVal 1), (b, hiddenVal 1)]
  longBits := 64
/-- (Example, models no code.) -/
def hiddenEnv (a b : Str) : Env :=
  xmlEnv (hiddenFiles a b) .xml plainOut (hiddenData a b) fun _ => .ok [.elem c!"Anything" [] [.elem c!"x" [] [.text c!"4"]]]
/-- See the definition before it.  (Specification notion, models no code.) -/
def hiddenMem (x : Int) : St := ⟨[.val (.str c!"f.xml"), .val (hiddenVal x)], [], [], []⟩

/-- A struct named `el`: in `bool R::do_el(tinyxml2::XMLElement* el, el* data)` the parameter hides the struct, which is no C++. -/
theorem C61_struct_el : callMethod (hiddenEnv c!"b" c!"el") [] 9 c!"R" c!"read_from_file" [.lv .str ⟨0, []⟩, .lv (.struct c!"el") ⟨1, []⟩] (hiddenMem 2) = .stuck := by
  kernel_rfl

/-- Structs named `a` and `do_a`: in the class the name `do_a` is that of the function which reads an `a`. -/
theorem C61_struct_do : callMethod (hiddenEnv c!"a" c!"do_a") [] 9 c!"R" c!"read_from_file" [.lv .str ⟨0, []⟩, .lv (.struct c!"do_a") ⟨1, []⟩] (hiddenMem 2) = .stuck := by
  kernel_rfl

/-- With other names the same program reads the file. -/
example : callMethod (hiddenEnv c!"b" c!"el_t") [] 9 c!"R" c!"read_from_file" [.lv .str ⟨0, []⟩, .lv (.struct c!"el_t") ⟨1, []⟩] (hiddenMem 2) =
    .ok (.rv (.prim .bool) (.val (.bool true))) (hiddenMem 4) := by kernel_rfl

/-- The statement is false. -/
theorem C61_refuted : ¬ C61_statement := by
  intro h
  have h1 := h (hiddenFiles c!"b" c!"el") .xml plainOut _ (hiddenEnv c!"b" c!"el") (built_of (.inl rfl) (by decide +kernel)) (CData.enumInts (by decide +kernel)) someLib_bits false
    (CData.defined (by decide +kernel)) c!"el" (topStruct_of (by decide +kernel)) [] (hiddenMem 2) ⟨0, []⟩ ⟨1, []⟩ c!"f.xml" (hiddenVal 2) 7 (.inl rfl) rfl rfl
    (wtb_sound _ _ (by decide +kernel)) (by
      intro ks hk
      cases hk
      decide)
  have hr : readFile (hiddenEnv c!"b" c!"el").T (hiddenEnv c!"b" c!"el").L (sampleProg (hiddenFiles c!"b" c!"el") .xml plainOut) c!"el"
      ((hiddenEnv c!"b" c!"el").load (cStr c!"f.xml")) (hiddenVal 2) = .ok (true, hiddenVal 4) := by decide +kernel
  rw [hr] at h1
  have h2 := (show callMethod _ _ _ _ _ _ _ = _ from h1).symm.trans C61_struct_el
  cases h2

end Stfx.Cpp
