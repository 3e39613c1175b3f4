import Verif.Props.C66_Objects
import Verif.Props.C34_C36_Read
import Verif.Props.C86_IniSame
/-
C88, C86 and C36 for the text of generated files: a block that makes a reader and reads one of two files with the same items of members,
or one of two documents that say the same of all members, does the same.

`_partial`: see C66, `IniReaderClear` and the others.
-/
set_option autoImplicit false

namespace Stfx.Cpp
open Stfx.Lexer Stfx.Run Stfx.Parser Stfx.Items Stfx.Gen

variable {fs : List (Str × Header)} {out : OutSpec} {prog : List Item} {E : Env} {cs : List Class}

/-- C88: the generated program, run on files with the same items of members, has the same outcome: the return value, the objects, the
closed file, or undefined behaviour. -/
theorem C88_ini_partial (h : Linked fs .nIni out prog E cs) (hc : IniReaderClear (declsOf fs) out) (hcl : NoClash E.T) (hE : E.T.EnumInts) (hL : E.I.Bits) {u : Bool} {n : Str}
    (hn : TopStruct (declsOf fs) n) {s : St} {t t' q : Place} {f f' x x' : Str} {old : Val} (ht : getAt s.mem t = some (.str f)) (ht' : getAt s.mem t' = some (.str f'))
    (hx : E.text (cStr f) = some x) (hx' : E.text (cStr f') = some x') (hq : getAt s.mem q = some old) (hw : CTable.WT E.T u (.struct n) old)
    (hi : ∀ k i, IsItem E.T n k i → itemText (IniSt.init.load x).under k i = itemText (IniSt.init.load x').under k i)
    {fuel fuel' : Nat} (hd : x.length ≤ fuel) (hd' : x'.length ≤ fuel') (hv : nesting old ≤ fuel) (hv' : nesting old ≤ fuel') :
    onNew E cs (fuel + 2) out.readerClass [] c!"read_from_file" [.lv .str t, .lv (.struct n) q] s =
      onNew E cs (fuel' + 2) out.readerClass [] c!"read_from_file" [.lv .str t', .lv (.struct n) q] s := by
  have h1 := C66_ini_read_partial h hc hcl hE hL hn ht hq hw (fuel := fuel) ⟨fun y hy => by rw [hx] at hy; cases hy; exact hd, hv⟩
  have h2 := C66_ini_read_partial h hc hcl hE hL hn ht' hq hw (fuel := fuel') ⟨fun y hy => by rw [hx'] at hy; cases hy; exact hd', hv'⟩
  obtain ⟨hcode, hr⟩ := h.ini.gen.nrdCode h.compiled
  have e := nrd_same (L := E.I) hcode (U := (IniSt.init.load x).under) (U' := (IniSt.init.load x').under) hw n [] rfl
    fun k d ms m h1 h2 h3 h4 => hi k m.name ⟨d, ms, m, h1, h2, h3, h4, rfl⟩
  rw [hx] at h1
  rw [hx'] at h2
  unfold iniRead at h1 h2
  simp only [if_pos (hr n hn)] at h1 h2
  rw [e] at h1
  cases hz : nrdVal E.T E.I prog (IniSt.init.load x').under old n [] with
  | ub => rw [hz] at h1 h2; rw [h1.ub rfl, h2.ub rfl]
  | stuck => rw [hz] at h1 h2; rw [h1.stuck rfl, h2.stuck rfl]
  | ok r =>
    obtain ⟨b, v⟩ := r
    rw [hz] at h1 h2
    rw [h1.ok b v _ rfl, h2.ok b v _ rfl]
    rfl

/-- C88 for XML: the generated program, run on documents that say the same of all members, has the same outcome. -/
theorem C88_xml_partial {k : Kind} (h : Linked fs k out prog E cs) (hk : k = .xml ∨ k = .attrib)
    (hc : ReaderClear (declsOf fs) out) (hE : E.T.EnumInts) (hL : E.L.Bits) {u : Bool} (hu : E.T.Defined u) {n : Str}
    (hn : TopStruct (declsOf fs) n) {s : St} {t t' q : Place} {f f' : Str} {old : Val} (ht : getAt s.mem t = some (.str f)) (ht' : getAt s.mem t' = some (.str f'))
    {ks ks' : List Node} {x x' : Node} (hx : E.load (cStr f) = .ok ks) (hx' : E.load (cStr f') = .ok ks')
    (hr : ks.find? Node.isElem = some x) (hr' : ks'.find? Node.isElem = some x') (hs : SameFor E.T k (.struct n) x x')
    (hq : getAt s.mem q = some old) (hw : CTable.WT E.T u (.struct n) old)
    {fuel fuel' : Nat} (hd : DocDepth (.ok ks) fuel) (hd' : DocDepth (.ok ks') fuel') :
    onNew E cs (fuel + 2) out.readerClass [] c!"read_from_file" [.lv .str t, .lv (.struct n) q] s =
      onNew E cs (fuel' + 2) out.readerClass [] c!"read_from_file" [.lv .str t', .lv (.struct n) q] s := by
  have h1 := C66_xml_read_partial h hk hc hE hL hu hn ht hq hw (hx ▸ hd)
  have h2 := C66_xml_read_partial h hk hc hE hL hu hn ht' hq hw (hx' ▸ hd')
  have hone : ∀ {ks : List Node} {x : Node}, ks.find? Node.isElem = some x →
      readFile E.T E.L prog n (.ok ks) old = readFile E.T E.L prog n (.ok [x]) old := by
    intro ks x hx
    have : [x].find? Node.isElem = some x := by rw [List.find?_cons, List.find?_some hx]
    unfold readFile
    simp only [hx, this]
  rw [hx, hone hr, C36_same (h.xml hk).gen hk h.compiled hs] at h1
  rw [hx', hone hr'] at h2
  unfold ReadDone at h1 h2
  cases hz : readFile E.T E.L prog n (.ok [x']) old with
  | ub => rw [hz] at h1 h2; exact h1.trans h2.symm
  | stuck => rw [hz] at h1 h2; exact h1.trans h2.symm
  | ok r => rw [hz] at h1 h2; exact h1.trans h2.symm

/-! ### Examples -/

/-- Two files, the one with the sections and items in another order.  (Example, models no code.) -/
def sameText (f : Str) : Option Str :=
  if f = c!"1.ini" then some (entriesText (sectionEntries sameOne)) else if f = c!"2.ini" then some (entriesText (sectionEntries sameTwo)) else none

/-- (Example, models no code.) -/
def sameMem : St := ⟨[.val (.str c!"1.ini"), .val (.str c!"2.ini"), .val (confData.table.dflt c!"Conf")], [], [], []⟩

theorem same_items (k i : Str) (_ : IsItem confData.table c!"Conf" k i) : itemText (IniSt.init.load (entriesText (sectionEntries sameOne))).under k i =
    itemText (IniSt.init.load (entriesText (sectionEntries sameTwo))).under k i := by
  rw [item_sections (by decide +kernel), item_sections (by decide +kernel)]
  have hb : ∀ p ∈ sameOne, ∀ p' ∈ sameTwo, p.1 = p'.1 → SameBody p.2 p'.2 := by decide +kernel
  by_cases h1 : k = c!"opt.main db"
  · subst h1; exact (hb _ (.head _) _ (.tail _ (.head _)) rfl).item i
  by_cases h2 : k = c!"other db"
  · subst h2; exact (hb _ (.tail _ (.head _)) _ (.head _) rfl).item i
  have e1 : (k == c!"opt.main db") = false := by simpa using h1
  have e2 : (k == c!"other db") = false := by simpa using h2
  simp only [sameOne, sameTwo, List.lookup_cons, List.lookup_nil, e1, e2]

theorem sameOne_read : iniRead confData.table smallIniLib (sampleProg confFiles .nIni plainOut) c!"Conf" IniSt.init
      (some (entriesText (sectionEntries sameOne))) (confData.table.dflt c!"Conf") =
    .ok ((true, confVal (dbVal c!"x y" 7 0) (dbVal c!"a" 1 0) (dbVal c!"a" 1 5)), IniSt.init.load (entriesText (sectionEntries sameOne))) := by
  decide +kernel

theorem same_linked : Linked confFiles .nIni plainOut (sampleProg confFiles .nIni plainOut) (iniEnv confFiles plainOut confData smallIniLib sameText)
    (sampleClasses confFiles .nIni plainOut) :=
  linked_ini (iniBuilt_of (by decide +kernel)) (i := tablesOf confFiles) (by decide +kernel) (described_of _ (by decide) (fun _ => rfl) rfl)

/-- Both files are read, and the object is the same. -/
example : onNew (iniEnv confFiles plainOut confData smallIniLib sameText) (sampleClasses confFiles .nIni plainOut) 202 c!"R" []
      c!"read_from_file" [.lv .str ⟨1, []⟩, .lv (.struct c!"Conf") ⟨2, []⟩] sameMem =
    .ok (.rv (.prim .bool) (.val (.bool true)))
      ⟨[.val (.str c!"1.ini"), .val (.str c!"2.ini"), .val (confVal (dbVal c!"x y" 7 0) (dbVal c!"a" 1 0) (dbVal c!"a" 1 5))], [], [.closed], []⟩ := by
  have hb := same_linked
  have hw : CTable.WT confData.table false (.struct c!"Conf") (confData.table.dflt c!"Conf") := wtb_sound _ _ (by decide +kernel)
  have h := C66_ini_read_partial hb conf_rclear (CData.noClash (by decide +kernel)) (CData.enumInts (by decide +kernel)) smallIniLib_bits conf_top (u := false)
    (s := sameMem) (t := ⟨0, []⟩) (q := ⟨2, []⟩) rfl rfl hw (fuel := 200) ⟨fun t h => by cases h; decide +kernel, by decide +kernel⟩
  have e := C88_ini_partial hb conf_rclear (CData.noClash (by decide +kernel)) (CData.enumInts (by decide +kernel)) smallIniLib_bits conf_top (u := false)
    (s := sameMem) (t := ⟨0, []⟩) (t' := ⟨1, []⟩) (q := ⟨2, []⟩) rfl rfl (x := entriesText (sectionEntries sameOne)) (x' := entriesText (sectionEntries sameTwo))
    rfl rfl rfl hw same_items (fuel := 200) (fuel' := 200) (by decide +kernel) (by decide +kernel) (by decide +kernel) (by decide +kernel)
  exact e.symm.trans (h.ok _ _ _ sameOne_read)

/-- (Example, models no code.) -/
def oneShape : Node := .elem c!"Shape" [(c!"id", c!"8"), (c!"name", c!"n")] []
/-- Other attributes and elements besides, the attributes in another order.  (Example, models no code.) -/
def twoShape : Node := .elem c!"other" [(c!"hue", c!"red"), (c!"name", c!"n"), (c!"id", c!"8")] [.comment, .elem c!"q" [] []]

/-- (Example, models no code.) -/
def sameLoad (f : Str) : Doc := if f = c!"1.xml" then .ok [oneShape] else if f = c!"2.xml" then .ok [.misc, .comment, twoShape] else .error

/-- (Example, models no code.) -/
def sameXml (v : Val) : St := ⟨[.val (.str c!"1.xml"), .val (.str c!"2.xml"), .val v], [], [], []⟩

theorem shapes_same : SameFor shapeData.table .attrib (.struct c!"Shape") oneShape twoShape :=
  .struct (ms := _) rfl (by decide +kernel) (by decide +kernel) (by
    intro m _ _ x y hx _
    cases hx)

theorem oneShape_read : readFile shapeData.table someLib (sampleProg shapeFiles .attrib plainOut) c!"Shape" (.ok [oneShape]) (shapeVal c!"x" 2 0 (pointVal 1 7) []) =
    .ok (true, shapeVal c!"n" 8 0 (pointVal 1 7) []) := by decide +kernel

theorem sameXml_two (v : Val) : getAt (sameXml v).mem ⟨2, []⟩ = some v := rfl

set_option maxRecDepth 4096 in
/-- Both documents are read, and the object is the same. -/
example : onNew (xmlEnv shapeFiles .attrib plainOut shapeData sameLoad) (sampleClasses shapeFiles .attrib plainOut) 9 c!"R" [] c!"read_from_file"
      [.lv .str ⟨1, []⟩, .lv (.struct c!"Shape") ⟨2, []⟩] (sameXml (shapeVal c!"x" 2 0 (pointVal 1 7) [])) =
    .ok (.rv (.prim .bool) (.val (.bool true))) (sameXml (shapeVal c!"n" 8 0 (pointVal 1 7) [])) := by
  have hb := shape_linked (k := .attrib) (.inr rfl) sameLoad
  have hw : CTable.WT (xmlEnv shapeFiles .attrib plainOut shapeData sameLoad).T false (.struct c!"Shape") (shapeVal c!"x" 2 0 (pointVal 1 7) []) :=
    wtb_sound (T := shapeData.table) _ _ (by decide +kernel)
  have l1 : sameLoad (cStr c!"1.xml") = .ok [oneShape] := rfl
  have l2 : sameLoad (cStr c!"2.xml") = .ok [.misc, .comment, twoShape] := rfl
  have d1 : DocDepth (.ok [oneShape]) 7 := by intro ks hk; cases hk; decide
  have d2 : DocDepth (.ok [.misc, .comment, twoShape]) 7 := by intro ks hk; cases hk; decide
  have d0 : DocDepth ((xmlEnv shapeFiles .attrib plainOut shapeData sameLoad).load (cStr c!"1.xml")) 7 := by intro ks hk; cases hk; decide
  have h := C66_xml_read_partial (E := xmlEnv shapeFiles .attrib plainOut shapeData sameLoad) hb (.inr rfl) shape_clear (CData.enumInts (by decide +kernel)) someLib_bits (CData.defined (u := false) (by decide +kernel)) shape_top
    (s := sameXml (shapeVal c!"x" 2 0 (pointVal 1 7) [])) (t := ⟨0, []⟩) (q := ⟨2, []⟩) (f := c!"1.xml") (old := shapeVal c!"x" 2 0 (pointVal 1 7) []) rfl (sameXml_two _) hw (fuel := 7) d0
  have e := C88_xml_partial (E := xmlEnv shapeFiles .attrib plainOut shapeData sameLoad) hb (.inr rfl) shape_clear (CData.enumInts (by decide +kernel)) someLib_bits (CData.defined (u := false) (by decide +kernel)) shape_top
    (s := sameXml (shapeVal c!"x" 2 0 (pointVal 1 7) [])) (t := ⟨0, []⟩) (t' := ⟨1, []⟩) (q := ⟨2, []⟩) (f := c!"1.xml") (f' := c!"2.xml") (old := shapeVal c!"x" 2 0 (pointVal 1 7) []) rfl rfl
    l1 l2 (x := oneShape) (x' := twoShape) rfl rfl shapes_same (sameXml_two _) hw d1 d2
  have h' : ReadDone (readFile shapeData.table someLib (sampleProg shapeFiles .attrib plainOut) c!"Shape" (sameLoad (cStr c!"1.xml")) (shapeVal c!"x" 2 0 (pointVal 1 7) [])) _ _ _ := h
  rw [l1, oneShape_read] at h'
  exact e.symm.trans h'

end Stfx.Cpp
