import Verif.Props.C61_XmlReadText
import Verif.Props.C63_IniReadText
import Verif.Props.C82_Again
/-
C82 for the text of generated files: a second call of `read_from_file` with the same arguments returns the same and changes nothing but
the reader object.

`_partial`: see C61 and C63, `ReaderClear` and `IniReaderClear`; for XML no vectors (`C82_xml_refuted`).
-/
set_option autoImplicit false

namespace Stfx.Cpp
open Stfx.Lexer Stfx.Run Stfx.Parser Stfx.Items Stfx.Gen

/-- The second call, n_ini. -/
theorem C82_ini_text_partial {fs : List (Str × Header)} {out : OutSpec} {prog : List Item} {E : Env} (h : IniBuilt fs out prog E)
    (hc : IniReaderClear (declsOf fs) out) (hcl : NoClash E.T) (hE : E.T.EnumInts) (hL : E.I.Bits) {u : Bool} {n : Str}
    (hn : TopStruct (declsOf fs) n) {self : List (Str × Var)} {al ak av : Nat} (hs : IniSelf self al ak av) {s : St} {t q : Place} {f x : Str} {old : Val}
    {st : IniSt} (ht : getAt s.mem t = some (.str f)) (hq : getAt s.mem q = some old) (hr : RdrMem al ak av s.mem st) (ha : Apart q al ak av)
    (hta : Apart t al ak av) (htq : t.addr ≠ q.addr) (hw : CTable.WT E.T u (.struct n) old) (hx : E.text (cStr f) = some x) {fuel fuel' : Nat}
    (hd : IniDepth (some x) old fuel) {r : EV} {s' : St}
    (h1 : callMethod E self (fuel + 2) out.readerClass c!"read_from_file" [.lv .str t, .lv (.struct n) q] s = .ok r s')
    (hd' : ∀ w, getAt s'.mem q = some w → IniDepth (some x) w fuel') :
    ∃ s'', callMethod E self (fuel' + 2) out.readerClass c!"read_from_file" [.lv .str t, .lv (.struct n) q] s' = .ok r s'' ∧
      Frame al ak av s'.mem s''.mem ∧ s''.vars = s'.vars ∧ s''.files = s'.files ++ [.closed] ∧ s''.out = s'.out := by
  have r1 := C63_read_partial h hc hcl hE hL hn hs ht hq hr ha hw (hx ▸ hd)
  rw [hx, h1] at r1
  rcases C52_typed h.gen h.compiled hcl hE hL hn hw st (some x) with he | ⟨b, w, st', he, hw'⟩
  · cases r1.ub he
  obtain ⟨R, e, hR, hF⟩ := r1.ok _ _ _ he
  cases e
  have hqR : getAt R q = some old := by rw [hF.getAt ha.1 ha.2.1 ha.2.2, hq]
  have hq' : getAt (setAt R q w) q = some w := getAt_setAt hqR
  have ht' : getAt (setAt R q w) t = some (.str f) := by
    rw [← ht, ← hF.getAt hta.1 hta.2.1 hta.2.2]
    unfold getAt
    rw [setAt_ne (Ne.symm htq)]
  have r2 := C63_read_partial (s := ⟨setAt R q w, s.vars, s.files ++ (if (some x).isSome then [.closed] else []), s.out⟩) h hc hcl hE hL hn hs ht' hq'
    (hR.setAt ha) ha hw' (hx ▸ hd' w hq')
  obtain ⟨st2, he2, _⟩ := C82_ini hL hE h.gen h.compiled hcl hn hw he
  rw [hx] at r2
  obtain ⟨R2, e2, _, hF2⟩ := r2.ok _ _ _ he2
  refine ⟨_, e2, ?_, rfl, rfl, rfl⟩
  show Frame al ak av (setAt R q w) (setAt R2 q w)
  rw [setAt_self (show getAt R2 q = some w by rw [hF2.getAt ha.1 ha.2.1 ha.2.2]; exact hq')]
  exact hF2

theorem wt_undef {T : CTable} {u : Bool} {ty : MTy} {v : Val} (h : CTable.WT T u ty v) : CTable.WT T true ty v := by
  induction h with
  | undef _ h1 h2 h3 => exact .undef rfl h1 h2 h3
  | simple h => exact .simple h
  | enum h1 h2 h3 => exact .enum h1 h2 h3
  | struct h1 h2 _ ih => exact .struct h1 h2 ih
  | vec _ ih => exact .vec ih

/-- The second call, XML. -/
theorem C82_xml_text_partial {fs : List (Str × Header)} {k : Kind} {out : OutSpec} {prog : List Item} {E : Env} (h : XmlBuilt fs k out prog E)
    (hc : ReaderClear (declsOf fs) out) (hE : E.T.EnumInts) (hL : E.L.Bits) {u : Bool} (hu : E.T.Defined u)
    (hv : ∀ c ms, E.T.cls c = some ms → ∀ m ∈ ms, ∀ c', m.ty ≠ .vec c') {n : Str}
    (hn : TopStruct (declsOf fs) n) {self : List (Str × Var)} (hs : ReaderSelf self) {s : St} {t q : Place} {f : Str} {old : Val}
    (ht : getAt s.mem t = some (.str f)) (hq : getAt s.mem q = some old) (htq : t.addr ≠ q.addr) (hw : CTable.WT E.T u (.struct n) old)
    {ks : List Node} {root : Node} (hx : E.load (cStr f) = .ok ks) (hroot : ks.find? Node.isElem = some root) {fuel fuel' : Nat}
    (hd : DocDepth (.ok ks) fuel) (hd' : DocDepth (.ok ks) fuel') {r : EV} {s' : St}
    (h1 : callMethod E self (fuel + 2) out.readerClass c!"read_from_file" [.lv .str t, .lv (.struct n) q] s = .ok r s') :
    callMethod E self (fuel' + 2) out.readerClass c!"read_from_file" [.lv .str t, .lv (.struct n) q] s' = .ok r s' := by
  have r1 := C61_read_partial h hc hE hL hu hn hs ht hq hw (hx ▸ hd)
  rw [hx, h1] at r1
  rcases C48_typed h.gen h.kind h.compiled hE hL hu hn hw (.ok ks) with he | ⟨w, he, hw', _⟩
  · rw [he] at r1; cases r1
  rw [he] at r1
  cases r1
  have hq' : getAt (setAt s.mem q w) q = some w := getAt_setAt hq
  have ht' : getAt (setAt s.mem q w) t = some (.str f) := by
    rw [← ht]
    unfold getAt
    rw [setAt_ne (Ne.symm htq)]
  have r2 := C61_read_partial (s := { s with mem := setAt s.mem q w }) h hc hE hL hu hn hs ht' hq' hw' (hx ▸ hd')
  rw [hx, C82_xml_partial h.gen h.kind h.compiled hv hn (wt_undef hw) hroot he] at r2
  refine Eq.trans r2 ?_
  show Res.ok _ { s with mem := setAt (setAt s.mem q w) q w } = _
  rw [setAt_self hq']

/-! ### Examples -/

theorem sw_read : iniRead (swEnv smallIniLib).T (swEnv smallIniLib).I (sampleProg swFiles .nIni plainOut) c!"Sws" IniSt.init ((swEnv smallIniLib).text (cStr c!"f.ini")) (swVal 3 4 true 0) =
    .ok ((true, swVal (-5) 8 true 1), ⟨[], [(c!"sw", [(c!"u", c!"\t 8"), (c!"b", c!"7"), (c!"m", c!"on"), (c!"w", c!"-5 m")])], some c!"sw", [], []⟩) := by decide +kernel

/-- The file is read twice. -/
example : ∃ s' s'', callMethod (swEnv smallIniLib) iniSelf 60 c!"R" c!"read_from_file" [.lv .str ⟨0, []⟩, .lv (.struct c!"Sws") ⟨5, []⟩] (iniMem c!"f.ini" [] [] (swVal 3 4 true 0)) =
      .ok (.rv (.prim .bool) (.val (.bool true))) s' ∧ getAt s'.mem ⟨5, []⟩ = some (swVal (-5) 8 true 1) ∧
    callMethod (swEnv smallIniLib) iniSelf 60 c!"R" c!"read_from_file" [.lv .str ⟨0, []⟩, .lv (.struct c!"Sws") ⟨5, []⟩] s' = .ok (.rv (.prim .bool) (.val (.bool true))) s'' ∧
    getAt s''.mem ⟨5, []⟩ = some (swVal (-5) 8 true 1) := by
  have hw : CTable.WT (swEnv smallIniLib).T false (.struct c!"Sws") (swVal 3 4 true 0) := wtb_sound (T := swData.table) _ _ (by decide +kernel)
  have h := C63_read_partial (u := false) swEnv_built sw_clear (CData.noClash (by decide +kernel))
    (CData.enumInts (by decide +kernel)) smallIniLib_bits sw_top iniSelf_ok (s := iniMem c!"f.ini" [] [] (swVal 3 4 true 0)) (t := ⟨0, []⟩) (q := ⟨5, []⟩) rfl rfl (iniMem_new _ _)
    (by unfold Apart; decide) hw (fuel := 58) ⟨fun t h => by cases h; decide, by decide⟩
  obtain ⟨R, h1, _, hF⟩ := h.ok _ _ _ sw_read
  have hg : getAt (setAt R ⟨5, []⟩ (swVal (-5) 8 true 1)) ⟨5, []⟩ = some (swVal (-5) 8 true 1) :=
    getAt_setAt (v := swVal 3 4 true 0) (by rw [hF.getAt (by decide) (by decide) (by decide)]; rfl)
  obtain ⟨s'', h2, hF2, _⟩ := C82_ini_text_partial (u := false) swEnv_built sw_clear (CData.noClash (by decide +kernel))
    (CData.enumInts (by decide +kernel)) smallIniLib_bits sw_top iniSelf_ok (s := iniMem c!"f.ini" [] [] (swVal 3 4 true 0)) (t := ⟨0, []⟩) (q := ⟨5, []⟩) rfl rfl (iniMem_new _ _)
    (by unfold Apart; decide) (by unfold Apart; decide) (by decide) hw (x := swIni) rfl (fuel := 58) (fuel' := 58) ⟨fun t h => by cases h; decide, by decide⟩ h1
    (fun w hw => ⟨fun t h => by cases h; decide, by
      have e : w = swVal (-5) 8 true 1 := Option.some.inj (hw.symm.trans hg)
      rw [e]
      decide⟩)
  exact ⟨_, s'', h1, hg, h2, (hF2.getAt (by decide) (by decide) (by decide)).trans hg⟩

/-- A document for `Sws`.  (Example, models no code.) -/
def swRoot : Node := .elem c!"Sws" [] [.elem c!"sw" [] [.elem c!"w" [] [.text c!"5"], .elem c!"m" [] [.text c!"on"]]]
/-- (Example, models no code.) -/
def swXml : Env := xmlEnv swFiles .xml plainOut swData fun _ => .ok [swRoot]

theorem swXml_built : XmlBuilt swFiles .xml plainOut (sampleProg swFiles .xml plainOut) swXml := built_of (.inl rfl) (by decide +kernel)

theorem swXml_read : readFile swXml.T swXml.L (sampleProg swFiles .xml plainOut) c!"Sws" (swXml.load (cStr c!"f.xml")) (swVal 3 4 true 0) = .ok (true, swVal 5 4 true 1) := by
  decide +kernel

theorem sw_noVec (c : Str) (ms : List CMember) (h : swXml.T.cls c = some ms) : ∀ m ∈ ms, ∀ c', m.ty ≠ .vec c' := by
  intro m hm c' e
  have : ∀ p ∈ swData.cls, ∀ m ∈ p.2, (match m.ty with | .vec _ => false | _ => true) = true := by decide +kernel
  have := this _ (mem_of_lookup h) m hm
  rw [e] at this
  cases this

set_option maxRecDepth 4096 in
/-- The document is read twice. -/
example : callMethod swXml [] 9 c!"R" c!"read_from_file" [.lv .str ⟨0, []⟩, .lv (.struct c!"Sws") ⟨2, []⟩] (shapeMem c!"f.xml" (swVal 3 4 true 0)) =
      .ok (.rv (.prim .bool) (.val (.bool true))) (shapeMem c!"f.xml" (swVal 5 4 true 1)) ∧
    callMethod swXml [] 9 c!"R" c!"read_from_file" [.lv .str ⟨0, []⟩, .lv (.struct c!"Sws") ⟨2, []⟩] (shapeMem c!"f.xml" (swVal 5 4 true 1)) =
      .ok (.rv (.prim .bool) (.val (.bool true))) (shapeMem c!"f.xml" (swVal 5 4 true 1)) := by
  have hw : CTable.WT swXml.T false (.struct c!"Sws") (swVal 3 4 true 0) := wtb_sound (T := swData.table) _ _ (by decide +kernel)
  have hc : ReaderClear (declsOf swFiles) plainOut := readerClear_of (by decide +kernel)
  have hE : swXml.T.EnumInts := CData.enumInts (by decide +kernel)
  have hu : swXml.T.Defined false := CData.defined (by decide +kernel)
  have hd : DocDepth (.ok [swRoot]) 7 := by intro ks hk; cases hk; decide
  have h := C61_read_partial swXml_built hc hE someLib_bits hu sw_top (self := []) (.inl rfl) (s := shapeMem c!"f.xml" (swVal 3 4 true 0)) (t := ⟨0, []⟩) (q := ⟨2, []⟩) rfl rfl
    hw (fuel := 7) hd
  rw [swXml_read] at h
  exact ⟨h, C82_xml_text_partial swXml_built hc hE someLib_bits hu sw_noVec sw_top (self := []) (.inl rfl) (s := shapeMem c!"f.xml" (swVal 3 4 true 0)) (t := ⟨0, []⟩) (q := ⟨2, []⟩) rfl rfl
    (by decide) hw (root := swRoot) rfl rfl (fuel := 7) (fuel' := 7) hd hd h⟩

end Stfx.Cpp
