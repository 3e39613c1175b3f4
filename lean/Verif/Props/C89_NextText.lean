import Verif.Props.C66_Objects
import Verif.Props.C78_Evolve
import Verif.Props.C79_IniEvolve
import Verif.Props.C82_Text
/-
C89: C78 and C79 for the text of generated files.  A program built from the files of one run of stfx writes an object; a program built
from the files of another run, for changed headers, reads it.

`_partial`: hidden names as in C61-C64; the objects and changes of C78 and C79.
-/
set_option autoImplicit false

namespace Stfx.Cpp
open Stfx.Lexer Stfx.Run Stfx.Parser Stfx.Items Stfx.Gen

variable {fs fs' : List (Str × Header)} {k : Kind} {out out' : OutSpec} {prog prog' : List Item} {E E' : Env} {cs cs' : List Class}

/-- What the second program does is determined by the models of the generated code, XML. -/
theorem next_xml (h : Linked fs k out prog E cs) (h' : Linked fs' k out' prog' E' cs') (hk : k = .xml ∨ k = .attrib) (ho : out.onlyRead = false)
    (hr : ReaderClear (declsOf fs) out) (hc : WriterClear (declsOf fs) out) (hr' : ReaderClear (declsOf fs') out') (hl : k = .attrib ∨ E.T.longBits = 64)
    (hE : E'.T.EnumInts) (hL : E'.L.Bits) {u' : Bool} (hu : E'.T.Defined u') (hlib : E'.L = E.L) {d : Bool} {args : List EV} (ha : WriterArgs d args)
    {n : Str} (hn : TopStruct (declsOf fs) n) (hn' : TopStruct (declsOf fs') n) {u : Bool} {s : St} {t q : Place} {f : Str} {v o w : Val}
    (ht : getAt s.mem t = some (.str f)) (hq : getAt s.mem q = some v) (hv : CTable.WT E.T u (.struct n) v) {fuel : Nat} (hd : nesting v ≤ fuel)
    (hcs : E.canSave (cStr f) = true) (hw : CTable.WT E'.T u' (.struct n) o) (hg : ReadByNext E.T E'.T E.L prog prog' d n v o w) :
    ∃ root, onNew E cs (fuel + 2) out.writerClass args c!"write_to_file" [.lv .str t, .lv (.struct n) q] s =
        .ok (.rv (.prim .bool) (.val (.bool true))) { s with out := s.out ++ [(cStr f, .doc [root])] } ∧
      ∀ (s' : St) (t' q' : Place) (f' : Str), E'.load (cStr f') = loadSaved E'.L root → getAt s'.mem t' = some (.str f') → getAt s'.mem q' = some o →
        onNew E' cs' (fuel + 2) out'.readerClass [] c!"read_from_file" [.lv .str t', .lv (.struct n) q'] s' =
          .ok (.rv (.prim .bool) (.val (.bool true))) { s' with mem := setAt s'.mem q' w } := by
  unfold ReadByNext at hg
  rw [R.bind_eq_ok] at hg
  obtain ⟨root, hroot, hread⟩ := hg
  have h1 := C66_xml_write_partial h hk ho hr hc hl ha hn ht hq hv hd
  rw [hroot, hcs] at h1
  refine ⟨root, h1, fun s' t' q' f' hload ht' hq' => ?_⟩
  have hdd : DocDepth (E'.load (cStr f')) fuel := by
    intro ks hk k hkm
    rw [hload] at hk
    unfold loadSaved at hk
    split at hk
    · cases hk
      rw [List.mem_singleton] at hkm
      subst hkm
      have := depth_reload root
      have := writeFile_depth hroot
      omega
    · cases hk
  have h2 := C66_xml_read_partial h' hk hr' hE hL hu hn' ht' hq' hw hdd
  rw [hload, hlib, hread] at h2
  exact h2

/-- C89, XML, files with everything: the second program reads the file, whatever was in the object, and gets the members both versions
have; members that are new keep what they had. -/
theorem C89_xml_partial (h : Linked fs k out prog E cs) (h' : Linked fs' k out' prog' E' cs') (hk : k = .xml ∨ k = .attrib) (ho : out.onlyRead = false)
    (hr : ReaderClear (declsOf fs) out) (hc : WriterClear (declsOf fs) out) (hr' : ReaderClear (declsOf fs') out') (hl : k = .attrib ∨ E.T.longBits = 64)
    (hE : E'.T.EnumInts) (hL : E'.L.Bits) {u' : Bool} (hu : E'.T.Defined u') (hlib : E'.L = E.L) {d : Bool} {args : List EV} (ha : WriterArgs d args)
    (hdelta : d = false ∨ out.noDelta = true) (hcomp : Compatible E.T E'.T) (hadd : AddsSafely k E.T E'.T)
    {n : Str} (hn : TopStruct (declsOf fs) n) (hn' : TopStruct (declsOf fs') n) {s : St} {t q : Place} {f : Str} {v o : Val}
    (ht : getAt s.mem t = some (.str f)) (hq : getAt s.mem q = some v) (hv : CTable.WT E.T false (.struct n) v) {fuel : Nat} (hd : nesting v ≤ fuel)
    (hm : nesting v ≤ E.L.maxDepth) (hf : Leaves E.T (fun ty v => Fits E.L ty v ∧ Visible k ty v) (.struct n) v)
    (hcs : E.canSave (cStr f) = true) (hw : CTable.WT E'.T u' (.struct n) o) :
    ∃ root w, onNew E cs (fuel + 2) out.writerClass args c!"write_to_file" [.lv .str t, .lv (.struct n) q] s =
        .ok (.rv (.prim .bool) (.val (.bool true))) { s with out := s.out ++ [(cStr f, .doc [root])] } ∧
      Carried E.T E'.T (.struct n) o v w ∧
      ∀ (s' : St) (t' q' : Place) (f' : Str), E'.load (cStr f') = loadSaved E'.L root → getAt s'.mem t' = some (.str f') → getAt s'.mem q' = some o →
        onNew E' cs' (fuel + 2) out'.readerClass [] c!"read_from_file" [.lv .str t', .lv (.struct n) q'] s' =
          .ok (.rv (.prim .bool) (.val (.bool true))) { s' with mem := setAt s'.mem q' w } := by
  obtain ⟨w, h1, h2⟩ := C78_full_partial (h.xml hk).gen (h'.xml hk).gen hk ho h.compiled h'.compiled hn hn' hdelta hcomp hadd hv hm hf (wt_undef hw)
  obtain ⟨root, h3, h4⟩ := next_xml h h' hk ho hr hc hr' hl hE hL hu hlib ha hn hn' ht hq hv hd hcs hw h1
  exact ⟨root, w, h3, h2, h4⟩

/-- C89, XML, files with or without the defaults, read into a new object: the defaults of the members both versions have are the same. -/
theorem C89_xml_default_partial (h : Linked fs k out prog E cs) (h' : Linked fs' k out' prog' E' cs') (hk : k = .xml ∨ k = .attrib) (ho : out.onlyRead = false)
    (hr : ReaderClear (declsOf fs) out) (hc : WriterClear (declsOf fs) out) (hr' : ReaderClear (declsOf fs') out') (hl : k = .attrib ∨ E.T.longBits = 64)
    (hE : E'.T.EnumInts) (hL : E'.L.Bits) {u' : Bool} (hu : E'.T.Defined u') (hlib : E'.L = E.L) {d : Bool} {args : List EV} (ha : WriterArgs d args)
    (hni : NoStructInits (declsOf fs)) (hni' : NoStructInits (declsOf fs')) (hcomp : Compatible E.T E'.T) (hadd : AddsSafely k E.T E'.T) (hdef : KeepsDefaults E.T E'.T)
    {n : Str} (hn : TopStruct (declsOf fs) n) (hn' : TopStruct (declsOf fs') n) {s : St} {t q : Place} {f : Str} {v : Val}
    (ht : getAt s.mem t = some (.str f)) (hq : getAt s.mem q = some v) (hv : CTable.WT E.T false (.struct n) v) {fuel : Nat} (hd : nesting v ≤ fuel)
    (hm : nesting v ≤ E.L.maxDepth) (hf : LeavesD E.T (if (!out.noDelta && d) = true then KeptDelta E.L k else KeptFull E.L k) (.struct n) (E.T.dflt n) v)
    (hcs : E.canSave (cStr f) = true) (hw : CTable.WT E'.T u' (.struct n) (E'.T.dflt n)) :
    ∃ root w, onNew E cs (fuel + 2) out.writerClass args c!"write_to_file" [.lv .str t, .lv (.struct n) q] s =
        .ok (.rv (.prim .bool) (.val (.bool true))) { s with out := s.out ++ [(cStr f, .doc [root])] } ∧
      Carried E.T E'.T (.struct n) (E'.T.dflt n) v w ∧
      ∀ (s' : St) (t' q' : Place) (f' : Str), E'.load (cStr f') = loadSaved E'.L root → getAt s'.mem t' = some (.str f') → getAt s'.mem q' = some (E'.T.dflt n) →
        onNew E' cs' (fuel + 2) out'.readerClass [] c!"read_from_file" [.lv .str t', .lv (.struct n) q'] s' =
          .ok (.rv (.prim .bool) (.val (.bool true))) { s' with mem := setAt s'.mem q' w } := by
  obtain ⟨w, h1, h2⟩ := C78_default_partial (h.xml hk).gen (h'.xml hk).gen hk ho h.compiled h'.compiled hni hni' hn hn' hcomp hadd hdef hv hm hf
  obtain ⟨root, h3, h4⟩ := next_xml h h' hk ho hr hc hr' hl hE hL hu hlib ha hn hn' ht hq hv hd hcs hw h1
  exact ⟨root, w, h3, h2, h4⟩

/-- The same as `next_xml` for n_ini. -/
theorem next_ini (h : Linked fs .nIni out prog E cs) (h' : Linked fs' .nIni out' prog' E' cs') (ho : out.onlyRead = false)
    (hr : IniReaderClear (declsOf fs) out) (hc : IniWriterClear (declsOf fs) out) (hr' : IniReaderClear (declsOf fs') out')
    (hcl : NoClash E'.T) (hE : E'.T.EnumInts) (hL : E'.I.Bits) (hlib : E'.I = E.I) {d : Bool} {args : List EV} (ha : WriterArgs d args)
    {n : Str} (hn : TopStruct (declsOf fs) n) (hn' : TopStruct (declsOf fs') n) {s : St} {t q : Place} {f : Str} {v o w : Val} {u u' : Bool}
    (ht : getAt s.mem t = some (.str f)) (hq : getAt s.mem q = some v) (hv : CTable.WT E.T u (.struct n) v) {fuel : Nat} (hd : nesting v ≤ fuel)
    (hcw : E.canWrite (cStr f) = true) (hw : CTable.WT E'.T u' (.struct n) o) (hg : IniReadByNext E.T E'.T E.I prog prog' d n v o w) :
    ∃ text, onNew E cs (fuel + 2) out.writerClass args c!"write_to_file" [.lv .str t, .lv (.struct n) q] s =
        .ok (.rv (.prim .bool) (.val (.bool true))) ⟨s.mem, s.vars, s.files ++ [.closed], s.out ++ [(cStr f, .text text)]⟩ ∧
      ∀ (s' : St) (t' q' : Place) (f' : Str) (fuel' : Nat), E'.text (cStr f') = some text → getAt s'.mem t' = some (.str f') → getAt s'.mem q' = some o →
        text.length ≤ fuel' → nesting o ≤ fuel' →
        onNew E' cs' (fuel' + 2) out'.readerClass [] c!"read_from_file" [.lv .str t', .lv (.struct n) q'] s' =
          .ok (.rv (.prim .bool) (.val (.bool true))) ⟨setAt s'.mem q' w, s'.vars, s'.files ++ [.closed], s'.out⟩ := by
  unfold IniReadByNext at hg
  rw [R.bind_eq_ok] at hg
  obtain ⟨text, htext, hread⟩ := hg
  rw [R.bind_eq_ok] at hread
  obtain ⟨⟨⟨b, w'⟩, st⟩, hread, e⟩ := hread
  cases e
  have h3 := C66_ini_write_partial h ho hr hc ha hn ht hq hv hd
  refine ⟨text, h3.ok text hcw htext, fun s' t' q' f' fuel' hx ht' hq' hl hd' => ?_⟩
  have h4 := C66_ini_read_partial h' hr' hcl hE hL hn' ht' hq' hw (fuel := fuel') ⟨fun y hy => by rw [hx] at hy; cases hy; exact hl, hd'⟩
  rw [hx, hlib] at h4
  exact h4.ok _ _ _ hread

/-- C89, n_ini, files with everything. -/
theorem C89_ini_partial (h : Linked fs .nIni out prog E cs) (h' : Linked fs' .nIni out' prog' E' cs') (ho : out.onlyRead = false)
    (hr : IniReaderClear (declsOf fs) out) (hc : IniWriterClear (declsOf fs) out) (hr' : IniReaderClear (declsOf fs') out')
    (hcl : NoClash E'.T) (hs : EnumsBeside E'.T) (hE : E'.T.EnumInts) (hL : E'.I.Bits) (hlib : E'.I = E.I) (hb : E.T.longBits ≤ E'.T.longBits)
    {d : Bool} {args : List EV} (ha : WriterArgs d args) (hdelta : d = false ∨ out.noDelta = true) (hcomp : Compatible E.T E'.T)
    {n : Str} (hn : TopStruct (declsOf fs) n) (hn' : TopStruct (declsOf fs') n) {s : St} {t q : Place} {f : Str} {v o : Val} {u' : Bool}
    (ht : getAt s.mem t = some (.str f)) (hq : getAt s.mem q = some v) (hv : CTable.WT E.T false (.struct n) v) {fuel : Nat} (hd : nesting v ≤ fuel)
    (hf : IniFits E.T (fun n ty _ v => IniFit E.T E.I n ty v) [] n v) (hcw : E.canWrite (cStr f) = true) (hw : CTable.WT E'.T u' (.struct n) o) :
    ∃ text w, onNew E cs (fuel + 2) out.writerClass args c!"write_to_file" [.lv .str t, .lv (.struct n) q] s =
        .ok (.rv (.prim .bool) (.val (.bool true))) ⟨s.mem, s.vars, s.files ++ [.closed], s.out ++ [(cStr f, .text text)]⟩ ∧
      Carried E.T E'.T (.struct n) o v w ∧
      ∀ (s' : St) (t' q' : Place) (f' : Str) (fuel' : Nat), E'.text (cStr f') = some text → getAt s'.mem t' = some (.str f') → getAt s'.mem q' = some o →
        text.length ≤ fuel' → nesting o ≤ fuel' →
        onNew E' cs' (fuel' + 2) out'.readerClass [] c!"read_from_file" [.lv .str t', .lv (.struct n) q'] s' =
          .ok (.rv (.prim .bool) (.val (.bool true))) ⟨setAt s'.mem q' w, s'.vars, s'.files ++ [.closed], s'.out⟩ := by
  obtain ⟨w, h1, h2⟩ := C79_full_partial h.ini.gen h'.ini.gen ho h.compiled h'.compiled hb hcl hs hn hn' hdelta hcomp hv hf (wt_undef hw)
  obtain ⟨text, h3, h4⟩ := next_ini h h' ho hr hc hr' hcl hE hL hlib ha hn hn' ht hq hv hd hcw hw h1
  exact ⟨text, w, h3, h2, h4⟩

/-- C89, n_ini, files without the defaults, read into a new object. -/
theorem C89_ini_default_partial (h : Linked fs .nIni out prog E cs) (h' : Linked fs' .nIni out' prog' E' cs') (ho : out.onlyRead = false) (hnd : out.noDelta = false)
    (hr : IniReaderClear (declsOf fs) out) (hc : IniWriterClear (declsOf fs) out) (hr' : IniReaderClear (declsOf fs') out')
    (hcl : NoClash E'.T) (hs : EnumsBeside E'.T) (hE : E'.T.EnumInts) (hL : E'.I.Bits) (hlib : E'.I = E.I) (hb : E.T.longBits ≤ E'.T.longBits)
    {args : List EV} (ha : WriterArgs true args) (hni : NoStructInits (declsOf fs)) (hni' : NoStructInits (declsOf fs')) (hcomp : Compatible E.T E'.T)
    (hdef : KeepsDefaults E.T E'.T)
    {n : Str} (hn : TopStruct (declsOf fs) n) (hn' : TopStruct (declsOf fs') n) {s : St} {t q : Place} {f : Str} {v : Val} {u' : Bool}
    (ht : getAt s.mem t = some (.str f)) (hq : getAt s.mem q = some v) (hv : CTable.WT E.T false (.struct n) v) {fuel : Nat} (hd : nesting v ≤ fuel)
    (hf : IniFits E.T (IniDelta E.T E.I) [] n v) (hcw : E.canWrite (cStr f) = true) (hw : CTable.WT E'.T u' (.struct n) (E'.T.dflt n)) :
    ∃ text w, onNew E cs (fuel + 2) out.writerClass args c!"write_to_file" [.lv .str t, .lv (.struct n) q] s =
        .ok (.rv (.prim .bool) (.val (.bool true))) ⟨s.mem, s.vars, s.files ++ [.closed], s.out ++ [(cStr f, .text text)]⟩ ∧
      Carried E.T E'.T (.struct n) (E'.T.dflt n) v w ∧
      ∀ (s' : St) (t' q' : Place) (f' : Str) (fuel' : Nat), E'.text (cStr f') = some text → getAt s'.mem t' = some (.str f') →
        getAt s'.mem q' = some (E'.T.dflt n) → text.length ≤ fuel' → nesting (E'.T.dflt n) ≤ fuel' →
        onNew E' cs' (fuel' + 2) out'.readerClass [] c!"read_from_file" [.lv .str t', .lv (.struct n) q'] s' =
          .ok (.rv (.prim .bool) (.val (.bool true))) ⟨setAt s'.mem q' w, s'.vars, s'.files ++ [.closed], s'.out⟩ := by
  obtain ⟨w, h1, h2⟩ := C79_delta_partial h.ini.gen h'.ini.gen ho hnd h.compiled h'.compiled hb hcl hs hni hni' hn hn' hcomp hdef hv hf
  obtain ⟨text, h3, h4⟩ := next_ini h h' ho hr hc hr' hcl hE hL hlib ha hn hn' ht hq hv hd hcw hw h1
  exact ⟨text, w, h3, h2, h4⟩

/-! ### Examples -/

theorem next_linked {k : Kind} (hk : k = .xml ∨ k = .attrib) (load : Str → Doc) :
    Linked nextFiles k plainOut (sampleProg nextFiles k plainOut) (xmlEnv nextFiles k plainOut nextData load) (sampleClasses nextFiles k plainOut) :=
  linked_xml (built_of hk (by decide +kernel)) (i := tablesOf nextFiles) (by decide +kernel) (described_of _ (by decide) (fun _ => rfl) (by rcases hk with rfl | rfl <;> rfl))

/-- A shape of the old program, read by the new one from a file of another name. -/
example (load : Str → Doc) (o : Val) (ho : CTable.WT nextData.table false (.struct c!"Shape") o) : ∃ root w,
    onNew (xmlEnv shapeFiles .xml plainOut shapeData load) (sampleClasses shapeFiles .xml plainOut) 9 c!"W"
        [.rv (.prim .bool) (.val (.bool false))] c!"write_to_file" [.lv .str ⟨0, []⟩, .lv (.struct c!"Shape") ⟨2, []⟩] (shapeMem c!"f.xml" someShape) =
      .ok (.rv (.prim .bool) (.val (.bool true))) { shapeMem c!"f.xml" someShape with out := [(c!"f.xml", .doc [root])] } ∧
    Carried shapeData.table nextData.table (.struct c!"Shape") o someShape w ∧
    (load c!"g.xml" = loadSaved someLib root →
      onNew (xmlEnv nextFiles .xml plainOut nextData load) (sampleClasses nextFiles .xml plainOut) 9 c!"R" [] c!"read_from_file" [.lv .str ⟨0, []⟩, .lv (.struct c!"Shape") ⟨2, []⟩]
        (shapeMem c!"g.xml" o) = .ok (.rv (.prim .bool) (.val (.bool true))) (shapeMem c!"g.xml" w)) := by
  obtain ⟨root, w, h1, h2, h3⟩ := C89_xml_partial (shape_linked (.inl rfl) load) (next_linked (.inl rfl) load) (.inl rfl) rfl shape_clear shape_wclear
    (readerClear_of (by decide +kernel)) (.inr rfl) (CData.enumInts (by decide +kernel)) someLib_bits (CData.defined (u := false) (by decide +kernel)) rfl (d := false) (.inl rfl)
    (.inl rfl) next_compatible (addsSafely_of (by decide +kernel)) shape_top next_top (s := shapeMem c!"f.xml" someShape) (t := ⟨0, []⟩) (q := ⟨2, []⟩) (f := c!"f.xml")
    (o := o) rfl rfl someShape_wt (fuel := 7) (by decide +kernel) (show nesting someShape ≤ 500 by decide +kernel) (someShape_fits _) rfl ho
  exact ⟨root, w, h1, h2, fun hl => h3 (shapeMem c!"g.xml" o) ⟨0, []⟩ ⟨2, []⟩ c!"g.xml" hl rfl rfl⟩

/-- The same without the defaults. -/
example (load : Str → Doc) : ∃ root w,
    onNew (xmlEnv shapeFiles .xml plainOut shapeData load) (sampleClasses shapeFiles .xml plainOut) 9 c!"W"
        [] c!"write_to_file" [.lv .str ⟨0, []⟩, .lv (.struct c!"Shape") ⟨2, []⟩] (shapeMem c!"f.xml" (shapeVal c!"abc" 3 0 (pointVal 1 7) [pointVal 1 7, pointVal 2 7])) =
      .ok (.rv (.prim .bool) (.val (.bool true)))
        { shapeMem c!"f.xml" (shapeVal c!"abc" 3 0 (pointVal 1 7) [pointVal 1 7, pointVal 2 7]) with out := [(c!"f.xml", .doc [root])] } ∧
    Carried shapeData.table nextData.table (.struct c!"Shape") (nextData.table.dflt c!"Shape") (shapeVal c!"abc" 3 0 (pointVal 1 7) [pointVal 1 7, pointVal 2 7]) w := by
  obtain ⟨root, w, h1, h2, _⟩ := C89_xml_default_partial (shape_linked (.inl rfl) load) (next_linked (.inl rfl) load) (.inl rfl) rfl shape_clear shape_wclear
    (readerClear_of (by decide +kernel)) (.inr rfl) (CData.enumInts (by decide +kernel)) someLib_bits (CData.defined (u := false) (by decide +kernel)) rfl (d := true) (.inr ⟨rfl, rfl⟩)
    shape_noInits next_noInits next_compatible (addsSafely_of (by decide +kernel)) (keepsDefaults_of (by decide +kernel)) shape_top next_top
    (s := shapeMem c!"f.xml" (shapeVal c!"abc" 3 0 (pointVal 1 7) [pointVal 1 7, pointVal 2 7])) (t := ⟨0, []⟩) (q := ⟨2, []⟩) (f := c!"f.xml")
    rfl rfl (wtb_sound (T := shapeData.table) _ _ (by decide +kernel)) (fuel := 7) (by decide +kernel) (show nesting _ ≤ 500 by decide +kernel)
    (leavesb_sound (T := shapeData.table) (p := keptDeltab .xml) (fun _ _ _ h => by
      rw [if_pos (by decide)]
      exact keptDelta_of h) _ _ (shapeData.table.dflt c!"Shape") (by decide +kernel)) rfl (wtb_sound (T := nextData.table) (nextData.table.dflt c!"Shape") _ (by decide +kernel))
  exact ⟨root, w, h1, h2⟩

theorem later_linked (text : Str → Option Str) :
    Linked laterFiles .nIni plainOut (sampleProg laterFiles .nIni plainOut) (iniEnv laterFiles plainOut laterData smallIniLib text) (sampleClasses laterFiles .nIni plainOut) :=
  linked_ini (iniBuilt_of (by decide +kernel)) (i := tablesOf laterFiles) (by decide +kernel) (described_of _ (by decide) (fun _ => rfl) rfl)

theorem conf_small_linked (text : Str → Option Str) :
    Linked confFiles .nIni plainOut (sampleProg confFiles .nIni plainOut) (iniEnv confFiles plainOut confData smallIniLib text) (sampleClasses confFiles .nIni plainOut) :=
  linked_ini (iniBuilt_of (by decide +kernel)) (i := tablesOf confFiles) (by decide +kernel) (described_of _ (by decide) (fun _ => rfl) rfl)

/-- Settings of the old program, read by the new one. -/
example (text : Str → Option Str) (o : Val) (ho : CTable.WT laterData.table false (.struct c!"Conf") o) : ∃ x w,
    onNew (iniEnv confFiles plainOut confData smallIniLib text) (sampleClasses confFiles .nIni plainOut) 9 c!"W"
        [.rv (.prim .bool) (.val (.bool false))] c!"write_to_file" [.lv .str ⟨0, []⟩, .lv (.struct c!"Conf") ⟨2, []⟩] (shapeMem c!"f.ini" someConf) =
      .ok (.rv (.prim .bool) (.val (.bool true))) ⟨(shapeMem c!"f.ini" someConf).mem, [], [.closed], [(c!"f.ini", .text x)]⟩ ∧
    Carried confData.table laterData.table (.struct c!"Conf") o someConf w ∧
    (text c!"g.ini" = some x →
      onNew (iniEnv laterFiles plainOut laterData smallIniLib text) (sampleClasses laterFiles .nIni plainOut) (x.length + nesting o + 2) c!"R" [] c!"read_from_file"
        [.lv .str ⟨0, []⟩, .lv (.struct c!"Conf") ⟨2, []⟩] (shapeMem c!"g.ini" o) =
      .ok (.rv (.prim .bool) (.val (.bool true))) ⟨(shapeMem c!"g.ini" w).mem, [], [.closed], []⟩) := by
  obtain ⟨x, w, h1, h2, h3⟩ := C89_ini_partial (conf_small_linked text) (later_linked text) rfl conf_rclear conf_wclear
    (iniReaderClear_of (by decide +kernel)) (CData.noClash (by decide +kernel)) (CData.enumsBeside (by decide +kernel)) (CData.enumInts (by decide +kernel)) smallIniLib_bits rfl
    (show confData.table.longBits ≤ laterData.table.longBits by decide) (d := false) (.inl rfl)
    (.inl rfl) later_compatible conf_top later_top (s := shapeMem c!"f.ini" someConf) (t := ⟨0, []⟩) (q := ⟨2, []⟩) (f := c!"f.ini")
    (o := o) rfl rfl someConf_wt (fuel := 7) (by decide +kernel)
    (iniFitsb_sound (T := confData.table) (p := fun n ty _ v => iniFitb confData.table smallIniLib n ty v) (fun _ _ _ _ h => iniFitb_sound h) _ _ _ (by decide +kernel)) rfl ho
  exact ⟨x, w, h1, h2, fun hl => h3 (shapeMem c!"g.ini" o) ⟨0, []⟩ ⟨2, []⟩ c!"g.ini" _ hl rfl rfl (by omega) (by omega)⟩

/-- The same without the defaults. -/
example (text : Str → Option Str) : ∃ x w,
    onNew (iniEnv confFiles plainOut confData smallIniLib text) (sampleClasses confFiles .nIni plainOut) 9 c!"W" [] c!"write_to_file"
        [.lv .str ⟨0, []⟩, .lv (.struct c!"Conf") ⟨2, []⟩] (shapeMem c!"f.ini" someConf) =
      .ok (.rv (.prim .bool) (.val (.bool true))) ⟨(shapeMem c!"f.ini" someConf).mem, [], [.closed], [(c!"f.ini", .text x)]⟩ ∧
    Carried confData.table laterData.table (.struct c!"Conf") (laterData.table.dflt c!"Conf") someConf w := by
  obtain ⟨x, w, h1, h2, _⟩ := C89_ini_default_partial (conf_small_linked text) (later_linked text) rfl rfl conf_rclear conf_wclear
    (iniReaderClear_of (by decide +kernel)) (CData.noClash (by decide +kernel)) (CData.enumsBeside (by decide +kernel)) (CData.enumInts (by decide +kernel)) smallIniLib_bits rfl
    (show confData.table.longBits ≤ laterData.table.longBits by decide) (.inr ⟨rfl, rfl⟩) conf_noInits (noStructInits_of (by decide +kernel))
    later_compatible (keepsDefaults_of (by decide +kernel)) conf_top later_top (u' := false) (s := shapeMem c!"f.ini" someConf) (t := ⟨0, []⟩) (q := ⟨2, []⟩) (f := c!"f.ini")
    rfl rfl someConf_wt (fuel := 7) (by decide +kernel)
    (iniFitsb_sound (T := confData.table) (P := IniDelta confData.table smallIniLib) (fun _ _ _ _ h => iniDeltab_sound h) _ _ _ (by decide +kernel)) rfl
    (wtb_sound (T := laterData.table) (laterData.table.dflt c!"Conf") _ (by decide +kernel))
  exact ⟨x, w, h1, h2⟩

end Stfx.Cpp
