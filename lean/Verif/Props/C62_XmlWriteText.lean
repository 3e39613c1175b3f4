import Verif.Cpp.Check
import Verif.Props.C61_XmlReadText
import Verif.Props.C37_C38_Write
import Verif.Props.C30_C33_Xml
/-
Property C62: running the text of the generated XML writers does what their model does.

As in C61 the texts of the structs .cpp file and of the enums .cpp file are read as C++ and run by the rules of C++.  A call
`write_to_file(filename, x)` then finds the overload of the struct of `x` and saves the document that `writeFile` (`Run/Xml.lean`)
says, about which C30-C47 speak; no object of the program is changed, and the result is that of `SaveFile`.

The exceptions: names of structs can be hidden by variables and functions in the generated classes, and `SetText` has no overload
for a `long` of 32 bits.
-/
set_option autoImplicit false
set_option maxRecDepth 4000
namespace Stfx.Cpp
open Stfx.Lexer Stfx.Run Stfx.Parser Stfx.Items Stfx.Gen

/-- What the call does in C++: the document is saved if the file can be written, the result is returned, nothing else is changed.
(Specification notion, models no code.) -/
def WriteDone (r : R Node) (can : Bool) (f : Str) (s : St) (x : Res EV) : Prop :=
  match r with
  | .ok root => x = .ok (.rv (.prim .bool) (.val (.bool can))) { s with out := if can then s.out ++ [(f, .doc [root])] else s.out }
  | .ub => x = .ub
  | .stuck => x = .stuck

/-- The object `write_to_file` is called on: its data member `m_delta_only` is in `am`.  (Specification notion, models no code.) -/
def WriterSelf (am : Nat) : List (Str × Var) := [(c!"m_delta_only", ⟨.prim .bool, ⟨am, []⟩⟩)]

/-- C62 as stated: a call of `write_to_file` does what the model says, whatever the structs.  (Specification notion, models no code.) -/
def C62_statement (longBits : Nat) : Prop :=
  ∀ (fs : List (Str × Header)) (k : Kind) (out : OutSpec) (prog : List Item) (E : Env), XmlBuilt fs k out prog E → out.onlyRead = false →
  E.T.longBits = longBits → ∀ n, TopStruct (declsOf fs) n →
  ∀ (am : Nat) (delta u : Bool) (s : St) (t q : Place) (f : Str) (v : Val) (fuel : Nat), s.mem[am]? = some (.val (.bool delta)) →
    getAt s.mem t = some (.str f) → getAt s.mem q = some v → CTable.WT E.T u (.struct n) v → nesting v ≤ fuel →
    WriteDone (writeFile E.T E.L prog delta n v) (E.canSave (cStr f)) (cStr f) s
      (callMethod E (WriterSelf am) (fuel + 2) out.writerClass c!"write_to_file" [.lv .str t, .lv (.struct n) q] s)

/-! ### The model is never stuck -/

theorem bind_stuck {α β : Type} {x : R α} {f : α → R β} (hx : x ≠ .stuck) (hf : ∀ a, x = .ok a → f a ≠ .stuck) : x >>= f ≠ .stuck := by
  cases x with
  | ok a => exact hf a rfl
  | ub => intro h; cases h
  | stuck => exact absurd rfl hx

theorem mapM_stuck {α β : Type} {f : α → R β} {l : List α} (h : ∀ a ∈ l, f a ≠ .stuck) : l.mapM f ≠ .stuck := by
  induction l with
  | nil => intro h; cases h
  | cons a l ih =>
    rw [List.mapM_cons]
    refine bind_stuck (h a (by simp)) fun b _ => bind_stuck (ih fun a ha => h a (by simp [ha])) fun bs _ => ?_
    intro h; cases h

section
variable {T : CTable} {L : Lib} {prog : List Item} {k : Kind}

theorem leafText_stuck {ty : MTy} (hl : ty.isLeaf = true) {u : Bool} {v : Val} (hv : CTable.WT T u ty v) : leafText T L k ty v ≠ .stuck := by
  cases hv with
  | undef _ _ _ _ =>
    cases ty with
    | struct _ => cases hl
    | vec _ => cases hl
    | enum _ => intro h; cases h
    | simple ty => cases ty <;> intro h <;> cases h
  | struct _ _ _ => cases hl
  | vec _ => cases hl
  | enum h _ _ => simp [leafText, enumText, h]
  | @simple ty v hs => cases ty <;> cases v <;> first | (intro h; cases h; done) | (simp [CTable.simpleVal] at hs; done)

theorem neq_stuck {ty : MTy} (hl : ty.isLeaf = true) {u u' : Bool} {d v : Val} (hv : CTable.WT T u ty v) (hd : CTable.WT T u' ty d) : neq v d ≠ .stuck := by
  cases ty with
  | struct _ => cases hl
  | vec _ => cases hl
  | enum n =>
    cases hv with
    | undef _ _ _ _ => intro h; cases h
    | enum _ _ _ => cases hd <;> intro h <;> cases h
  | simple ty =>
    cases hv with
    | undef _ _ _ _ => intro h; cases h
    | simple hv =>
      cases hd with
      | undef _ _ _ _ => cases ty <;> cases v <;> first | (intro h; cases h; done) | (simp [CTable.simpleVal] at hv; done)
      | simple hd =>
        cases ty <;> cases v <;> try (simp [CTable.simpleVal] at hv; done)
        all_goals
          cases d <;> first
            | (intro h; cases h; done)
            | (simp [CTable.simpleVal] at hd; done)

/-- What the writers do for a member of each type.  (Specification notion, models no code.) -/
def NotStuck (T : CTable) (L : Lib) (prog : List Item) (delta : Bool) : MTy → Val → Prop
  | .struct c, v => (wrVal T L prog delta v).wr c ≠ .stuck
  | .vec c, v => ((wrVal T L prog delta v).items.mapM fun wr => wr c) ≠ .stuck
  | _, _ => True

theorem not_stuck {g delta u : Bool} (hc : Code T prog k g) {ty : MTy} {v : Val} (hv : CTable.WT T u ty v) : NotStuck T L prog delta ty v := by
  induction hv with
  | undef _ h1 h2 _ => unfold NotStuck; split <;> first | exact absurd rfl (h1 _) | exact absurd rfl (h2 _) | trivial
  | simple _ => trivial
  | enum _ _ _ => trivial
  | @struct c ms fs hcls hfs hwt ih =>
    obtain ⟨ls, hp, hr, hw⟩ := hc.fn c ms hcls
    have hnd := hc.good.nodup c ms hcls
    obtain ⟨ds, hds, hdn, hdl⟩ := dflt_struct hc.good hcls
    have hline : ∀ p ∈ ls, wrAct T L delta c (if g then ds else []) (wrFields T L prog delta fs) (lineWr k g p) ≠ .stuck := by
      intro p hpm
      obtain ⟨m, hm, rfl⟩ := List.mem_map.1 (hp.mem_iff.1 hpm)
      obtain ⟨v', hv'⟩ := lookup_isSome (hfs ▸ List.mem_map_of_mem hm : m.name ∈ fs.map Prod.fst)
      have ih := ih m hm v' hv'
      by_cases hl : m.ty.isLeaf = true
      · rw [wrAct_leaf hc.kind hl (memberTy_of hcls hnd hm) hv']
        refine bind_stuck ?_ fun b _ => ?_
        · cases hgt : (g && delta) with
          | false => rw [guard_full hgt]; intro h; cases h
          | true =>
            have hg1 : g = true := by cases g <;> simp_all
            rw [if_pos hg1, hdl m hm, guard_delta hgt]
            exact neq_stuck hl (hwt m hm v' hv') (dflt_wt hc.good hcls hds hm (hdl m hm))
        · cases b with
          | false => intro h; cases h
          | true =>
            refine bind_stuck (leafText_stuck hl (hwt m hm v' hv')) fun s _ => ?_
            intro h; cases h
      · cases hmt : m.ty with
        | simple _ => rw [hmt] at hl; exact absurd rfl hl
        | enum _ => rw [hmt] at hl; exact absurd rfl hl
        | struct c' =>
          rw [hmt] at ih
          simp only [lineWr, wrAct, field, wrFields_lookup, hv', Option.map_some, R.ok_bind]
          refine bind_stuck ih fun s _ => ?_
          intro h; cases h
        | vec c' =>
          rw [hmt] at ih
          simp only [lineWr, wrAct, field, wrFields_lookup, hv', Option.map_some, R.ok_bind]
          refine bind_stuck ih fun s _ => ?_
          intro h; cases h
    show (wrVal T L prog delta (.struct fs)).wr c ≠ .stuck
    rw [wrVal]
    dsimp only
    unfold runWr
    rw [hw]
    dsimp only
    rw [mapM_map, hds, show (Val.struct ds).fields = ds from rfl]
    refine bind_stuck (mapM_stuck hline) fun es _ => ?_
    intro h; cases h
  | @vec c vs hvs ih =>
    show ((wrVal T L prog delta (.vec vs)).items.mapM fun wr => wr c) ≠ .stuck
    rw [wrVal, wrVals_map]
    simp only [List.map_map, mapM_map, Function.comp_def]
    exact mapM_stuck fun v hv => ih v hv

mutual
theorem depth_reload : ∀ k : Node, depth (reload k) ≤ depth k
  | .elem n as ks => by
    rw [reload, depth, depth]
    exact Nat.succ_le_succ (depth_reloadKids ks)
  | .text s => by rw [reload, depth, depth] <;> simp
  | .comment => by rw [reload]; exact Nat.le_refl _
  | .misc => by rw [reload]; exact Nat.le_refl _
theorem depth_reloadKids : ∀ ks : List Node, depthKids (reloadKids ks) ≤ depthKids ks
  | [] => by rw [reloadKids]; exact Nat.le_refl _
  | k :: ks => by
    have h1 := depth_reload k
    have h2 := depth_reloadKids ks
    rw [reloadKids]
    split
    · simp only [depthKids]; omega
    · simp only [depthKids]; omega
end
end

/-! ### The calls -/

section
variable {fs : List (Str × Header)} {k : Kind} {out : OutSpec} {prog : List Item} {E : Env}

/-- Writing does what the model says, if no name is hidden. -/
theorem C62_write_partial (h : XmlBuilt fs k out prog E) (ho : out.onlyRead = false) (hc : WriterClear (declsOf fs) out)
    (hl : k = .attrib ∨ E.T.longBits = 64) {n : Str} (hn : TopStruct (declsOf fs) n) {am : Nat} {delta u : Bool} {s : St} {t q : Place} {f : Str} {v : Val}
    (hdl : s.mem[am]? = some (.val (.bool delta))) (ht : getAt s.mem t = some (.str f)) (hq : getAt s.mem q = some v)
    (hw : CTable.WT E.T u (.struct n) v) {fuel : Nat} (hd : nesting v ≤ fuel) :
    WriteDone (writeFile E.T E.L prog delta n v) (E.canSave (cStr f)) (cStr f) s
      (callMethod E (WriterSelf am) (fuel + 2) out.writerClass c!"write_to_file" [.lv .str t, .lv (.struct n) q] s) := by
  obtain ⟨hp, ns, hnd, hm, _, htop, hsn⟩ := h.wrProgram ho hc hl
  have hn' := (htop n).2 hn
  have hsim := write_file hp (self := WriterSelf am) (fun n hn => by unfold WriterSelf; rw [lookup_cons_ne hn]; rfl) rfl hnd (fun n hn => (hsn n hn).1) hn'
    (hsn n hn').2 (hm (List.ne_nil_of_mem hn')) ht hq hdl hw hd
  obtain ⟨hcd, hrw⟩ := h.gen.code h.kind ho h.compiled
  have hns : writeFile E.T E.L prog delta n v ≠ .stuck := by
    unfold writeFile
    rw [if_pos (hrw n hn).2]
    refine bind_stuck (not_stuck hcd hw) fun s _ => ?_
    intro h; cases h
  cases hr : writeFile E.T E.L prog delta n v with
  | ok root => rw [hr] at hsim; exact hsim
  | ub => rw [hr] at hsim; exact hsim
  | stuck => exact absurd hr hns

/-- C37 for the text of the functions: an object whose members have values is written, with all members if the writer is made so, or
with those that differ from a default object if all members of defaults have values. -/
theorem C62_written_partial (h : XmlBuilt fs k out prog E) (ho : out.onlyRead = false) (hc : WriterClear (declsOf fs) out)
    (hl : k = .attrib ∨ E.T.longBits = 64) {n : Str} (hn : TopStruct (declsOf fs) n) {am : Nat} {delta : Bool} {s : St} {t q : Place} {f : Str} {v : Val}
    (hdl : s.mem[am]? = some (.val (.bool delta))) (ht : getAt s.mem t = some (.str f)) (hq : getAt s.mem q = some v)
    (hw : CTable.WT E.T false (.struct n) v) (hi : delta = true → Initialised E.T) {fuel : Nat} (hd : nesting v ≤ fuel) :
    ∃ root, writeFile E.T E.L prog delta n v = .ok root ∧
      callMethod E (WriterSelf am) (fuel + 2) out.writerClass c!"write_to_file" [.lv .str t, .lv (.struct n) q] s =
        .ok (.rv (.prim .bool) (.val (.bool (E.canSave (cStr f)))))
          { s with out := if E.canSave (cStr f) then s.out ++ [(cStr f, .doc [root])] else s.out } := by
  obtain ⟨root, hr⟩ := C37_written (L := E.L) h.gen h.kind ho h.compiled hn hw hi
  have h1 := C62_write_partial h ho hc hl hn hdl ht hq hw hd
  rw [hr] at h1
  exact ⟨root, hr, h1⟩

/-- The trip through a file for the text of the functions: if the model says that the file gives `w` back, then `write_to_file`
saves a document, and once `LoadFile` finds that document, `read_from_file` makes an object `w`: called on a reader or on the writer,
by the names of both classes. -/
theorem C62_trip_partial (h : XmlBuilt fs k out prog E) (ho : out.onlyRead = false) (hr : ReaderClear (declsOf fs) out) (hc : WriterClear (declsOf fs) out)
    (hl : k = .attrib ∨ E.T.longBits = 64) {n : Str} (hn : TopStruct (declsOf fs) n) {am : Nat} {delta : Bool} {s : St} {t q : Place} {f : Str} {v o w : Val}
    (hdl : s.mem[am]? = some (.val (.bool delta))) (ht : getAt s.mem t = some (.str f)) (hq : getAt s.mem q = some v) {u : Bool}
    (hw : CTable.WT E.T u (.struct n) v) {fuel : Nat} (hd : nesting v ≤ fuel) (hcs : E.canSave (cStr f) = true)
    (hg : FileGives E.T E.L prog delta n v o w) :
    ∃ root, callMethod E (WriterSelf am) (fuel + 2) out.writerClass c!"write_to_file" [.lv .str t, .lv (.struct n) q] s =
        .ok (.rv (.prim .bool) (.val (.bool true))) { s with out := s.out ++ [(cStr f, .doc [root])] } ∧
      (E.load (cStr f) = loadSaved E.L root → ∀ (cls : Str), cls = out.readerClass ∨ cls = out.writerClass → ∀ (self : List (Str × Var)), ReaderSelf self →
        ∀ (s' : St) (t' q' : Place), getAt s'.mem t' = some (.str f) → getAt s'.mem q' = some o →
          callMethod E self (fuel + 2) cls c!"read_from_file" [.lv .str t', .lv (.struct n) q'] s' =
            .ok (.rv (.prim .bool) (.val (.bool true))) { s' with mem := setAt s'.mem q' w }) := by
  unfold FileGives writeRead at hg
  rw [R.bind_eq_ok] at hg
  obtain ⟨root, hroot, hread⟩ := hg
  have h1 := C62_write_partial h ho hc hl hn hdl ht hq hw hd
  rw [hroot, hcs] at h1
  refine ⟨root, h1, fun hload cls hcls self hs s' t' q' ht' hq' => ?_⟩
  have hdd : DocDepth (E.load (cStr f)) fuel := by
    intro ks hk k hkm
    rw [hload] at hk
    unfold loadSaved at hk
    split at hk
    · cases hk
      rw [List.mem_singleton] at hkm
      subst hkm
      have := depth_reload root
      have := writeFile_depth hroot
      omega
    · cases hk
  have hrd : callMethod E self (fuel + 2) out.readerClass c!"read_from_file" [.lv .str t', .lv (.struct n) q'] s' =
      .ok (.rv (.prim .bool) (.val (.bool true))) { s' with mem := setAt s'.mem q' w } := by
    obtain ⟨hp, ns, hnd, hm, htop, hsn⟩ := h.rdProgram hr
    have hsim := read_file hp hs.lookup hnd hsn ((htop n).2 hn) hm ht' hq' hdd
    rw [hload, hread] at hsim
    exact hsim
  rcases hcls with rfl | rfl
  · exact hrd
  · rw [h.inherited ho hr hc hl hn hs.lookup]
    exact hrd

end

/-! ### Examples -/

theorem shape_wclear : WriterClear (declsOf shapeFiles) plainOut := writerClear_of (by decide +kernel)

/-- Memory with the name of a file, `m_delta_only` and a shape.  (Specification notion, models no code.) -/
def shapeWrMem (f : Str) (delta : Bool) (v : Val) (out : List (Str × Saved)) : St := ⟨[.val (.str f), .val (.bool delta), .val v], [], [], out⟩

/-- A shape that differs from a default one in two members and a vector.  (Specification notion, models no code.) -/
def outShape : Val := shapeVal c!"a<b" 3 5 (pointVal 1 7) [pointVal 1 8]

/-- What is written of it by the element form, with all members or with those that are no defaults.
(Specification notion, models no code.) -/
def outShapeRoot : Bool → Node
  | false => .elem c!"Shape" [] [
      .elem c!"name" [] [.text c!"a<b"], .elem c!"id" [] [.text c!"3"], .elem c!"color" [] [.text c!"green"],
      .elem c!"at" [] [.elem c!"x" [] [.text c!"1"], .elem c!"y" [] [.text c!"7"]],
      .elem c!"pts" [] [.elem c!"Point" [] [.elem c!"x" [] [.text c!"1"], .elem c!"y" [] [.text c!"8"]]]]
  | true => .elem c!"Shape" [] [
      .elem c!"name" [] [.text c!"a<b"], .elem c!"color" [] [.text c!"green"], .elem c!"at" [] [],
      .elem c!"pts" [] [.elem c!"Point" [] [.elem c!"y" [] [.text c!"8"]]]]

/-- Writing a shape. -/
example (delta : Bool) : callMethod (shapeEnv .xml) (WriterSelf 1) 9 c!"W" c!"write_to_file" [.lv .str ⟨0, []⟩, .lv (.struct c!"Shape") ⟨2, []⟩]
      (shapeWrMem c!"f.xml" delta outShape []) =
    .ok (.rv (.prim .bool) (.val (.bool true))) (shapeWrMem c!"f.xml" delta outShape [(c!"f.xml", .doc [outShapeRoot delta])]) := by
  have h := C62_write_partial (shape_built (.inl rfl)) rfl shape_wclear (.inr rfl) shape_top (am := 1) (u := false) (s := shapeWrMem c!"f.xml" delta outShape []) (t := ⟨0, []⟩) (q := ⟨2, []⟩)
    rfl rfl rfl (wtb_sound _ _ (by decide +kernel)) (fuel := 7) (by decide +kernel)
  have hr : writeFile (shapeEnv .xml).T (shapeEnv .xml).L (sampleProg shapeFiles .xml plainOut) delta c!"Shape" outShape = .ok (outShapeRoot delta) := by
    cases delta <;> decide +kernel
  rw [hr] at h
  exact h

/-- A shape with an uninitialised member: reading the member is undefined behaviour. -/
example (delta : Bool) : callMethod (shapeEnv .attrib) (WriterSelf 1) 9 c!"W" c!"write_to_file" [.lv .str ⟨0, []⟩, .lv (.struct c!"Shape") ⟨2, []⟩]
      (shapeWrMem c!"f.xml" delta (.struct [(c!"name", .str c!"x"), (c!"id", .num 1), (c!"color", .undef), (c!"at", pointVal 1 2), (c!"pts", .vec [])]) []) = .ub := by
  have h := C62_write_partial (shape_built (.inr rfl)) rfl shape_wclear (.inl rfl) shape_top (am := 1) (u := true)
    (s := shapeWrMem c!"f.xml" delta (.struct [(c!"name", .str c!"x"), (c!"id", .num 1), (c!"color", .undef), (c!"at", pointVal 1 2), (c!"pts", .vec [])]) []) (t := ⟨0, []⟩) (q := ⟨2, []⟩)
    rfl rfl rfl (wtb_sound _ _ (by decide +kernel)) (fuel := 7) (by decide +kernel)
  have hr : writeFile (shapeEnv .attrib).T (shapeEnv .attrib).L (sampleProg shapeFiles .attrib plainOut) delta c!"Shape"
      (.struct [(c!"name", .str c!"x"), (c!"id", .num 1), (c!"color", .undef), (c!"at", pointVal 1 2), (c!"pts", .vec [])]) = .ub := by
    cases delta <;> decide +kernel
  rw [hr] at h
  exact h

/-- All shapes are written. -/
example (v : Val) (hv : CTable.WT shapeData.table false (.struct c!"Shape") v) : ∃ root, callMethod (shapeEnv .attrib) (WriterSelf 1) (nesting v + 2) c!"W" c!"write_to_file"
      [.lv .str ⟨0, []⟩, .lv (.struct c!"Shape") ⟨2, []⟩] (shapeWrMem c!"f.xml" false v []) =
    .ok (.rv (.prim .bool) (.val (.bool true))) (shapeWrMem c!"f.xml" false v [(c!"f.xml", .doc [root])]) := by
  obtain ⟨root, _, h⟩ := C62_written_partial (shape_built (.inr rfl)) rfl shape_wclear (.inl rfl) shape_top (am := 1) (s := shapeWrMem c!"f.xml" false v []) (t := ⟨0, []⟩) (q := ⟨2, []⟩)
    rfl rfl rfl hv (by simp) (Nat.le_refl _)
  exact ⟨root, h⟩

/-- The trip: whatever else the files are, the same shape is read from the file written, by the writer. -/
example (load : Str → Doc) : ∃ root, callMethod (xmlEnv shapeFiles .xml plainOut shapeData load) (WriterSelf 1) 9 c!"W" c!"write_to_file"
        [.lv .str ⟨0, []⟩, .lv (.struct c!"Shape") ⟨2, []⟩] (shapeWrMem c!"f.xml" false someShape []) =
      .ok (.rv (.prim .bool) (.val (.bool true))) (shapeWrMem c!"f.xml" false someShape [(c!"f.xml", .doc [root])]) ∧
    (load c!"f.xml" = loadSaved someLib root →
      callMethod (xmlEnv shapeFiles .xml plainOut shapeData load) (WriterSelf 1) 9 c!"W" c!"read_from_file" [.lv .str ⟨0, []⟩, .lv (.struct c!"Shape") ⟨2, []⟩]
        (shapeWrMem c!"f.xml" true (shapeVal c!"old" 9 9 (pointVal 0 0) []) []) =
      .ok (.rv (.prim .bool) (.val (.bool true))) (shapeWrMem c!"f.xml" true someShape [])) := by
  have hb : XmlBuilt shapeFiles .xml plainOut (sampleProg shapeFiles .xml plainOut) (xmlEnv shapeFiles .xml plainOut shapeData load) :=
    built_of (.inl rfl) (by decide +kernel)
  obtain ⟨root, h1, h2⟩ := C62_trip_partial hb rfl shape_clear shape_wclear (.inr rfl) shape_top (am := 1) (u := false)
    (s := shapeWrMem c!"f.xml" false someShape []) (t := ⟨0, []⟩) (q := ⟨2, []⟩) (fuel := 7) rfl rfl rfl someShape_wt (by decide +kernel) rfl
    (C32_element_full_partial hb.gen rfl hb.compiled shape_top (Or.inl rfl) someShape_wt (show nesting someShape ≤ 500 by decide +kernel) (someShape_fits _)
      (t := shapeVal c!"old" 9 9 (pointVal 0 0) []) (freshb_sound (T := shapeData.table) _ _ (by decide +kernel)))
  exact ⟨root, h1, fun hl => h2 hl c!"W" (.inr rfl) (WriterSelf 1) (.inr ⟨_, rfl⟩) (shapeWrMem c!"f.xml" true (shapeVal c!"old" 9 9 (pointVal 0 0) []) []) ⟨0, []⟩ ⟨2, []⟩ rfl rfl⟩

/-! ### Hidden names, and `long` of 32 bits -/

/-- See the definition before it.  (Specification notion, models no code.) -/
def hiddenWrMem (x : Int) : St := ⟨[.val (.str c!"f.xml"), .val (.bool false), .val (hiddenVal x)], [], [], []⟩

/-- Structs named `a` and `do_wr_a`: in the class the name `do_wr_a` is that of the function which writes an `a`. -/
theorem C62_struct_do_wr : callMethod (hiddenEnv c!"a" c!"do_wr_a") (WriterSelf 1) 9 c!"W" c!"write_to_file" [.lv .str ⟨0, []⟩, .lv (.struct c!"do_wr_a") ⟨2, []⟩] (hiddenWrMem 2) = .stuck := by
  kernel_rfl

/-- With other names the same program writes the file. -/
example : callMethod (hiddenEnv c!"a" c!"do_wr_b") (WriterSelf 1) 9 c!"W" c!"write_to_file" [.lv .str ⟨0, []⟩, .lv (.struct c!"do_wr_b") ⟨2, []⟩] (hiddenWrMem 2) =
    .ok (.rv (.prim .bool) (.val (.bool true))) { hiddenWrMem 2 with out := [(c!"f.xml", .doc [.elem c!"do_wr_b" [] [.elem c!"x" [] [.text c!"2"]]])] } := by kernel_rfl

/-- The statement is false. -/
theorem C62_refuted : ¬ C62_statement 64 := by
  intro h
  have h1 := h (hiddenFiles c!"a" c!"do_wr_a") .xml plainOut _ (hiddenEnv c!"a" c!"do_wr_a") (built_of (.inl rfl) (by decide +kernel)) rfl rfl
    c!"do_wr_a" (topStruct_of (by decide +kernel)) 1 false false (hiddenWrMem 2) ⟨0, []⟩ ⟨2, []⟩ c!"f.xml" (hiddenVal 2) 7 rfl rfl rfl
    (wtb_sound _ _ (by decide +kernel)) (by decide +kernel)
  have hr : writeFile (hiddenEnv c!"a" c!"do_wr_a").T (hiddenEnv c!"a" c!"do_wr_a").L (sampleProg (hiddenFiles c!"a" c!"do_wr_a") .xml plainOut) false c!"do_wr_a"
      (hiddenVal 2) = .ok (.elem c!"do_wr_a" [] [.elem c!"x" [] [.text c!"2"]]) := by decide +kernel
  rw [hr] at h1
  have h2 := (show callMethod _ _ _ _ _ _ _ = _ from h1).symm.trans C62_struct_do_wr
  cases h2

/-- A header with a `long`, on a machine where it has 32 bits.  (Example, models no code.) -/
def longFiles : List (Str × Header) := [(c!"struct A{long x{1};};", { first := .struct c!"A" (.simple .long c!"x" (.val (.int c!"1"))) [], more := [] })]
/-- (Example, models no code.) -/
def longData (bits : Nat) : CData where
  cls := [(c!"A", [⟨c!"x", .simple .long, some (.num 1)⟩])]
  enm := []
  dflt := [(c!"A", hiddenVal 1)]
  longBits := bits
/-- (Example, models no code.) -/
def longEnv (k : Kind) (bits : Nat) : Env := xmlEnv longFiles k plainOut (longData bits) fun _ => .error

/-- `ch_el->SetText(data->x)` has no best overload. -/
theorem C62_long : callMethod (longEnv .xml 32) (WriterSelf 1) 9 c!"W" c!"write_to_file" [.lv .str ⟨0, []⟩, .lv (.struct c!"A") ⟨2, []⟩] (hiddenWrMem 2) = .stuck := by
  kernel_rfl

theorem C62_refuted_long : ¬ C62_statement 32 := by
  intro h
  have h1 := h longFiles .xml plainOut _ (longEnv .xml 32) (built_of (.inl rfl) (by decide +kernel)) rfl rfl
    c!"A" (topStruct_of (by decide +kernel)) 1 false false (hiddenWrMem 2) ⟨0, []⟩ ⟨2, []⟩ c!"f.xml" (hiddenVal 2) 7 rfl rfl rfl
    (wtb_sound _ _ (by decide +kernel)) (by decide +kernel)
  have hr : writeFile (longEnv .xml 32).T (longEnv .xml 32).L (sampleProg longFiles .xml plainOut) false c!"A"
      (hiddenVal 2) = .ok (.elem c!"A" [] [.elem c!"x" [] [.text c!"2"]]) := by decide +kernel
  rw [hr] at h1
  have h2 := (show callMethod _ _ _ _ _ _ _ = _ from h1).symm.trans C62_long
  cases h2

/-- The attribute form converts to `int` first, which is fine with both. -/
example (bits : Nat) (hb : bits = 32 ∨ bits = 64) : callMethod (longEnv .attrib bits) (WriterSelf 1) 9 c!"W" c!"write_to_file" [.lv .str ⟨0, []⟩, .lv (.struct c!"A") ⟨2, []⟩] (hiddenWrMem 2) =
    .ok (.rv (.prim .bool) (.val (.bool true))) { hiddenWrMem 2 with out := [(c!"f.xml", .doc [.elem c!"A" [(c!"x", c!"2")] []])] } := by
  rcases hb with rfl | rfl <;> kernel_rfl

end Stfx.Cpp
