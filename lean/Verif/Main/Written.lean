import Verif.Props.C23_Order
/-
What the generated files contain after a run: the tables of a group, generated after the common part, give the same code
as tables read from scratch.
-/
set_option autoImplicit false
namespace Stfx.Main
open Stfx.Lexer Stfx.Parser Stfx.Items Stfx.Gen

/-! ### Code depends on the number of references only as far as there are any -/

/-- A struct with its number of references reduced to 0 or 1.  (Proof notion, models no code.) -/
def norm (s : StructS) : StructS := { s with incoming := if s.incoming = 0 then 0 else 1 }

/-- The same up to the number of references.  (Proof notion, models no code.) -/
def SameRefs (S S' : SMap StructS) : Prop := S.map (fun p => (p.1, norm p.2)) = S'.map fun p => (p.1, norm p.2)

theorem filter_top (ss : List StructS) (f : StructS → Item) (hf : ∀ s, f (norm s) = f s) :
    ((ss.map norm).filter isTop).map f = (ss.filter isTop).map f := by
  induction ss with
  | nil => rfl
  | cons s ss ih =>
    have : isTop (norm s) = isTop s := by
      unfold isTop norm
      by_cases h : s.incoming = 0 <;> simp [h]
    rw [List.map_cons, List.filter_cons, List.filter_cons, this]
    split
    · rw [List.map_cons, List.map_cons, ih, hf]
    · exact ih

theorem flatMap_norm (ss : List StructS) (f : StructS → List Item) (hf : ∀ s, f (norm s) = f s) :
    (ss.map norm).flatMap f = ss.flatMap f := by
  induction ss with
  | nil => rfl
  | cons s ss ih => rw [List.map_cons, List.flatMap_cons, List.flatMap_cons, ih, hf]

theorem SameRefs.structs {S S' : SMap StructS} (h : SameRefs S S') :
    (S.map Prod.snd).map norm = (S'.map Prod.snd).map norm := by
  have := congrArg (List.map Prod.snd) h
  simpa [List.map_map, Function.comp_def] using this

theorem SameRefs.cpp {S S' : SMap StructS} (h : SameRefs S S') (k : Kind) (stamp fc fh : Str) (inputs : List Str) (out : OutSpec) :
    structsCpp k stamp fc fh inputs out S = structsCpp k stamp fc fh inputs out S' := by
  have key : ∀ S : SMap StructS, structsCpp k stamp fc fh inputs out S =
      structsCppHead k stamp fc fh inputs out ++
      [.readerCtor k out.readerClass] ++
      (((S.map Prod.snd).map norm).filter isTop).map (fun s => .defReadFile k out.readerClass s.name) ++
      ((S.map Prod.snd).map norm).flatMap (readerDef k out.readerClass) ++
      [.raw (if k.isXml then T.xml134 else T.ini208)] ++
      (if out.onlyRead then []
       else
        [.writerCtor k out.writerClass out.readerClass] ++
        (((S.map Prod.snd).map norm).filter isTop).map (fun s => .defWriteFile k out.writerClass s.name) ++
        ((S.map Prod.snd).map norm).flatMap (writerDef k out.writerClass out.noDelta) ++
        [.raw (if k.isXml then T.xml191 else T.ini264)]) := by
    intro S
    rw [filter_top _ _ fun _ => rfl, filter_top _ _ fun _ => rfl, flatMap_norm _ _ fun s => by cases k <;> rfl,
      flatMap_norm _ _ fun s => by cases k <;> rfl]
    rfl
  rw [key, key, h.structs]

theorem SameRefs.h {S S' : SMap StructS} (h : SameRefs S S') (k : Kind) (stamp fh : Str) (inputs : List Str) (out : OutSpec) :
    structsH k stamp fh inputs out S = structsH k stamp fh inputs out S' := by
  have key : ∀ S : SMap StructS, structsH k stamp fh inputs out S =
      (if k.isXml then [.raw (T.xml71 fh), .raw (T.xml72 (stfxInfo stamp)), .raw T.xml74]
       else [.raw (T.ini76 fh), .raw (T.ini77 (stfxInfo stamp)), .raw T.ini79]) ++
      inputs.map (fun f => .raw (if k.isXml then T.xml81 f else T.ini87 f)) ++
      [.raw (if k.isXml then T.xml83 else T.ini89), .readerClass k out.readerClass] ++
      (((S.map Prod.snd).map norm).filter isTop).map (fun s => .declReadFile k s.name) ++
      [.raw (if k.isXml then T.xml124 else T.ini198)] ++
      ((S.map Prod.snd).map norm).flatMap (readerDecl k) ++
      [.raw (if k.isXml then T.xml132 else T.ini206)] ++
      (if out.onlyRead then []
       else
        [.writerClass k out.writerClass out.readerClass] ++
        (((S.map Prod.snd).map norm).filter isTop).map (fun s => .declWriteFile k s.name) ++
        [.raw (if k.isXml then T.xml181 else T.ini254)] ++
        ((S.map Prod.snd).map norm).flatMap (writerDecl k) ++
        [.raw (if k.isXml then T.xml189 else T.ini262)]) := by
    intro S
    rw [filter_top _ _ fun _ => rfl, filter_top _ _ fun _ => rfl, flatMap_norm _ _ fun s => by cases k <;> rfl,
      flatMap_norm _ _ fun s => by cases k <;> rfl]
    rfl
  rw [key, key, h.structs]

/-! ### Reading on after generation -/

section
variable {a : Info} {ds : List Decl} {self : Nat}

theorem foldl_structs_old (hnd : (ds.map Decl.name).Nodup) (hn : ∀ d ∈ ds, getItemType a d.name = .unknown) {k : Str}
    (hk : getItemType a k ≠ .unknown) :
    (ds.foldl (Info.add self) a).structs.find? k = a.structs.find? k ∧
    (ds.foldl (Info.add self) a).enums.find? k = a.enums.find? k := by
  have : (ds.find? fun d => decide (d.name = k)) = none := by
    rw [List.find?_eq_none]
    intro d hd h
    simp only [decide_eq_true_eq] at h
    exact hk (h ▸ hn d hd)
  rw [foldl_add_structs _ _ _ hnd, foldl_add_enums _ _ _ hnd, this]
  exact ⟨rfl, rfl⟩

theorem getItemType_congr {i i' : Info} {k : Str} (h1 : (i.structs.find? k).isSome = (i'.structs.find? k).isSome)
    (h2 : (i.enums.find? k).isSome = (i'.enums.find? k).isSome) : getItemType i k = getItemType i' k := by
  unfold getItemType
  cases hs : i.structs.find? k <;> cases hs' : i'.structs.find? k <;> simp_all
  cases he : i.enums.find? k <;> cases he' : i'.enums.find? k <;> simp_all

/-- Generation on the tables read so far, then reading on, then generation: the code is that for all declarations
together, if all types were known the first time. -/
theorem read_on (ht : TabOk a) (hu : Unresolved a.structs a.enums) (h0 : ∀ n s, a.structs.find? n = some s → s.incoming = 0)
    (hok : (fixup a).2 = true) (hnd : (ds.map Decl.name).Nodup) (hn : ∀ d ∈ ds, getItemType a d.name = .unknown) (self' : Nat) :
    SameRefs (findTop (fixup (ds.foldl (Info.add self) (findTop (fixup a).1).1)).1).1.structs
      (findTop (fixup (ds.foldl (Info.add self') a)).1).1.structs ∧
    (ds.foldl (Info.add self) (findTop (fixup a).1).1).enums = (ds.foldl (Info.add self') a).enums := by
  have hsame : SameNames a (findTop (fixup a).1).1 := (fixup_same a).trans (findTop_same _)
  have hn' : ∀ d ∈ ds, getItemType (findTop (fixup a).1).1 d.name = .unknown := fun d hd => by
    rw [hsame.itemType]; exact hn d hd
  have tg := foldl_add_ok self (hsame.tabOk ht) ds hnd hn'
  have tf := foldl_add_ok self' ht ds hnd hn
  -- finds in the two tables
  have fg := fun k => foldl_add_structs self (findTop (fixup a).1).1 ds hnd k
  have ff := fun k => foldl_add_structs self' a ds hnd k
  have eg := fun k => foldl_add_enums self (findTop (fixup a).1).1 ds hnd k
  have ef := fun k => foldl_add_enums self' a ds hnd k
  have pa := prep_find a
  have henums : (ds.foldl (Info.add self) (findTop (fixup a).1).1).enums = (ds.foldl (Info.add self') a).enums :=
    SMap.Sorted.ext tg.sortedE tf.sortedE fun k => by rw [eg, ef, prep_enums]
  refine ⟨?_, henums⟩
  have hold := fun {k} hk => foldl_structs_old (self := self') hnd hn (k := k) hk
  generalize hgdef : ds.foldl (Info.add self) (findTop (fixup a).1).1 = g at *
  generalize hfdef : ds.foldl (Info.add self') a = f at *
  have hty : ∀ k, getItemType g k = getItemType f k := by
    intro k
    refine getItemType_congr ?_ (by rw [henums])
    rw [fg, ff]
    cases (ds.find? fun d => decide (d.name = k)).bind Decl.structRec with
    | some s => rfl
    | none => simp only [pa]; cases a.structs.find? k <;> rfl
  have hla : fixupLine g = fixupLine f := by
    funext co
    unfold fixupLine
    rw [hty]
  -- a line of the old tables
  have line : ∀ n s co, a.structs.find? n = some s → co ∈ s.complex →
      fixupLine f (fixupLine a co) = fixupLine f co ∧ fixupLine a co = fixupLine f co := by
    intro n s co hs hco
    rcases hu n s co hs hco with h | h
    · have hk : getItemType a co.tyName ≠ .unknown := by
        have hall := List.all_eq_true.1 hok (n, s) (SMap.find?_some_mem hs)
        have := List.all_eq_true.1 hall co hco
        unfold fixupLineOk at this
        simpa [h] using this
      have he : getItemType f co.tyName = getItemType a co.tyName :=
        getItemType_congr (by rw [(hold hk).1]) (by rw [(hold hk).2])
      have h1 : fixupLine a co = fixupLine f co := by
        unfold fixupLine
        rw [he]
      refine ⟨?_, h1⟩
      rw [h1]
      refine fixupLine_keep ?_
      rw [fixupLine_ty h, he]
      rcases itemType_cases a co.tyName with e | e | e
      · rw [e]; decide
      · rw [e]; decide
      · exact absurd e hk
    · have e1 : ∀ i : Info, fixupLine i co = co := fun i => fixupLine_keep (by rw [h]; decide)
      rw [e1, e1]
      exact ⟨rfl, rfl⟩
  have lines : ∀ n s, a.structs.find? n = some s →
      (s.complex.map (fixupLine a)).map (fixupLine f) = s.complex.map (fixupLine f) ∧
      s.complex.map (fixupLine a) = s.complex.map (fixupLine f) := by
    intro n s hs
    rw [List.map_map]
    exact ⟨List.map_congr_left fun co hco => (line n s co hs hco).1, List.map_congr_left fun co hco => (line n s co hs hco).2⟩
  -- the resolved tables have the same lines
  have sg : ∀ n s, (fixup g).1.structs.find? n = some s → ∃ s', (fixup f).1.structs.find? n = some s' ∧ s'.complex = s.complex := by
    intro n s hs
    rw [fixup_find, fg] at hs
    rw [fixup_find, ff]
    cases hd : (ds.find? fun d => decide (d.name = n)).bind Decl.structRec with
    | some r =>
      rw [hd] at hs
      cases hs
      exact ⟨_, rfl, by simp only [fixupStruct, hla]⟩
    | none =>
      rw [hd] at hs
      simp only [pa] at hs
      cases ha : a.structs.find? n with
      | none => rw [ha] at hs; cases hs
      | some r =>
        rw [ha] at hs
        cases hs
        exact ⟨_, rfl, by simp only [fixupStruct, hla, (lines n r ha).1]⟩
  have sf : ∀ n s, (fixup f).1.structs.find? n = some s → ∃ s', (fixup g).1.structs.find? n = some s' ∧ s'.complex = s.complex := by
    intro n s hs
    rw [fixup_find, ff] at hs
    rw [fixup_find, fg]
    cases hd : (ds.find? fun d => decide (d.name = n)).bind Decl.structRec with
    | some r =>
      rw [hd] at hs
      cases hs
      exact ⟨_, rfl, by simp only [fixupStruct, hla]⟩
    | none =>
      rw [hd] at hs
      simp only at hs
      cases ha : a.structs.find? n with
      | none => rw [ha] at hs; cases hs
      | some r =>
        rw [ha] at hs
        cases hs
        simp only [pa, ha]
        exact ⟨_, rfl, by simp only [fixupStruct, hla, (lines n r ha).1]⟩
  have hsg := ((fixup_same g).tabOk tg).sortedS
  have hsf := ((fixup_same f).tabOk tf).sortedS
  have hsa := ((fixup_same a).tabOk ht).sortedS
  have hrefs : ∀ k, refs (fixup g).1.structs k = 0 ↔ refs (fixup f).1.structs k = 0 := by
    intro k
    have : Ref (fixup g).1.structs k ↔ Ref (fixup f).1.structs k := by
      constructor
      · rintro ⟨n, s, co, h1, h2, h3⟩
        obtain ⟨s', e1, e2⟩ := sg n s h1
        exact ⟨n, s', co, e1, e2 ▸ h2, h3⟩
      · rintro ⟨n, s, co, h1, h2, h3⟩
        obtain ⟨s', e1, e2⟩ := sf n s h1
        exact ⟨n, s', co, e1, e2 ▸ h2, h3⟩
    rw [← Decidable.not_iff_not]
    exact (refs_pos hsg).trans (this.trans (refs_pos hsf).symm)
  have hrefa : ∀ k, refs (fixup a).1.structs k ≠ 0 → refs (fixup f).1.structs k ≠ 0 := by
    intro k h
    rw [refs_pos hsa] at h
    rw [refs_pos hsf]
    obtain ⟨n, s, co, h1, h2, h3⟩ := h
    rw [fixup_find] at h1
    cases ha : a.structs.find? n with
    | none => rw [ha] at h1; cases h1
    | some r =>
      rw [ha] at h1
      cases h1
      have hk : getItemType a n ≠ .unknown := by rw [itemType_of_struct ha]; decide
      refine ⟨n, fixupStruct f r, co, by rw [fixup_find, (hold hk).1, ha]; rfl, ?_, h3⟩
      simp only [fixupStruct] at h2 ⊢
      rw [← (lines n r ha).2]
      exact h2
  unfold SameRefs
  refine SMap.Sorted.ext (sorted_map (((findTop_same _).tabOk ((fixup_same g).tabOk tg)).sortedS) _)
    (sorted_map (((findTop_same _).tabOk ((fixup_same f).tabOk tf)).sortedS) _) fun k => ?_
  rw [find?_map, find?_map, prep_find, prep_find, fg, ff]
  cases hd : (ds.find? fun d => decide (d.name = k)).bind Decl.structRec with
  | some r =>
    have hr0 : r.incoming = 0 := by
      rw [Option.bind_eq_some_iff] at hd
      obtain ⟨d, _, hd⟩ := hd
      cases d with
      | enum => cases hd
      | struct => cases hd; rfl
    simp only [Option.map_some, hla, norm, hr0, Nat.zero_add, hrefs]
  | none =>
    simp only [pa]
    cases ha : a.structs.find? k with
    | none => rfl
    | some r =>
      simp only [Option.map_some, hla, norm, h0 k r ha, Nat.zero_add, (lines k r ha).1, Option.some.injEq]
      congr 1
      by_cases h : refs (fixup f).1.structs k = 0
      · have h' : refs (fixup a).1.structs k = 0 := Classical.byContradiction fun hne => hrefa k hne h
        rw [if_pos h, if_pos (by rw [h', (hrefs k).2 h])]
      · rw [if_neg h, if_neg]
        have : refs (fixup g).1.structs k ≠ 0 := fun h' => h ((hrefs k).1 h')
        omega

end

/-! ### Contents of files -/

theorem Wrote.read {env : Env} {w w' : World} {ps : List Str} (h : Wrote env w w' ps) {q : Str}
    (hq : ∀ p ∈ ps, env.ident p ≠ env.ident q) : w'.read env q = w.read env q := by
  apply Classical.byContradiction
  intro hne
  obtain ⟨p, hp, _, e⟩ := h.files _ hne
  exact hq p hp e.symm

/-- The files for an output specification can be opened: the directory exists, and both files of each wanted pair can be
written and are different files.  (Proof notion, models no code.) -/
structure Writable (env : Env) (dir f : Str) : Prop where
  wanted : f ≠ [] ∧ f ≠ c!"-"
  cpp : env.canWrite (cppPath dir f) = true
  h : env.canWrite (hPath dir f) = true
  differ : env.ident (cppPath dir f) ≠ env.ident (hPath dir f)

theorem processItems_written {w : World} {self : Nat} {i : Info} (hi : w.heap[self]? = some i) (env : Env) (k : Kind)
    (base : Str) (inputs : List Str) (out : OutSpec) {dir : Str} (hd : outDir env base out = some dir) :
    ∃ b w', processItems env k base self inputs out w = .ok b w' ∧
      (Writable env dir out.structsFile →
        w'.read env (cppPath dir out.structsFile) = some (fileText (structsCpp k env.stamp (filename (cppPath dir out.structsFile))
          (filename (hPath dir out.structsFile)) inputs out (findTop (fixup i).1).1.structs)) ∧
        w'.read env (hPath dir out.structsFile) = some (fileText (structsH k env.stamp (filename (hPath dir out.structsFile)) inputs
          out (findTop (fixup i).1).1.structs))) ∧
      (Writable env dir out.enumFile → ∀ q, (q = cppPath dir out.enumFile ∨ q = hPath dir out.enumFile) →
        (∀ p ∈ pairPaths env dir out.structsFile, env.ident p ≠ env.ident q) →
        w'.read env q = some (fileText (if q = cppPath dir out.enumFile
          then enumsCpp env.stamp (filename (cppPath dir out.enumFile)) (filename (hPath dir out.enumFile)) inputs i.enums
          else enumsH env.stamp (filename (hPath dir out.enumFile)) inputs i.enums))) := by
  have hlt : self < w.heap.length := (List.getElem?_eq_some_iff.1 hi).1
  have hp : prepare self w.heap = some (w.heap.set self (findTop (fixup i).1).1, (fixup i).2 && true) := by
    unfold prepare; rw [hi]; rfl
  have dis : ∀ {f}, Writable env dir f → disabled f = false := by
    intro f h
    cases hx : disabled f with
    | false => rfl
    | true =>
      rcases (disabled_iff f).1 hx with h' | h'
      · exact absurd h' h.wanted.1
      · exact absurd h' h.wanted.2
  have enum : ∀ (w1 : World) (a b : Str) q, Writable env dir out.enumFile → (q = cppPath dir out.enumFile ∨ q = hPath dir out.enumFile) →
      (writePair env (cppPath dir out.enumFile) (hPath dir out.enumFile) a b w1).2.read env q =
        some (if q = cppPath dir out.enumFile then a else b) := by
    intro w1 a b q hw hq
    have := writePair_contents env (cppPath dir out.enumFile) (hPath dir out.enumFile) a b w1 hw.cpp hw.h
    have hne : hPath dir out.enumFile ≠ cppPath dir out.enumFile := fun e => hw.differ (by rw [e])
    rcases hq with rfl | rfl
    · rw [if_pos rfl]; exact this.2 hw.differ
    · rw [if_neg hne]; exact this.1
  unfold processItems
  rw [hp]
  simp only [List.getElem?_set_self hlt]
  have hpair : disabled out.structsFile = false → pairPaths env dir out.structsFile =
      cppPath dir out.structsFile :: (if env.canWrite (cppPath dir out.structsFile) then [hPath dir out.structsFile] else []) := by
    intro h
    unfold pairPaths
    rw [if_neg]
    rw [← disabled_iff, h]
    decide
  cases h1 : disabled out.enumFile <;> cases h2 : disabled out.structsFile <;>
    simp only [processAllEnums, processAllStructs, hd, Res.bind, if_true, if_false, Bool.false_eq_true, prep_enums] <;>
    refine ⟨_, _, rfl, fun hs => ?_, fun he q hq hdis => ?_⟩
  · have := writePair_contents env (cppPath dir out.structsFile) (hPath dir out.structsFile) (fileText (structsCpp k env.stamp
      (filename (cppPath dir out.structsFile)) (filename (hPath dir out.structsFile)) inputs out (findTop (fixup i).1).1.structs))
      (fileText (structsH k env.stamp (filename (hPath dir out.structsFile)) inputs out (findTop (fixup i).1).1.structs))
      (writePair env (cppPath dir out.enumFile) (hPath dir out.enumFile)
        (fileText (enumsCpp env.stamp (filename (cppPath dir out.enumFile)) (filename (hPath dir out.enumFile)) inputs i.enums))
        (fileText (enumsH env.stamp (filename (hPath dir out.enumFile)) inputs i.enums))
        { w with heap := w.heap.set self (findTop (fixup i).1).1 }).2 hs.cpp hs.h
    exact ⟨this.2 hs.differ, this.1⟩
  · rw [(writePair_wrote env _ _ _ _ _).read (by rw [← hpair h2]; exact hdis), enum _ _ _ q he hq]
    split <;> rfl
  · exact absurd (dis hs) (by simp [h2])
  · rw [enum _ _ _ q he hq]
    split <;> rfl
  · have := writePair_contents env (cppPath dir out.structsFile) (hPath dir out.structsFile) (fileText (structsCpp k env.stamp
      (filename (cppPath dir out.structsFile)) (filename (hPath dir out.structsFile)) inputs out (findTop (fixup i).1).1.structs))
      (fileText (structsH k env.stamp (filename (hPath dir out.structsFile)) inputs out (findTop (fixup i).1).1.structs))
      { w with heap := w.heap.set self (findTop (fixup i).1).1 } hs.cpp hs.h
    exact ⟨this.2 hs.differ, this.1⟩
  · exact absurd (dis he) (by simp [h1])
  · exact absurd (dis hs) (by simp [h2])
  · exact absurd (dis he) (by simp [h1])

/-- The struct and enum files of a specification hold the code generated from tables `S` and `E`, except where a path in
`later` denotes the same file.  (Proof notion, models no code.) -/
def Holds (env : Env) (base : Str) (inputs : List Str) (out : OutSpec) (k : Kind) (S : SMap StructS) (E : SMap EnumS)
    (later : List Str) (w : World) : Prop :=
  ∀ dir, outDir env base out = some dir →
    (Writable env dir out.structsFile →
      ((∀ p ∈ later, env.ident p ≠ env.ident (cppPath dir out.structsFile)) →
        w.read env (cppPath dir out.structsFile) = some (fileText (structsCpp k env.stamp (filename (cppPath dir out.structsFile))
          (filename (hPath dir out.structsFile)) inputs out S))) ∧
      ((∀ p ∈ later, env.ident p ≠ env.ident (hPath dir out.structsFile)) →
        w.read env (hPath dir out.structsFile) = some (fileText (structsH k env.stamp (filename (hPath dir out.structsFile)) inputs
          out S)))) ∧
    (Writable env dir out.enumFile → ∀ q, (q = cppPath dir out.enumFile ∨ q = hPath dir out.enumFile) →
      (∀ p ∈ pairPaths env dir out.structsFile, env.ident p ≠ env.ident q) → (∀ p ∈ later, env.ident p ≠ env.ident q) →
      w.read env q = some (fileText (if q = cppPath dir out.enumFile
        then enumsCpp env.stamp (filename (cppPath dir out.enumFile)) (filename (hPath dir out.enumFile)) inputs E
        else enumsH env.stamp (filename (hPath dir out.enumFile)) inputs E)))

theorem Holds.wrote {env : Env} {base : Str} {inputs : List Str} {out : OutSpec} {k : Kind} {S : SMap StructS} {E : SMap EnumS}
    {w w' : World} {later : List Str} (h : Holds env base inputs out k S E [] w) (hw : Wrote env w w' later) :
    Holds env base inputs out k S E later w' := by
  intro dir hd
  obtain ⟨h1, h2⟩ := h dir hd
  refine ⟨fun hs => ⟨fun hl => ?_, fun hl => ?_⟩, fun he q hq hp hl => ?_⟩
  · rw [hw.read hl]; exact (h1 hs).1 (by simp)
  · rw [hw.read hl]; exact (h1 hs).2 (by simp)
  · rw [hw.read hl]; exact h2 he q hq hp (by simp)

theorem Holds.same {env : Env} {base : Str} {inputs : List Str} {out : OutSpec} {k : Kind} {S S' : SMap StructS} {E E' : SMap EnumS}
    {w : World} {later : List Str} (h : Holds env base inputs out k S E later w) (hs : SameRefs S S') (he : E = E') :
    Holds env base inputs out k S' E' later w := by
  subst he
  intro dir hd
  rw [← hs.cpp, ← hs.h]
  exact h dir hd

theorem generate_written {w : World} {self : Nat} {i : Info} (hi : w.heap[self]? = some i) (env : Env)
    (base : Str) (inputs : List Str) (out : OutSpec) {w' : World} {u : Unit}
    (h : generate env base self inputs out w = .ok u w') {k : Kind} (hk : kindOf out.fileType = some k) :
    Holds env base inputs out k (findTop (fixup i).1).1.structs i.enums [] w' := by
  intro dir hd
  obtain ⟨b, w1, e, h1, h2⟩ := processItems_written hi env k base inputs out hd
  unfold generate at h
  rw [hk] at h
  simp only [e, Res.bind] at h
  cases h
  exact ⟨fun hs => ⟨fun _ => (h1 hs).1, fun _ => (h1 hs).2⟩, fun he q hq hp _ => h2 he q hq hp⟩

theorem runGroup_written {env : Env} {base : Str} {ci : List Str} {g : List Str × OutSpec} {w w1 : World}
    {a : Info} {hd : Str → Header} (hh : w.heap = [a]) (ht : TabOk a) (hr : a.parseRv = 0)
    (hin : Inputs env base w hd g.1)
    (hnd : ((g.1.flatMap fun n => (hd n).decls).map Decl.name).Nodup)
    (hn : ∀ d ∈ g.1.flatMap (fun n => (hd n).decls), getItemType a d.name = .unknown)
    (h : runGroup env base ci g w = .ok () w1) :
    w1.heap = [a] ∧ ∀ k, kindOf g.2.fileType = some k →
      Holds env base (ci ++ g.1) g.2 k
        (findTop (fixup ((g.1.flatMap fun n => (hd n).decls).foldl (Info.add 1) a)).1).1.structs
        ((g.1.flatMap fun n => (hd n).decls).foldl (Info.add 1) a).enums [] w1 := by
  have hc : copyInfo 0 w.heap = some [a, a] := by rw [hh]; rfl
  have e : processFiles 1 (g.1.map fun n => w.read env (join base n)) [a, a] =
      some [a, (g.1.flatMap fun n => (hd n).decls).foldl (Info.add 1) a] :=
    processFiles_decls hin (h := [a, a]) (self := 1) rfl ht hr hnd hn
  have hl : w.heap.length = 1 := by rw [hh]; rfl
  have r : runGroup env base ci g w = (generate env base 1 (ci ++ g.1) g.2
      { w with heap := [a, (g.1.flatMap fun n => (hd n).decls).foldl (Info.add 1) a] }).bind
      fun _ w => .ok () { w with heap := w.heap.dropLast } := by
    unfold runGroup readInputs
    rw [hc, hl]
    simp only [World.read] at e ⊢
    rw [e]
    rfl
  rw [r] at h
  cases hg : generate env base 1 (ci ++ g.1) g.2
    { w with heap := [a, (g.1.flatMap fun n => (hd n).decls).foldl (Info.add 1) a] } with
  | stop => rw [hg] at h; cases h
  | ok u w2 =>
    rw [hg] at h
    cases h
    refine ⟨?_, fun k hk => ?_⟩
    · have := generate_heap (self := 1) (by rfl) hg
      simp only [this]
      rfl
    · exact generate_written (self := 1) (w := { w with heap := [a, _] }) rfl env base (ci ++ g.1) g.2 hg hk

theorem runGroups_written {env : Env} {base : Str} {ci : List Str} {hd : Str → Header} {a : Info}
    (ht : TabOk a) (hr : a.parseRv = 0) (hok : HeapOk [a]) (hm : ∀ p, env.makeDir p ≠ none)
    (gs : List (List Str × OutSpec)) (w : World) (hh : w.heap = [a])
    (hin : Inputs env base w hd (gs.flatMap Prod.fst))
    (hdis : Disjoint' env base (gs.flatMap Prod.fst) (gs.flatMap fun g => runPaths env base g.2))
    (hnd : ∀ g ∈ gs, ((g.1.flatMap fun n => (hd n).decls).map Decl.name).Nodup)
    (hn : ∀ g ∈ gs, ∀ d ∈ g.1.flatMap (fun n => (hd n).decls), getItemType a d.name = .unknown) :
    ∃ w', runGroups env base ci gs w = .ok () w' ∧ Wrote env w w' (gs.flatMap fun g => runPaths env base g.2) ∧
      ∀ pre g post, gs = pre ++ g :: post → ∀ k, kindOf g.2.fileType = some k →
        Holds env base (ci ++ g.1) g.2 k
          (findTop (fixup ((g.1.flatMap fun n => (hd n).decls).foldl (Info.add 1) a)).1).1.structs
          ((g.1.flatMap fun n => (hd n).decls).foldl (Info.add 1) a).enums (post.flatMap fun g => runPaths env base g.2) w' := by
  induction gs generalizing w with
  | nil => exact ⟨w, rfl, Wrote.refl _ _, fun pre g post h => (by simp at h)⟩
  | cons g gs ih =>
    obtain ⟨s1, _, _, s4⟩ := runGroup_spec (w := w) (by rw [hh]; exact hok) (by rw [hh]; simp) env base ci g
    obtain ⟨w1, e1⟩ := s4 hm
    rw [e1] at s1
    obtain ⟨hh1, h1⟩ := runGroup_written (ci := ci) (g := g) hh ht hr
      (fun n hn => hin n (by rw [List.flatMap_cons]; exact List.mem_append_left _ hn)) (hnd g (by simp)) (hn g (by simp)) e1
    have dis : Disjoint' env base (gs.flatMap Prod.fst) (runPaths env base g.2) := fun n hn p hp =>
      hdis n (by rw [List.flatMap_cons]; exact List.mem_append_right _ hn) p
        (by rw [List.flatMap_cons]; exact List.mem_append_left _ hp)
    obtain ⟨w', e2, hw, h2⟩ := ih w1 hh1
      (Inputs.wrote (fun n hn => hin n (by rw [List.flatMap_cons]; exact List.mem_append_right _ hn)) s1 dis)
      (fun n hn p hp => hdis n (by rw [List.flatMap_cons]; exact List.mem_append_right _ hn) p
        (by rw [List.flatMap_cons]; exact List.mem_append_right _ hp))
      (fun g' hg' => hnd g' (by simp [hg'])) (fun g' hg' => hn g' (by simp [hg']))
    refine ⟨w', by unfold runGroups; rw [e1]; exact e2, by rw [List.flatMap_cons]; exact s1.trans hw, ?_⟩
    intro pre g' post he k hk
    cases pre with
    | nil =>
      simp only [List.nil_append, List.cons.injEq] at he
      obtain ⟨rfl, rfl⟩ := he
      exact (h1 k hk).wrote hw
    | cons g0 pre =>
      simp only [List.cons_append, List.cons.injEq] at he
      exact h2 pre g' post he.2 k hk

/-- The tables after reading declarations into a fresh object.  (Proof notion, models no code.) -/
def fresh (ds : List Decl) : Info := ds.foldl (Info.add 0) Info.empty

theorem fresh_facts (ds : List Decl) (hnd : (ds.map Decl.name).Nodup) :
    TabOk (fresh ds) ∧ Unresolved (fresh ds).structs (fresh ds).enums ∧
    (∀ n s, (fresh ds).structs.find? n = some s → s.incoming = 0) := by
  have ht0 : TabOk Info.empty := (HeapOk.new HeapOk.nil).tab 0 _ rfl
  have hf : ∀ n s, (fresh ds).structs.find? n = some s → ∃ m ms, Decl.struct n m ms ∈ ds ∧
      s = ⟨n, (m :: ms).filterMap simpleOf, (m :: ms).filterMap complexOf, 0⟩ := by
    intro n s hs
    unfold fresh at hs
    rw [foldl_add_structs _ _ _ hnd] at hs
    cases hd : ds.find? fun d => decide (d.name = n) with
    | none => rw [hd] at hs; cases hs
    | some d =>
      rw [hd] at hs
      obtain ⟨hm, hn⟩ := (find_iff hnd n d).1 hd
      cases d with
      | enum => cases hs
      | struct n' m ms =>
        cases hn
        cases hs
        exact ⟨m, ms, hm, rfl⟩
  refine ⟨foldl_add_ok 0 ht0 ds hnd fun _ _ => rfl, ?_, ?_⟩
  · intro n s co hs hco
    obtain ⟨m, ms, _, rfl⟩ := hf n s hs
    simp only [List.mem_filterMap] at hco
    obtain ⟨x, _, hx⟩ := hco
    cases x with
    | simple => cases hx
    | named ty nm d => cases hx; exact Or.inl rfl
    | vector el nm => cases hx; exact Or.inr rfl
  · intro n s hs
    obtain ⟨m, ms, _, rfl⟩ := hf n s hs
    rfl

/-- A whole run in configuration mode: all files hold code for the declarations of their inputs, as if these had been read
into a fresh object. -/
theorem config_written (env : Env) (f : Str) (c : Config) (w : World) (hd : Str → Header)
    (hin : Inputs env (parentPath f) w hd c.inputs)
    (hndc : ((c.commonIn.flatMap fun n => (hd n).decls).map Decl.name).Nodup)
    (hndg : ∀ g ∈ c.nonCommon, (((c.commonIn ++ g.1).flatMap fun n => (hd n).decls).map Decl.name).Nodup)
    (hout : Disjoint' env (parentPath f) c.inputs (runPaths env (parentPath f) c.commonOut ++
      c.nonCommon.flatMap fun g => runPaths env (parentPath f) g.2))
    (hm : ∀ p, env.makeDir p ≠ none)
    (hcom : (∃ k, kindOf c.commonOut.fileType = some k) → (fixup (fresh (c.commonIn.flatMap fun n => (hd n).decls))).2 = true) :
    ∃ w', processStfxFile env f (.loaded c) w = .ok 0 w' ∧
      (∀ k, kindOf c.commonOut.fileType = some k → Holds env (parentPath f) c.commonIn c.commonOut k
        (findTop (fixup (fresh (c.commonIn.flatMap fun n => (hd n).decls))).1).1.structs
        (fresh (c.commonIn.flatMap fun n => (hd n).decls)).enums
        (c.nonCommon.flatMap fun g => runPaths env (parentPath f) g.2) w') ∧
      ∀ pre g post, c.nonCommon = pre ++ g :: post → ∀ k, kindOf g.2.fileType = some k →
        Holds env (parentPath f) (c.commonIn ++ g.1) g.2 k
          (findTop (fixup (fresh ((c.commonIn ++ g.1).flatMap fun n => (hd n).decls))).1).1.structs
          (fresh ((c.commonIn ++ g.1).flatMap fun n => (hd n).decls)).enums
          (post.flatMap fun g => runPaths env (parentPath f) g.2) w' := by
  have ht0 : TabOk Info.empty := (HeapOk.new HeapOk.nil).tab 0 _ rfl
  have cin : Inputs env (parentPath f) w hd c.commonIn := fun n hn => hin n (List.mem_append_left _ hn)
  have e : processFiles 0 (c.commonIn.map fun n => w.read env (join (parentPath f) n)) [Info.empty] =
      some [fresh (c.commonIn.flatMap fun n => (hd n).decls)] :=
    processFiles_decls cin (h := [Info.empty]) (self := 0) rfl ht0 rfl hndc fun _ _ => rfl
  obtain ⟨ht, hu, h0⟩ := fresh_facts _ hndc
  have hr : (fresh (c.commonIn.flatMap fun n => (hd n).decls)).parseRv = 0 := foldl_rv0 0 (i := Info.empty) rfl _
  have hok : HeapOk [fresh (c.commonIn.flatMap fun n => (hd n).decls)] := by
    obtain ⟨h, eh, ho, _⟩ := processFiles_ok (HeapOk.new HeapOk.nil) (self := 0) (by simp)
      (c.commonIn.map fun n => w.read env (join (parentPath f) n))
    rw [show ([] : Heap) ++ [Info.empty] = [Info.empty] from rfl, e] at eh
    cases eh
    exact ho
  have hsplit : ∀ g ∈ c.nonCommon, ((g.1.flatMap fun n => (hd n).decls).map Decl.name).Nodup ∧
      ∀ d ∈ g.1.flatMap (fun n => (hd n).decls), getItemType (fresh (c.commonIn.flatMap fun n => (hd n).decls)) d.name = .unknown := by
    intro g hg
    have := hndg g hg
    rw [List.flatMap_append, List.map_append, List.nodup_append] at this
    exact ⟨this.2.1, fun d hdm => foldl_unknown 0 _ (fun hx => this.2.2 _ hx _ (List.mem_map_of_mem hdm) rfl) rfl⟩
  have hfresh : ∀ g : List Str × OutSpec, fresh ((c.commonIn ++ g.1).flatMap fun n => (hd n).decls) =
      (g.1.flatMap fun n => (hd n).decls).foldl (Info.add 0) (fresh (c.commonIn.flatMap fun n => (hd n).decls)) := by
    intro g
    unfold fresh
    rw [List.flatMap_append, List.foldl_append]
  simp only [hfresh]
  generalize fresh (c.commonIn.flatMap fun n => (hd n).decls) = a at *
  have r : processStfxFile env f (.loaded c) w = ((generate env (parentPath f) 0 c.commonIn c.commonOut { w with heap := [a] }).bind
      fun _ w => (runGroups env (parentPath f) c.commonIn c.nonCommon w).bind fun _ w => .ok 0 w) := by
    simp only [processStfxFile, readInputs]
    simp only [World.read] at e ⊢
    rw [e]
    rfl
  have hw1 := (generate_spec (w := { w with heap := [a] }) hok (self := 0) (by simp) env (parentPath f) c.commonIn c.commonOut)
  obtain ⟨w1, g⟩ := hw1.2.2.2.2 hm
  rw [g] at hw1
  have hh1 : w1.heap = [prepared c.commonOut a] := generate_heap (self := 0) (by rfl) g
  have dis : Disjoint' env (parentPath f) (c.nonCommon.flatMap Prod.fst) (runPaths env (parentPath f) c.commonOut) :=
    fun n hn p hp => hout n (List.mem_append_right _ hn) p (List.mem_append_left _ hp)
  obtain ⟨w', e2, hw, h2⟩ := runGroups_written (ci := c.commonIn) (hd := hd) ((prepared_same c.commonOut a).tabOk ht) (by rw [prepared_rv, hr])
    (by rw [← hh1]; exact hw1.2.1) hm c.nonCommon w1 hh1
    (Inputs.wrote (w := w) (fun n hn => hin n (List.mem_append_right _ hn)) ⟨hw1.1.attempts, hw1.1.files⟩ dis)
    (fun n hn p hp => hout n (List.mem_append_right _ hn) p (List.mem_append_right _ hp))
    (fun g hg => (hsplit g hg).1)
    (fun g hg d hdm => by rw [(prepared_same _ _).itemType]; exact (hsplit g hg).2 d hdm)
  refine ⟨w', by rw [r, g]; simp only [Res.bind, e2], ?_, ?_⟩
  · intro k hk
    exact (generate_written (self := 0) (w := { w with heap := [a] }) rfl env _ _ _ g hk).wrote hw
  · intro pre g' post he k hk
    have hg' : g' ∈ c.nonCommon := by rw [he]; simp
    refine (h2 pre g' post he k hk).same ?_ ?_
    · unfold prepared
      split
      · exact (read_on ht hu h0 (hcom (Option.isSome_iff_exists.1 (by assumption))) (hsplit g' hg').1 (hsplit g' hg').2 0).1
      · exact same_self _ _ _ _
    · unfold prepared
      split
      · exact (read_on ht hu h0 (hcom (Option.isSome_iff_exists.1 (by assumption))) (hsplit g' hg').1 (hsplit g' hg').2 0).2
      · exact (same_tab _ _ _ _).2
where
  same_tab (x y : Nat) (a : Info) (ds : List Decl) : SameTab (ds.foldl (Info.add x) a) (ds.foldl (Info.add y) a) := by
    have : ∀ i i' : Info, SameTab i i' → SameTab (ds.foldl (Info.add x) i) (ds.foldl (Info.add y) i') := by
      induction ds with
      | nil => exact fun i i' h => h
      | cons d ds ih =>
        intro i i' h
        refine ih _ _ ?_
        cases d with
        | enum => exact ⟨h.1, by simp only [Info.add, h.2]⟩
        | struct => exact ⟨by simp only [Info.add, h.1], h.2⟩
    exact this a a ⟨rfl, rfl⟩
  same_self (x y : Nat) (a : Info) (ds : List Decl) : SameRefs (findTop (fixup (ds.foldl (Info.add x) a)).1).1.structs
      (findTop (fixup (ds.foldl (Info.add y) a)).1).1.structs := by
    rw [SameRefs, ((same_tab x y a ds).prepare).1.1]

end Stfx.Main
