import Verif.Props.C68_EndToEnd
/-
Property C69: the files of one run can be linked into one program, that is, no function is defined twice.

As stated this is false (C69_refuted): the tables of a group of a configuration are a copy of the common tables plus its own
(src/main.cpp:176-179), so the enums file of the group defines the functions for the common enums again (C69_twice).
-/
set_option autoImplicit false
namespace Stfx.Cpp
open Stfx.Lexer Stfx.Run Stfx.Parser Stfx.Items Stfx.Gen

/-- What tells functions from each other: the qualified name and the types of the parameters.  (Specification notion, models no code.  The
syntax trees have no `const`, so less is told apart than in C++, and what is distinct here is distinct in C++, since the types are all
written as they are declared, without aliases.) -/
def Fun.ident (f : Fun) : List Str × List Ty := (f.name, f.params.map Prod.fst)

/-- The functions defined by the files for an output specification: those of the structs .cpp file, and those of the enums .cpp file if it is
wanted.  (Specification notion, models no code.) -/
structure Defines (env : Main.Env) (w : Main.World) (dir : Str) (out : OutSpec) (ext : Bool) (gs : List Fun) : Prop where
  files : ∃ text ss es, w.read env (Main.cppPath dir out.structsFile) = some text ∧ parse ext text = some ss ∧ gs = ss ++ es ∧
    (disabled out.enumFile = true → es = []) ∧
    (disabled out.enumFile = false → ∃ text, w.read env (Main.cppPath dir out.enumFile) = some text ∧ parse false text = some es)

/-- The classes that are generated.  (Specification notion, models no code.) -/
def outClasses (out : OutSpec) : List Str := out.readerClass :: if out.onlyRead then [] else [out.writerClass]

/-- The functions of an enum.  (Specification notion, models no code.) -/
def enumIdents (n : Str) : List (List Str × List Ty) :=
  [([c!"stfx", c!"s_from_e"], [.name [n]]), ([c!"stfx", c!"s_to_e"], [tString, .ref (.name [n])])]

/-! ### Signatures -/

/-- `Fun.ident` of a signature.  (Proof notion, models no code.) -/
def Sig.ident (g : Sig) : List Str × List Ty := (g.2.1, g.2.2.map Prod.fst)

theorem nodup_of_map {α β : Type} {f : α → β} {g : α → List Str × List Ty} {l : List α} (h : (l.map f).Nodup) (hf : ∀ a b, g a = g b → f a = f b) :
    (l.map g).Nodup := by
  rw [List.Nodup, List.pairwise_map] at h ⊢
  exact h.imp fun hab e => hab (hf _ _ e)

theorem reader_head {k : Kind} {cls : Str} {ss : List StructS} {g : Sig} (h : g ∈ readerSigs k cls ss) : g.2.1.head? = some cls := by
  unfold readerSigs at h
  cases k <;> simp only [List.cons_append, List.nil_append, List.mem_cons, List.mem_append, List.mem_map, List.not_mem_nil, or_false, or_assoc] at h <;>
    first
      | (rcases h with rfl | ⟨_, _, rfl⟩ | ⟨_, _, rfl⟩ <;> rfl)
      | (rcases h with rfl | ⟨_, _, rfl⟩ <;> rfl)

theorem writer_head {k : Kind} {cls : Str} {ss : List StructS} {g : Sig} (h : g ∈ writerSigs k cls ss) : g.2.1.head? = some cls := by
  unfold writerSigs at h
  cases k <;> simp only [List.cons_append, List.nil_append, List.mem_cons, List.mem_append, List.mem_map, List.not_mem_nil, or_false, or_assoc] at h <;>
    first
      | (rcases h with rfl | ⟨_, _, rfl⟩ | ⟨_, _, rfl⟩ <;> rfl)
      | (rcases h with rfl | ⟨_, _, rfl⟩ <;> rfl)

theorem reader_nodup {k : Kind} {cls : Str} {ss : List StructS} (h : (ss.map StructS.name).Nodup) : ((readerSigs k cls ss).map Sig.ident).Nodup := by
  have hf : ((ss.filter fun s => s.incoming = 0).map StructS.name).Nodup := h.sublist ((List.filter_sublist).map _)
  unfold readerSigs
  cases k <;> simp only [List.map_append, List.map_map, List.map_cons, List.map_nil, List.append_nil, List.cons_append, List.nil_append]
  all_goals
    rw [List.nodup_cons]
    refine ⟨?_, ?_⟩
    · simp [Sig.ident]
  case ini => exact nodup_of_map hf (by intro a b; simp [Sig.ident])
  all_goals
    rw [List.nodup_append]
    refine ⟨nodup_of_map hf (by intro a b; simp [Sig.ident]), nodup_of_map h (by intro a b; simp [Sig.ident]), ?_⟩
    intro a ha b hb
    obtain ⟨x, _, rfl⟩ := List.mem_map.1 ha
    obtain ⟨y, _, rfl⟩ := List.mem_map.1 hb
    simp [Sig.ident, tString]

theorem writer_nodup {k : Kind} {cls : Str} {ss : List StructS} (h : (ss.map StructS.name).Nodup) : ((writerSigs k cls ss).map Sig.ident).Nodup := by
  have hf : ((ss.filter fun s => s.incoming = 0).map StructS.name).Nodup := h.sublist ((List.filter_sublist).map _)
  unfold writerSigs
  cases k <;> simp only [List.map_append, List.map_map, List.map_cons, List.map_nil, List.append_nil, List.cons_append, List.nil_append]
  all_goals
    rw [List.nodup_cons]
    refine ⟨?_, ?_⟩
    · simp [Sig.ident]
  case ini => exact nodup_of_map hf (by intro a b; simp [Sig.ident])
  all_goals
    rw [List.nodup_append]
    refine ⟨nodup_of_map hf (by intro a b; simp [Sig.ident]), nodup_of_map h (by intro a b; simp [Sig.ident]), ?_⟩
    intro a ha b hb
    obtain ⟨x, _, rfl⟩ := List.mem_map.1 ha
    obtain ⟨y, _, rfl⟩ := List.mem_map.1 hb
    simp [Sig.ident, tString]

theorem enums_nodup {ns : List Str} (h : ns.Nodup) : (ns.flatMap enumIdents).Nodup := by
  induction ns with
  | nil => exact List.nodup_nil
  | cons n ns ih =>
    rw [List.nodup_cons] at h
    rw [List.flatMap_cons, List.nodup_append]
    refine ⟨by simp [enumIdents], ih h.2, ?_⟩
    intro a ha b hb e
    obtain ⟨m, hm, hb⟩ := List.mem_flatMap.1 hb
    subst e
    have : n = m := by
      simp only [enumIdents, List.mem_cons, List.not_mem_nil, or_false] at ha hb
      rcases ha with rfl | rfl <;> rcases hb with hb | hb <;> simp at hb <;> exact hb
    exact h.1 (this ▸ hm)

/-! ### The functions of a part -/

/-- What is known of the functions of a part.  (Proof notion, models no code.) -/
structure PartDefs (ds : List Decl) (out : OutSpec) (gs : List Fun) : Prop where
  nodup : out.readerClass ≠ c!"stfx" → (out.onlyRead = false → out.writerClass ≠ c!"stfx" ∧ out.writerClass ≠ out.readerClass) → (gs.map Fun.ident).Nodup
  owner : ∀ x ∈ gs.map Fun.ident, (∃ c ∈ outClasses out, x.1.head? = some c) ∨
    disabled out.enumFile = false ∧ ∃ c n e es t, Decl.enum c n e es t ∈ ds ∧ x ∈ enumIdents n
  enums : disabled out.enumFile = false → ∀ c n e es t, Decl.enum c n e es t ∈ ds → ∀ x ∈ enumIdents n, x ∈ gs.map Fun.ident

theorem structs_distinct {fs : List (Str × Header)} {i : Info} (ht : ∀ f ∈ fs, toksFile f.1 = some f.2.toks) (hd : ((declsOf fs).map Decl.name).Nodup)
    (h : (processFiles 0 (fs.map fun f => some f.1) [Info.empty]).bind (prepare 0) = some ([i], true)) :
    ((i.structs.map Prod.snd).map StructS.name).Nodup ∧
      (∀ n, n ∈ (i.enums.map fun p => p.2.name) ↔ ∃ c x xs t, Decl.enum c n x xs t ∈ declsOf fs) := by
  obtain ⟨i0, h2, h3, h4, h5⟩ := tables_of ht hd h
  have hi : i = (findTop (fixup i0).1).1 := by
    simp only [prepare, List.getElem?_cons_zero, Option.bind_eq_bind, Option.bind_some, Option.some.injEq,
      Prod.mk.injEq, List.set_cons_zero, List.cons.injEq, and_true] at h3
    exact h3.1.symm
  have hh : History [i] := .generate h2.history h3
  have hok := hh.ok.tab 0 i rfl
  refine ⟨?_, fun n => ?_⟩
  · have he : ((i.structs.map Prod.snd).map StructS.name) = i.structs.keys := by
      rw [List.map_map]
      apply List.map_congr_left
      intro p hp
      exact hok.nameS _ _ (hok.sortedS.find?_of_mem (k := p.1) (v := p.2) hp)
    rw [he]
    refine List.Pairwise.imp ?_ ((SMap.sorted_iff_keys _).1 hok.sortedS)
    rintro a b h rfl
    exact absurd h (by simp [sLt_irrefl])
  · have hie : i.enums = i0.enums := by rw [hi]; rfl
    constructor
    · intro hn
      obtain ⟨p, hp, rfl⟩ := List.mem_map.1 hn
      have hf := hok.sortedE.find?_of_mem (k := p.1) (v := p.2) hp
      rw [hok.nameE _ _ hf]
      rw [hie] at hf
      obtain ⟨c, x, xs, t, hx, _⟩ := (h5 _ _).1 hf
      exact ⟨c, x, xs, t, hx⟩
    · rintro ⟨c, x, xs, t, hx⟩
      have hf := (h5 n _).2 ⟨c, x, xs, t, hx, rfl⟩
      rw [← hie] at hf
      have := SMap.find?_some_mem hf
      exact List.mem_map.2 ⟨_, this, rfl⟩

section
variable {env : Main.Env} {txt : Str → Str} {hd : Str → Header} {names : List Str} {out : OutSpec} {k : Kind} {w : Main.World} {dir : Str} {ext : Bool}

theorem partDefs_of {i : Info} {fc fh : Str} (ht : ∀ n ∈ names, toksFile (txt n) = some (hd n).toks)
    (hnd : ((names.flatMap fun n => (hd n).decls).map Decl.name).Nodup)
    (h1 : (processFiles 0 ((sources txt hd names).map fun f => some f.1) [Info.empty]).bind (prepare 0) = some ([i], true))
    (h2 : w.read env (Main.cppPath dir out.structsFile) = some (Gen.fileText (structsCpp k env.stamp fc fh names out i.structs)))
    (h4 : Names env.stamp fc fh names out i.structs) (h5 : ext = true ∨ NoShort k i.structs)
    (h6 : ∀ p ∈ i.enums, EnumNamed p.2) (h7 : (i.enums.map fun p => p.2.name).Nodup)
    (h8 : disabled out.enumFile = false → ∃ ec eh, FileNamed env.stamp ec eh names out.enumFile ∧
      w.read env (Main.cppPath dir out.enumFile) = some (Gen.fileText (enumsCpp env.stamp ec eh names i.enums)))
    {gs : List Fun} (hg : Defines env w dir out ext gs) : PartDefs (names.flatMap fun n => (hd n).decls) out gs := by
  have hw : ∀ f ∈ sources txt hd names, toksFile f.1 = some f.2.toks := by
    intro f hf
    obtain ⟨n, hn, rfl⟩ := List.mem_map.1 hf
    exact ht n hn
  have hds : declsOf (sources txt hd names) = names.flatMap fun n => (hd n).decls := sources_decls txt hd names
  obtain ⟨d1, d2⟩ := structs_distinct hw (hds ▸ hnd) h1
  rw [hds] at d2
  obtain ⟨text, ss, es, e1, e2, rfl, e3, e4⟩ := hg.files
  rw [h2] at e1
  cases e1
  have p1 : parse ext (Gen.fileText (structsCpp k env.stamp fc fh names out i.structs)) = _ :=
    structsCpp_parse h4.files h4.reader h4.writer h4.structs (h5.imp_right fun h => by
      by_cases hk : k = .attrib
      · exact .inr (h hk)
      · exact .inl hk)
  rw [p1] at e2
  cases e2
  have hs : ((structsCpp k env.stamp fc fh names out i.structs).flatMap itemFuns).map Fun.ident =
      (readerSigs k out.readerClass (i.structs.map Prod.snd)).map Sig.ident ++
      (if out.onlyRead then [] else writerSigs k out.writerClass (i.structs.map Prod.snd)).map Sig.ident := by
    rw [← List.map_append, ← sigs_eq k env.stamp fc fh names out i.structs, List.map_map]
    rfl
  have he : es.map Fun.ident = if disabled out.enumFile then [] else (i.enums.map fun p => p.2.name).flatMap enumIdents := by
    cases hdis : disabled out.enumFile with
    | true => rw [e3 hdis]; rfl
    | false =>
      obtain ⟨text, r1, r2⟩ := e4 hdis
      obtain ⟨ec, eh, hf, r3⟩ := h8 hdis
      rw [r3] at r1
      cases r1
      rw [enumsCpp_parse hf h6] at r2
      cases r2
      simp only [Bool.false_eq_true, if_false]
      rw [List.map_flatMap, List.flatMap_map]
      rfl
  have hrd : ∀ x ∈ (readerSigs k out.readerClass (i.structs.map Prod.snd)).map Sig.ident, x.1.head? = some out.readerClass := by
    intro x hx
    obtain ⟨g, hg, rfl⟩ := List.mem_map.1 hx
    exact reader_head hg
  have hwr : ∀ x ∈ (if out.onlyRead then [] else writerSigs k out.writerClass (i.structs.map Prod.snd)).map Sig.ident,
      out.onlyRead = false ∧ x.1.head? = some out.writerClass := by
    intro x hx
    cases ho : out.onlyRead with
    | true => simp [ho] at hx
    | false =>
      rw [ho, if_neg (by simp)] at hx
      obtain ⟨g, hg, rfl⟩ := List.mem_map.1 hx
      exact ⟨rfl, writer_head hg⟩
  have hen : ∀ x ∈ es.map Fun.ident, disabled out.enumFile = false ∧ x.1.head? = some c!"stfx" ∧
      ∃ c n e es t, Decl.enum c n e es t ∈ (names.flatMap fun n => (hd n).decls) ∧ x ∈ enumIdents n := by
    intro x hx
    rw [he] at hx
    cases hdis : disabled out.enumFile with
    | true => simp [hdis] at hx
    | false =>
      rw [hdis, if_neg (by simp)] at hx
      obtain ⟨n, hn, hx⟩ := List.mem_flatMap.1 hx
      obtain ⟨c, y, ys, t, hdecl⟩ := (d2 n).1 hn
      refine ⟨rfl, ?_, c, n, y, ys, t, hdecl, hx⟩
      simp only [enumIdents, List.mem_cons, List.not_mem_nil, or_false] at hx
      rcases hx with rfl | rfl <;> rfl
  refine ⟨fun n1 n2 => ?_, fun x hx => ?_, fun hdis c n e es' t hn x hx => ?_⟩
  · rw [List.map_append, hs, List.nodup_append, List.nodup_append]
    refine ⟨⟨reader_nodup d1, ?_, ?_⟩, ?_, ?_⟩
    · cases ho : out.onlyRead with
      | true => simp
      | false => rw [if_neg (by simp)]; exact writer_nodup d1
    · rintro a ha b hb rfl
      obtain ⟨ho, hb⟩ := hwr _ hb
      rw [hrd _ ha] at hb
      exact (n2 ho).2 (Option.some.inj hb).symm
    · rw [he]
      split
      · exact List.nodup_nil
      · exact enums_nodup h7
    · rintro a ha b hb rfl
      obtain ⟨_, hb, _⟩ := hen _ hb
      rcases List.mem_append.1 ha with ha | ha
      · rw [hrd _ ha] at hb
        exact n1 (Option.some.inj hb)
      · obtain ⟨ho, ha⟩ := hwr _ ha
        rw [ha] at hb
        exact (n2 ho).1 (Option.some.inj hb)
  · rw [List.map_append, hs, List.mem_append, List.mem_append] at hx
    rcases hx with (hx | hx) | hx
    · exact .inl ⟨_, List.mem_cons_self, hrd _ hx⟩
    · obtain ⟨ho, hx⟩ := hwr _ hx
      exact .inl ⟨_, by simp [outClasses, ho], hx⟩
    · obtain ⟨h1, _, h2⟩ := hen _ hx
      exact .inr ⟨h1, h2⟩
  · rw [List.map_append, List.mem_append, he, hdis, if_neg (by simp)]
    exact .inr (List.mem_flatMap.2 ⟨n, (d2 n).2 ⟨c, e, es', t, hn⟩, hx⟩)

/-- The definitions of a part exist: its files are C++. -/
theorem defines_of {i : Info} {fc fh : Str}
    (h2 : w.read env (Main.cppPath dir out.structsFile) = some (Gen.fileText (structsCpp k env.stamp fc fh names out i.structs)))
    (h4 : Names env.stamp fc fh names out i.structs) (h5 : ext = true ∨ NoShort k i.structs) (h6 : ∀ p ∈ i.enums, EnumNamed p.2)
    (h8 : disabled out.enumFile = false → ∃ ec eh, FileNamed env.stamp ec eh names out.enumFile ∧
      w.read env (Main.cppPath dir out.enumFile) = some (Gen.fileText (enumsCpp env.stamp ec eh names i.enums))) :
    ∃ gs, Defines env w dir out ext gs := by
  have p1 : parse ext (Gen.fileText (structsCpp k env.stamp fc fh names out i.structs)) = _ :=
    structsCpp_parse h4.files h4.reader h4.writer h4.structs (h5.imp_right fun h => by
      by_cases hk : k = .attrib
      · exact .inr (h hk)
      · exact .inl hk)
  cases hdis : disabled out.enumFile with
  | true => exact ⟨_, ⟨_, _, [], h2, p1, rfl, fun _ => rfl, fun h => by simp [hdis] at h⟩⟩
  | false =>
    obtain ⟨ec, eh, hf, r3⟩ := h8 hdis
    exact ⟨_, ⟨_, _, _, h2, p1, rfl, fun h => by simp [hdis] at h, fun _ => ⟨_, r3, enumsCpp_parse hf h6⟩⟩⟩

end

/-! ### Runs -/

/-- A part of a configuration for which code is generated: its headers and output specification are those of a part, the kind of files
is one that is supported, types of members are declared, the names are usable, and nothing overwrites its files.  (The conditions of
C68_config; specification notion, models no code.) -/
structure Generates (env : Main.Env) (f : Str) (c : Main.Config) (hd : Str → Header) (ext : Bool) (names : List Str) (out : OutSpec) (dir : Str) : Prop where
  part : ∃ later, Part c names out later ∧ Kept env dir out (later.flatMap fun g => Main.runPaths env (Main.parentPath f) g.2)
  kind : ∃ k, Selects out.fileType k ∧ (ext = true ∨ (k = .attrib → NoShortMembers (names.flatMap fun n => (hd n).decls)))
  declared : MembersDeclared (names.flatMap fun n => (hd n).decls)
  keywords : NoKeywords (names.flatMap fun n => (hd n).decls)
  named : SpecNamed env.stamp names out
  dir : Main.outDir env (Main.parentPath f) out = some dir

theorem run_defs {env : Main.Env} {a f : Str} {locate : Str → Main.Located} {load : Str → Main.LoadRes} {c : Main.Config} {w : Main.World}
    {txt : Str → Str} {hd : Str → Header} (ha : locate a = .canonical f) (he : Main.extension f = c!".stfx") (hl : load f = .loaded c)
    (hacc : Accepted env f c w txt hd) :
    ∃ w', Main.main env (some a) locate load w = .ok 0 w' ∧ ∀ ext names out dir, Generates env f c hd ext names out dir →
      (∃ gs, Defines env w' dir out ext gs) ∧
      ∀ gs, Defines env w' dir out ext gs → PartDefs (names.flatMap fun n => (hd n).decls) out gs := by
  obtain ⟨w', e, h1, h2⟩ := Main.config_written env f c w hd (fun n hn => ⟨_, hacc.inputs n hn⟩) hacc.common hacc.groups hacc.outputs hacc.dirs
    (fun ⟨k, hk⟩ => fresh_fixup hacc.common (hacc.declared ⟨k, selects_of hk⟩))
  refine ⟨w', ?_, ?_⟩
  · unfold Main.main
    simp only [ha, he, hl, if_true]
    exact e
  · intro ext names out dir hG
    obtain ⟨later, hp, hkept⟩ := hG.part
    obtain ⟨k, hs, hx⟩ := hG.kind
    cases hp with
    | common =>
      have ht : ∀ n ∈ c.commonIn, toksFile (txt n) = some (hd n).toks := fun n hn => (hacc.inputs n (List.mem_append_left _ hn)).2
      obtain ⟨i, fc, fh, g1, g2, g3, g4, g5, g6, g7, g8, g9⟩ :=
        code_of_holds ht hacc.common hG.declared hG.keywords hG.named (h1 k hs.kindOf) hG.dir hkept hx
      exact ⟨defines_of g2 g4 g5 g6 g8, fun gs hg => partDefs_of ht hacc.common g1 g2 g4 g5 g6 g7 g8 hg⟩
    | group pre g _ hg =>
      have hmem : g ∈ c.nonCommon := by rw [hg]; simp
      have ht : ∀ n ∈ c.commonIn ++ g.1, toksFile (txt n) = some (hd n).toks := by
        intro n hn
        refine (hacc.inputs n ?_).2
        rcases List.mem_append.1 hn with hn | hn
        · exact List.mem_append_left _ hn
        · exact List.mem_append_right _ (List.mem_flatMap.2 ⟨g, hmem, hn⟩)
      obtain ⟨i, fc, fh, g1, g2, g3, g4, g5, g6, g7, g8, g9⟩ :=
        code_of_holds ht (hacc.groups g hmem) hG.declared hG.keywords hG.named (h2 pre g _ hg k hs.kindOf) hG.dir hkept hx
      exact ⟨defines_of g2 g4 g5 g6 g8, fun gs hg => partDefs_of ht (hacc.groups g hmem) g1 g2 g4 g5 g6 g7 g8 hg⟩

/-- Two parts define different functions: their classes have different names, and if both have an enums file no enum is declared in the
headers of both.  (Specification notion, models no code.) -/
structure PartsApart (hd : Str → Header) (p q : List Str × OutSpec) : Prop where
  classes : ∀ c ∈ outClasses p.2, c ∉ outClasses q.2
  enums : disabled p.2.enumFile = false → disabled q.2.enumFile = false → ∀ c n e es t, Decl.enum c n e es t ∈ p.1.flatMap (fun n => (hd n).decls) →
    ∀ c' e' es' t', Decl.enum c' n e' es' t' ∉ q.1.flatMap fun n => (hd n).decls

/-- The classes of a part have different names, and are not called like the namespace of the functions of the enums.  (Specification notion,
models no code.) -/
structure ClassesOk (out : OutSpec) : Prop where
  reader : out.readerClass ≠ c!"stfx"
  writer : out.onlyRead = false → out.writerClass ≠ c!"stfx" ∧ out.writerClass ≠ out.readerClass

/-- C69: after a run for an accepted configuration the files of each part define functions, and no function is defined twice by the files
of parts that are pairwise `PartsApart`.  Missing: parts that are not, for which it is false (C69_twice). -/
theorem C69_partial {env : Main.Env} {a f : Str} {locate : Str → Main.Located} {load : Str → Main.LoadRes} {c : Main.Config} {w : Main.World}
    {txt : Str → Str} {hd : Str → Header} (ha : locate a = .canonical f) (he : Main.extension f = c!".stfx") (hl : load f = .loaded c)
    (hacc : Accepted env f c w txt hd) (ext : Bool) :
    ∃ w', Main.main env (some a) locate load w = .ok 0 w' ∧
      (∀ names out dir, Generates env f c hd ext names out dir → ∃ gs, Defines env w' dir out ext gs) ∧
      ∀ ps : List ((List Str × OutSpec) × List Fun),
        (∀ p ∈ ps, ∃ dir, Generates env f c hd ext p.1.1 p.1.2 dir ∧ ClassesOk p.1.2 ∧ Defines env w' dir p.1.2 ext p.2) →
        (ps.map Prod.fst).Pairwise (PartsApart hd) → ((ps.flatMap Prod.snd).map Fun.ident).Nodup := by
  obtain ⟨w', h1, h2⟩ := run_defs ha he hl hacc
  refine ⟨w', h1, fun names out dir hG => (h2 _ _ _ _ hG).1, fun ps hps hap => ?_⟩
  induction ps with
  | nil => exact List.nodup_nil
  | cons p ps ih =>
    rw [List.map_cons, List.pairwise_cons] at hap
    obtain ⟨dir, g1, g2, g3⟩ := hps p List.mem_cons_self
    have hp := (h2 _ _ _ _ g1).2 _ g3
    rw [List.flatMap_cons, List.map_append, List.nodup_append]
    refine ⟨hp.nodup g2.reader g2.writer, ih (fun q hq => hps q (List.mem_cons_of_mem _ hq)) hap.2, ?_⟩
    rintro x hx y hy rfl
    rw [List.map_flatMap] at hy
    obtain ⟨q, hq, hy⟩ := List.mem_flatMap.1 hy
    obtain ⟨dir', q1, q2, q3⟩ := hps q (List.mem_cons_of_mem _ hq)
    have hqd := (h2 _ _ _ _ q1).2 _ q3
    have hA := hap.1 q.1 (List.mem_map.2 ⟨q, hq, rfl⟩)
    have hcls : ∀ out c, ClassesOk out → c ∈ outClasses out → c ≠ c!"stfx" := by
      intro out c ho hc
      unfold outClasses at hc
      cases hr : out.onlyRead with
      | true =>
        rw [hr] at hc
        simp only [if_true, List.mem_cons, List.not_mem_nil, or_false] at hc
        rw [hc]; exact ho.reader
      | false =>
        rw [hr] at hc
        simp only [Bool.false_eq_true, if_false, List.mem_cons, List.not_mem_nil, or_false] at hc
        rcases hc with rfl | rfl
        · exact ho.reader
        · exact (ho.writer hr).1
    have hen : ∀ n, x ∈ enumIdents n → x.1.head? = some c!"stfx" := by
      intro n hx
      simp only [enumIdents, List.mem_cons, List.not_mem_nil, or_false] at hx
      rcases hx with rfl | rfl <;> rfl
    have hsame : ∀ n m, x ∈ enumIdents n → x ∈ enumIdents m → n = m := by
      intro n m hn hm
      simp only [enumIdents, List.mem_cons, List.not_mem_nil, or_false] at hn hm
      rcases hn with rfl | rfl <;> rcases hm with hm | hm <;> simp at hm <;> exact hm
    rcases hp.owner _ hx with ⟨cl, c1, c2⟩ | ⟨d1, c, n, e, es, t, d2, d3⟩ <;> rcases hqd.owner _ hy with ⟨cl', c1', c2'⟩ | ⟨d1', c', n', e', es', t', d2', d3'⟩
    · rw [c2] at c2'
      cases c2'
      exact hA.classes _ c1 c1'
    · rw [hen _ d3'] at c2
      cases c2
      exact hcls _ _ g2 c1 rfl
    · rw [hen _ d3] at c2'
      cases c2'
      exact hcls _ _ q2 c1' rfl
    · cases hsame _ _ d3 d3'
      exact hA.enums d1 d1' _ _ _ _ _ d2 _ _ _ _ d2'

/-- An enum of the common headers is defined in the enums file of every part which has one. -/
theorem C69_twice {env : Main.Env} {a f : Str} {locate : Str → Main.Located} {load : Str → Main.LoadRes} {c : Main.Config} {w : Main.World}
    {txt : Str → Str} {hd : Str → Header} (ha : locate a = .canonical f) (he : Main.extension f = c!".stfx") (hl : load f = .loaded c)
    (hacc : Accepted env f c w txt hd) (ext : Bool) {cl : Bool} {n : Str} {e : Enumerator} {es : List Enumerator} {t : Bool}
    (hn : Decl.enum cl n e es t ∈ c.commonIn.flatMap fun n => (hd n).decls) :
    ∃ w', Main.main env (some a) locate load w = .ok 0 w' ∧ ∀ names out dir, Generates env f c hd ext names out dir → disabled out.enumFile = false →
      ∃ gs, Defines env w' dir out ext gs ∧ ∀ x ∈ enumIdents n, x ∈ gs.map Fun.ident := by
  obtain ⟨w', h1, h2⟩ := run_defs ha he hl hacc
  refine ⟨w', h1, fun names out dir hG hen => ?_⟩
  obtain ⟨⟨gs, hg⟩, h3⟩ := h2 _ _ _ _ hG
  refine ⟨gs, hg, (h3 gs hg).enums hen cl n e es t ?_⟩
  obtain ⟨later, hp, _⟩ := hG.part
  cases hp with
  | common => exact hn
  | group pre g _ _ =>
    obtain ⟨m, hm, hn⟩ := List.mem_flatMap.1 hn
    exact List.mem_flatMap.2 ⟨m, List.mem_append_left _ hm, hn⟩

/-- C69 as stated: no function is defined twice by the files of parts whose classes have different names.
(Specification notion, models no code.) -/
def OneDefinition : Prop :=
  ∀ (env : Main.Env) (a f : Str) (locate : Str → Main.Located) (load : Str → Main.LoadRes) (c : Main.Config) (w w' : Main.World) (txt : Str → Str)
    (hd : Str → Header), locate a = .canonical f → Main.extension f = c!".stfx" → load f = .loaded c → Accepted env f c w txt hd →
    Main.main env (some a) locate load w = .ok 0 w' → ∀ (ext : Bool) (ps : List ((List Str × OutSpec) × List Fun)),
    (∀ p ∈ ps, ∃ dir, Generates env f c hd ext p.1.1 p.1.2 dir ∧ ClassesOk p.1.2 ∧ Defines env w' dir p.1.2 ext p.2) →
    (ps.map Prod.fst).Pairwise (fun p q => ∀ c ∈ outClasses p.2, c ∉ outClasses q.2) → ((ps.flatMap Prod.snd).map Fun.ident).Nodup

/-! ### Examples -/

theorem trip_accepted : Accepted tripEnv c!"/d/x.stfx" tripConfig tripWorld tripText tripDecls where
  inputs := by
    intro n hn
    have hn : n = c!"conf.h" ∨ n = c!"shape.h" := by simpa [tripConfig, Main.Config.inputs] using hn
    rcases hn with rfl | rfl
    · exact ⟨rfl, by decide +kernel⟩
    · exact ⟨rfl, by decide +kernel⟩
  common := by decide
  groups := by intro g hg; cases List.mem_singleton.1 hg; decide
  outputs := by unfold Main.Disjoint'; decide
  dirs := by intro p h; cases h
  declared := fun _ => membersDeclared_of (by decide)

/-- The group of the configuration.  (Example, models no code.) -/
def tripGroup : List Str × OutSpec :=
  ([c!"shape.h"], { Main.OutSpec.default with dir := c!"x", enumFile := c!"e", structsFile := c!"s", fileType := 1 })

theorem trip_common : Generates tripEnv c!"/d/x.stfx" tripConfig tripDecls false tripConfig.commonIn tripConfig.commonOut c!"/d" where
  part := ⟨_, .common, ⟨by decide, rfl, rfl, by decide⟩, by decide, fun _ => ⟨by decide, rfl, rfl, by decide⟩, fun _ => by decide⟩
  kind := ⟨.nIni, selects_of rfl, .inr fun h => by cases h⟩
  declared := membersDeclared_of (by decide)
  keywords := noKeywords_of (by decide +kernel)
  named := ⟨plain_of (by decide), fun n hn => by cases List.mem_singleton.1 hn; exact plain_of (by decide), ⟨plain_of (by decide), by decide⟩,
    .inr ⟨plain_of (by decide), by decide⟩, ident_of_b (by decide), .inr (ident_of_b (by decide))⟩
  dir := rfl

theorem trip_group : Generates tripEnv c!"/d/x.stfx" tripConfig tripDecls false (tripConfig.commonIn ++ tripGroup.1) tripGroup.2 c!"/d/x" where
  part := ⟨[], .group [] tripGroup [] rfl, ⟨by decide, rfl, rfl, by decide⟩, by decide, fun _ => ⟨by decide, rfl, rfl, by decide⟩, fun _ => by decide⟩
  kind := ⟨.xml, selects_of rfl, .inr fun h => by cases h⟩
  declared := membersDeclared_of (by decide)
  keywords := noKeywords_of (by decide +kernel)
  named := ⟨plain_of (by decide), fun n hn => by
      have hn : n = c!"conf.h" ∨ n = c!"shape.h" := by simpa [tripConfig, tripGroup] using hn
      rcases hn with rfl | rfl <;> exact plain_of (by decide), ⟨plain_of (by decide), by decide⟩,
    .inr ⟨plain_of (by decide), by decide⟩, ident_of_b (by decide), .inr (ident_of_b (by decide))⟩
  dir := rfl

theorem common_classes : ClassesOk tripConfig.commonOut := ⟨by decide, fun _ => by decide⟩

theorem group_classes (e : Str) : ClassesOk { tripGroup.2 with enumFile := e } :=
  ⟨show tripGroup.2.readerClass ≠ _ by decide, fun _ => show tripGroup.2.writerClass ≠ _ ∧ tripGroup.2.writerClass ≠ tripGroup.2.readerClass by decide⟩

theorem trip_classes : ∀ c ∈ outClasses tripConfig.commonOut, c ∉ outClasses tripGroup.2 := by decide

/-- C69 is false: the files /d/e.cpp and /d/x/e.cpp of this run both define `stfx::s_from_e(Level)`. -/
theorem C69_refuted : ¬ OneDefinition := by
  intro h
  obtain ⟨w', h1, h2⟩ := C69_twice (env := tripEnv) (a := c!"x.stfx") (f := c!"/d/x.stfx") (locate := fun _ => .canonical c!"/d/x.stfx")
    (load := fun _ => .loaded tripConfig) (c := tripConfig) (w := tripWorld) (txt := tripText) (hd := tripDecls) rfl (by decide) rfl trip_accepted false
    (cl := true) (n := c!"Level") (e := ⟨c!"low", none⟩) (es := [⟨c!"high", some (.dec c!"5")⟩]) (t := false)
    (show _ ∈ [c!"conf.h"].flatMap _ from List.mem_flatMap.2 ⟨c!"conf.h", List.mem_cons_self, List.mem_cons_self⟩)
  obtain ⟨gs, g1, g2⟩ := h2 _ _ _ trip_common rfl
  obtain ⟨gs', g3, g4⟩ := h2 _ _ _ trip_group rfl
  have := h tripEnv c!"x.stfx" c!"/d/x.stfx" _ _ tripConfig tripWorld w' tripText tripDecls rfl (by decide) rfl trip_accepted h1 false
    [((tripConfig.commonIn, tripConfig.commonOut), gs), ((tripConfig.commonIn ++ tripGroup.1, tripGroup.2), gs')]
    (by
      intro p hp
      simp only [List.mem_cons, List.not_mem_nil, or_false] at hp
      rcases hp with rfl | rfl
      · exact ⟨_, trip_common, common_classes, g1⟩
      · exact ⟨_, trip_group, group_classes _, g3⟩)
    (by
      refine List.pairwise_cons.2 ⟨fun q hq => ?_, List.pairwise_cons.2 ⟨(fun q hq => by cases hq), .nil⟩⟩
      cases List.mem_singleton.1 hq
      exact trip_classes)
  simp only [List.flatMap_cons, List.flatMap_nil, List.append_nil, List.map_append] at this
  exact (List.nodup_append.1 this).2.2 _ (g2 _ List.mem_cons_self) _ (g4 _ List.mem_cons_self) rfl

/-- The same configuration without an enums file of the group.  (Example, models no code.) -/
def oneConfig : Main.Config := { tripConfig with nonCommon := [(tripGroup.1, { tripGroup.2 with enumFile := c!"" })] }

example : ∃ w', Main.main tripEnv (some c!"x.stfx") (fun _ => .canonical c!"/d/x.stfx") (fun _ => .loaded oneConfig) tripWorld = .ok 0 w' ∧
    ∃ gs gs', Defines tripEnv w' c!"/d" oneConfig.commonOut false gs ∧ Defines tripEnv w' c!"/d/x" { tripGroup.2 with enumFile := c!"" } false gs' ∧
      ((gs ++ gs').map Fun.ident).Nodup := by
  obtain ⟨w', h1, h2, h3⟩ := C69_partial (env := tripEnv) (a := c!"x.stfx") (f := c!"/d/x.stfx") (locate := fun _ => .canonical c!"/d/x.stfx")
    (load := fun _ => .loaded oneConfig) (c := oneConfig) (w := tripWorld) (txt := tripText) (hd := tripDecls) rfl (by decide) rfl
    { inputs := trip_accepted.inputs
      common := trip_accepted.common
      groups := by intro g hg; cases List.mem_singleton.1 hg; decide
      outputs := by unfold Main.Disjoint'; decide
      dirs := trip_accepted.dirs
      declared := trip_accepted.declared } false
  have hc : Generates tripEnv c!"/d/x.stfx" oneConfig tripDecls false oneConfig.commonIn oneConfig.commonOut c!"/d" :=
    { part := ⟨_, .common, ⟨by decide, rfl, rfl, by decide⟩, by decide, fun _ => ⟨by decide, rfl, rfl, by decide⟩, fun _ => by decide⟩
      kind := trip_common.kind
      declared := trip_common.declared
      keywords := trip_common.keywords
      named := trip_common.named
      dir := rfl }
  have hg : Generates tripEnv c!"/d/x.stfx" oneConfig tripDecls false (oneConfig.commonIn ++ tripGroup.1) { tripGroup.2 with enumFile := c!"" } c!"/d/x" :=
    { part := ⟨[], .group [] (tripGroup.1, { tripGroup.2 with enumFile := c!"" }) [] rfl, ⟨by decide, rfl, rfl, by decide⟩, by decide,
        (fun h => by cases h), fun h => by cases h⟩
      kind := trip_group.kind
      declared := trip_group.declared
      keywords := trip_group.keywords
      named := ⟨trip_group.named.stamp, trip_group.named.inputs, trip_group.named.structs, .inl rfl, trip_group.named.reader, trip_group.named.writer⟩
      dir := rfl }
  obtain ⟨gs, g1⟩ := h2 _ _ _ hc
  obtain ⟨gs', g2⟩ := h2 _ _ _ hg
  refine ⟨w', h1, gs, gs', g1, g2, ?_⟩
  have := h3 [((oneConfig.commonIn, oneConfig.commonOut), gs), ((oneConfig.commonIn ++ tripGroup.1, { tripGroup.2 with enumFile := c!"" }), gs')]
    (by
      intro p hp
      simp only [List.mem_cons, List.not_mem_nil, or_false] at hp
      rcases hp with rfl | rfl
      · exact ⟨_, hc, common_classes, g1⟩
      · exact ⟨_, hg, group_classes _, g2⟩)
    (by
      refine List.pairwise_cons.2 ⟨fun q hq => ?_, List.pairwise_cons.2 ⟨(fun q hq => by cases hq), .nil⟩⟩
      cases List.mem_singleton.1 hq
      exact ⟨trip_classes, fun _ h => by cases h⟩)
  simpa using this

end Stfx.Cpp
