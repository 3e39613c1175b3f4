import Verif.Cpp.SchemaNames
import Verif.Props.C66_Objects
import Verif.Props.C50_Written
/-
Property C68: from a run of stfx to the use of the program built from the files it has written.

C50 says what the files hold after a run, C66 what a program with such files does.  Here the program is built from the files of the world
in which the run ends.
-/
set_option autoImplicit false
namespace Stfx.Cpp
open Stfx.Lexer Stfx.Run Stfx.Parser Stfx.Items Stfx.Gen

/-! ### Names of the files -/

theorem filename_base {a b : Str} (ha : a = [] ∨ a.getLast? = some '/') (hb : '/' ∉ b) : Main.filename (a ++ b) = b := by
  unfold Main.filename
  have h1 : ∀ x ∈ b.reverse, (fun c => decide (c ≠ '/')) x = true := by
    intro x hx
    simp only [ne_eq, decide_not, Bool.not_eq_eq_eq_not, Bool.not_true, decide_eq_false_iff_not]
    rintro rfl
    exact hb (List.mem_reverse.1 hx)
  rw [List.reverse_append, List.takeWhile_append_of_pos h1]
  have h2 : a.reverse.takeWhile (fun c => decide (c ≠ '/')) = [] := by
    rcases ha with rfl | ha
    · rfl
    · cases hr : a.reverse with
      | nil => rfl
      | cons c l =>
        have : a.getLast? = some c := by rw [List.getLast?_eq_head?_reverse, hr]; rfl
        rw [ha] at this
        cases this
        rfl
  rw [h2, List.append_nil, List.reverse_reverse]

theorem join_base (d b : Str) (hb : '/' ∉ b) : ∃ a, Main.join d b = a ++ b ∧ (a = [] ∨ a.getLast? = some '/') := by
  unfold Main.join
  have h1 : b.head? ≠ some '/' := by
    intro h
    cases b with
    | nil => cases h
    | cons c l => cases h; exact hb List.mem_cons_self
  rw [if_neg h1]
  split
  · rename_i h
    exact ⟨d, rfl, h⟩
  · exact ⟨d ++ ['/'], by simp, .inr (by simp)⟩

theorem extension_cpp {a f : Str} (ha : a = [] ∨ a.getLast? = some '/') (hf : '/' ∉ f) (hne : f ≠ []) :
    Main.extension (a ++ (f ++ c!".cpp")) = c!".cpp" := by
  have hl : 0 < f.length := List.length_pos_iff.2 hne
  unfold Main.extension
  rw [filename_base ha (by simp [hf])]
  have h1 : f ++ c!".cpp" ≠ c!".." := by
    intro h
    have := congrArg List.length h
    simp at this
  simp only [if_neg h1]
  have h2 : ((f ++ c!".cpp").reverse.takeWhile (fun c => decide (c ≠ '.'))).reverse = c!"cpp" := by
    rw [List.reverse_append]
    rfl
  simp only [h2]
  rw [if_pos (by simp; omega)]

/-- The last components of the paths of a pair of files. -/
theorem pair_names (d : Str) {f : Str} (hf : '/' ∉ f) (hne : f ≠ []) :
    Main.filename (Main.cppPath d f) = f ++ c!".cpp" ∧ Main.filename (Main.hPath d f) = f ++ c!".h" := by
  obtain ⟨a, h1, h2⟩ := join_base d (f ++ c!".cpp") (by simp [hf])
  refine ⟨by rw [Main.cppPath, h1]; exact filename_base h2 (by simp [hf]), ?_⟩
  rw [Main.hPath, Main.replaceExtH, Main.cppPath, h1, extension_cpp h2 hf hne]
  have : (a ++ (f ++ c!".cpp")).take ((a ++ (f ++ c!".cpp")).length - c!".cpp".length) = a ++ f := by
    rw [← List.append_assoc]
    exact List.take_left' (by simp; omega)
  rw [this, List.append_assoc]
  exact filename_base h2 (by simp [hf])

/-! ### Programs built from the files of a run -/

/-- The names in a configuration are usable: file names and the time stamp do not end the directive or comment they are printed into,
root names of files have no directory part, and the classes have identifiers as names.  (Specification notion, models no code.) -/
structure SpecNamed (stamp : Str) (names : List Str) (out : OutSpec) : Prop where
  stamp : Plain stamp
  inputs : ∀ n ∈ names, Plain n
  structs : Plain out.structsFile ∧ '/' ∉ out.structsFile
  enums : disabled out.enumFile = true ∨ Plain out.enumFile ∧ '/' ∉ out.enumFile
  reader : Ident out.readerClass
  writer : out.onlyRead = true ∨ Ident out.writerClass

/-- The files for an output specification can be written, and what is written into them is not overwritten: not by the others of
these files, and not through the paths in `later`.  (Specification notion, models no code.) -/
structure Kept (env : Main.Env) (dir : Str) (out : OutSpec) (later : List Str) : Prop where
  structs : Main.Writable env dir out.structsFile
  structsLater : ∀ p ∈ later, env.ident p ≠ env.ident (Main.cppPath dir out.structsFile) ∧ env.ident p ≠ env.ident (Main.hPath dir out.structsFile)
  enums : disabled out.enumFile = false → Main.Writable env dir out.enumFile
  enumsLater : disabled out.enumFile = false → ∀ p ∈ Main.pairPaths env dir out.structsFile ++ later,
    env.ident p ≠ env.ident (Main.cppPath dir out.enumFile)

/-- A program built from the files of the world `w`: its functions `E.prog` contain those which the structs .cpp file defines, and if an
enums file is wanted those which the enums .cpp file defines; no other file defines members of the generated classes or functions of
namespace stfx.  The classes `cs` are those of the structs .h file.  `E.T` is what the headers with the declarations `ds` mean in C++.
If `ext`, the compiler accepts `unsigned short(i)`, which is not C++.  (An assumption about a program, models no code.) -/
structure BuiltFrom (env : Main.Env) (w : Main.World) (dir : Str) (out : OutSpec) (ds : List Decl) (ext : Bool) (E : Env) (cs : List Class) : Prop where
  structs : ∃ text gs pre post, w.read env (Main.cppPath dir out.structsFile) = some text ∧ parse ext text = some gs ∧ E.prog = pre ++ gs ++ post ∧
    ∀ f ∈ pre ++ post, f.name.head? ≠ some out.readerClass ∧ (out.onlyRead = false → f.name.head? ≠ some out.writerClass)
  header : ∃ text, w.read env (Main.hPath dir out.structsFile) = some text ∧ parseH ext text = some (cs.map .cls)
  enums : disabled out.enumFile = false → ∃ text gs pre post, w.read env (Main.cppPath dir out.enumFile) = some text ∧ parse false text = some gs ∧
    E.prog = pre ++ gs ++ post ∧ ∀ f ∈ pre ++ post, f.name.head? ≠ some c!"stfx"
  noEnums : disabled out.enumFile = true → (∀ f ∈ E.prog, f.name.head? ≠ some c!"stfx") ∧ ∀ c n e es t, Decl.enum c n e es t ∉ ds
  described : Described cs E
  compiled : Compiled ds E.T
  enumerators : ∀ n e val, E.T.enm n = some (e, val) → EnumDecl E e val

theorem fresh_run {txt : Str → Str} {hd : Str → Header} {names : List Str} (ht : ∀ n ∈ names, toksFile (txt n) = some (hd n).toks)
    (hnd : ((names.flatMap fun n => (hd n).decls).map Decl.name).Nodup) (hdecl : MembersDeclared (names.flatMap fun n => (hd n).decls)) :
    (processFiles 0 ((sources txt hd names).map fun f => some f.1) [Info.empty]).bind (prepare 0) =
      some ([(findTop (fixup (Main.fresh (names.flatMap fun n => (hd n).decls))).1).1], true) := by
  have hw : ∀ f ∈ sources txt hd names, toksFile f.1 = some f.2.toks := by
    intro f hf
    obtain ⟨n, hn, rfl⟩ := List.mem_map.1 hf
    exact ht n hn
  have ht0 : TabOk Info.empty := (HeapOk.new HeapOk.nil).tab 0 _ rfl
  rw [headers_steps (h := [Info.empty]) (self := 0) rfl ht0 rfl _ hw (by rw [sources_decls]; exact hnd) fun _ _ => rfl, sources_decls,
    Option.bind_some]
  show some ([_], (fixup (Main.fresh _)).2 && true) = _
  rw [fresh_fixup hnd hdecl]
  rfl

theorem fresh_noEnums {ds : List Decl} (hnd : (ds.map Decl.name).Nodup) (hn : ∀ c n e es t, Decl.enum c n e es t ∉ ds) : (Main.fresh ds).enums = [] := by
  cases h : (Main.fresh ds).enums with
  | nil => rfl
  | cons p ps =>
    have hf := (Main.fresh_facts ds hnd).1.sortedE.find?_of_mem (k := p.1) (v := p.2) (by rw [h]; exact List.mem_cons_self)
    unfold Main.fresh at hf
    rw [foldl_add_enums _ _ _ hnd] at hf
    cases hd : ds.find? fun d => decide (d.name = p.1) with
    | none => rw [hd] at hf; cases hf
    | some d =>
      rw [hd] at hf
      cases d with
      | struct => cases hf
      | enum c n e es t => exact absurd (List.mem_of_find?_eq_some hd) (hn c n e es t)

/-- What the files hold after a run. -/
theorem code_of_holds {env : Main.Env} {base : Str} {txt : Str → Str} {hd : Str → Header} {names : List Str} {out : OutSpec} {k : Kind}
    {later : List Str} {w : Main.World} (ht : ∀ n ∈ names, toksFile (txt n) = some (hd n).toks)
    (hnd : ((names.flatMap fun n => (hd n).decls).map Decl.name).Nodup) (hdecl : MembersDeclared (names.flatMap fun n => (hd n).decls))
    (hkw : NoKeywords (names.flatMap fun n => (hd n).decls)) (hsp : SpecNamed env.stamp names out)
    (h : Main.Holds env base names out k (findTop (fixup (Main.fresh (names.flatMap fun n => (hd n).decls))).1).1.structs
      (Main.fresh (names.flatMap fun n => (hd n).decls)).enums later w) {dir : Str} (hdir : Main.outDir env base out = some dir)
    (hkept : Kept env dir out later) {ext : Bool} (hx : ext = true ∨ (k = .attrib → NoShortMembers (names.flatMap fun n => (hd n).decls))) :
    ∃ (i : Info) (fc fh : Str), (processFiles 0 ((sources txt hd names).map fun f => some f.1) [Info.empty]).bind (prepare 0) = some ([i], true) ∧
      w.read env (Main.cppPath dir out.structsFile) = some (Gen.fileText (structsCpp k env.stamp fc fh names out i.structs)) ∧
      w.read env (Main.hPath dir out.structsFile) = some (Gen.fileText (structsH k env.stamp fh names out i.structs)) ∧
      Names env.stamp fc fh names out i.structs ∧ (ext = true ∨ NoShort k i.structs) ∧
      (∀ p ∈ i.enums, EnumNamed p.2) ∧ (i.enums.map fun p => p.2.name).Nodup ∧
      (disabled out.enumFile = false → ∃ ec eh, FileNamed env.stamp ec eh names out.enumFile ∧
        w.read env (Main.cppPath dir out.enumFile) = some (Gen.fileText (enumsCpp env.stamp ec eh names i.enums))) ∧
      ((∀ c n e es t, Decl.enum c n e es t ∉ names.flatMap fun n => (hd n).decls) → i.enums = []) := by
  obtain ⟨h1, h2⟩ := h dir hdir
  obtain ⟨h3, h4⟩ := h1 hkept.structs
  have h3 := h3 fun p hp => (hkept.structsLater p hp).1
  have h4 := h4 fun p hp => (hkept.structsLater p hp).2
  have hw : ∀ f ∈ sources txt hd names, toksFile f.1 = some f.2.toks := by
    intro f hf
    obtain ⟨n, hn, rfl⟩ := List.mem_map.1 hf
    exact ht n hn
  have hds : declsOf (sources txt hd names) = names.flatMap fun n => (hd n).decls := sources_decls txt hd names
  have hrun := fresh_run ht hnd hdecl
  have hnd' := hnd
  rw [← hds] at hnd' hkw hx
  have hen := enums_named hw hnd' hkw hrun
  have hst := structs_named hw hnd' hkw hrun
  have hfile : FileNamed env.stamp (Main.filename (Main.cppPath dir out.structsFile)) (Main.filename (Main.hPath dir out.structsFile)) names
      out.enumFile := by
    obtain ⟨e1, e2⟩ := pair_names dir hsp.structs.2 hsp.structs.1.1
    rw [e1, e2]
    exact ⟨hsp.stamp, plain_append hsp.structs.1 (by decide), plain_append hsp.structs.1 (by decide), hsp.inputs, hsp.enums.imp_right And.left⟩
  refine ⟨_, _, _, hrun, h3, h4, ⟨hfile, hsp.reader, hsp.writer, hst⟩, hx.imp_right fun hs => noShort_of hw hnd' hrun hs, hen.1, hen.2, ?_,
    fun hno => fresh_noEnums hnd hno⟩
  intro hdis
  have h5 := h2 (hkept.enums hdis) _ (.inl rfl) (fun p hp => hkept.enumsLater hdis p (List.mem_append_left _ hp))
    (fun p hp => hkept.enumsLater hdis p (List.mem_append_right _ hp))
  rw [if_pos rfl] at h5
  have hpl := hsp.enums.resolve_left (by simp [hdis])
  obtain ⟨n1, n2⟩ := pair_names dir hpl.2 hpl.1.1
  refine ⟨_, _, ?_, h5⟩
  rw [n1, n2]
  exact ⟨hsp.stamp, plain_append hpl.1 (by decide), plain_append hpl.1 (by decide), hsp.inputs, .inr hpl.1⟩

/-- What is in the world around the generated files so that a program can be built from them: the meaning `E.T` of the headers, classes and
bases as the .h file says, class names that do not clash with each other or with namespace stfx, and a file for the functions of the
enums if there are enums.  (Specification notion, models no code.) -/
structure Surroundings (E : Env) (ds : List Decl) (k : Kind) (out : OutSpec) : Prop where
  reader : out.readerClass ≠ c!"stfx"
  writer : out.onlyRead = false → out.writerClass ≠ c!"stfx" ∧ out.writerClass ≠ out.readerClass
  base : ∀ c, E.base c = if !out.onlyRead && c = out.writerClass then some out.readerClass else none
  nested : E.nested = if k.isXml then [] else [c!"read_item_S"]
  noEnums : disabled out.enumFile = true → ∀ c n e es t, Decl.enum c n e es t ∉ ds
  compiled : Compiled ds E.T
  enumerators : ∀ n e val, E.T.enm n = some (e, val) → EnumDecl E e val

section
variable {env : Main.Env} {txt : Str → Str} {hd : Str → Header} {names : List Str} {out : OutSpec} {k : Kind} {w : Main.World} {dir : Str} {ext : Bool}
  {i : Info} {fc fh : Str}
  (ht : ∀ n ∈ names, toksFile (txt n) = some (hd n).toks) (hnd : ((names.flatMap fun n => (hd n).decls).map Decl.name).Nodup)
  (h1 : (processFiles 0 ((sources txt hd names).map fun f => some f.1) [Info.empty]).bind (prepare 0) = some ([i], true))
  (h2 : w.read env (Main.cppPath dir out.structsFile) = some (Gen.fileText (structsCpp k env.stamp fc fh names out i.structs)))
  (h3 : w.read env (Main.hPath dir out.structsFile) = some (Gen.fileText (structsH k env.stamp fh names out i.structs)))
  (h4 : Names env.stamp fc fh names out i.structs) (h5 : ext = true ∨ NoShort k i.structs)
  (h6 : ∀ p ∈ i.enums, EnumNamed p.2) (h7 : (i.enums.map fun p => p.2.name).Nodup)
  (h8 : disabled out.enumFile = false → ∃ ec eh, FileNamed env.stamp ec eh names out.enumFile ∧
    w.read env (Main.cppPath dir out.enumFile) = some (Gen.fileText (enumsCpp env.stamp ec eh names i.enums)))
  (h9 : (∀ c n e es t, Decl.enum c n e es t ∉ names.flatMap fun n => (hd n).decls) → i.enums = [])
include ht hnd h1 h2 h3 h4 h5 h6 h7 h8 h9

theorem linked_of_code {E : Env} {cs : List Class} (hb : BuiltFrom env w dir out (names.flatMap fun n => (hd n).decls) ext E cs) :
    Linked (sources txt hd names) k out (structsCpp k env.stamp fc fh names out i.structs) E cs := by
  have hw : ∀ f ∈ sources txt hd names, toksFile f.1 = some f.2.toks := by
    intro f hf
    obtain ⟨n, hn, rfl⟩ := List.mem_map.1 hf
    exact ht n hn
  have hds : declsOf (sources txt hd names) = names.flatMap fun n => (hd n).decls := sources_decls txt hd names
  refine ⟨hw, by rw [hds]; exact hnd, ?_, by rw [hds]; exact hb.compiled, hb.enumerators, hb.described⟩
  obtain ⟨text, gs, pre, post, e1, e2, e3, e4⟩ := hb.structs
  rw [h2] at e1
  cases e1
  obtain ⟨text, e5, e6⟩ := hb.header
  rw [h3] at e5
  cases e5
  refine ⟨ext, i, env.stamp, _, _, names, pre, gs, post, h1, rfl, h4, h5, e2, e3, e4, ⟨?_, h6, h7⟩, e6⟩
  cases hdis : disabled out.enumFile with
  | false =>
    obtain ⟨text, gs, pre, post, e1, e2, e3, e4⟩ := hb.enums hdis
    obtain ⟨ec, eh, hf, h8⟩ := h8 hdis
    rw [h8] at e1
    cases e1
    exact ⟨env.stamp, _, _, names, out.enumFile, pre, gs, post, hf, e2, e3, e4⟩
  | true =>
    obtain ⟨e1, e2⟩ := hb.noEnums hdis
    refine ⟨env.stamp, _, _, names, out.enumFile, E.prog, [], [], h4.files, ?_, by simp, by simpa using e1⟩
    rw [h9 e2]
    obtain ⟨gs, g1, g2⟩ := C59_enums (E := []) h4.files (by simp)
    rw [g1]
    simpa using g2

theorem built_of_code {E : Env} (hs : Surroundings E (names.flatMap fun n => (hd n).decls) k out) :
    ∃ prog cs, BuiltFrom env w dir out (names.flatMap fun n => (hd n).decls) ext { E with prog := prog } cs := by
  have hcls : ∀ f ∈ (structsCpp k env.stamp fc fh names out i.structs).flatMap itemFuns,
      f.name.head? ≠ some c!"stfx" := by
    intro f hf
    have h : f.sig ∈ ((structsCpp k env.stamp fc fh names out i.structs).flatMap itemFuns).map Fun.sig := List.mem_map.2 ⟨f, hf, rfl⟩
    rw [sigs_eq, List.mem_append] at h
    have e : f.name = f.sig.2.1 := rfl
    rw [e]
    generalize f.sig = g at h
    rcases h with h | h
    · have : g.2.1.head? = some out.readerClass := by
        unfold readerSigs at h
        cases k <;> simp only [List.cons_append, List.nil_append, List.mem_cons, List.mem_append, List.mem_map, List.not_mem_nil, or_false, or_assoc] at h <;>
          first
            | (rcases h with rfl | ⟨_, _, rfl⟩ | ⟨_, _, rfl⟩ <;> rfl)
            | (rcases h with rfl | ⟨_, _, rfl⟩ <;> rfl)
      rw [this]
      exact fun e => hs.reader (Option.some.inj e)
    · cases ho : out.onlyRead with
      | true => simp [ho] at h
      | false =>
        rw [ho, if_neg (by simp)] at h
        have : g.2.1.head? = some out.writerClass := by
          unfold writerSigs at h
          cases k <;> simp only [List.cons_append, List.nil_append, List.mem_cons, List.mem_append, List.mem_map, List.not_mem_nil, or_false, or_assoc] at h <;>
            first
              | (rcases h with rfl | ⟨_, _, rfl⟩ | ⟨_, _, rfl⟩ <;> rfl)
              | (rcases h with rfl | ⟨_, _, rfl⟩ <;> rfl)
        rw [this]
        exact fun e => (hs.writer ho).1 (Option.some.inj e)
  have hen : ∀ f ∈ i.enums.flatMap (fun p => [sFromFun p.2, sToFun p.2]), f.name.head? = some c!"stfx" := by
    intro f hf
    obtain ⟨p, _, hf⟩ := List.mem_flatMap.1 hf
    simp only [List.mem_cons, List.not_mem_nil, or_false] at hf
    rcases hf with rfl | rfl <;> rfl
  have p1 : parse ext (Gen.fileText (structsCpp k env.stamp fc fh names out i.structs)) = _ :=
    structsCpp_parse h4.files h4.reader h4.writer h4.structs (h5.imp_right fun h => by
      by_cases hk : k = .attrib
      · exact .inr (h hk)
      · exact .inl hk)
  refine ⟨(structsCpp k env.stamp fc fh names out i.structs).flatMap itemFuns ++ i.enums.flatMap (fun p => [sFromFun p.2, sToFun p.2]),
    twoClasses k out (i.structs.map Prod.snd), ⟨⟨_, _, [], _, h2, p1, rfl, ?_⟩, ⟨_, h3, ?_⟩, ?_, ?_, ?_, hs.compiled, ?_⟩⟩
  · intro f hf
    rw [List.nil_append] at hf
    rw [hen f hf]
    exact ⟨fun e => hs.reader (Option.some.inj e).symm, fun ho e => (hs.writer ho).1 (Option.some.inj e).symm⟩
  · rw [structsH_parse h4.files h4.reader h4.writer h4.structs, twoClasses]
    cases out.onlyRead <;> rfl
  · intro hdis
    obtain ⟨ec, eh, hf, h8⟩ := h8 hdis
    exact ⟨_, _, _, [], h8, enumsCpp_parse hf h6, (List.append_nil _).symm, by rw [List.append_nil]; exact hcls⟩
  · intro hdis
    have hno := hs.noEnums hdis
    rw [h9 hno]
    exact ⟨by simpa using hcls, hno⟩
  · exact described_of _ (fun ho => (hs.writer ho).2) hs.base hs.nested
  · intro n e val hn
    obtain ⟨a, b, c, d, e⟩ := hs.enumerators n e val hn
    exact ⟨a, b, c, d, e⟩

end

/-- The files of an output specification are usable: every program built from them is linked with the code for the headers `fs`, and
such a program can be built.  (Specification notion, models no code.) -/
structure Usable (env : Main.Env) (w : Main.World) (dir : Str) (fs : List (Str × Header)) (k : Kind) (out : OutSpec) (ext : Bool) : Prop where
  linked : ∃ prog : List Item, w.read env (Main.cppPath dir out.structsFile) = some (Gen.fileText prog) ∧
    ∀ E cs, BuiltFrom env w dir out (declsOf fs) ext E cs → Linked fs k out prog E cs
  builds : ∀ E, Surroundings E (declsOf fs) k out → ∃ prog cs, BuiltFrom env w dir out (declsOf fs) ext { E with prog := prog } cs

theorem usable_of_holds {env : Main.Env} {base : Str} {txt : Str → Str} {hd : Str → Header} {names : List Str} {out : OutSpec} {k : Kind}
    {later : List Str} {w : Main.World} (ht : ∀ n ∈ names, toksFile (txt n) = some (hd n).toks)
    (hnd : ((names.flatMap fun n => (hd n).decls).map Decl.name).Nodup) (hdecl : MembersDeclared (names.flatMap fun n => (hd n).decls))
    (hkw : NoKeywords (names.flatMap fun n => (hd n).decls)) (hsp : SpecNamed env.stamp names out)
    (h : Main.Holds env base names out k (findTop (fixup (Main.fresh (names.flatMap fun n => (hd n).decls))).1).1.structs
      (Main.fresh (names.flatMap fun n => (hd n).decls)).enums later w) {dir : Str} (hdir : Main.outDir env base out = some dir)
    (hkept : Kept env dir out later) {ext : Bool} (hx : ext = true ∨ (k = .attrib → NoShortMembers (names.flatMap fun n => (hd n).decls))) :
    Usable env w dir (sources txt hd names) k out ext := by
  obtain ⟨i, fc, fh, h1, h2, h3, h4, h5, h6, h7, h8, h9⟩ := code_of_holds ht hnd hdecl hkw hsp h hdir hkept hx
  have hds : declsOf (sources txt hd names) = names.flatMap fun n => (hd n).decls := sources_decls txt hd names
  refine ⟨⟨_, h2, fun E cs hb => ?_⟩, fun E hs => ?_⟩
  · exact linked_of_code ht hnd h1 h2 h3 h4 h5 h6 h7 h8 h9 (hds ▸ hb)
  · rw [hds] at hs ⊢
    exact built_of_code ht hnd h1 h2 h3 h4 h5 h6 h7 h8 h9 hs

/-! ### Runs -/

/-- A configuration stfx accepts: the headers can be read and are well-formed, names are distinct within each part, no output overwrites
an input, directories can be made, and types used in the common headers are declared there if code is generated for them.  (The
hypotheses of C50; specification notion, models no code.) -/
structure Accepted (env : Main.Env) (f : Str) (c : Main.Config) (w : Main.World) (txt : Str → Str) (hd : Str → Header) : Prop where
  inputs : ∀ n ∈ c.inputs, w.read env (Main.join (Main.parentPath f) n) = some (txt n) ∧ toksFile (txt n) = some (hd n).toks
  common : ((c.commonIn.flatMap fun n => (hd n).decls).map Decl.name).Nodup
  groups : ∀ g ∈ c.nonCommon, (((c.commonIn ++ g.1).flatMap fun n => (hd n).decls).map Decl.name).Nodup
  outputs : Main.Disjoint' env (Main.parentPath f) c.inputs (Main.runPaths env (Main.parentPath f) c.commonOut ++
    c.nonCommon.flatMap fun g => Main.runPaths env (Main.parentPath f) g.2)
  dirs : ∀ p, env.makeDir p ≠ none
  declared : (∃ k, Selects c.commonOut.fileType k) → MembersDeclared (c.commonIn.flatMap fun n => (hd n).decls)

/-- A part of a configuration: its headers, its output specification, and the groups that come later.  (Specification notion, models no
code.) -/
inductive Part (c : Main.Config) : List Str → OutSpec → List (List Str × OutSpec) → Prop
  | common : Part c c.commonIn c.commonOut c.nonCommon
  | group (pre : List (List Str × OutSpec)) (g : List Str × OutSpec) (post : List (List Str × OutSpec)) (h : c.nonCommon = pre ++ g :: post) :
      Part c (c.commonIn ++ g.1) g.2 post

/-- C68, configuration mode: stfx called with an accepted configuration ends with exit status 0, and every program built from the files
which it has written for a part of the configuration contains the code for the declarations of the headers of that part; such programs
can be built. -/
theorem C68_config {env : Main.Env} {a f : Str} {locate : Str → Main.Located} {load : Str → Main.LoadRes} {c : Main.Config} {w : Main.World}
    {txt : Str → Str} {hd : Str → Header} (ha : locate a = .canonical f) (he : Main.extension f = c!".stfx") (hl : load f = .loaded c)
    (hacc : Accepted env f c w txt hd) :
    ∃ w', Main.main env (some a) locate load w = .ok 0 w' ∧
      ∀ names out later, Part c names out later → ∀ k, Selects out.fileType k →
        MembersDeclared (names.flatMap fun n => (hd n).decls) → NoKeywords (names.flatMap fun n => (hd n).decls) →
        SpecNamed env.stamp names out → ∀ dir, Main.outDir env (Main.parentPath f) out = some dir →
        Kept env dir out (later.flatMap fun g => Main.runPaths env (Main.parentPath f) g.2) →
        ∀ ext, ext = true ∨ (k = .attrib → NoShortMembers (names.flatMap fun n => (hd n).decls)) →
        Usable env w' dir (sources txt hd names) k out ext := by
  obtain ⟨w', e, h1, h2⟩ := Main.config_written env f c w hd (fun n hn => ⟨_, hacc.inputs n hn⟩) hacc.common hacc.groups hacc.outputs hacc.dirs
    (fun ⟨k, hk⟩ => fresh_fixup hacc.common (hacc.declared ⟨k, selects_of hk⟩))
  refine ⟨w', ?_, ?_⟩
  · unfold Main.main
    simp only [ha, he, hl, if_true]
    exact e
  · intro names out later hp k hs hdecl hkw hsp dir hdir hkept ext hx
    cases hp with
    | common =>
      exact usable_of_holds (fun n hn => (hacc.inputs n (List.mem_append_left _ hn)).2) hacc.common hdecl hkw hsp (h1 k hs.kindOf) hdir hkept hx
    | group pre g _ hg =>
      have hmem : g ∈ c.nonCommon := by rw [hg]; simp
      refine usable_of_holds (fun n hn => (hacc.inputs n ?_).2) (hacc.groups g hmem) hdecl hkw hsp (h2 pre g _ hg k hs.kindOf) hdir hkept hx
      rcases List.mem_append.1 hn with hn | hn
      · exact List.mem_append_left _ hn
      · exact List.mem_append_right _ (List.mem_flatMap.2 ⟨g, hmem, hn⟩)

/-- C68, header mode: the same for a single header. -/
theorem C68_header {env : Main.Env} {a p : Str} {locate : Str → Main.Located} {load : Str → Main.LoadRes} {w : Main.World} {text : Str} {hd : Header}
    (ha : locate a = .canonical p) (he : Main.extension p ≠ c!".stfx") (hr : w.read env p = some text) (ht : toksFile text = some hd.toks)
    (hnd : (hd.decls.map Decl.name).Nodup) (hdecl : MembersDeclared hd.decls) (hkw : NoKeywords hd.decls) (hst : Plain env.stamp)
    (hp : Plain (Main.filename p)) (hkept : Kept env (Main.parentPath p) Main.headerSpec []) {ext : Bool} (hx : ext = true ∨ NoShortMembers hd.decls) :
    ∃ w', Main.main env (some a) locate load w = .ok 0 w' ∧
      Usable env w' (Main.parentPath p) [(text, hd)] .attrib Main.headerSpec ext := by
  have ht0 : TabOk Info.empty := (HeapOk.new HeapOk.nil).tab 0 _ rfl
  have e := header_step (h := [Info.empty]) (self := 0) (i := Info.empty) rfl ht0 hd ht hnd (fun _ _ => rfl)
  have hfl : [Main.filename p].flatMap (fun _ => hd.decls) = hd.decls := by simp
  have d3 : Main.outDir env (Main.parentPath p) Main.headerSpec = some (Main.parentPath p) := by
    unfold Main.outDir; rw [if_pos (by rfl)]
  have hi : ({ w with heap := [Main.fresh hd.decls] } : Main.World).heap[0]? = some (Main.fresh hd.decls) := rfl
  obtain ⟨b, w1, e1, h1, h2⟩ := Main.processItems_written hi env .attrib (Main.parentPath p) [Main.filename p] Main.headerSpec d3
  refine ⟨w1, ?_, ?_⟩
  · unfold Main.main
    simp only [ha, if_neg he]
    unfold Main.processSingleHeader
    rw [hr, e]
    simp only [if_true]
    show (Main.processItems env .attrib (Main.parentPath p) 0 [Main.filename p] Main.headerSpec { w with heap := [_] }).bind _ = _
    have hrv : ({ hd.decls.foldl (Info.add 0) Info.empty with parseRv := 0 } : Info) = Main.fresh hd.decls :=
      rv_eq (Main.foldl_rv0 0 (i := Info.empty) rfl _)
    first
      | rw [e1]; rfl
      | rw [hrv, e1]; rfl
  · refine usable_of_holds (txt := fun _ => text) (hd := fun _ => hd) (names := [Main.filename p]) (later := []) (fun _ _ => ht) (by rw [hfl]; exact hnd)
      (by rw [hfl]; exact hdecl) (by rw [hfl]; exact hkw) ⟨hst, ?_, ?_, ?_, ?_, ?_⟩ ?_ d3 hkept (by rw [hfl]; exact hx.imp_right fun h _ => h)
    · intro n hn
      cases List.mem_singleton.1 hn
      exact hp
    · exact ⟨plain_of (by decide), by decide⟩
    · exact .inr ⟨plain_of (by decide), by decide⟩
    · exact ident_of_b (by decide)
    · exact .inr (ident_of_b (by decide))
    · rw [hfl]
      intro dir hdir
      rw [d3] at hdir
      cases hdir
      exact ⟨fun hs => ⟨fun _ => (h1 hs).1, fun _ => (h1 hs).2⟩, fun he q hq hp _ => h2 he q hq hp⟩

/-! ### Trips through files -/

/-- A leaf of an object survives writing and reading into a default object.  (Specification notion, models no code.) -/
def KeptBy (L : Lib) (k : Kind) (delta : Bool) : MTy → Val → Val → Prop := if delta then KeptDelta L k else KeptFull L k

/-- Whatever object is written by a new writer is read back by a new reader, in blocks anywhere in the program.  (Specification notion,
models no code.) -/
def XmlTrips (E : Env) (cs : List Class) (ds : List Decl) (k : Kind) (out : OutSpec) : Prop :=
  ∀ (d : Bool) (args : List EV), WriterArgs d args → ∀ n, TopStruct ds n → ∀ v, CTable.WT E.T false (.struct n) v → nesting v ≤ E.L.maxDepth →
    LeavesD E.T (KeptBy E.L k (d && !out.noDelta)) (.struct n) (E.T.dflt n) v →
    ∀ (s : St) (t q : Place) (f : Str), getAt s.mem t = some (.str f) → getAt s.mem q = some v → E.canSave (cStr f) = true →
    ∀ fuel, nesting v ≤ fuel →
    ∃ root, onNew E cs (fuel + 2) out.writerClass args c!"write_to_file" [.lv .str t, .lv (.struct n) q] s =
        .ok (.rv (.prim .bool) (.val (.bool true))) { s with out := s.out ++ [(cStr f, .doc [root])] } ∧
      (E.load (cStr f) = loadSaved E.L root → ∀ (s' : St) (t' q' : Place), getAt s'.mem t' = some (.str f) → getAt s'.mem q' = some (E.T.dflt n) →
        onNew E cs (fuel + 2) out.readerClass [] c!"read_from_file" [.lv .str t', .lv (.struct n) q'] s' =
          .ok (.rv (.prim .bool) (.val (.bool true))) { s' with mem := setAt s'.mem q' v })

/-- C68, XML: objects written by a program that is built from the files of a run (C68_config, C68_header) come back. -/
theorem C68_xml_partial {env : Main.Env} {w : Main.World} {dir : Str} {fs : List (Str × Header)} {k : Kind} {out : OutSpec} {ext : Bool}
    {E : Env} {cs : List Class} (hu : Usable env w dir fs k out ext) (hb : BuiltFrom env w dir out (declsOf fs) ext E cs) (hk : k = .xml ∨ k = .attrib) (ho : out.onlyRead = false) (hr : ReaderClear (declsOf fs) out)
    (hc : WriterClear (declsOf fs) out) (hlong : k = .attrib ∨ E.T.longBits = 64) (hni : NoStructInits (declsOf fs)) :
    XmlTrips E cs (declsOf fs) k out := by
  intro d args ha n hn v hv hd hl s t q f ht hq hcs fuel hfuel
  obtain ⟨prog, _, h⟩ := hu.linked
  have h := h E cs hb
  have hG : Generated fs k out prog := (h.xml hk).gen
  refine C66_xml_trip_partial h hk ho hr hc hlong ha hn ht hq hv hfuel hcs ?_
  cases hdn : d && !out.noDelta with
  | true =>
    rw [hdn] at hl
    simp only [Bool.and_eq_true, Bool.not_eq_true'] at hdn
    rw [hdn.1]
    exact delta_default hG hk ho hdn.2 h.compiled hni hn hv hd hl
  | false =>
    rw [hdn] at hl
    refine full_default hG hk ho ?_ h.compiled hni hn hv hd hl
    revert hdn
    cases d <;> cases out.noDelta <;> simp

/-- The same for n_ini files, which are read by a new reader into any object if they are full files.  (Specification notion, models no
code.) -/
def IniTrips (E : Env) (cs : List Class) (ds : List Decl) (out : OutSpec) : Prop :=
  ∀ (d : Bool) (args : List EV), WriterArgs d args → ∀ n, TopStruct ds n → ∀ v, CTable.WT E.T false (.struct n) v →
    ∀ o, CTable.WT E.T true (.struct n) o →
    (if d && !out.noDelta then IniFits E.T (IniDelta E.T E.I) [] n v ∧ o = E.T.dflt n else IniFits E.T (fun n ty _ v => IniFit E.T E.I n ty v) [] n v) →
    ∀ (s : St) (t q : Place) (f : Str), getAt s.mem t = some (.str f) → getAt s.mem q = some v → E.canWrite (cStr f) = true →
    ∀ fuel, nesting v ≤ fuel →
    ∃ text, onNew E cs (fuel + 2) out.writerClass args c!"write_to_file" [.lv .str t, .lv (.struct n) q] s =
        .ok (.rv (.prim .bool) (.val (.bool true))) ⟨s.mem, s.vars, s.files ++ [.closed], s.out ++ [(cStr f, .text text)]⟩ ∧
      (E.text (cStr f) = some text → ∀ (s' : St) (t' q' : Place) (fuel' : Nat), getAt s'.mem t' = some (.str f) → getAt s'.mem q' = some o →
        text.length ≤ fuel' → nesting o ≤ fuel' →
        onNew E cs (fuel' + 2) out.readerClass [] c!"read_from_file" [.lv .str t', .lv (.struct n) q'] s' =
          .ok (.rv (.prim .bool) (.val (.bool true))) ⟨setAt s'.mem q' v, s'.vars, s'.files ++ [.closed], s'.out⟩)

/-- C68, n_ini. -/
theorem C68_ini_partial {env : Main.Env} {w : Main.World} {dir : Str} {fs : List (Str × Header)} {out : OutSpec} {ext : Bool}
    {E : Env} {cs : List Class} (hu : Usable env w dir fs .nIni out ext) (hb : BuiltFrom env w dir out (declsOf fs) ext E cs) (ho : out.onlyRead = false) (hr : IniReaderClear (declsOf fs) out)
    (hc : IniWriterClear (declsOf fs) out) (hni : NoStructInits (declsOf fs)) : IniTrips E cs (declsOf fs) out := by
  intro d args ha n hn v hv o hwo hl s t q f ht hq hcw fuel hfuel
  obtain ⟨prog, _, h⟩ := hu.linked
  have h := h E cs hb
  have hG : Generated fs .nIni out prog := h.ini.gen
  have hg : iniWriteRead E.T E.I prog d n v IniSt.init o = .ok (true, v) := by
    cases hdn : d && !out.noDelta with
    | true =>
      rw [hdn, if_pos rfl] at hl
      simp only [Bool.and_eq_true, Bool.not_eq_true'] at hdn
      rw [hdn.1, hl.2]
      exact C41_delta_partial hG ho hdn.2 h.compiled hni hn hv hl.1 _
    | false =>
      rw [hdn, if_neg (by simp)] at hl
      refine C41_full_partial hG ho h.compiled hn ?_ hv hl _ hwo
      revert hdn
      cases d <;> cases out.noDelta <;> simp
  obtain ⟨text, h1, h2⟩ := C66_ini_trip_partial h ho hr hc ha hn ht hq hv hfuel hcw hg
  exact ⟨text, h1, fun hx s' t' q' fuel' ht' hq' hle hd => h2 hx s' t' q' true fuel' ht' hq' hwo hle hd⟩

/-! ### Examples -/

/-- Checks.  (Proof notions, model no code.) -/
def memberDeclaredb (ds : List Decl) : Parser.Member → Bool
  | .named ty _ _ => (ds.map Decl.name).contains ty
  | _ => true

/-- See the definition before it.  (Specification notion, models no code.) -/
def membersDeclaredb (ds : List Decl) : Bool := ds.all fun d => match d with
  | .struct _ m ms => (m :: ms).all (memberDeclaredb ds)
  | _ => true

theorem membersDeclared_of {ds : List Decl} (h : membersDeclaredb ds = true) : MembersDeclared ds := by
  intro n m ms hd ty nm d hm
  have h1 := List.all_eq_true.1 h _ hd
  have h2 := List.all_eq_true.1 h1 _ hm
  simpa [memberDeclaredb] using h2

/-- See the definition before it.  (Specification notion, models no code.) -/
def noKeywordsb (ds : List Decl) : Bool := ds.all fun d => (declNames d).all fun n => (keywords.lookup n).isNone

theorem noKeywords_of {ds : List Decl} (h : noKeywordsb ds = true) : NoKeywords ds := by
  intro d hd n hn
  simpa using List.all_eq_true.1 (List.all_eq_true.1 h d hd) n hn

/-- See the definition before it.  (Specification notion, models no code.) -/
def notShortb : Parser.Member → Bool
  | .simple ty _ _ => ty ≠ .unsignedShort && ty ≠ .unsignedLong
  | _ => true

/-- See the definition before it.  (Specification notion, models no code.) -/
def noShortMembersb (ds : List Decl) : Bool := ds.all fun d => match d with
  | .struct _ m ms => (m :: ms).all notShortb
  | _ => true

theorem noShortMembers_of {ds : List Decl} (h : noShortMembersb ds = true) : NoShortMembers ds := by
  intro n m ms hd ty v d hm
  have h1 := List.all_eq_true.1 h _ hd
  have h2 := List.all_eq_true.1 h1 _ hm
  simpa [notShortb] using h2

/-- A file system in which everything can be written, and two headers.  (Example, models no code.) -/
def tripEnv : Main.Env := ⟨fun _ => true, fun p => some p, id, c!"Nov 16 2026"⟩
/-- (Example, models no code.) -/
def tripWorld : Main.World :=
  ⟨[], fun q => if q = c!"/d/shape.h" then some shapeText else if q = c!"/d/conf.h" then some confText else none, []⟩

/-- `stfx shape.h` and a program with the files it writes: a shape is written by `xml_writer_C writer(false)` and read back by an
`xml_reader_C`. -/
example (load : Str → Main.LoadRes) (docs : Str → Doc) : ∃ w' prog cs, Main.main tripEnv (some c!"shape.h") (fun _ => .canonical c!"/d/shape.h") load tripWorld = .ok 0 w' ∧
    BuiltFrom tripEnv w' c!"/d" Main.headerSpec shapeDecls.decls false { xmlEnv shapeFiles .attrib Main.headerSpec shapeData docs with prog := prog } cs ∧
    ∃ root, onNew { xmlEnv shapeFiles .attrib Main.headerSpec shapeData docs with prog := prog } cs 9 c!"xml_writer_C" [.rv (.prim .bool) (.val (.bool false))]
        c!"write_to_file" [.lv .str ⟨0, []⟩, .lv (.struct c!"Shape") ⟨2, []⟩] (shapeMem c!"f.xml" someShape) =
      .ok (.rv (.prim .bool) (.val (.bool true))) { shapeMem c!"f.xml" someShape with out := [(c!"f.xml", .doc [root])] } ∧
    (docs c!"f.xml" = loadSaved someLib root →
      onNew { xmlEnv shapeFiles .attrib Main.headerSpec shapeData docs with prog := prog } cs 9 c!"xml_reader_C" [] c!"read_from_file"
        [.lv .str ⟨0, []⟩, .lv (.struct c!"Shape") ⟨2, []⟩] (shapeMem c!"f.xml" (shapeData.table.dflt c!"Shape")) =
      .ok (.rv (.prim .bool) (.val (.bool true))) (shapeMem c!"f.xml" someShape)) := by
  obtain ⟨w', h1, h2⟩ := C68_header (env := tripEnv) (a := c!"shape.h") (p := c!"/d/shape.h") (locate := fun _ => .canonical c!"/d/shape.h") (load := load)
    (w := tripWorld) (text := shapeText) (hd := shapeDecls) rfl (by decide) rfl (by decide +kernel) (by decide) (membersDeclared_of (by decide))
    (noKeywords_of (by decide +kernel)) (plain_of (by decide)) (plain_of (by decide))
    ⟨⟨by decide, rfl, rfl, by decide⟩, by simp, fun _ => ⟨by decide, rfl, rfl, by decide⟩, fun _ => by decide⟩ (ext := false) (.inr (noShortMembers_of (by decide)))
  have hb := built_of (fs := shapeFiles) (out := Main.headerSpec) (D := shapeData) (load := docs) (k := .attrib) (.inr rfl) (by decide +kernel)
  obtain ⟨prog, cs, h3⟩ := h2.builds (xmlEnv shapeFiles .attrib Main.headerSpec shapeData docs)
    ⟨by decide, fun _ => by decide, fun _ => rfl, rfl, (fun h => by cases h), hb.compiled, hb.enumerators⟩
  have h4 := C68_xml_partial h2 h3 (.inr rfl) rfl (readerClear_of (by decide +kernel)) (writerClear_of (by decide +kernel)) (.inl rfl) shape_noInits
  obtain ⟨root, h5, h6⟩ := h4 false _ (.inl rfl) c!"Shape" shape_top someShape someShape_wt (show nesting someShape ≤ 500 by decide +kernel)
    ((leavesb_sound (T := shapeData.table) (p := fun ty _ v => fitsb ty v && visibleb .attrib ty v) (P := KeptFull someLib .attrib)
      (fun ty d v h => by
        rw [Bool.and_eq_true] at h
        exact .inl ⟨fits_of h.1, visible_of h.2⟩) _ _ (shapeData.table.dflt c!"Shape") (by decide +kernel)))
    (shapeMem c!"f.xml" someShape) ⟨0, []⟩ ⟨2, []⟩ c!"f.xml" rfl rfl rfl 7 (by decide +kernel)
  exact ⟨w', prog, cs, h1, h3, root, h5, fun hl => h6 hl (shapeMem c!"f.xml" (shapeData.table.dflt c!"Shape")) ⟨0, []⟩ ⟨2, []⟩ rfl rfl⟩

/-- A configuration with a common part of kind n_ini, and a group which has another header and is of kind xml.
(Example, models no code.) -/
def tripConfig : Main.Config :=
  ⟨[c!"conf.h"], { Main.OutSpec.default with enumFile := c!"e", structsFile := c!"s", readerClass := c!"R", writerClass := c!"W", fileType := 3 },
   [([c!"shape.h"], { Main.OutSpec.default with dir := c!"x", enumFile := c!"e", structsFile := c!"s", fileType := 1 })]⟩

/-- (Example, models no code.) -/
def tripText : Str → Str := fun n => if n = c!"conf.h" then confText else shapeText
/-- (Example, models no code.) -/
def tripDecls : Str → Header := fun n => if n = c!"conf.h" then confDecls else shapeDecls

/-- `stfx x.stfx` and a program with the files of its common part. -/
example (text : Str → Option Str) : ∃ w' prog cs, Main.main tripEnv (some c!"x.stfx") (fun _ => .canonical c!"/d/x.stfx") (fun _ => .loaded tripConfig) tripWorld = .ok 0 w' ∧
    BuiltFrom tripEnv w' c!"/d" tripConfig.commonOut confDecls.decls false { iniEnv confFiles tripConfig.commonOut confData someIniLib text with prog := prog } cs ∧
    IniTrips { iniEnv confFiles tripConfig.commonOut confData someIniLib text with prog := prog } cs confDecls.decls tripConfig.commonOut := by
  obtain ⟨w', h1, h2⟩ := C68_config (env := tripEnv) (a := c!"x.stfx") (f := c!"/d/x.stfx") (locate := fun _ => .canonical c!"/d/x.stfx")
    (load := fun _ => .loaded tripConfig) (c := tripConfig) (w := tripWorld) (txt := tripText) (hd := tripDecls) rfl (by decide) rfl
    { inputs := by
        intro n hn
        have hn : n = c!"conf.h" ∨ n = c!"shape.h" := by simpa [tripConfig, Main.Config.inputs] using hn
        rcases hn with rfl | rfl
        · exact ⟨rfl, by decide +kernel⟩
        · exact ⟨rfl, by decide +kernel⟩
      common := by decide
      groups := by intro g hg; cases List.mem_singleton.1 hg; decide
      outputs := by unfold Main.Disjoint'; decide
      dirs := by intro p h; cases h
      declared := fun _ => membersDeclared_of (by decide) }
  have hu := h2 _ _ _ .common .nIni (selects_of rfl) (membersDeclared_of (by decide)) (noKeywords_of (by decide +kernel))
    ⟨plain_of (by decide), fun n hn => by cases List.mem_singleton.1 hn; exact plain_of (by decide), ⟨plain_of (by decide), by decide⟩,
      .inr ⟨plain_of (by decide), by decide⟩, ident_of_b (by decide), .inr (ident_of_b (by decide))⟩ c!"/d" rfl
    ⟨⟨by decide, rfl, rfl, by decide⟩, by decide, fun _ => ⟨by decide, rfl, rfl, by decide⟩, fun _ => by decide⟩ false (.inr fun h => by cases h)
  have hb := iniBuilt_of (fs := confFiles) (out := tripConfig.commonOut) (D := confData) (I := someIniLib) (text := text) (canWrite := fun _ => true) (by decide +kernel)
  obtain ⟨prog, cs, h3⟩ := hu.builds (iniEnv confFiles tripConfig.commonOut confData someIniLib text)
    ⟨by decide, fun _ => by decide, fun _ => rfl, rfl, (fun h => by cases h), hb.compiled, hb.enumerators⟩
  exact ⟨w', prog, cs, h1, h3, C68_ini_partial hu h3 rfl (iniReaderClear_of (by decide +kernel)) (iniWriterClear_of (by decide +kernel)) conf_noInits⟩

end Stfx.Cpp
