import Verif.Main.Facts
/-
Properties C20-C22 and C44: exit status and the files written.
-/
set_option autoImplicit false
namespace Stfx.Main
open Stfx.Lexer Stfx.Parser Stfx.Items Stfx.Gen

/-! ### C22 -/

/-- C22: whatever the tables, flags, names and failing opens, generation for one output specification opens for
writing exactly the enum pair (unless its name is empty or "-") and then the struct pair (likewise), each .h file
only if its .cpp file could be opened; and only files that could be opened this way change. -/
theorem C22_files (env : Env) (k : Kind) (base : Str) (inputs : List Str) (out : OutSpec) (w : World) {self : Nat}
    (hh : History w.heap) (hs : self < w.heap.length) :
    let w' := (processItems env k base self inputs out w).world
    let dir := if out.dir = [] then some base else env.makeDir (join base out.dir)
    let pair := fun (d f : Str) => if f = [] ∨ f = c!"-" then []
      else cppPath d f :: (if env.canWrite (cppPath d f) then [hPath d f] else [])
    (∀ d, dir = some d →
      w'.attempts = w.attempts ++ (pair d out.enumFile ++ pair d out.structsFile) ∧
      ∀ q, w'.files q ≠ w.files q →
        ∃ p ∈ pair d out.enumFile ++ pair d out.structsFile, env.canWrite p = true ∧ q = env.ident p) ∧
    (dir = none → w'.attempts = w.attempts ∧ w'.files = w.files) := by
  intro w' dir pair
  obtain ⟨h1, _⟩ := processItems_spec hh.ok hs env k base inputs out
  constructor
  · intro d hd
    have : specPaths env base out = pair d out.enumFile ++ pair d out.structsFile := by
      unfold specPaths; rw [show (if out.dir = [] then some base else env.makeDir (join base out.dir)) = some d from hd]; rfl
    rw [this] at h1
    exact ⟨h1.attempts, h1.files⟩
  · intro hd
    have : specPaths env base out = [] := by unfold specPaths; rw [show (if out.dir = [] then some base else env.makeDir (join base out.dir)) = none from hd]
    rw [this] at h1
    refine ⟨by simpa using h1.attempts, funext fun q => ?_⟩
    apply Classical.byContradiction
    intro hq
    obtain ⟨p, hp, _⟩ := h1.files q hq
    cases hp

theorem filename_of {dir f : Str} (hf : '/' ∉ f) : filename (dir ++ '/' :: f) = f := by
  unfold filename
  rw [List.reverse_append, List.reverse_cons, List.append_assoc, List.takeWhile_append_of_pos (by
    intro a ha
    simp only [ne_eq, decide_not, Bool.not_eq_eq_eq_not, Bool.not_true, decide_eq_false_iff_not]
    rintro rfl
    exact hf (List.mem_reverse.1 ha))]
  simp

theorem extension_of {dir f : Str} (hf : '/' ∉ f) (hne : f ≠ []) :
    extension (dir ++ '/' :: (f ++ c!".cpp")) = c!".cpp" := by
  have hl : 0 < f.length := List.length_pos_iff.2 hne
  unfold extension
  rw [filename_of (by simp [hf])]
  have h1 : f ++ c!".cpp" ≠ c!".." := by
    intro h
    have := congrArg List.length h
    simp at this
  simp only [if_neg h1]
  have h2 : ((f ++ c!".cpp").reverse.takeWhile (fun x => decide (x ≠ '.'))).reverse = c!"cpp" := by
    rw [List.reverse_append]; rfl
  rw [h2, if_pos (by simp; omega)]

/-- C22: the names of the files: `<dir>/<name>.cpp` and `<dir>/<name>.h`. -/
theorem C22_paths {dir f : Str} (hd : dir ≠ []) (hd' : dir.getLast? ≠ some '/') (hf : '/' ∉ f) (hne : f ≠ []) :
    cppPath dir f = dir ++ c!"/" ++ f ++ c!".cpp" ∧ hPath dir f = dir ++ c!"/" ++ f ++ c!".h" := by
  have h1 : cppPath dir f = dir ++ '/' :: (f ++ c!".cpp") := by
    unfold cppPath join
    cases f with
    | nil => exact absurd rfl hne
    | cons a f =>
      have : a ≠ '/' := by rintro rfl; simp at hf
      simp [this, hd, hd']
  refine ⟨by rw [h1]; simp, ?_⟩
  unfold hPath replaceExtH
  rw [h1, extension_of hf hne]
  have h2 : dir ++ '/' :: (f ++ c!".cpp") = (dir ++ c!"/" ++ f) ++ c!".cpp" := by simp
  rw [h2, List.take_append_of_le_length (by simp; omega), List.take_of_length_le (by simp; omega)]

/-- Non-vacuity: a specification with both pairs, the struct .cpp file can not be opened. -/
example : (specPaths ⟨fun p => p ≠ c!"/d/o/s.cpp", fun p => some p, id, []⟩ c!"/d"
      { OutSpec.default with dir := c!"o", enumFile := c!"e", structsFile := c!"s" }) =
    [c!"/d/o/e.cpp", c!"/d/o/e.h", c!"/d/o/s.cpp"] := by decide +kernel

/-! ### C20 -/

/-- What processing a single header does. -/
theorem header_spec (env : Env) (p : Str) (w : World) :
    (∃ text hd, w.read env p = some text ∧ toksFile text = some (Header.toks hd) ∧
      ∃ w', processSingleHeader env p w = .ok 0 w' ∧ Wrote env w w' (specPaths env (parentPath p) headerSpec)) ∨
    ((¬ ∃ text hd, w.read env p = some text ∧ toksFile text = some (Header.toks hd)) ∧
      ∃ w', processSingleHeader env p w = .ok 1 w' ∧ w'.files = w.files ∧ w'.attempts = w.attempts) := by
  have hok : HeapOk [Info.empty] := HeapOk.new HeapOk.nil
  obtain ⟨h', b, e, hok', hl⟩ := processInputFile_ok hok (self := 0) (by simp) (w.read env p)
  cases hr : w.read env p with
  | none =>
    right
    refine ⟨(by rintro ⟨text, hd, h, _⟩; cases h), ?_⟩
    unfold processSingleHeader
    rw [hr]
    exact ⟨_, rfl, rfl, rfl⟩
  | some text =>
    obtain ⟨ts, ht⟩ := toksFile_total text
    have hb : b = true ↔ ∃ hd : Header, ts = hd.toks := by
      rw [← C08_file ht]
      rw [hr] at e
      unfold processInputFile at e
      simp only [ht, Option.bind_eq_bind, Option.bind_some] at e
      rcases C09_total ts with ⟨log, h1⟩ | ⟨log, t, rest, h1⟩
      · simp only [h1] at e
        rw [Option.bind_eq_some_iff] at e
        obtain ⟨_, _, e⟩ := e
        cases e
        simp [h1]
      · simp only [h1] at e
        rw [Option.bind_eq_some_iff] at e
        obtain ⟨_, _, e⟩ := e
        cases e
        simp [h1]
    rw [hr] at e
    cases b with
    | true =>
      left
      obtain ⟨hd, rfl⟩ := hb.1 rfl
      refine ⟨text, hd, rfl, ht, ?_⟩
      unfold processSingleHeader
      rw [hr, e]
      simp only [if_true]
      simp only [List.length_cons, List.length_nil] at hl
      obtain ⟨h1, _, _, h4⟩ := processItems_spec (w := { w with heap := h' }) hok' (self := 0) (by simp [hl]) env .attrib
        (parentPath p) [filename p] headerSpec
      rcases h4 with ⟨ok, w', h4⟩ | ⟨_, h5, _⟩
      · rw [h4] at h1 ⊢
        exact ⟨w', rfl, h1.attempts, h1.files⟩
      · exact absurd rfl h5
    | false =>
      right
      constructor
      · rintro ⟨text', hd, h1, h2⟩
        cases h1
        rw [ht] at h2
        cases h2
        have := hb.2 ⟨hd, rfl⟩
        cases this
      · unfold processSingleHeader
        rw [hr, e]
        exact ⟨_, rfl, rfl, rfl⟩

/-- A file system with one file in which nothing can be written.  (Example, models no code.) -/
def readOnlyEnv : Env := ⟨fun _ => false, fun p => some p, id, []⟩
/-- (Example, models no code.) -/
def oneFile (p text : Str) : World := ⟨[], fun q => if q = p then some text else none, []⟩

/-- C20 as stated is false: the exit status is 0 although no output file could be written. -/
theorem C20_refuted :
    ¬ ∀ (env : Env) (p : Str) (w w' : World), processSingleHeader env p w = .ok 0 w' →
      ∀ q ∈ [c!"/d/enums.cpp", c!"/d/enums.h", c!"/d/structs.cpp", c!"/d/structs.h"], parentPath p = c!"/d" →
        w'.read env q ≠ none := by
  intro hall
  rcases header_spec readOnlyEnv c!"/d/a.h" (oneFile c!"/d/a.h" c!"enum class E{A,B=2,};\nstruct S{int i{7};E e;std::vector<T> v;};") with
    ⟨_, _, _, _, w', h1, h2⟩ | ⟨h, _⟩
  · refine hall _ _ _ w' h1 c!"/d/structs.h" (by simp) (by decide) ?_
    apply Classical.byContradiction
    intro hne
    obtain ⟨_, _, hw, _⟩ := h2.files c!"/d/structs.h" (by
      intro e
      apply hne
      show w'.files c!"/d/structs.h" = none
      rw [e]
      decide)
    cases hw
  · exact h ⟨_, sampleHeader, rfl, by decide +kernel⟩

/-- C20 is false for member types too: the exit status is 0 although `B` is not declared anywhere. -/
theorem C20_types_refuted :
    ¬ ∀ (env : Env) (p : Str) (w w' : World) (i : Info), processSingleHeader env p w = .ok 0 w' → w'.heap[0]? = some i →
      ∀ n s co, i.structs.find? n = some s → co ∈ s.complex → co.ty ≠ .unknown := by
  intro hall
  have hb : ∃ w', processSingleHeader readOnlyEnv c!"/d/a.h" (oneFile c!"/d/a.h" c!"struct A { B b; };") = .ok 0 w' ∧
      w'.heap = [⟨[(c!"A", ⟨c!"A", [], [⟨.unknown, c!"B", c!"b"⟩], 0⟩)], [], some ⟨0, c!"A"⟩, none, 0⟩] := by
    have e1 : processInputFile 0 ((oneFile c!"/d/a.h" c!"struct A { B b; };").read readOnlyEnv c!"/d/a.h") [Info.empty] =
        some ([⟨[(c!"A", ⟨c!"A", [], [⟨.enumOrStruct, c!"B", c!"b"⟩], 0⟩)], [], some ⟨0, c!"A"⟩, none, 0⟩], true) := by
      decide +kernel
    have e2 : prepare 0 [⟨[(c!"A", ⟨c!"A", [], [⟨.enumOrStruct, c!"B", c!"b"⟩], 0⟩)], [], some ⟨0, c!"A"⟩, none, 0⟩] =
        some ([⟨[(c!"A", ⟨c!"A", [], [⟨.unknown, c!"B", c!"b"⟩], 0⟩)], [], some ⟨0, c!"A"⟩, none, 0⟩], false) := by
      decide +kernel
    unfold processSingleHeader
    rw [e1]
    simp only [if_true, processItems, e2, List.getElem?_cons_zero]
    exact ⟨_, rfl, rfl⟩
  obtain ⟨w', h1, h2⟩ := hb
  exact hall _ _ _ w' _ h1 (by rw [h2]; rfl) c!"A" ⟨c!"A", [], [⟨.unknown, c!"B", c!"b"⟩], 0⟩ ⟨.unknown, c!"B", c!"b"⟩
    rfl (by simp) rfl

/-- C20, the part that holds: the run always ends with exit status 0 or 1, and with 0 exactly if the header could be
read and parsed.  With status 1 nothing is written; with status 0 all that is known is which files were tried. -/
theorem C20_exit_partial (env : Env) (p : Str) (w : World) :
    ∃ code w', processSingleHeader env p w = .ok code w' ∧ (code = 0 ∨ code = 1) ∧
      (code = 0 ↔ ∃ text hd, w.read env p = some text ∧ toksFile text = some (Header.toks hd)) ∧
      (code = 1 → w'.files = w.files ∧ w'.attempts = w.attempts) ∧
      (code = 0 → Wrote env w w' (specPaths env (parentPath p) headerSpec)) := by
  rcases header_spec env p w with ⟨text, hd, h1, h2, w', h3, h4⟩ | ⟨h, w', h1, h2⟩
  · exact ⟨0, w', h3, Or.inl rfl, ⟨fun _ => ⟨text, hd, h1, h2⟩, fun _ => rfl⟩, fun h => (by cases h), fun _ => h4⟩
  · exact ⟨1, w', h1, Or.inr rfl, ⟨fun h => (by cases h), fun h' => absurd h' h⟩, fun _ => h2, fun h => (by cases h)⟩

/-- C20, the part that holds about the output: if the four files can be opened and are different files, all four hold
the generated code for the tables of the header. -/
theorem C20_written_partial {env : Env} {p text : Str} {w : World} {hd : Header} (hr : w.read env p = some text)
    (ht : toksFile text = some hd.toks) (hw : ∀ q, env.canWrite q = true)
    (hne : ([cppPath (parentPath p) c!"enums", hPath (parentPath p) c!"enums", cppPath (parentPath p) c!"structs",
      hPath (parentPath p) c!"structs"].map env.ident).Nodup) :
    ∃ w' i ok, processSingleHeader env p w = .ok 0 w' ∧ prepare 0 [readFresh text] = some ([i], ok) ∧
      w'.read env (cppPath (parentPath p) c!"enums") = some (fileText (enumsCpp env.stamp
        (filename (cppPath (parentPath p) c!"enums")) (filename (hPath (parentPath p) c!"enums")) [filename p] i.enums)) ∧
      w'.read env (hPath (parentPath p) c!"enums") = some (fileText (enumsH env.stamp
        (filename (hPath (parentPath p) c!"enums")) [filename p] i.enums)) ∧
      w'.read env (cppPath (parentPath p) c!"structs") = some (fileText (structsCpp .attrib env.stamp
        (filename (cppPath (parentPath p) c!"structs")) (filename (hPath (parentPath p) c!"structs")) [filename p]
        headerSpec i.structs)) ∧
      w'.read env (hPath (parentPath p) c!"structs") = some (fileText (structsH .attrib env.stamp
        (filename (hPath (parentPath p) c!"structs")) [filename p] headerSpec i.structs)) := by
  have hok : HeapOk [Info.empty] := HeapOk.new HeapOk.nil
  obtain ⟨h', b, e, hok', hl⟩ := processInputFile_ok hok (self := 0) (by simp) (some text)
  obtain ⟨i0, rfl⟩ := List.length_eq_one_iff.1 hl
  have hf : readFresh text = i0 := by unfold readFresh; rw [e]
  have hb : b = true := by
    obtain ⟨log, h1⟩ := (C08_file ht).2 ⟨hd, rfl⟩
    unfold processInputFile at e
    simp only [ht, Option.bind_eq_bind, Option.bind_some, h1] at e
    rw [Option.bind_eq_some_iff] at e
    obtain ⟨_, _, e⟩ := e
    injection e with e
    injection e with _ e
    exact e.symm
  subst hb
  obtain ⟨h2, ok, hp, hok2, hl2⟩ := prepare_ok hok' (self := 0) (by simp)
  obtain ⟨i, rfl⟩ := List.length_eq_one_iff.1 hl2
  unfold processSingleHeader
  rw [hr, e]
  have d1 : disabled headerSpec.enumFile = false := by decide
  have d2 : disabled headerSpec.structsFile = false := by decide
  have d3 : outDir env (parentPath p) headerSpec = some (parentPath p) := by
    unfold outDir; rw [if_pos (by rfl)]
  simp only [if_true, processItems, hp, List.getElem?_cons_zero, d1, d2, processAllEnums, processAllStructs, d3,
    Bool.false_eq_true, if_false, Res.bind]
  refine ⟨_, i, ok, rfl, by rw [hf]; exact hp, ?_⟩
  have e1 : headerSpec.enumFile = c!"enums" := rfl
  have e2 : headerSpec.structsFile = c!"structs" := rfl
  rw [e1, e2]
  simp only [List.map_cons, List.map_nil, List.nodup_cons, List.mem_cons, List.not_mem_nil, or_false, not_or] at hne
  generalize cppPath (parentPath p) c!"enums" = a1 at hne ⊢
  generalize hPath (parentPath p) c!"enums" = a2 at hne ⊢
  generalize cppPath (parentPath p) c!"structs" = a3 at hne ⊢
  generalize hPath (parentPath p) c!"structs" = a4 at hne ⊢
  obtain ⟨⟨n12, n13, n14⟩, ⟨n23, n24⟩, n34, _⟩ := hne
  simp [writePair, World.put, World.attempt, World.read, hw, n12, n13, n14, n23, n24, n34]

/-- Non-vacuity: the sample header in a writable directory. -/
example : (oneFile c!"/d/a.h" c!"enum class E{A,B=2,};\nstruct S{int i{7};E e;std::vector<T> v;};").read
      ⟨fun _ => true, fun p => some p, id, []⟩ c!"/d/a.h" =
        some c!"enum class E{A,B=2,};\nstruct S{int i{7};E e;std::vector<T> v;};" ∧
    ([cppPath (parentPath c!"/d/a.h") c!"enums", hPath (parentPath c!"/d/a.h") c!"enums",
      cppPath (parentPath c!"/d/a.h") c!"structs", hPath (parentPath c!"/d/a.h") c!"structs"].map id).Nodup := by
  decide +kernel

/-! ### C21 -/

/-- An environment in which directories can not be created.  (Example, models no code.) -/
def noDirEnv : Env := ⟨fun _ => true, fun _ => none, id, []⟩

/-- C21 as stated is false: if the output directory can not be created, an exception nobody catches ends the program,
although the configuration was loaded. -/
theorem C21_refuted :
    ¬ ∀ (env : Env) (f : Str) (c : Config) (w : World), ∃ w', processStfxFile env f (.loaded c) w = .ok 0 w' := by
  intro hall
  obtain ⟨w', h⟩ := hall noDirEnv c!"/d/a.stfx"
    ⟨[], { OutSpec.default with dir := c!"out", enumFile := c!"e", structsFile := c!"s" }, []⟩ (oneFile [] [])
  have : ∃ w', processStfxFile noDirEnv c!"/d/a.stfx" (.loaded
      ⟨[], { OutSpec.default with dir := c!"out", enumFile := c!"e", structsFile := c!"s" }, []⟩) (oneFile [] []) =
      .stop .terminate w' := ⟨_, rfl⟩
  obtain ⟨w'', h'⟩ := this
  rw [h'] at h
  cases h

/-- What a run on a loaded configuration does. -/
theorem stfx_spec (env : Env) (f : Str) (c : Config) (w : World) :
    Ends (processStfxFile env f (.loaded c) w) ∧
    ((∀ p, env.makeDir p ≠ none) → ∃ w', processStfxFile env f (.loaded c) w = .ok 0 w' ∧
      Wrote env w w' (runPaths env (parentPath f) c.commonOut ++
        c.nonCommon.flatMap fun g => runPaths env (parentPath f) g.2)) := by
  have hok : HeapOk [Info.empty] := HeapOk.new HeapOk.nil
  obtain ⟨h1, e1, hok1, hl1, _⟩ := readInputs_spec (w := { w with heap := [Info.empty] }) (self := 0) hok (by simp) env
    (parentPath f) c.commonIn
  obtain ⟨g1, g2, g3, g4, g5⟩ := generate_spec (w := { w with heap := h1 }) (self := 0) hok1 (by simp [hl1]) env
    (parentPath f) c.commonIn c.commonOut
  unfold processStfxFile
  simp only [e1, Res.bind]
  rcases g4 with ⟨_, w1, g4⟩ | ⟨w1, g4⟩
  · rw [g4] at g1 g2 g3 ⊢
    simp only [Res.world] at g1 g2 g3 ⊢
    simp only [List.length_cons, List.length_nil] at hl1
    obtain ⟨r1, _, r3⟩ := runGroups_spec (w := w1) g2 (by omega) env (parentPath f) c.commonIn c.nonCommon
    have g1' : Wrote env w w1 (runPaths env (parentPath f) c.commonOut) := ⟨g1.attempts, g1.files⟩
    constructor
    · rcases r1 with ⟨_, w2, r1⟩ | ⟨w2, r1⟩
      · rw [r1]; exact Or.inl ⟨_, _, rfl⟩
      · rw [r1]; exact Or.inr ⟨_, rfl⟩
    · intro hm
      obtain ⟨w2, r3, r4⟩ := r3 hm
      rw [r3]
      exact ⟨w2, rfl, g1'.trans r4⟩
  · rw [g4]
    refine ⟨Or.inr ⟨_, rfl⟩, fun hm => ?_⟩
    obtain ⟨_, h⟩ := g5 hm
    rw [g4] at h; cases h

/-- C21, the part that holds.  A configuration that is not well-formed gives exit status 1 and nothing is written.
With a loaded configuration the run never has undefined behaviour, and if creating directories never fails its exit
status is 0, whatever the input files contain and whether or not outputs can be written. -/
theorem C21_exit_partial (env : Env) (f : Str) (w : World) :
    processStfxFile env f .failed w = .ok 1 w ∧
    ∀ c : Config,
      (∀ w', processStfxFile env f (.loaded c) w ≠ .stop .ub w') ∧
      (∀ code w', processStfxFile env f (.loaded c) w = .ok code w' → code = 0) ∧
      ((∀ p, env.makeDir p ≠ none) → ∃ w', processStfxFile env f (.loaded c) w = .ok 0 w') := by
  refine ⟨rfl, fun c => ?_⟩
  obtain ⟨h1, h2⟩ := stfx_spec env f c w
  refine ⟨?_, ?_, fun hm => ?_⟩
  · intro w' e
    rw [e] at h1
    rcases h1 with ⟨_, _, h⟩ | ⟨_, h⟩ <;> cases h
  · intro code w' e
    have key : ∀ {α : Type} {r : Res α} {g : α → World → Res Nat}, r.bind g = .ok code w' →
        ∃ a w1, g a w1 = .ok code w' := by
      intro α r g h
      cases r with
      | ok a w1 => exact ⟨a, w1, h⟩
      | stop => cases h
    obtain ⟨_, _, e⟩ := key e
    obtain ⟨_, _, e⟩ := key e
    obtain ⟨_, _, e⟩ := key e
    cases e
    rfl
  · obtain ⟨w', h, _⟩ := h2 hm
    exact ⟨w', h⟩

/-- Non-vacuity: missing inputs and an unwritable directory. -/
example : ∀ p, readOnlyEnv.makeDir p ≠ none := by intro p h; cases h
example : ∃ w', processStfxFile readOnlyEnv c!"/d/a.stfx" (.loaded ⟨[c!"missing.h"], headerSpec, [([], headerSpec)]⟩)
    (oneFile [] []) = .ok 0 w' :=
  ((C21_exit_partial _ _ _).2 _).2.2 (by intro p h; cases h)

/-! ### C44 -/

/-- C44: the files opened for writing in a run are those of the specifications with a supported output type (0 to 3:
xml_attrib, xml, ini, n_ini), in order; a group with any other output type contributes none and the groups after it are
processed all the same. -/
theorem C44_run (env : Env) (f : Str) (c : Config) (w : World) (hm : ∀ p, env.makeDir p ≠ none) :
    ∃ w', processStfxFile env f (.loaded c) w = .ok 0 w' ∧
      w'.attempts = w.attempts ++ (((c.commonOut :: c.nonCommon.map Prod.snd).filter fun o =>
        decide (0 ≤ o.fileType ∧ o.fileType ≤ 3)).flatMap fun o => specPaths env (parentPath f) o) := by
  obtain ⟨w', h1, h2⟩ := (stfx_spec env f c w).2 hm
  refine ⟨w', h1, ?_⟩
  rw [h2.attempts]
  congr 1
  have key : ∀ os : List OutSpec, (os.filter fun o => decide (0 ≤ o.fileType ∧ o.fileType ≤ 3)).flatMap
      (fun o => specPaths env (parentPath f) o) = os.flatMap (runPaths env (parentPath f)) := by
    intro os
    induction os with
    | nil => rfl
    | cons o os ih =>
      rw [List.flatMap_cons, List.filter_cons]
      unfold runPaths at ih ⊢
      by_cases h : 0 ≤ o.fileType ∧ o.fileType ≤ 3
      · rw [if_pos (decide_eq_true h), if_pos h, List.flatMap_cons, ih]
      · rw [if_neg (by simpa using h), if_neg h, ih]; rfl
  rw [key, List.flatMap_cons, List.flatMap_map]

/-- C44: a group with an unsupported output type changes no file, and the run goes on with the groups after it. -/
theorem C44_group (env : Env) (base : Str) (ci : List Str) (g : List Str × OutSpec) (gs : List (List Str × OutSpec))
    (w : World) (hh : History w.heap) (hs : 0 < w.heap.length) (hu : ¬ (0 ≤ g.2.fileType ∧ g.2.fileType ≤ 3)) :
    ∃ w', runGroups env base ci (g :: gs) w = runGroups env base ci gs w' ∧ w'.files = w.files ∧
      w'.attempts = w.attempts ∧ History w'.heap ∧ w'.heap.length = w.heap.length := by
  have hi : w.heap[0]? = some w.heap[0] := List.getElem?_eq_getElem hs
  generalize w.heap[0] = i at hi
  have hc : copyInfo 0 w.heap = some (w.heap ++ [i]) := by unfold copyInfo; rw [hi]; rfl
  have hkind : kindOf g.2.fileType = none := by
    cases hk : kindOf g.2.fileType with
    | none => rfl
    | some k => exact absurd ((kindOf_iff _).1 ⟨k, hk⟩) hu
  have hfiles : ∀ (cs : List (Option Str)) (h h' : Heap), History h → processFiles w.heap.length cs h = some h' →
      History h' := by
    intro cs
    induction cs with
    | nil => intro h h' hh e; cases e; exact hh
    | cons c cs ih =>
      intro h h' hh e
      unfold processFiles at e
      rw [Option.bind_eq_some_iff] at e
      obtain ⟨r, e1, e2⟩ := e
      exact ih r.1 h' (.file hh (b := r.2) e1) e2
  obtain ⟨hp, e1, hok1, hl1, e2⟩ := readInputs_spec (w := { w with heap := w.heap ++ [i] }) (self := w.heap.length)
    (hh.ok.copy hi) (by simp) env base g.1
  refine ⟨{ w with heap := hp.dropLast }, ?_, rfl, rfl, ?_, by simp [hl1]⟩
  · simp only [runGroups, runGroup, hc, e1, Res.bind, generate, hkind]
  · exact .destroy (hfiles _ _ _ (.copy hh hc) e2)

/-- Non-vacuity: json output (4) is not supported, and is followed by a supported group. -/
example : ((({ OutSpec.default with enumFile := c!"a" } : OutSpec) ::
      [{ OutSpec.default with enumFile := c!"b", fileType := 4 }, { OutSpec.default with enumFile := c!"c", fileType := 3 }]).filter
      fun o => decide (0 ≤ o.fileType ∧ o.fileType ≤ 3)).flatMap (fun o => specPaths ⟨fun _ => true, fun p => some p, id, []⟩ c!"/d" o) =
    [c!"/d/a.cpp", c!"/d/a.h", c!"/d/c.cpp", c!"/d/c.h"] := by decide +kernel

end Stfx.Main
