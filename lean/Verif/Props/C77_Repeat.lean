import Verif.Props.C20_C22_Main
import Verif.Props.C23_Order
/-
Property C77: a run depends only on the files it reads, and running the program again changes nothing.

`main` takes the result of reading the configuration as given; here that result is a function of the content of the
configuration file, so that it changes if the file does.  The answers of the operating system (`Env`) are the same in
both runs, and so is `app_timestamp`, which is set when the program is built (timestamp.cpp).
-/
set_option autoImplicit false
namespace Stfx.Main
open Stfx.Lexer Stfx.Parser Stfx.Items Stfx.Gen

/-! ### Statement -/

/-- A run of the program in which the configuration is what `parse` makes of the content of the file, main.cpp:20-65, 99-112. -/
def runOn (env : Env) (arg : Option Str) (locate : Str → Located) (parse : Option Str → LoadRes) (w : World) : Res Nat :=
  main env arg locate (fun p => parse (w.read env p)) w

/-- The files a run is to read: the argument and, if it is a configuration, the input files named there.
(Specification notion, models no code.) -/
def inputPaths (env : Env) (arg : Option Str) (locate : Str → Located) (parse : Option Str → LoadRes) (w : World) : List Str :=
  match arg.map locate with
  | some (.canonical p) =>
    p :: (match parse (w.read env p) with
      | .loaded c => if extension p = c!".stfx" then c.inputs.map (join (parentPath p)) else []
      | _ => [])
  | _ => []

/-- The files a run is to write.  (Specification notion, models no code.) -/
def outputPaths (env : Env) (arg : Option Str) (locate : Str → Located) (parse : Option Str → LoadRes) (w : World) : List Str :=
  match arg.map locate with
  | some (.canonical p) =>
    if extension p = c!".stfx" then
      match parse (w.read env p) with
      | .loaded c => runPaths env (parentPath p) c.commonOut ++ c.nonCommon.flatMap fun g => runPaths env (parentPath p) g.2
      | _ => []
    else specPaths env (parentPath p) headerSpec
  | _ => []

/-- The two results have the same value, or the same fault.  (Specification notion, models no code.) -/
def SameEnd {α : Type} : Res α → Res α → Prop
  | .ok a _, .ok a' _ => a = a'
  | .stop f _, .stop f' _ => f = f'
  | _, _ => False

/-- Of two runs that began with the files `f1` and `f2`: every file has the same content after both, or was touched by
neither.  (Specification notion, models no code.) -/
def SameWrites (f1 f2 g1 g2 : Str → Option Str) : Prop :=
  ∀ q, g1 q = g2 q ∨ (g1 q = f1 q ∧ g2 q = f2 q)

/-- Both files can not be read, or the scanner finds the same tokens in both.  (Specification notion, models no code.) -/
def SameTokens (c c' : Option Str) : Prop := c.map toksFile = c'.map toksFile

/-! ### Two runs side by side -/

/-- The invariant.  (Proof notion, models no code.) -/
structure Alike (w1 w2 a b : World) : Prop where
  heap : a.heap = b.heap
  files : SameWrites w1.files w2.files a.files b.files

/-- The invariant for results.  (Proof notion, models no code.) -/
def AlikeR {α : Type} (w1 w2 : World) (r r' : Res α) : Prop := SameEnd r r' ∧ Alike w1 w2 r.world r'.world

theorem AlikeR.bind {α β : Type} {w1 w2 : World} {r r' : Res α} {f g : α → World → Res β} (h : AlikeR w1 w2 r r')
    (hf : ∀ a w w', Alike w1 w2 w w' → AlikeR w1 w2 (f a w) (g a w')) : AlikeR w1 w2 (r.bind f) (r'.bind g) := by
  obtain ⟨h1, h2⟩ := h
  match r, r', h1, h2 with
  | .ok a w, .ok _ w', rfl, h2 => exact hf a w w' h2
  | .stop e w, .stop _ w', rfl, h2 => exact ⟨rfl, h2⟩

theorem SameWrites.put {f1 f2 g1 g2 : Str → Option Str} (h : SameWrites f1 f2 g1 g2) (p c : Str) :
    SameWrites f1 f2 (fun q => if q = p then some c else g1 q) (fun q => if q = p then some c else g2 q) := by
  intro q
  by_cases e : q = p
  · left; simp only [e, if_true]
  · simpa only [if_neg e] using h q

theorem Alike.writePair {w1 w2 a b : World} (h : Alike w1 w2 a b) (env : Env) (cpp hh x y : Str) :
    (Main.writePair env cpp hh x y a).1 = (Main.writePair env cpp hh x y b).1 ∧
    Alike w1 w2 (Main.writePair env cpp hh x y a).2 (Main.writePair env cpp hh x y b).2 := by
  refine ⟨by rw [writePair_ok, writePair_ok], by rw [writePair_heap, writePair_heap, h.heap], ?_⟩
  unfold Main.writePair World.attempt
  cases env.canWrite cpp
  · exact h.files
  · cases env.canWrite hh
    · exact h.files.put (env.ident cpp) []
    · exact ((h.files.put (env.ident cpp) []).put (env.ident cpp) x).put (env.ident hh) y

theorem Alike.processItems {w1 w2 a b : World} (h : Alike w1 w2 a b) (env : Env) (k : Kind) (base : Str) (self : Nat)
    (inputs : List Str) (out : OutSpec) :
    AlikeR w1 w2 (Main.processItems env k base self inputs out a) (Main.processItems env k base self inputs out b) := by
  unfold Main.processItems
  rw [h.heap]
  cases prepare self b.heap with
  | none => exact ⟨rfl, h⟩
  | some r =>
    obtain ⟨heap, ok1⟩ := r
    simp only
    cases heap[self]? with
    | none => exact ⟨rfl, h⟩
    | some i =>
      simp only
      have h0 : Alike w1 w2 { a with heap := heap } { b with heap := heap } := ⟨rfl, h.files⟩
      refine AlikeR.bind (?_ : AlikeR w1 w2 _ _) fun ok2 u v huv => AlikeR.bind (?_ : AlikeR w1 w2 _ _) fun ok3 u v huv => ⟨rfl, huv⟩
      · cases disabled out.enumFile
        · simp only [Bool.false_eq_true, if_false, processAllEnums]
          cases outDir env base out with
          | none => exact ⟨rfl, h0⟩
          | some dir => exact ⟨rfl, (h0.writePair env _ _ _ _).2⟩
        · exact ⟨rfl, h0⟩
      · cases disabled out.structsFile
        · simp only [Bool.false_eq_true, if_false, processAllStructs]
          cases outDir env base out with
          | none => exact ⟨rfl, huv⟩
          | some dir =>
            have hw := huv.writePair env (cppPath dir out.structsFile) (hPath dir out.structsFile)
              (fileText (structsCpp k env.stamp (filename (cppPath dir out.structsFile)) (filename (hPath dir out.structsFile)) inputs out i.structs))
              (fileText (structsH k env.stamp (filename (hPath dir out.structsFile)) inputs out i.structs))
            exact ⟨by simp only [SameEnd, hw.1], hw.2⟩
        · exact ⟨rfl, huv⟩

theorem Alike.generate {w1 w2 a b : World} (h : Alike w1 w2 a b) (env : Env) (base : Str) (self : Nat) (inputs : List Str)
    (out : OutSpec) : AlikeR w1 w2 (Main.generate env base self inputs out a) (Main.generate env base self inputs out b) := by
  unfold Main.generate
  cases kindOf out.fileType with
  | none => exact ⟨rfl, h⟩
  | some k => exact (h.processItems env k base self inputs out).bind fun _ _ _ huv => ⟨rfl, huv⟩

/-- A file with the same tokens for both runs has the same tokens at every moment. -/
theorem Alike.read {w1 w2 a b : World} (h : Alike w1 w2 a b) {env : Env} {p : Str} (hp : SameTokens (w1.read env p) (w2.read env p)) :
    SameTokens (a.read env p) (b.read env p) := by
  unfold World.read at hp ⊢
  rcases h.files (env.ident p) with e | ⟨e1, e2⟩
  · rw [e]; rfl
  · rw [e1, e2]; exact hp

theorem SameTokens.file {c c' : Option Str} (h : SameTokens c c') (self : Nat) (hp : Heap) :
    processInputFile self c hp = processInputFile self c' hp := by
  cases c with
  | none =>
    cases c' with
    | none => rfl
    | some w' => cases h
  | some w =>
    cases c' with
    | none => cases h
    | some w' =>
      have e : toksFile w = toksFile w' := Option.some.inj h
      simp only [processInputFile, e]

theorem SameTokens.files {f g : Str → Option Str} (self : Nat) : ∀ (ns : List Str), (∀ n ∈ ns, SameTokens (f n) (g n)) → ∀ hp : Heap,
    processFiles self (ns.map f) hp = processFiles self (ns.map g) hp
  | [], _, _ => rfl
  | n :: ns, h, hp => by
    simp only [List.map_cons, processFiles]
    rw [(h n (List.mem_cons_self ..)).file]
    cases processInputFile self (g n) hp with
    | none => rfl
    | some r => exact SameTokens.files self ns (fun m hm => h m (List.mem_cons_of_mem _ hm)) r.1

theorem Alike.readInputs {w1 w2 a b : World} (h : Alike w1 w2 a b) {env : Env} {base : Str} {names : List Str}
    (hn : ∀ n ∈ names, SameTokens (w1.read env (join base n)) (w2.read env (join base n))) (self : Nat) :
    AlikeR w1 w2 (Main.readInputs env base self names a) (Main.readInputs env base self names b) := by
  unfold Main.readInputs
  rw [SameTokens.files (f := fun n => a.read env (join base n)) (g := fun n => b.read env (join base n)) self names
    (fun n hn' => h.read (hn n hn')), h.heap]
  cases processFiles self (names.map fun n => b.read env (join base n)) b.heap with
  | none => exact ⟨rfl, h⟩
  | some heap => exact ⟨rfl, rfl, h.files⟩

theorem Alike.runGroup {w1 w2 a b : World} (h : Alike w1 w2 a b) {env : Env} {base : Str} (ci : List Str) {g : List Str × OutSpec}
    (hn : ∀ n ∈ g.1, SameTokens (w1.read env (join base n)) (w2.read env (join base n))) :
    AlikeR w1 w2 (Main.runGroup env base ci g a) (Main.runGroup env base ci g b) := by
  unfold Main.runGroup
  rw [h.heap]
  cases copyInfo 0 b.heap with
  | none => exact ⟨rfl, h⟩
  | some heap =>
    simp only
    have h0 : Alike w1 w2 { a with heap := heap } { b with heap := heap } := ⟨rfl, h.files⟩
    refine (h0.readInputs hn _).bind fun _ u v huv => (huv.generate env base _ _ _).bind fun _ u v huv => ⟨rfl, ?_, huv.files⟩
    exact congrArg List.dropLast huv.heap

theorem Alike.runGroups {env : Env} {base : Str} (ci : List Str) {w1 w2 : World} : ∀ (gs : List (List Str × OutSpec)) {a b : World},
    Alike w1 w2 a b → (∀ n ∈ gs.flatMap Prod.fst, SameTokens (w1.read env (join base n)) (w2.read env (join base n))) →
    AlikeR w1 w2 (Main.runGroups env base ci gs a) (Main.runGroups env base ci gs b)
  | [], _, _, h, _ => ⟨rfl, h⟩
  | g :: gs, a, b, h, hn => by
    unfold Main.runGroups
    refine (h.runGroup ci fun n hm => hn n (by simp [hm])).bind fun _ u v huv =>
      Alike.runGroups ci gs huv fun n hm => hn n (by rw [List.flatMap_cons]; exact List.mem_append_right _ hm)

/-! ### C77 -/

/-- C77, of an input file only the tokens matter.  In two file systems in which the configuration is the same and the scanner
finds the same tokens in the headers to be read (the argument, or the input files the configuration names), the runs end the
same way, and every file that is not left alone by both has the same content after both. -/
theorem C77_tokens (env : Env) (arg : Option Str) (locate : Str → Located) (parse : Option Str → LoadRes) (w1 w2 : World)
    (hc : ∀ p, arg.map locate = some (.canonical p) → extension p = c!".stfx" → w1.read env p = w2.read env p)
    (h : ∀ p ∈ inputPaths env arg locate parse w1, SameTokens (w1.read env p) (w2.read env p)) :
    SameEnd (runOn env arg locate parse w1) (runOn env arg locate parse w2) ∧
    SameWrites w1.files w2.files (runOn env arg locate parse w1).world.files (runOn env arg locate parse w2).world.files := by
  have none' : SameWrites w1.files w2.files w1.files w2.files := fun q => Or.inr ⟨rfl, rfl⟩
  cases arg with
  | none => exact ⟨rfl, none'⟩
  | some a =>
    unfold runOn main
    unfold inputPaths at h
    simp only [Option.map_some] at h hc ⊢
    cases hl : locate a with
    | missing => exact ⟨rfl, none'⟩
    | threw => exact ⟨rfl, none'⟩
    | canonical p =>
      simp only [hl] at h ⊢
      have hp := h p (by simp)
      have hc := hc p (by rw [hl])
      by_cases hx : extension p = c!".stfx"
      · simp only [if_pos hx] at h ⊢
        rw [← hc hx]
        unfold processStfxFile
        cases hc : parse (w1.read env p) with
        | failed => exact ⟨rfl, none'⟩
        | ub => exact ⟨rfl, none'⟩
        | loaded c =>
          rw [hc] at h
          have hn : ∀ n ∈ c.inputs, SameTokens (w1.read env (join (parentPath p) n)) (w2.read env (join (parentPath p) n)) :=
            fun n hm => h _ (List.mem_cons_of_mem _ (List.mem_map_of_mem hm))
          have h0 : Alike w1 w2 { w1 with heap := [Info.empty] } { w2 with heap := [Info.empty] } := ⟨rfl, none'⟩
          have := (h0.readInputs (fun n hm => hn n (List.mem_append_left _ hm)) 0).bind (f := fun _ w =>
              (generate env (parentPath p) 0 c.commonIn c.commonOut w).bind fun _ w =>
              (runGroups env (parentPath p) c.commonIn c.nonCommon w).bind fun _ w => Res.ok 0 w) (g := fun _ w =>
              (generate env (parentPath p) 0 c.commonIn c.commonOut w).bind fun _ w =>
              (runGroups env (parentPath p) c.commonIn c.nonCommon w).bind fun _ w => Res.ok 0 w)
            fun _ u v huv => (huv.generate env _ _ _ _).bind fun _ u v huv =>
              (Alike.runGroups c.commonIn c.nonCommon huv fun n hm => hn n (List.mem_append_right _ hm)).bind fun _ u v huv =>
              ⟨rfl, huv⟩
          exact ⟨this.1, this.2.files⟩
      · simp only [if_neg hx]
        unfold processSingleHeader
        rw [← hp.file]
        cases processInputFile 0 (w1.read env p) [Info.empty] with
        | none => exact ⟨rfl, none'⟩
        | some r =>
          obtain ⟨heap, ok⟩ := r
          have h0 : Alike w1 w2 { w1 with heap := heap } { w2 with heap := heap } := ⟨rfl, none'⟩
          cases ok with
          | false => exact ⟨rfl, none'⟩
          | true =>
            have := (h0.processItems env .attrib (parentPath p) 0 [filename p] headerSpec).bind
              (f := fun _ w => Res.ok 0 w) (g := fun _ w => Res.ok 0 w) fun _ u v huv => ⟨rfl, huv⟩
            exact ⟨this.1, this.2.files⟩

/-- C77, the output depends only on what is read.  In two file systems in which the files to be read (the argument, and
the input files the configuration names) are the same, the runs end the same way, and every file that is not left
alone by both has the same content after both. -/
theorem C77_inputs (env : Env) (arg : Option Str) (locate : Str → Located) (parse : Option Str → LoadRes) (w1 w2 : World)
    (h : ∀ p ∈ inputPaths env arg locate parse w1, w1.read env p = w2.read env p) :
    SameEnd (runOn env arg locate parse w1) (runOn env arg locate parse w2) ∧
    SameWrites w1.files w2.files (runOn env arg locate parse w1).world.files (runOn env arg locate parse w2).world.files := by
  refine C77_tokens env arg locate parse w1 w2 (fun p hp _ => h p ?_) fun p hp => by rw [h p hp]; rfl
  unfold inputPaths
  rw [hp]
  exact List.mem_cons_self ..

/-- C77, running again: if the run has left the files it was to read as they were, a second run ends the same way and
leaves every file as the first one left it. -/
theorem C77_again (env : Env) (arg : Option Str) (locate : Str → Located) (parse : Option Str → LoadRes) (w : World)
    (h : ∀ p ∈ inputPaths env arg locate parse w, (runOn env arg locate parse w).world.read env p = w.read env p) :
    SameEnd (runOn env arg locate parse w) (runOn env arg locate parse (runOn env arg locate parse w).world) ∧
    (runOn env arg locate parse (runOn env arg locate parse w).world).world.files = (runOn env arg locate parse w).world.files := by
  obtain ⟨h1, h2⟩ := C77_inputs env arg locate parse w (runOn env arg locate parse w).world fun p hp => (h p hp).symm
  refine ⟨h1, funext fun q => ?_⟩
  rcases h2 q with e | ⟨_, e⟩
  · exact e.symm
  · exact e

/-! #### No output file is an input file -/

theorem run_files (env : Env) (arg : Option Str) (locate : Str → Located) (parse : Option Str → LoadRes) (w : World) (q : Str)
    (hq : (runOn env arg locate parse w).world.files q ≠ w.files q) :
    ∃ p ∈ outputPaths env arg locate parse w, env.canWrite p = true ∧ q = env.ident p := by
  cases arg with
  | none => exact absurd rfl hq
  | some a =>
    unfold runOn main at hq
    unfold outputPaths
    simp only [Option.map_some] at hq ⊢
    cases hl : locate a with
    | missing => rw [hl] at hq; exact absurd rfl hq
    | threw => rw [hl] at hq; exact absurd rfl hq
    | canonical p =>
      simp only [hl] at hq ⊢
      by_cases hx : extension p = c!".stfx"
      · simp only [if_pos hx] at hq ⊢
        cases hc : parse (w.read env p) with
        | failed => rw [hc] at hq; exact absurd rfl hq
        | ub => rw [hc] at hq; exact absurd rfl hq
        | loaded c =>
          rw [hc] at hq
          simp only
          obtain ⟨h1, e1, hok1, hl1, _⟩ := readInputs_spec (w := { w with heap := [Info.empty] }) (self := 0)
            (HeapOk.new HeapOk.nil) (by simp) env (parentPath p) c.commonIn
          obtain ⟨g1, g2, g3, g4, g5⟩ := generate_spec (w := { w with heap := h1 }) (self := 0) hok1 (by simp [hl1]) env
            (parentPath p) c.commonIn c.commonOut
          unfold processStfxFile at hq
          simp only [e1, Res.bind] at hq
          rcases g4 with ⟨_, u, g4⟩ | ⟨u, g4⟩
          · rw [g4] at g1 g2 g3 hq
            simp only [Res.world] at g1 g2 g3 hq
            simp only [List.length_cons, List.length_nil] at hl1
            obtain ⟨r1, ⟨n, r2⟩, _⟩ := runGroups_spec (w := u) g2 (by omega) env (parentPath p) c.commonIn c.nonCommon
            have g1' : Wrote env w u (runPaths env (parentPath p) c.commonOut) := ⟨g1.attempts, g1.files⟩
            have hall := g1'.trans r2
            have hq' : (runGroups env (parentPath p) c.commonIn c.nonCommon u).world.files q ≠ w.files q := by
              rcases r1 with ⟨_, v, r1⟩ | ⟨v, r1⟩ <;> rw [r1] at hq ⊢ <;> exact hq
            obtain ⟨x, hx1, hx2⟩ := hall.files q hq'
            refine ⟨x, ?_, hx2⟩
            rcases List.mem_append.1 hx1 with hx1 | hx1
            · exact List.mem_append_left _ hx1
            · obtain ⟨g, hg, hxg⟩ := List.mem_flatMap.1 hx1
              exact List.mem_append_right _ (List.mem_flatMap.2 ⟨g, List.mem_of_mem_take hg, hxg⟩)
          · rw [g4] at g1 hq
            obtain ⟨x, hx1, hx2⟩ := g1.files q hq
            exact ⟨x, List.mem_append_left _ hx1, hx2⟩
      · simp only [if_neg hx] at hq ⊢
        rcases header_spec env p w with ⟨_, _, _, _, w', h3, h4⟩ | ⟨_, w', h3, h4, _⟩
        · rw [h3] at hq
          exact h4.files q hq
        · rw [h3] at hq
          exact absurd (congrFun h4 q) hq

/-- C77, the part that holds: if no file to be written is a file to be read, the run leaves the latter as they were, and
running again ends the same way and changes nothing. -/
theorem C77_repeat_partial (env : Env) (arg : Option Str) (locate : Str → Located) (parse : Option Str → LoadRes) (w : World)
    (hd : ∀ p ∈ inputPaths env arg locate parse w, ∀ o ∈ outputPaths env arg locate parse w, env.ident o ≠ env.ident p) :
    (∀ p ∈ inputPaths env arg locate parse w, (runOn env arg locate parse w).world.read env p = w.read env p) ∧
    SameEnd (runOn env arg locate parse w) (runOn env arg locate parse (runOn env arg locate parse w).world) ∧
    (runOn env arg locate parse (runOn env arg locate parse w).world).world.files = (runOn env arg locate parse w).world.files := by
  have keep : ∀ p ∈ inputPaths env arg locate parse w, (runOn env arg locate parse w).world.read env p = w.read env p := by
    intro p hp
    apply Classical.byContradiction
    intro hne
    obtain ⟨o, ho, _, e⟩ := run_files env arg locate parse w _ hne
    exact hd p hp o ho e.symm
  exact ⟨keep, C77_again env arg locate parse w keep⟩

/-- The claim without the condition.  (Specification notion, models no code.) -/
def RepeatClaim : Prop :=
  ∀ (env : Env) (arg : Option Str) (locate : Str → Located) (parse : Option Str → LoadRes) (w : World),
    SameEnd (runOn env arg locate parse w) (runOn env arg locate parse (runOn env arg locate parse w).world) ∧
    (runOn env arg locate parse (runOn env arg locate parse w).world).world.files = (runOn env arg locate parse w).world.files

/-- A header given on the command line under the name the program uses for its own output.  (Example, models no code.) -/
def ownName : World := ⟨[], fun q => if q = c!"/d/enums.h" then some c!"enum E { A };" else none, []⟩

/-- Exit status.  (Example, models no code.) -/
def Res.status : Res Nat → Option Nat
  | .ok n _ => some n
  | .stop _ _ => none

theorem SameEnd.status {r r' : Res Nat} (h : SameEnd r r') : r.status = r'.status := by
  match r, r', h with
  | .ok _ _, .ok _ _, rfl => rfl
  | .stop _ _, .stop _ _, _ => rfl

/-- C77 as stated is false: `stfx enums.h` overwrites the header it was given (the output of header mode goes to
`enums.h` next to the header), ends with status 0, and fails with status 1 when run again. -/
theorem C77_refuted : ¬ RepeatClaim ∧
    (runOn orderEnv (some c!"enums.h") (fun _ => .canonical c!"/d/enums.h") (fun _ => .failed) ownName).world.read orderEnv c!"/d/enums.h" ≠
      ownName.read orderEnv c!"/d/enums.h" := by
  constructor
  · intro h
    have key : ∀ (env : Env) (arg : Option Str) (locate : Str → Located) (parse : Option Str → LoadRes) (w : World),
        (runOn env arg locate parse w).status = (runOn env arg locate parse (runOn env arg locate parse w).world).status :=
      fun env arg locate parse w => (h env arg locate parse w).1.status
    have := key orderEnv (some c!"enums.h") (fun _ => .canonical c!"/d/enums.h") (fun _ => .failed) ownName
    revert this
    decide +kernel
  · decide +kernel

/-- A configuration whose enum header has the name of its input file.  (Example, models no code.) -/
def overConfig : Config := ⟨[c!"a.h"], { headerSpec with enumFile := c!"a", structsFile := c!"s" }, []⟩

/-- C77, in configuration mode: the first run overwrites its input, and the second generates a struct header from which
the struct has disappeared.  Both end with status 0. -/
theorem C77_config_refuted :
    let run := runOn orderEnv (some c!"x.stfx") (fun _ => .canonical c!"/d/x.stfx") (fun _ => .loaded overConfig)
    let w := orderWorld c!"struct S { int i; };\nenum E { A };" []
    (run w).status = some 0 ∧ (run (run w).world).status = some 0 ∧
    (run (run w).world).world.files c!"/d/s.h" ≠ (run w).world.files c!"/d/s.h" := by
  decide +kernel

/-- Non-vacuity of `C77_repeat_partial` and `C77_again`: a configuration with a group; the outputs are no inputs. -/
example : ∀ p ∈ inputPaths orderEnv (some c!"x.stfx") (fun _ => .canonical c!"/d/x.stfx") (fun _ => .loaded orderConfig)
      (orderWorld c!"struct A { B b; };\nenum B { X };" c!"struct C { int c; };"),
    ∀ o ∈ outputPaths orderEnv (some c!"x.stfx") (fun _ => .canonical c!"/d/x.stfx") (fun _ => .loaded orderConfig)
      (orderWorld c!"struct A { B b; };\nenum B { X };" c!"struct C { int c; };"), orderEnv.ident o ≠ orderEnv.ident p := by
  decide +kernel
example : inputPaths orderEnv (some c!"x.stfx") (fun _ => .canonical c!"/d/x.stfx") (fun _ => .loaded orderConfig) ownName =
    [c!"/d/x.stfx", c!"/d/a.h", c!"/d/b.h"] := by decide +kernel
example : outputPaths orderEnv (some c!"x.stfx") (fun _ => .canonical c!"/d/x.stfx") (fun _ => .loaded orderConfig) ownName =
    [c!"/d/e.cpp", c!"/d/e.h", c!"/d/s.cpp", c!"/d/s.h", c!"/d/t.cpp", c!"/d/t.h"] := by decide +kernel

/-- Non-vacuity of `C77_inputs`: the second file system has old output files, which do not matter; after both runs
`e.h` has the same content. -/
example :
    let w1 := orderWorld c!"struct A { B b; };\nenum B { X };" c!"struct C { int c; };"
    let w2 : World := ⟨[], fun q => if q = c!"/d/e.h" then some c!"old" else w1.files q, []⟩
    (∀ p ∈ inputPaths orderEnv (some c!"x.stfx") (fun _ => .canonical c!"/d/x.stfx") (fun _ => .loaded orderConfig) w1,
      w1.read orderEnv p = w2.read orderEnv p) ∧ w1.files c!"/d/e.h" ≠ w2.files c!"/d/e.h" := by
  decide +kernel

end Stfx.Main
