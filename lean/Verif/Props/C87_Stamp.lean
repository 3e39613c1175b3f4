import Verif.Props.C85_Split
/-
C87: the time at which stfx was built is in one comment line of each generated file, and nowhere else.
-/
set_option autoImplicit false
namespace Stfx.Main
open Stfx.Lexer Stfx.Parser Stfx.Items Stfx.Gen

/-- The program built at another time, timestamp.cpp:12.  (Specification notion, models no code.) -/
def Env.at (env : Env) (s : Str) : Env := { env with stamp := s }

/-- Two texts that are the same but for a comment line, which is `s` in the one and `s'` in the other.
(Specification notion, models no code.) -/
def OtherStamp (s s' x x' : Str) : Prop := ∃ a b, x = a ++ c!"\n// " ++ s ++ c!"\n" ++ b ∧ x' = a ++ c!"\n// " ++ s' ++ c!"\n" ++ b

/-- Two files that are the same, or the same but for that line.  (Specification notion, models no code.) -/
def StampAlike (s s' : Str) : Option Str → Option Str → Prop
  | some x, some x' => x = x' ∨ OtherStamp s s' x x'
  | none, none => True
  | _, _ => False

theorem StampAlike.refl (s s' : Str) (x : Option Str) : StampAlike s s' x x := by
  cases x with
  | none => trivial
  | some x => exact .inl rfl

theorem otherStamp_items {s s' : Str} {f : Str → Str} (hf : ∀ n, f n = n ++ c!"\n") {X X' A B : List Item}
    (h : X = A ++ [.raw (f (stfxInfo s))] ++ B) (h' : X' = A ++ [.raw (f (stfxInfo s'))] ++ B) : OtherStamp s s' (fileText X) (fileText X') := by
  have e : ∃ c : Str, ∀ s : Str, stfxInfo s = c ++ c!"\n// " ++ s ++ c!"\n" :=
    ⟨c!"//\n// Automatically generated using stfx\n// Do not directly edit this file, use stfx to re-create this file.\n//\n// License : MIT License\n//",
      fun s => by simp [stfxInfo]⟩
  obtain ⟨c, e⟩ := e
  have one : ∀ t, fileText [Item.raw t] = t := fun t => by simp [fileText, Item.text]
  refine ⟨fileText A ++ c, c!"\n" ++ fileText B, ?_, ?_⟩
  · rw [h, fileText_append, fileText_append, one, hf, e]
    simp only [List.append_assoc]
  · rw [h', fileText_append, fileText_append, one, hf, e]
    simp only [List.append_assoc]

section texts
variable (s s' : Str)

theorem enumsCpp_stamp (a b : Str) (names : List Str) (E : SMap EnumS) :
    OtherStamp s s' (fileText (enumsCpp s a b names E)) (fileText (enumsCpp s' a b names E)) :=
  otherStamp_items (f := T.base88) (fun _ => by simp [T.base88]) (A := [.raw (T.base87 a)]) rfl rfl

theorem enumsH_stamp (a : Str) (names : List Str) (E : SMap EnumS) :
    OtherStamp s s' (fileText (enumsH s a names E)) (fileText (enumsH s' a names E)) :=
  otherStamp_items (f := T.base98) (fun _ => by simp [T.base98]) (A := [.raw (T.base97 a)]) rfl rfl

theorem structsCpp_stamp (k : Kind) (a b : Str) (names : List Str) (out : OutSpec) (S : SMap StructS) :
    OtherStamp s s' (fileText (structsCpp k s a b names out S)) (fileText (structsCpp k s' a b names out S)) := by
  have hsp : ∃ B, ∀ s, structsCpp k s a b names out S = structsCppHead k s a b names out ++ B :=
    ⟨_, fun s => by simp only [structsCpp, List.append_assoc]; rfl⟩
  obtain ⟨B, h⟩ := hsp
  rw [h, h]
  unfold structsCppHead
  by_cases hx : k.isXml = true
  · rw [if_pos hx, if_pos hx]
    exact otherStamp_items (f := T.xml51) (fun _ => by simp [T.xml51]) (A := [.raw (T.xml50 a)]) rfl rfl
  · rw [if_neg hx, if_neg hx]
    exact otherStamp_items (f := T.ini51) (fun _ => by simp [T.ini51]) (A := [.raw (T.ini50 a)]) rfl rfl

theorem structsH_stamp (k : Kind) (a : Str) (names : List Str) (out : OutSpec) (S : SMap StructS) :
    OtherStamp s s' (fileText (structsH k s a names out S)) (fileText (structsH k s' a names out S)) := by
  have hsp : ∃ B, ∀ s, structsH k s a names out S = (if k.isXml then [.raw (T.xml71 a), .raw (T.xml72 (stfxInfo s)), .raw T.xml74]
      else [.raw (T.ini76 a), .raw (T.ini77 (stfxInfo s)), .raw T.ini79]) ++ B :=
    ⟨_, fun s => by simp only [structsH, List.append_assoc]; rfl⟩
  obtain ⟨B, h⟩ := hsp
  rw [h, h]
  by_cases hx : k.isXml = true
  · rw [if_pos hx, if_pos hx]
    exact otherStamp_items (f := T.xml72) (fun _ => by simp [T.xml72]) (A := [.raw (T.xml71 a)]) rfl rfl
  · rw [if_neg hx, if_neg hx]
    exact otherStamp_items (f := T.ini77) (fun _ => by simp [T.ini77]) (A := [.raw (T.ini76 a)]) rfl rfl

end texts

/-- The invariant of two runs, of the program and of that built at `s'`, on the files of `w`; `outs` are the files they
write.  (Proof notion, models no code.) -/
structure Stamped (env : Env) (s' : Str) (outs : List Str) (w a b : World) : Prop where
  heap : a.heap = b.heap
  attempts : a.attempts = b.attempts
  files : ∀ q, StampAlike env.stamp s' (a.files q) (b.files q)
  keep : ∀ q, (∀ o ∈ outs, env.ident o ≠ q) → a.files q = w.files q ∧ b.files q = w.files q

/-- Results of such runs.  (Proof notion, models no code.) -/
def StampedR {α : Type} (env : Env) (s' : Str) (outs : List Str) (w : World) (r r' : Res α) : Prop :=
  SameEnd r r' ∧ Stamped env s' outs w r.world r'.world

section
variable {env : Env} {s' : Str} {C outs : List Str} {w : World}

theorem StampedR.bind {α β : Type} {r r' : Res α} {f g : α → World → Res β} (h : StampedR env s' outs w r r')
    (hf : ∀ x a b, Stamped env s' outs w a b → StampedR env s' outs w (f x a) (g x b)) : StampedR env s' outs w (r.bind f) (r'.bind g) := by
  obtain ⟨h1, h2⟩ := h
  match r, r', h1, h2 with
  | .ok x a, .ok _ b, rfl, h2 => exact hf x a b h2
  | .stop e a, .stop _ b, rfl, h2 => exact ⟨rfl, h2⟩

theorem Stamped.newHeap {a b : World} (h : Stamped env s' outs w a b) (x : Heap) :
    Stamped env s' outs w { a with heap := x } { b with heap := x } := ⟨rfl, h.attempts, h.files, h.keep⟩

theorem Stamped.put {a b : World} (h : Stamped env s' outs w a b) {p x x' : Str} (hp : p ∈ outs) (hx : x = x' ∨ OtherStamp env.stamp s' x x') :
    Stamped env s' outs w (a.put env p x) (b.put env p x') := by
  refine ⟨h.heap, h.attempts, fun q => ?_, fun q hq => ?_⟩
  · unfold World.put
    by_cases e : q = env.ident p
    · simp only [if_pos e]; exact hx
    · simp only [if_neg e]; exact h.files q
  · unfold World.put
    simp only [if_neg (fun e => hq p hp (Eq.symm e) : ¬ q = env.ident p)]
    exact h.keep q hq

theorem Stamped.writePair {a b : World} (h : Stamped env s' outs w a b) {cpp hh x x' y y' : Str} (h1 : cpp ∈ outs) (h2 : env.canWrite cpp = true → hh ∈ outs)
    (hx : OtherStamp env.stamp s' x x') (hy : OtherStamp env.stamp s' y y') :
    (Main.writePair env cpp hh x y a).1 = (Main.writePair env cpp hh x' y' b).1 ∧
    Stamped env s' outs w (Main.writePair env cpp hh x y a).2 (Main.writePair env cpp hh x' y' b).2 := by
  refine ⟨by rw [writePair_ok, writePair_ok], ?_⟩
  have h0 : ∀ {a b : World}, Stamped env s' outs w a b → ∀ p, Stamped env s' outs w (a.attempt p) (b.attempt p) :=
    fun h p => ⟨h.heap, by unfold World.attempt; simp only [h.attempts], h.files, h.keep⟩
  unfold Main.writePair
  cases hc : env.canWrite cpp
  · exact h0 h cpp
  · have h3 := h0 ((h0 h cpp).put (p := cpp) (x := []) h1 (.inl rfl)) hh
    cases env.canWrite hh
    · exact h3
    · exact (h3.put h1 (.inr hx)).put (h2 hc) (.inr hy)

theorem Stamped.processItems {a b : World} (h : Stamped env s' outs w a b) (k : Kind) (base : Str) (self : Nat) (names : List Str) (out : OutSpec)
    (ho : ∀ p ∈ specPaths env base out, p ∈ outs) :
    StampedR env s' outs w (Main.processItems env k base self names out a) (Main.processItems (env.at s') k base self names out b) := by
  unfold Main.processItems
  rw [h.heap]
  cases prepare self b.heap with
  | none => exact ⟨rfl, h⟩
  | some r =>
    obtain ⟨heap, ok1⟩ := r
    simp only
    cases heap[self]? with
    | none => exact ⟨rfl, h⟩
    | some i =>
      simp only
      have hpaths : ∀ dir, outDir env base out = some dir → ∀ f, (f = out.enumFile ∨ f = out.structsFile) → disabled f = false →
          cppPath dir f ∈ outs ∧ (env.canWrite (cppPath dir f) = true → hPath dir f ∈ outs) := by
        intro dir hd f hf hdis
        have hsp : specPaths env base out = pairPaths env dir out.enumFile ++ pairPaths env dir out.structsFile := by
          unfold specPaths
          unfold outDir at hd
          rw [hd]
        have hsub : ∀ p ∈ pairPaths env dir f, p ∈ outs := by
          intro p hp
          refine ho p ?_
          rw [hsp]
          rcases hf with rfl | rfl
          · exact List.mem_append_left _ hp
          · exact List.mem_append_right _ hp
        have hpp : pairPaths env dir f = cppPath dir f :: (if env.canWrite (cppPath dir f) then [hPath dir f] else []) := by
          unfold pairPaths
          rw [if_neg]
          intro e
          rw [(disabled_iff f).2 e] at hdis
          cases hdis
        rw [hpp] at hsub
        exact ⟨hsub _ List.mem_cons_self, fun hc => hsub _ (by rw [if_pos hc]; simp)⟩
      have h1 : StampedR env s' outs w
          (if disabled out.enumFile then Res.ok true { a with heap := heap } else processAllEnums env base names out i { a with heap := heap })
          (if disabled out.enumFile then Res.ok true { b with heap := heap } else processAllEnums (env.at s') base names out i { b with heap := heap }) := by
        cases hdis : disabled out.enumFile
        · simp only [Bool.false_eq_true, if_false, processAllEnums]
          rw [show outDir (env.at s') base out = outDir env base out from rfl]
          cases hd : outDir env base out with
          | none => exact ⟨rfl, h.newHeap heap⟩
          | some dir =>
            obtain ⟨p1, p2⟩ := hpaths dir hd out.enumFile (.inl rfl) hdis
            exact ⟨rfl, ((h.newHeap heap).writePair p1 p2 (enumsCpp_stamp _ _ _ _ _ _) (enumsH_stamp _ _ _ _ _)).2⟩
        · exact ⟨rfl, h.newHeap heap⟩
      refine h1.bind fun ok2 u v huv => StampedR.bind (r := if disabled out.structsFile then Res.ok true u else processAllStructs env k base names out i u)
        (r' := if disabled out.structsFile then Res.ok true v else processAllStructs (env.at s') k base names out i v) ?_ fun ok3 u v huv => ⟨rfl, huv⟩
      cases hdis : disabled out.structsFile
      · simp only [Bool.false_eq_true, if_false, processAllStructs]
        rw [show outDir (env.at s') base out = outDir env base out from rfl]
        cases hd : outDir env base out with
        | none => exact ⟨rfl, huv⟩
        | some dir =>
          obtain ⟨p1, p2⟩ := hpaths dir hd out.structsFile (.inr rfl) hdis
          obtain ⟨q1, q2⟩ := huv.writePair p1 p2 (structsCpp_stamp env.stamp s' k (filename (cppPath dir out.structsFile)) (filename (hPath dir out.structsFile)) names out i.structs)
            (structsH_stamp env.stamp s' k (filename (hPath dir out.structsFile)) names out i.structs)
          refine ⟨?_, q2⟩
          show (_ && _) = (_ && _)
          rw [q1]
          rfl
      · exact ⟨rfl, huv⟩

theorem Stamped.generate {a b : World} (h : Stamped env s' outs w a b) (base : Str) (self : Nat) (names : List Str) (out : OutSpec)
    (ho : ∀ p ∈ runPaths env base out, p ∈ outs) :
    StampedR env s' outs w (Main.generate env base self names out a) (Main.generate (env.at s') base self names out b) := by
  unfold Main.generate
  cases hk : kindOf out.fileType with
  | none => exact ⟨rfl, h⟩
  | some k =>
    have hr : runPaths env base out = specPaths env base out := by
      unfold runPaths
      rw [if_pos ((kindOf_iff _).1 ⟨k, hk⟩)]
    exact (h.processItems k base self names out (by rwa [hr] at ho)).bind fun _ _ _ huv => ⟨rfl, huv⟩

theorem Stamped.runGroup {a b : World} (h : Stamped env s' outs w a b) (base : Str) (g : List Str × OutSpec)
    (ho : ∀ p ∈ runPaths env base g.2, p ∈ outs) (hi : ∀ n ∈ g.1, ∀ o ∈ outs, env.ident o ≠ env.ident (join base n)) :
    StampedR env s' outs w (Main.runGroup env base C g a) (Main.runGroup (env.at s') base C g b) := by
  unfold Main.runGroup
  rw [h.heap]
  cases copyInfo 0 b.heap with
  | none => exact ⟨rfl, h⟩
  | some heap =>
    simp only
    refine StampedR.bind (r := Main.readInputs env base b.heap.length g.1 { a with heap := heap })
      (r' := Main.readInputs (env.at s') base b.heap.length g.1 { b with heap := heap }) ?_ fun _ u v huv => ?_
    · have hr : (g.1.map fun n => World.read { a with heap := heap } env (join base n)) = g.1.map fun n => World.read { b with heap := heap } (env.at s') (join base n) := by
        refine List.map_congr_left fun n hn => ?_
        obtain ⟨e1, e2⟩ := h.keep _ (hi n hn)
        exact e1.trans e2.symm
      unfold Main.readInputs
      rw [hr]
      cases processFiles b.heap.length (g.1.map fun n => World.read { b with heap := heap } (env.at s') (join base n)) heap with
      | none => exact ⟨rfl, h.newHeap heap⟩
      | some x => exact ⟨rfl, h.newHeap x⟩
    · refine (huv.generate base b.heap.length (C ++ g.1) g.2 ho).bind fun _ x y hxy => ⟨rfl, ?_⟩
      have := hxy.newHeap x.heap.dropLast
      rw [hxy.heap] at this ⊢
      exact this

theorem Stamped.runGroups (base : Str) : ∀ (gs : List (List Str × OutSpec)) {a b : World}, Stamped env s' outs w a b →
    (∀ g ∈ gs, ∀ p ∈ runPaths env base g.2, p ∈ outs) → (∀ g ∈ gs, ∀ n ∈ g.1, ∀ o ∈ outs, env.ident o ≠ env.ident (join base n)) →
    StampedR env s' outs w (Main.runGroups env base C gs a) (Main.runGroups (env.at s') base C gs b)
  | [], _, _, h, _, _ => ⟨rfl, h⟩
  | g :: gs, a, b, h, ho, hi => by
    unfold Main.runGroups
    exact (h.runGroup base g (ho g List.mem_cons_self) (hi g List.mem_cons_self)).bind fun _ u v huv =>
      Stamped.runGroups base gs huv (fun g hg => ho g (List.mem_cons_of_mem _ hg)) fun g hg => hi g (List.mem_cons_of_mem _ hg)

end

/-- C87: the program and the same program built at another time end the same way, open the same files in the same order, and write the
same text but for one comment line with the time; for a configuration, provided no output file is an input file of a group. -/
theorem C87_run (env : Env) (s' : Str) (arg : Option Str) (locate : Str → Located) (load : Str → LoadRes) (w : World)
    (hi : ∀ p c, load p = .loaded c → ∀ g ∈ c.nonCommon, ∀ n ∈ g.1, ∀ out ∈ c.commonOut :: c.nonCommon.map Prod.snd,
      ∀ o ∈ runPaths env (parentPath p) out, env.ident o ≠ env.ident (join (parentPath p) n)) :
    let r := main env arg locate load w
    let r' := main (env.at s') arg locate load w
    SameEnd r r' ∧ r.world.attempts = r'.world.attempts ∧ ∀ q, StampAlike env.stamp s' (r.world.files q) (r'.world.files q) := by
  intro r r'
  suffices key : ∃ outs, StampedR env s' outs w r r' from key.elim fun _ key => ⟨key.1, key.2.attempts, key.2.files⟩
  have h0 : ∀ outs heap, Stamped env s' outs w { w with heap := heap } { w with heap := heap } :=
    fun outs heap => ⟨rfl, rfl, fun q => .refl _ _ _, fun q _ => ⟨rfl, rfl⟩⟩
  have hw : ∀ outs, Stamped env s' outs w w w := fun outs => h0 outs w.heap
  show ∃ outs, StampedR env s' outs w (main env arg locate load w) (main (env.at s') arg locate load w)
  unfold main
  cases arg with
  | none => exact ⟨[], rfl, hw _⟩
  | some x =>
    simp only
    cases locate x with
    | missing => exact ⟨[], rfl, hw _⟩
    | threw => exact ⟨[], rfl, hw _⟩
    | canonical p =>
      simp only
      by_cases hx : extension p = c!".stfx"
      · rw [if_pos hx, if_pos hx]
        cases hl : load p with
        | loaded c =>
          refine ⟨(c.commonOut :: c.nonCommon.map Prod.snd).flatMap (runPaths env (parentPath p)), ?_⟩
          simp only [processStfxFile]
          refine StampedR.bind ?_ fun _ a b hab => StampedR.bind ?_ fun _ a b hab =>
            StampedR.bind (Stamped.runGroups (parentPath p) c.nonCommon hab ?_ ?_) fun _ a b hab => ⟨rfl, hab⟩
          · unfold readInputs
            rw [show (c.commonIn.map fun n => World.read { w with heap := [Info.empty] } (env.at s') (join (parentPath p) n)) =
              c.commonIn.map fun n => World.read { w with heap := [Info.empty] } env (join (parentPath p) n) from rfl]
            cases processFiles 0 (c.commonIn.map fun n => World.read { w with heap := [Info.empty] } env (join (parentPath p) n)) [Info.empty] with
            | none => exact ⟨rfl, h0 _ _⟩
            | some heap => exact ⟨rfl, h0 _ heap⟩
          · exact hab.generate (parentPath p) 0 _ c.commonOut fun o ho => List.mem_flatMap.2 ⟨_, List.mem_cons_self, ho⟩
          · exact fun g hg o ho => List.mem_flatMap.2 ⟨g.2, List.mem_cons_of_mem _ (List.mem_map_of_mem hg), ho⟩
          · intro g hg n hn o ho
            obtain ⟨out, h1, h2⟩ := List.mem_flatMap.1 ho
            exact hi p c hl g hg n hn out h1 o h2
        | _ => exact ⟨[], rfl, hw _⟩
      · rw [if_neg hx, if_neg hx]
        refine ⟨specPaths env (parentPath p) headerSpec, ?_⟩
        unfold processSingleHeader
        rw [show w.read (env.at s') p = w.read env p from rfl]
        cases processInputFile 0 (w.read env p) [Info.empty] with
        | none => exact ⟨rfl, hw _⟩
        | some x =>
          obtain ⟨heap, ok⟩ := x
          simp only
          cases ok
          · exact ⟨rfl, h0 _ heap⟩
          · exact ((h0 _ heap).processItems .attrib (parentPath p) 0 [filename p] headerSpec fun _ h => h).bind fun _ _ _ huv => ⟨rfl, huv⟩

/-- The files of a run for a header. -/
example : ((main (orderEnv.at c!"T1") (some c!"a.h") (fun _ => .canonical c!"/d/a.h") (fun _ => .failed)
      (orderWorld c!"struct S { int i; };" [])).world.files c!"/d/structs.h").isSome = true ∧
    (main (orderEnv.at c!"T1") (some c!"a.h") (fun _ => .canonical c!"/d/a.h") (fun _ => .failed) (orderWorld c!"struct S { int i; };" [])).world.files c!"/d/structs.h" ≠
    (main (orderEnv.at c!"T2") (some c!"a.h") (fun _ => .canonical c!"/d/a.h") (fun _ => .failed) (orderWorld c!"struct S { int i; };" [])).world.files c!"/d/structs.h" := by
  constructor <;> decide +kernel

/-- What is read from configuration files.  (Example, models no code.) -/
def stampLoad (p : Str) : LoadRes := if p = c!"/d/x.stfx" then .loaded orderConfig else .failed

/-- The hypothesis of `C87_run` for a configuration with a group. -/
theorem stampLoad_apart : ∀ p c, stampLoad p = .loaded c → ∀ g ∈ c.nonCommon, ∀ n ∈ g.1, ∀ out ∈ c.commonOut :: c.nonCommon.map Prod.snd,
    ∀ o ∈ runPaths orderEnv (parentPath p) out, orderEnv.ident o ≠ orderEnv.ident (join (parentPath p) n) := by
  intro p c h
  unfold stampLoad at h
  by_cases e : p = c!"/d/x.stfx"
  · rw [if_pos e] at h
    cases h
    subst e
    decide +kernel
  · rw [if_neg e] at h
    cases h

example (w : World) (q : Str) : StampAlike [] c!"stfx built at : Nov 16 2026 22:30:00, Software Version : 25.01"
    ((main orderEnv (some c!"x.stfx") (fun _ => .canonical c!"/d/x.stfx") stampLoad w).world.files q)
    ((main (orderEnv.at c!"stfx built at : Nov 16 2026 22:30:00, Software Version : 25.01") (some c!"x.stfx") (fun _ => .canonical c!"/d/x.stfx") stampLoad w).world.files q) :=
  (C87_run orderEnv _ _ _ _ w stampLoad_apart).2.2 q

end Stfx.Main
