import Verif.Main.Process
import Verif.Props.C16_C19_Resolve
/-
Facts about the actions of the main program.
-/
set_option autoImplicit false
namespace Stfx.Main
open Stfx.Parser Stfx.Items Stfx.Gen

/-! ### Writing a pair of files -/

theorem writePair_attempts (env : Env) (cpp h a b : Str) (w : World) :
    (writePair env cpp h a b w).2.attempts = w.attempts ++ cpp :: (if env.canWrite cpp then [h] else []) := by
  unfold writePair World.attempt World.put
  cases env.canWrite cpp <;> simp
  cases env.canWrite h <;> simp

theorem writePair_heap (env : Env) (cpp h a b : Str) (w : World) : (writePair env cpp h a b w).2.heap = w.heap := by
  unfold writePair World.attempt World.put
  cases env.canWrite cpp <;> simp
  cases env.canWrite h <;> simp

theorem writePair_ok (env : Env) (cpp h a b : Str) (w : World) :
    (writePair env cpp h a b w).1 = (env.canWrite cpp && env.canWrite h) := by
  unfold writePair
  cases env.canWrite cpp <;> simp
  cases env.canWrite h <;> simp

theorem writePair_files (env : Env) (cpp h a b : Str) (w : World) (q : Str)
    (hq : (writePair env cpp h a b w).2.files q ≠ w.files q) :
    ∃ p ∈ cpp :: (if env.canWrite cpp then [h] else []), env.canWrite p = true ∧ q = env.ident p := by
  unfold writePair World.attempt World.put at hq
  cases h1 : env.canWrite cpp
  · rw [h1] at hq; simp at hq
  · by_cases e1 : q = env.ident cpp
    · exact ⟨cpp, by simp, h1, e1⟩
    · cases h2 : env.canWrite h
      · simp [h1, h2, e1] at hq
      · refine ⟨h, by simp, h2, ?_⟩
        apply Classical.byContradiction
        intro e2
        simp [h1, h2, e1, e2] at hq

theorem writePair_contents (env : Env) (cpp h a b : Str) (w : World) (h1 : env.canWrite cpp = true)
    (h2 : env.canWrite h = true) :
    (writePair env cpp h a b w).2.read env h = some b ∧
    (env.ident cpp ≠ env.ident h → (writePair env cpp h a b w).2.read env cpp = some a) := by
  unfold writePair World.attempt World.put World.read
  simp only [h1, h2, if_true]
  refine ⟨trivial, fun hne => ?_⟩
  simp [hne]

/-! ### Generation for one output specification -/

/-- The files opened for one pair: the .h file only if the .cpp file could be opened. -/
def pairPaths (env : Env) (dir f : Str) : List Str :=
  if f = [] ∨ f = c!"-" then []
  else cppPath dir f :: (if env.canWrite (cppPath dir f) then [hPath dir f] else [])

/-- The files opened for an output specification.  (Proof notion, models no code.) -/
def specPaths (env : Env) (base : Str) (out : OutSpec) : List Str :=
  match (if out.dir = [] then some base else env.makeDir (join base out.dir)) with
  | none => []
  | some dir => pairPaths env dir out.enumFile ++ pairPaths env dir out.structsFile

/-- `w'` comes from `w` by opening `paths` for writing, and files differ only where that succeeded.  (Proof notion, models no code.) -/
structure Wrote (env : Env) (w w' : World) (paths : List Str) : Prop where
  attempts : w'.attempts = w.attempts ++ paths
  files : ∀ q, w'.files q ≠ w.files q → ∃ p ∈ paths, env.canWrite p = true ∧ q = env.ident p

theorem Wrote.refl (env : Env) (w : World) : Wrote env w w [] := ⟨by simp, fun q h => absurd rfl h⟩

theorem Wrote.heap {env : Env} {w w' : World} {ps : List Str} (h : Wrote env w w' ps) (x y : Heap) :
    Wrote env { w with heap := x } { w' with heap := y } ps := ⟨h.attempts, h.files⟩

theorem Wrote.trans {env : Env} {a b c : World} {ps qs : List Str} (h1 : Wrote env a b ps) (h2 : Wrote env b c qs) :
    Wrote env a c (ps ++ qs) := by
  refine ⟨by rw [h2.attempts, h1.attempts, List.append_assoc], fun q hq => ?_⟩
  by_cases e : c.files q = b.files q
  · rw [e] at hq
    obtain ⟨p, hp, r⟩ := h1.files q hq
    exact ⟨p, List.mem_append_left _ hp, r⟩
  · obtain ⟨p, hp, r⟩ := h2.files q e
    exact ⟨p, List.mem_append_right _ hp, r⟩

theorem disabled_iff (f : Str) : disabled f = true ↔ f = [] ∨ f = c!"-" := by
  unfold disabled; simp

theorem writePair_wrote (env : Env) (cpp h a b : Str) (w : World) :
    Wrote env w (writePair env cpp h a b w).2 (cpp :: (if env.canWrite cpp then [h] else [])) :=
  ⟨writePair_attempts env cpp h a b w, writePair_files env cpp h a b w⟩

/-- Generation never has undefined behaviour; it ends with a result, or with an exception thrown when creating the
output directory before anything is written. -/
theorem processItems_spec {w : World} (hok : HeapOk w.heap) {self : Nat} (hs : self < w.heap.length) (env : Env)
    (k : Kind) (base : Str) (inputs : List Str) (out : OutSpec) :
    Wrote env w (processItems env k base self inputs out w).world (specPaths env base out) ∧
    HeapOk (processItems env k base self inputs out w).world.heap ∧
    (processItems env k base self inputs out w).world.heap.length = w.heap.length ∧
    ((∃ ok w', processItems env k base self inputs out w = .ok ok w') ∨
     (∃ w', processItems env k base self inputs out w = .stop .terminate w') ∧
      out.dir ≠ [] ∧ env.makeDir (join base out.dir) = none) := by
  obtain ⟨h', ok1, hp, hok', hl⟩ := prepare_ok hok hs
  have hi : h'[self]? = some h'[self] := List.getElem?_eq_getElem (by omega)
  generalize h'[self] = i at hi
  have base0 : Wrote env w { w with heap := h' } [] := ⟨by simp, fun q h => absurd rfl h⟩
  cases ho : (if out.dir = [] then some base else env.makeDir (join base out.dir)) with
  | none =>
    have hd : out.dir ≠ [] := by intro e; rw [if_pos e] at ho; cases ho
    rw [if_neg hd] at ho
    have hsp : specPaths env base out = [] := by unfold specPaths; rw [if_neg hd, ho]
    rw [hsp]
    have hod : outDir env base out = none := by unfold outDir; rw [if_neg hd, ho]
    cases h1 : disabled out.enumFile <;> cases h2 : disabled out.structsFile <;>
      simp [processItems, hp, hi, h1, h2, processAllEnums, processAllStructs, hod, Res.bind, Res.world, hok', hl, base0, hd, ho]
  | some dir =>
    have hod : outDir env base out = some dir := by unfold outDir; exact ho
    have hsp : specPaths env base out = pairPaths env dir out.enumFile ++ pairPaths env dir out.structsFile := by
      unfold specPaths; rw [ho]
    rw [hsp]
    have hpair : ∀ f, pairPaths env dir f =
        if disabled f = true then [] else cppPath dir f :: (if env.canWrite (cppPath dir f) then [hPath dir f] else []) := by
      intro f; unfold pairPaths; simp only [disabled_iff]
    rw [hpair, hpair]
    cases h1 : disabled out.enumFile <;> cases h2 : disabled out.structsFile <;>
      simp only [processItems, hp, hi, h1, h2, processAllEnums, processAllStructs, hod, Res.bind, Res.world,
        writePair_heap, hok', hl, if_true, if_false, Bool.false_eq_true, true_and]
    · exact ⟨(base0.trans (writePair_wrote ..)).trans (writePair_wrote ..), Or.inl ⟨_, _, rfl⟩⟩
    · exact ⟨by simpa using base0.trans (writePair_wrote ..), Or.inl ⟨_, _, rfl⟩⟩
    · exact ⟨base0.trans (writePair_wrote ..), Or.inl ⟨_, _, rfl⟩⟩
    · exact ⟨base0, Or.inl ⟨_, _, rfl⟩⟩

/-! ### Groups -/

/-- The files opened in one switch statement: none for an output type without generator.  (Proof notion, models no code.) -/
def runPaths (env : Env) (base : Str) (out : OutSpec) : List Str :=
  if 0 ≤ out.fileType ∧ out.fileType ≤ 3 then specPaths env base out else []

theorem kindOf_iff (t : Int) : (∃ k, kindOf t = some k) ↔ 0 ≤ t ∧ t ≤ 3 := by
  unfold kindOf
  constructor
  · rintro ⟨k, h⟩
    split at h
    · omega
    split at h
    · omega
    split at h
    · omega
    split at h
    · omega
    cases h
  · rintro ⟨h1, h2⟩
    split
    · exact ⟨_, rfl⟩
    split
    · exact ⟨_, rfl⟩
    split
    · exact ⟨_, rfl⟩
    split
    · exact ⟨_, rfl⟩
    omega

/-- The action ends normally or by an exception from creating the output directory.  (Proof notion, models no code.) -/
def Ends {α : Type} (r : Res α) : Prop := (∃ a w, r = .ok a w) ∨ ∃ w, r = .stop .terminate w

theorem generate_spec {w : World} (hok : HeapOk w.heap) {self : Nat} (hs : self < w.heap.length) (env : Env)
    (base : Str) (inputs : List Str) (out : OutSpec) :
    Wrote env w (generate env base self inputs out w).world (runPaths env base out) ∧
    HeapOk (generate env base self inputs out w).world.heap ∧
    (generate env base self inputs out w).world.heap.length = w.heap.length ∧
    Ends (generate env base self inputs out w) ∧
    ((∀ p, env.makeDir p ≠ none) → ∃ w', generate env base self inputs out w = .ok () w') := by
  unfold generate runPaths
  cases hk : kindOf out.fileType with
  | none =>
    have : ¬ (0 ≤ out.fileType ∧ out.fileType ≤ 3) := by
      rw [← kindOf_iff, hk]; rintro ⟨_, h⟩; cases h
    rw [if_neg this]
    exact ⟨Wrote.refl _ _, hok, rfl, Or.inl ⟨_, _, rfl⟩, fun _ => ⟨_, rfl⟩⟩
  | some k =>
    have : 0 ≤ out.fileType ∧ out.fileType ≤ 3 := (kindOf_iff _).1 ⟨k, hk⟩
    rw [if_pos this]
    obtain ⟨h1, h2, h3, h4⟩ := processItems_spec hok hs env k base inputs out
    simp only []
    rcases h4 with ⟨ok, w', h4⟩ | ⟨⟨w', h4⟩, h5, h6⟩
    · rw [h4] at h1 h2 h3 ⊢
      exact ⟨h1, h2, h3, Or.inl ⟨_, _, rfl⟩, fun _ => ⟨_, rfl⟩⟩
    · rw [h4] at h1 h2 h3 ⊢
      exact ⟨h1, h2, h3, Or.inr ⟨_, rfl⟩, fun h => absurd h6 (h _)⟩

theorem readInputs_spec {w : World} (hok : HeapOk w.heap) {self : Nat} (hs : self < w.heap.length) (env : Env)
    (base : Str) (names : List Str) :
    ∃ heap, readInputs env base self names w = .ok () { w with heap := heap } ∧ HeapOk heap ∧
      heap.length = w.heap.length ∧
      processFiles self (names.map fun n => w.read env (join base n)) w.heap = some heap := by
  obtain ⟨h', e, h1, h2⟩ := processFiles_ok hok hs (names.map fun n => w.read env (join base n))
  exact ⟨h', by unfold readInputs; rw [e], h1, h2, e⟩

theorem runGroup_spec {w : World} (hok : HeapOk w.heap) (hs : 0 < w.heap.length) (env : Env) (base : Str)
    (ci : List Str) (g : List Str × OutSpec) :
    Wrote env w (runGroup env base ci g w).world (runPaths env base g.2) ∧
    (∀ w', runGroup env base ci g w = .ok () w' → HeapOk w'.heap ∧ w'.heap.length = w.heap.length) ∧
    Ends (runGroup env base ci g w) ∧
    ((∀ p, env.makeDir p ≠ none) → ∃ w', runGroup env base ci g w = .ok () w') := by
  have hi : w.heap[0]? = some w.heap[0] := List.getElem?_eq_getElem hs
  generalize w.heap[0] = i at hi
  have hc : copyInfo 0 w.heap = some (w.heap ++ [i]) := by unfold copyInfo; rw [hi]; rfl
  unfold runGroup
  rw [hc]
  simp only []
  obtain ⟨hp, e1, hok1, hl1, _⟩ := readInputs_spec (w := { w with heap := w.heap ++ [i] }) (self := w.heap.length)
    (hok.copy hi) (by simp) env base g.1
  rw [e1]
  simp only [Res.bind]
  simp only [List.length_append, List.length_cons, List.length_nil] at hl1
  obtain ⟨h1, h2, h3, h4, h5⟩ := generate_spec (w := { w with heap := hp }) hok1 (self := w.heap.length)
    (by simp [hl1]) env base (ci ++ g.1) g.2
  have back : ∀ {w'}, Wrote env { w with heap := hp } w' (runPaths env base g.2) → Wrote env w w' (runPaths env base g.2) :=
    fun h => ⟨h.attempts, h.files⟩
  rcases h4 with ⟨_, w', h4⟩ | ⟨w', h4⟩
  · rw [h4] at h1 h2 h3 ⊢
    refine ⟨(back h1).heap w.heap w'.heap.dropLast, ?_, Or.inl ⟨_, _, rfl⟩, fun _ => ⟨_, rfl⟩⟩
    intro w'' e
    cases e
    refine ⟨HeapOk.dropLast h2, ?_⟩
    simp only [Res.world] at h3
    simp [h3, hl1]
  · rw [h4] at h1 ⊢
    refine ⟨back h1, fun _ e => (by cases e), Or.inr ⟨_, rfl⟩, fun hm => ?_⟩
    obtain ⟨_, h6⟩ := h5 hm
    rw [h4] at h6; cases h6

/-- Everything about a run over groups: whether or not it gets to the end, the files opened are those of a
prefix of the groups. -/
theorem runGroups_spec {w : World} (hok : HeapOk w.heap) (hs : 0 < w.heap.length) (env : Env) (base : Str)
    (ci : List Str) (gs : List (List Str × OutSpec)) :
    Ends (runGroups env base ci gs w) ∧
    (∃ n, Wrote env w (runGroups env base ci gs w).world ((gs.take n).flatMap fun g => runPaths env base g.2)) ∧
    ((∀ p, env.makeDir p ≠ none) → ∃ w', runGroups env base ci gs w = .ok () w' ∧
      Wrote env w w' (gs.flatMap fun g => runPaths env base g.2)) := by
  induction gs generalizing w with
  | nil => exact ⟨Or.inl ⟨_, _, rfl⟩, ⟨0, Wrote.refl _ _⟩, fun _ => ⟨_, rfl, Wrote.refl _ _⟩⟩
  | cons g gs ih =>
    obtain ⟨h1, h2, h3, h4⟩ := runGroup_spec hok hs env base ci g
    unfold runGroups
    rcases h3 with ⟨_, w', h3⟩ | ⟨w', h3⟩
    · rw [h3] at h1 h2 ⊢
      obtain ⟨hok', hl'⟩ := h2 w' rfl
      obtain ⟨i1, ⟨n, i2⟩, i3⟩ := ih (w := w') hok' (by omega)
      simp only [Res.bind, Res.world] at h1 ⊢
      refine ⟨i1, ⟨n + 1, ?_⟩, fun hm => ?_⟩
      · rw [List.take_succ_cons, List.flatMap_cons]
        exact h1.trans i2
      · obtain ⟨w'', e, hw⟩ := i3 hm
        exact ⟨w'', e, by rw [List.flatMap_cons]; exact h1.trans hw⟩
    · rw [h3] at h1 ⊢
      simp only [Res.bind, Res.world] at h1 ⊢
      refine ⟨Or.inr ⟨_, rfl⟩, ⟨1, by simpa using h1⟩, fun hm => ?_⟩
      obtain ⟨_, h6⟩ := h4 hm
      rw [h3] at h6; cases h6

end Stfx.Main
