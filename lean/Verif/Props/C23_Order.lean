import Verif.Main.Facts
/-
Property C23: the output does not depend on the order of the declarations.
-/
set_option autoImplicit false
namespace Stfx.Main
open Stfx.Lexer Stfx.Parser Stfx.Items Stfx.Gen

/-! ### Tables -/

/-- The same structs and enums (the objects can differ in what was declared last).  (Specification notion, models no code.) -/
def SameTab (i i' : Info) : Prop := i.structs = i'.structs ∧ i.enums = i'.enums

theorem find_iff {ds : List Decl} (hnd : (ds.map Decl.name).Nodup) (n : Str) (d : Decl) :
    ds.find? (fun d => decide (d.name = n)) = some d ↔ d ∈ ds ∧ d.name = n := by
  constructor
  · intro h
    exact ⟨List.mem_of_find?_eq_some h, by have := List.find?_some h; simpa using this⟩
  · rintro ⟨hm, hdn⟩
    exact C12_tables.find_nodup hnd hm hdn

theorem find_perm {ds ds' : List Decl} (hp : ds.Perm ds') (hnd : (ds.map Decl.name).Nodup) (n : Str) :
    ds.find? (fun d => decide (d.name = n)) = ds'.find? (fun d => decide (d.name = n)) := by
  have hnd' : (ds'.map Decl.name).Nodup := (hp.map Decl.name).nodup_iff.1 hnd
  apply Option.ext
  intro d
  rw [find_iff hnd, find_iff hnd', hp.mem_iff]

theorem SameTab.itemType {i i' : Info} (h : SameTab i i') (k : Str) : getItemType i k = getItemType i' k := by
  unfold getItemType; rw [h.1, h.2]

theorem SameTab.add {i i' : Info} (h : SameTab i i') (ht : TabOk i) (ht' : TabOk i') {ds ds' : List Decl}
    (hp : ds.Perm ds') (hnd : (ds.map Decl.name).Nodup) (hn : ∀ d ∈ ds, getItemType i d.name = .unknown) (self : Nat) :
    SameTab (ds.foldl (Info.add self) i) (ds'.foldl (Info.add self) i') := by
  have hnd' : (ds'.map Decl.name).Nodup := (hp.map Decl.name).nodup_iff.1 hnd
  have hn' : ∀ d ∈ ds', getItemType i' d.name = .unknown := fun d hd => by
    rw [← h.itemType]; exact hn d (hp.mem_iff.2 hd)
  have ok := foldl_add_ok self ht ds hnd hn
  have ok' := foldl_add_ok self ht' ds' hnd' hn'
  constructor
  · refine SMap.Sorted.ext ok.sortedS ok'.sortedS fun k => ?_
    rw [foldl_add_structs _ _ _ hnd, foldl_add_structs _ _ _ hnd', find_perm hp hnd, h.1]
  · refine SMap.Sorted.ext ok.sortedE ok'.sortedE fun k => ?_
    rw [foldl_add_enums _ _ _ hnd, foldl_add_enums _ _ _ hnd', find_perm hp hnd, h.2]

theorem SameTab.prepare {i i' : Info} (h : SameTab i i') :
    SameTab (findTop (fixup i).1).1 (findTop (fixup i').1).1 ∧ (fixup i).2 = (fixup i').2 := by
  have hk := h.itemType
  have h1 : fixupLine i = fixupLine i' := by funext co; unfold fixupLine; rw [hk]
  have h2 : fixupLineOk i = fixupLineOk i' := by funext co; unfold fixupLineOk; rw [hk]
  have h3 : fixupStruct i = fixupStruct i' := by funext s; unfold fixupStruct; rw [h1]
  refine ⟨⟨?_, h.2⟩, ?_⟩
  · simp only [findTop, fixup, h.1, h3]
  · simp only [fixup, h.1, h2]

/-! ### Results -/

/-- The same result; the same paths opened, and the same files except those in `ins`.  (Specification notion, models no code.) -/
def SameOut {α : Type} (ins : Str → Prop) (r r' : Res α) : Prop :=
  (match r, r' with
    | .ok a _, .ok a' _ => a = a'
    | .stop f _, .stop f' _ => f = f'
    | _, _ => False) ∧
  r.world.attempts = r'.world.attempts ∧ ∀ q, ¬ ins q → r.world.files q = r'.world.files q

/-- Worlds with the same history and the same files except those in `ins`.  (Specification notion, models no code.) -/
structure Agree (ins : Str → Prop) (w w' : World) : Prop where
  attempts : w.attempts = w'.attempts
  files : ∀ q, ¬ ins q → w.files q = w'.files q

theorem Agree.writePair {ins : Str → Prop} {w w' : World} (h : Agree ins w w') (env : Env) (cpp hh a b : Str) :
    Agree ins (Main.writePair env cpp hh a b w).2 (Main.writePair env cpp hh a b w').2 := by
  refine ⟨by rw [writePair_attempts, writePair_attempts, h.attempts], fun q hq => ?_⟩
  unfold Main.writePair World.attempt World.put
  cases env.canWrite cpp
  · exact h.files q hq
  · cases env.canWrite hh
    · simp [h.files q hq]
    · simp [h.files q hq]

theorem processItems_same {ins : Str → Prop} {w w' : World} (h : Agree ins w w') {self : Nat} {i i' : Info}
    (hi : w.heap[self]? = some i) (hi' : w'.heap[self]? = some i') (hs : SameTab i i')
    (env : Env) (k : Kind) (base : Str) (inputs : List Str) (out : OutSpec) :
    SameOut ins (processItems env k base self inputs out w) (processItems env k base self inputs out w') := by
  have hlt : self < w.heap.length := (List.getElem?_eq_some_iff.1 hi).1
  have hlt' : self < w'.heap.length := (List.getElem?_eq_some_iff.1 hi').1
  obtain ⟨⟨hS, hE⟩, hb⟩ := hs.prepare
  have hp : prepare self w.heap = some (w.heap.set self (findTop (fixup i).1).1, (fixup i).2 && true) := by
    unfold prepare; rw [hi]; rfl
  have hp' : prepare self w'.heap = some (w'.heap.set self (findTop (fixup i').1).1, (fixup i').2 && true) := by
    unfold prepare; rw [hi']; rfl
  have h0 : Agree ins { w with heap := w.heap.set self (findTop (fixup i).1).1 }
      { w' with heap := w'.heap.set self (findTop (fixup i').1).1 } := ⟨h.attempts, h.files⟩
  unfold processItems
  rw [hp, hp']
  simp only [List.getElem?_set_self hlt, List.getElem?_set_self hlt']
  cases ho : outDir env base out with
  | none =>
    cases disabled out.enumFile <;> cases disabled out.structsFile <;>
      simp only [processAllEnums, processAllStructs, ho, Res.bind, if_true, if_false, Bool.false_eq_true]
    · exact ⟨rfl, h0.attempts, h0.files⟩
    · exact ⟨rfl, h0.attempts, h0.files⟩
    · exact ⟨rfl, h0.attempts, h0.files⟩
    · exact ⟨by simp only [hb], h0.attempts, h0.files⟩
  | some dir =>
    cases disabled out.enumFile <;> cases disabled out.structsFile <;>
      simp only [processAllEnums, processAllStructs, ho, Res.bind, if_true, if_false, Bool.false_eq_true, hS, hE, hb]
    · have h1 := (h0.writePair env (cppPath dir out.enumFile) (hPath dir out.enumFile) (fileText (enumsCpp env.stamp
        (filename (cppPath dir out.enumFile)) (filename (hPath dir out.enumFile)) inputs (findTop (fixup i').1).1.enums))
        (fileText (enumsH env.stamp (filename (hPath dir out.enumFile)) inputs (findTop (fixup i').1).1.enums)))
      have h2 := (h1.writePair env (cppPath dir out.structsFile) (hPath dir out.structsFile) (fileText (structsCpp k env.stamp
        (filename (cppPath dir out.structsFile)) (filename (hPath dir out.structsFile)) inputs out (findTop (fixup i').1).1.structs))
        (fileText (structsH k env.stamp (filename (hPath dir out.structsFile)) inputs out (findTop (fixup i').1).1.structs)))
      exact ⟨by simp only [writePair_ok], h2.attempts, h2.files⟩
    · have h1 := (h0.writePair env (cppPath dir out.enumFile) (hPath dir out.enumFile) (fileText (enumsCpp env.stamp
        (filename (cppPath dir out.enumFile)) (filename (hPath dir out.enumFile)) inputs (findTop (fixup i').1).1.enums))
        (fileText (enumsH env.stamp (filename (hPath dir out.enumFile)) inputs (findTop (fixup i').1).1.enums)))
      exact ⟨rfl, h1.attempts, h1.files⟩
    · have h2 := (h0.writePair env (cppPath dir out.structsFile) (hPath dir out.structsFile) (fileText (structsCpp k env.stamp
        (filename (cppPath dir out.structsFile)) (filename (hPath dir out.structsFile)) inputs out (findTop (fixup i').1).1.structs))
        (fileText (structsH k env.stamp (filename (hPath dir out.structsFile)) inputs out (findTop (fixup i').1).1.structs)))
      exact ⟨by simp only [writePair_ok], h2.attempts, h2.files⟩
    · exact ⟨rfl, h0.attempts, h0.files⟩

theorem SameOut.bind {α β : Type} {ins : Str → Prop} {r r' : Res α} {f g : α → World → Res β} (h : SameOut ins r r')
    (hf : ∀ a w w', r = .ok a w → r' = .ok a w' → Agree ins w w' → SameOut ins (f a w) (g a w')) :
    SameOut ins (r.bind f) (r'.bind g) := by
  obtain ⟨h1, h2, h3⟩ := h
  match r, r', h1, h2, h3, hf with
  | .ok a w, .ok _ w', rfl, h2, h3, hf => exact hf a w w' rfl rfl ⟨h2, h3⟩
  | .stop e w, .stop _ w', rfl, h2, h3, _ => exact ⟨rfl, h2, h3⟩

theorem generate_same {ins : Str → Prop} {w w' : World} (h : Agree ins w w') {self : Nat} {i i' : Info}
    (hi : w.heap[self]? = some i) (hi' : w'.heap[self]? = some i') (hs : SameTab i i')
    (env : Env) (base : Str) (inputs : List Str) (out : OutSpec) :
    SameOut ins (generate env base self inputs out w) (generate env base self inputs out w') := by
  unfold generate
  cases kindOf out.fileType with
  | none => exact ⟨rfl, h.attempts, h.files⟩
  | some k =>
    refine (processItems_same h hi hi' hs env k base inputs out).bind ?_
    intro a w1 w1' _ _ hag
    exact ⟨rfl, hag.attempts, hag.files⟩

/-- What generation does to the tables.  (Specification notion, models no code.) -/
def prepared (out : OutSpec) (i : Info) : Info :=
  if (kindOf out.fileType).isSome then (findTop (fixup i).1).1 else i

theorem processItems_heap {w w1 : World} {self : Nat} {i : Info} {b : Bool} (hi : w.heap[self]? = some i) {env : Env} {k : Kind}
    {base : Str} {inputs : List Str} {out : OutSpec} (h : processItems env k base self inputs out w = .ok b w1) :
    w1.heap = w.heap.set self (findTop (fixup i).1).1 := by
  have hlt : self < w.heap.length := (List.getElem?_eq_some_iff.1 hi).1
  have hp : prepare self w.heap = some (w.heap.set self (findTop (fixup i).1).1, (fixup i).2 && true) := by
    unfold prepare; rw [hi]; rfl
  unfold processItems at h
  rw [hp] at h
  simp only [List.getElem?_set_self hlt] at h
  cases h1 : disabled out.enumFile <;> cases h2 : disabled out.structsFile <;> cases ho : outDir env base out <;>
    simp only [h1, h2, processAllEnums, processAllStructs, ho, Res.bind, if_true, if_false, Bool.false_eq_true,
      Res.ok.injEq, reduceCtorEq] at h <;>
    rw [← h.2] <;> simp only [writePair_heap]

theorem generate_heap {w w1 : World} {self : Nat} {i : Info} {u : Unit} (hi : w.heap[self]? = some i) {env : Env}
    {base : Str} {inputs : List Str} {out : OutSpec} (h : generate env base self inputs out w = .ok u w1) :
    w1.heap = w.heap.set self (prepared out i) := by
  unfold generate at h
  unfold prepared
  cases hk : kindOf out.fileType with
  | none =>
    rw [hk] at h
    cases h
    simp [set_self hi]
  | some k =>
    rw [hk] at h
    simp only at h
    cases hr : processItems env k base self inputs out w with
    | stop => rw [hr] at h; cases h
    | ok b w2 =>
      rw [hr] at h
      cases h
      simpa using processItems_heap hi hr

theorem SameTab.prepared {i i' : Info} (h : SameTab i i') (out : OutSpec) : SameTab (prepared out i) (prepared out i') := by
  unfold Main.prepared
  split
  · exact h.prepare.1
  · exact h

theorem prepared_same (out : OutSpec) (i : Info) : SameNames i (prepared out i) := by
  unfold prepared
  split
  · exact (fixup_same i).trans (findTop_same _)
  · exact ⟨rfl, fun k s s' h h' => by rw [h] at h'; cases h'; rfl, rfl, rfl, rfl⟩

theorem prepared_rv (out : OutSpec) (i : Info) : (prepared out i).parseRv = i.parseRv := by
  unfold prepared
  split <;> rfl

/-! ### Groups -/

/-- The input files as far as a run can see them: names and the declarations they are written from.
(Specification notion, models no code.) -/
def Inputs (env : Env) (base : Str) (w : World) (hd : Str → Header) (names : List Str) : Prop :=
  ∀ n ∈ names, ∃ text, w.read env (join base n) = some text ∧ toksFile text = some (hd n).toks

theorem processFiles_decls {env : Env} {base : Str} {w : World} {hd : Str → Header} {names : List Str}
    (hin : Inputs env base w hd names) {h : Heap} {self : Nat} {i : Info} (hi : h[self]? = some i) (ht : TabOk i)
    (hr : i.parseRv = 0) (hnd : ((names.flatMap fun n => (hd n).decls).map Decl.name).Nodup)
    (hn : ∀ d ∈ names.flatMap (fun n => (hd n).decls), getItemType i d.name = .unknown) :
    processFiles self (names.map fun n => w.read env (join base n)) h =
      some (h.set self ((names.flatMap fun n => (hd n).decls).foldl (Info.add self) i)) := by
  have : ∃ fs : List (Str × Header), (names.map fun n => w.read env (join base n)) = fs.map (fun f => some f.1) ∧
      (fs.flatMap fun f => f.2.decls) = (names.flatMap fun n => (hd n).decls) ∧ ∀ f ∈ fs, toksFile f.1 = some f.2.toks := by
    clear hnd hn
    induction names with
    | nil => exact ⟨[], rfl, rfl, by simp⟩
    | cons n names ih =>
      obtain ⟨fs, e1, e2, e3⟩ := ih (fun m hm => hin m (by simp [hm]))
      obtain ⟨text, t1, t2⟩ := hin n (by simp)
      refine ⟨(text, hd n) :: fs, by simp [t1, e1], by simp [e2], ?_⟩
      intro f hf
      rcases List.mem_cons.1 hf with rfl | hf
      · exact t2
      · exact e3 f hf
  obtain ⟨fs, e1, e2, e3⟩ := this
  rw [e1, ← e2]
  exact headers_steps hi ht hr fs e3 (by rw [e2]; exact hnd) (by rw [e2]; exact hn)

theorem foldl_rv0 (self : Nat) {i : Info} (hr : i.parseRv = 0) (ds : List Decl) :
    (ds.foldl (Info.add self) i).parseRv = 0 := by
  have := foldl_add_rv self i ds 0
  rw [rv_eq hr] at this
  rw [this]

theorem runGroup_same {ins : Str → Prop} {env : Env} {base : Str} {ci : List Str} {g : List Str × OutSpec} {w w' : World}
    {a a' : Info} {hd hd' : Str → Header} (hag : Agree ins w w') (hh : w.heap = [a]) (hh' : w'.heap = [a'])
    (hs : SameTab a a') (ht : TabOk a) (ht' : TabOk a') (hr : a.parseRv = 0) (hr' : a'.parseRv = 0)
    (hin : Inputs env base w hd g.1) (hin' : Inputs env base w' hd' g.1)
    (hp : (g.1.flatMap fun n => (hd n).decls).Perm (g.1.flatMap fun n => (hd' n).decls))
    (hnd : ((g.1.flatMap fun n => (hd n).decls).map Decl.name).Nodup)
    (hn : ∀ d ∈ g.1.flatMap (fun n => (hd n).decls), getItemType a d.name = .unknown) :
    SameOut ins (runGroup env base ci g w) (runGroup env base ci g w') ∧
    ∀ w1 w1', runGroup env base ci g w = .ok () w1 → runGroup env base ci g w' = .ok () w1' →
      w1.heap = [a] ∧ w1'.heap = [a'] := by
  have hnd' := ((hp.map Decl.name).nodup_iff.1 hnd)
  have hn' : ∀ d ∈ g.1.flatMap (fun n => (hd' n).decls), getItemType a' d.name = .unknown := fun d h => by
    rw [← hs.itemType]; exact hn d (hp.mem_iff.2 h)
  have hc : copyInfo 0 w.heap = some [a, a] := by rw [hh]; rfl
  have hc' : copyInfo 0 w'.heap = some [a', a'] := by rw [hh']; rfl
  have e : processFiles 1 (g.1.map fun n => w.read env (join base n)) [a, a] =
      some [a, (g.1.flatMap fun n => (hd n).decls).foldl (Info.add 1) a] :=
    processFiles_decls hin (h := [a, a]) (self := 1) rfl ht hr hnd hn
  have e' : processFiles 1 (g.1.map fun n => w'.read env (join base n)) [a', a'] =
      some [a', (g.1.flatMap fun n => (hd' n).decls).foldl (Info.add 1) a'] :=
    processFiles_decls hin' (h := [a', a']) (self := 1) rfl ht' hr' hnd' hn'
  have hs1 := hs.add ht ht' hp hnd hn 1
  have hl : w.heap.length = 1 := by rw [hh]; rfl
  have hl' : w'.heap.length = 1 := by rw [hh']; rfl
  have r : runGroup env base ci g w = (generate env base 1 (ci ++ g.1) g.2
      { w with heap := [a, (g.1.flatMap fun n => (hd n).decls).foldl (Info.add 1) a] }).bind
      fun _ w => .ok () { w with heap := w.heap.dropLast } := by
    unfold runGroup readInputs
    rw [hc, hl]
    simp only [World.read] at e ⊢
    rw [e]
    rfl
  have r' : runGroup env base ci g w' = (generate env base 1 (ci ++ g.1) g.2
      { w' with heap := [a', (g.1.flatMap fun n => (hd' n).decls).foldl (Info.add 1) a'] }).bind
      fun _ w => .ok () { w with heap := w.heap.dropLast } := by
    unfold runGroup readInputs
    rw [hc', hl']
    simp only [World.read] at e' ⊢
    rw [e']
    rfl
  rw [r, r']
  constructor
  · refine (generate_same (self := 1) (w := { w with heap := [a, _] }) (w' := { w' with heap := [a', _] }) ⟨hag.attempts, hag.files⟩ rfl rfl hs1
      env base (ci ++ g.1) g.2).bind ?_
    intro _ w1 w1' _ _ h
    exact ⟨rfl, h.attempts, h.files⟩
  · intro w1 w1' h h'
    constructor
    · cases hg : generate env base 1 (ci ++ g.1) g.2
        { w with heap := [a, (g.1.flatMap fun n => (hd n).decls).foldl (Info.add 1) a] } with
      | stop => rw [hg] at h; cases h
      | ok u w2 =>
        rw [hg] at h
        cases h
        have := generate_heap (self := 1) (by rfl) hg
        simp only [this]
        rfl
    · cases hg : generate env base 1 (ci ++ g.1) g.2
        { w' with heap := [a', (g.1.flatMap fun n => (hd' n).decls).foldl (Info.add 1) a'] } with
      | stop => rw [hg] at h'; cases h'
      | ok u w2 =>
        rw [hg] at h'
        cases h'
        have := generate_heap (self := 1) (by rfl) hg
        simp only [this]
        rfl

/-- The input files are not overwritten.  (Specification notion, models no code.) -/
def Disjoint' (env : Env) (base : Str) (names paths : List Str) : Prop :=
  ∀ n ∈ names, ∀ p ∈ paths, env.ident p ≠ env.ident (join base n)

theorem Inputs.wrote {env : Env} {base : Str} {w w' : World} {hd : Str → Header} {names paths : List Str}
    (h : Inputs env base w hd names) (hw : Wrote env w w' paths) (hd' : Disjoint' env base names paths) :
    Inputs env base w' hd names := by
  intro n hn
  obtain ⟨text, h1, h2⟩ := h n hn
  refine ⟨text, ?_, h2⟩
  rw [← h1]
  apply Classical.byContradiction
  intro hne
  obtain ⟨p, hp, _, e⟩ := hw.files _ hne
  exact hd' n hn p hp e.symm

theorem runGroups_same {ins : Str → Prop} {env : Env} {base : Str} {ci : List Str} {hd hd' : Str → Header} {a a' : Info}
    (hs : SameTab a a') (ht : TabOk a) (ht' : TabOk a') (hr : a.parseRv = 0) (hr' : a'.parseRv = 0)
    (hok : HeapOk [a]) (hok' : HeapOk [a'])
    (gs : List (List Str × OutSpec)) (w w' : World) (hag : Agree ins w w') (hh : w.heap = [a]) (hh' : w'.heap = [a'])
    (hin : Inputs env base w hd (gs.flatMap Prod.fst)) (hin' : Inputs env base w' hd' (gs.flatMap Prod.fst))
    (hdis : Disjoint' env base (gs.flatMap Prod.fst) (gs.flatMap fun g => runPaths env base g.2))
    (hp : ∀ g ∈ gs, (g.1.flatMap fun n => (hd n).decls).Perm (g.1.flatMap fun n => (hd' n).decls))
    (hnd : ∀ g ∈ gs, ((g.1.flatMap fun n => (hd n).decls).map Decl.name).Nodup)
    (hn : ∀ g ∈ gs, ∀ d ∈ g.1.flatMap (fun n => (hd n).decls), getItemType a d.name = .unknown) :
    SameOut ins (runGroups env base ci gs w) (runGroups env base ci gs w') := by
  induction gs generalizing w w' with
  | nil => exact ⟨rfl, hag.attempts, hag.files⟩
  | cons g gs ih =>
    obtain ⟨h1, h2⟩ := runGroup_same (ci := ci) (g := g) hag hh hh' hs ht ht' hr hr'
      (fun n hn => hin n (by rw [List.flatMap_cons]; exact List.mem_append_left _ hn))
      (fun n hn => hin' n (by rw [List.flatMap_cons]; exact List.mem_append_left _ hn))
      (hp g (by simp)) (hnd g (by simp)) (hn g (by simp))
    unfold runGroups
    refine h1.bind ?_
    intro u w1 w1' e e' hag1
    obtain ⟨hh1, hh1'⟩ := h2 w1 w1' e e'
    have hw1 := (runGroup_spec (by rw [hh]; exact hok) (by rw [hh]; simp) env base ci g).1
    have hw1' := (runGroup_spec (by rw [hh']; exact hok') (by rw [hh']; simp) env base ci g).1
    rw [e] at hw1
    rw [e'] at hw1'
    have dis : Disjoint' env base (gs.flatMap Prod.fst) (runPaths env base g.2) := fun n hn p hp =>
      hdis n (by rw [List.flatMap_cons]; exact List.mem_append_right _ hn) p
        (by rw [List.flatMap_cons]; exact List.mem_append_left _ hp)
    refine ih w1 w1' hag1 hh1 hh1' ?_ ?_ ?_ (fun g' hg' => hp g' (by simp [hg'])) (fun g' hg' => hnd g' (by simp [hg']))
      (fun g' hg' => hn g' (by simp [hg']))
    · exact Inputs.wrote (fun n hn => hin n (by rw [List.flatMap_cons]; exact List.mem_append_right _ hn)) hw1 dis
    · exact Inputs.wrote (fun n hn => hin' n (by rw [List.flatMap_cons]; exact List.mem_append_right _ hn)) hw1' dis
    · intro n hn p hp
      exact hdis n (by rw [List.flatMap_cons]; exact List.mem_append_right _ hn) p
        (by rw [List.flatMap_cons]; exact List.mem_append_right _ hp)

/-! ### C23 -/

/-- All input files of a configuration.  (Specification notion, models no code.) -/
def Config.inputs (c : Config) : List Str := c.commonIn ++ c.nonCommon.flatMap Prod.fst

/-- C23, configuration mode.  Two file systems differ only in the input files of the configuration; the declarations in
the second are those of the first in another order (within the common input, and within the input of each group, they
may even move from one file to another).  If the names are distinct and no output overwrites an input, both runs end
the same way, open the same files, and leave the same contents in every file other than the inputs. -/
theorem C23_config (env : Env) (f : Str) (c : Config) (w w' : World) (hd hd' : Str → Header)
    (hin : Inputs env (parentPath f) w hd c.inputs) (hin' : Inputs env (parentPath f) w' hd' c.inputs)
    (hpc : (c.commonIn.flatMap fun n => (hd n).decls).Perm (c.commonIn.flatMap fun n => (hd' n).decls))
    (hpg : ∀ g ∈ c.nonCommon, (g.1.flatMap fun n => (hd n).decls).Perm (g.1.flatMap fun n => (hd' n).decls))
    (hndc : ((c.commonIn.flatMap fun n => (hd n).decls).map Decl.name).Nodup)
    (hndg : ∀ g ∈ c.nonCommon, (((c.commonIn ++ g.1).flatMap fun n => (hd n).decls).map Decl.name).Nodup)
    (hout : Disjoint' env (parentPath f) c.inputs (runPaths env (parentPath f) c.commonOut ++
      c.nonCommon.flatMap fun g => runPaths env (parentPath f) g.2))
    (hat : w.attempts = w'.attempts)
    (hfiles : ∀ q, (¬ ∃ n ∈ c.inputs, q = env.ident (join (parentPath f) n)) → w.files q = w'.files q) :
    SameOut (fun q => ∃ n ∈ c.inputs, q = env.ident (join (parentPath f) n))
      (processStfxFile env f (.loaded c) w) (processStfxFile env f (.loaded c) w') := by
  have ht0 : TabOk Info.empty := (HeapOk.new HeapOk.nil).tab 0 _ rfl
  have hn0 : ∀ d ∈ c.commonIn.flatMap (fun n => (hd n).decls), getItemType Info.empty d.name = .unknown := fun _ _ => rfl
  have hndc' := ((hpc.map Decl.name).nodup_iff.1 hndc)
  have cin : Inputs env (parentPath f) w hd c.commonIn := fun n hn => hin n (List.mem_append_left _ hn)
  have cin' : Inputs env (parentPath f) w' hd' c.commonIn := fun n hn => hin' n (List.mem_append_left _ hn)
  have e : processFiles 0 (c.commonIn.map fun n => w.read env (join (parentPath f) n)) [Info.empty] =
      some [(c.commonIn.flatMap fun n => (hd n).decls).foldl (Info.add 0) Info.empty] :=
    processFiles_decls cin (h := [Info.empty]) (self := 0) rfl ht0 rfl hndc hn0
  have e' : processFiles 0 (c.commonIn.map fun n => w'.read env (join (parentPath f) n)) [Info.empty] =
      some [(c.commonIn.flatMap fun n => (hd' n).decls).foldl (Info.add 0) Info.empty] :=
    processFiles_decls cin' (h := [Info.empty]) (self := 0) rfl ht0 rfl hndc' (fun _ _ => rfl)
  have hs : SameTab _ _ := SameTab.add (i := Info.empty) (i' := Info.empty) ⟨rfl, rfl⟩ ht0 ht0 hpc hndc hn0 0
  have ht := foldl_add_ok 0 ht0 _ hndc hn0
  have ht' := foldl_add_ok 0 ht0 _ hndc' (fun _ _ => rfl)
  have hr := foldl_rv0 0 (i := Info.empty) rfl (c.commonIn.flatMap fun n => (hd n).decls)
  have hr' := foldl_rv0 0 (i := Info.empty) rfl (c.commonIn.flatMap fun n => (hd' n).decls)
  have hok : HeapOk [(c.commonIn.flatMap fun n => (hd n).decls).foldl (Info.add 0) Info.empty] := by
    obtain ⟨h, eh, ho, _⟩ := processFiles_ok (HeapOk.new HeapOk.nil) (self := 0) (by simp)
      (c.commonIn.map fun n => w.read env (join (parentPath f) n))
    rw [show ([] : Heap) ++ [Info.empty] = [Info.empty] from rfl, e] at eh
    cases eh
    exact ho
  have hok' : HeapOk [(c.commonIn.flatMap fun n => (hd' n).decls).foldl (Info.add 0) Info.empty] := by
    obtain ⟨h, eh, ho, _⟩ := processFiles_ok (HeapOk.new HeapOk.nil) (self := 0) (by simp)
      (c.commonIn.map fun n => w'.read env (join (parentPath f) n))
    rw [show ([] : Heap) ++ [Info.empty] = [Info.empty] from rfl, e'] at eh
    cases eh
    exact ho
  have hunk : ∀ g ∈ c.nonCommon, ∀ d ∈ g.1.flatMap (fun n => (hd n).decls), getItemType
      ((c.commonIn.flatMap fun n => (hd n).decls).foldl (Info.add 0) Info.empty) d.name = .unknown := by
    intro g hg d hdm
    refine foldl_unknown 0 _ ?_ rfl
    intro hm
    have := hndg g hg
    rw [List.flatMap_append, List.map_append, List.nodup_append] at this
    exact this.2.2 _ hm _ (List.mem_map_of_mem hdm) rfl
  generalize (c.commonIn.flatMap fun n => (hd n).decls).foldl (Info.add 0) Info.empty = a at *
  generalize (c.commonIn.flatMap fun n => (hd' n).decls).foldl (Info.add 0) Info.empty = a' at *
  have r : processStfxFile env f (.loaded c) w = ((generate env (parentPath f) 0 c.commonIn c.commonOut { w with heap := [a] }).bind
      fun _ w => (runGroups env (parentPath f) c.commonIn c.nonCommon w).bind fun _ w => .ok 0 w) := by
    simp only [processStfxFile, readInputs]
    simp only [World.read] at e ⊢
    rw [e]
    rfl
  have r' : processStfxFile env f (.loaded c) w' = ((generate env (parentPath f) 0 c.commonIn c.commonOut { w' with heap := [a'] }).bind
      fun _ w => (runGroups env (parentPath f) c.commonIn c.nonCommon w).bind fun _ w => .ok 0 w) := by
    simp only [processStfxFile, readInputs]
    simp only [World.read] at e' ⊢
    rw [e']
    rfl
  rw [r, r']
  refine (generate_same (self := 0) (w := { w with heap := [a] }) (w' := { w' with heap := [a'] }) ⟨hat, hfiles⟩ rfl rfl hs
    env (parentPath f) c.commonIn c.commonOut).bind ?_
  intro u w1 w1' g g' hag1
  have hw1 := (generate_spec (w := { w with heap := [a] }) hok (self := 0) (by simp) env (parentPath f) c.commonIn c.commonOut)
  have hw1' := (generate_spec (w := { w' with heap := [a'] }) hok' (self := 0) (by simp) env (parentPath f) c.commonIn c.commonOut)
  rw [g] at hw1
  rw [g'] at hw1'
  have hh1 : w1.heap = [prepared c.commonOut a] := generate_heap (self := 0) (by rfl) g
  have hh1' : w1'.heap = [prepared c.commonOut a'] := generate_heap (self := 0) (by rfl) g'
  have dis : Disjoint' env (parentPath f) (c.nonCommon.flatMap Prod.fst) (runPaths env (parentPath f) c.commonOut) :=
    fun n hn p hp => hout n (List.mem_append_right _ hn) p (List.mem_append_left _ hp)
  refine (runGroups_same (a := prepared c.commonOut a) (a' := prepared c.commonOut a') (hd := hd) (hd' := hd') (hs.prepared _)
    ((prepared_same _ _).tabOk ht) ((prepared_same _ _).tabOk ht') (by rw [prepared_rv, hr]) (by rw [prepared_rv, hr'])
    (by rw [← hh1]; exact hw1.2.1) (by rw [← hh1']; exact hw1'.2.1) c.nonCommon w1 w1' hag1 hh1 hh1' ?_ ?_ ?_ hpg ?_ ?_).bind ?_
  · exact Inputs.wrote (w := w) (fun n hn => hin n (List.mem_append_right _ hn)) ⟨hw1.1.attempts, hw1.1.files⟩ dis
  · exact Inputs.wrote (w := w') (fun n hn => hin' n (List.mem_append_right _ hn)) ⟨hw1'.1.attempts, hw1'.1.files⟩ dis
  · exact fun n hn p hp => hout n (List.mem_append_right _ hn) p (List.mem_append_right _ hp)
  · intro g hg
    have := hndg g hg
    rw [List.flatMap_append, List.map_append, List.nodup_append] at this
    exact this.2.1
  · intro g hg d hdm
    rw [(prepared_same _ _).itemType]
    exact hunk g hg d hdm
  · intro _ w2 w2' _ _ h
    exact ⟨rfl, h.attempts, h.files⟩

/-- C23, header mode: the header with its declarations in another order gives the same exit status and the same files. -/
theorem C23_header (env : Env) (p : Str) (w w' : World) {text text' : Str} {hd hd' : Header}
    (hr : w.read env p = some text) (ht : toksFile text = some hd.toks)
    (hr' : w'.read env p = some text') (ht' : toksFile text' = some hd'.toks)
    (hp : hd.decls.Perm hd'.decls) (hnd : (hd.decls.map Decl.name).Nodup)
    (hat : w.attempts = w'.attempts) (hfiles : ∀ q, q ≠ env.ident p → w.files q = w'.files q) :
    SameOut (fun q => q = env.ident p) (processSingleHeader env p w) (processSingleHeader env p w') := by
  have ht0 : TabOk Info.empty := (HeapOk.new HeapOk.nil).tab 0 _ rfl
  have hnd' := ((hp.map Decl.name).nodup_iff.1 hnd)
  have e := header_step (h := [Info.empty]) (self := 0) (i := Info.empty) rfl ht0 hd ht hnd (fun _ _ => rfl)
  have e' := header_step (h := [Info.empty]) (self := 0) (i := Info.empty) rfl ht0 hd' ht' hnd' (fun _ _ => rfl)
  have hs : SameTab _ _ := SameTab.add (i := Info.empty) (i' := Info.empty) ⟨rfl, rfl⟩ ht0 ht0 hp hnd (fun _ _ => rfl) 0
  unfold processSingleHeader
  rw [hr, hr', e, e']
  simp only [if_true]
  refine (processItems_same (self := 0) (w := { w with heap := [_] }) (w' := { w' with heap := [_] }) ⟨hat, fun q hq => hfiles q hq⟩ rfl rfl ?_ env .attrib (parentPath p) [filename p]
    headerSpec).bind ?_
  · exact ⟨hs.1, hs.2⟩
  · intro _ w1 w1' _ _ h
    exact ⟨rfl, h.attempts, h.files⟩

/-- Non-vacuity: two orders of the same three declarations. -/
example : ∃ hd hd' : Header, toksFile c!"struct A { B b; };
enum B { X };
struct C { int c; };" = some hd.toks ∧
    toksFile c!"struct C { int c; };
enum B { X };
struct A { B b; };" = some hd'.toks ∧
    hd.decls.Perm hd'.decls ∧ hd ≠ hd' ∧ (hd.decls.map Decl.name).Nodup := by
  refine ⟨⟨.struct c!"A" (.named c!"B" c!"b" .absent) [], [.enum false c!"B" ⟨c!"X", none⟩ [] false, .struct c!"C" (.simple .int c!"c" .absent) []]⟩,
    ⟨.struct c!"C" (.simple .int c!"c" .absent) [], [.enum false c!"B" ⟨c!"X", none⟩ [] false, .struct c!"A" (.named c!"B" c!"b" .absent) []]⟩,
    by decide +kernel, by decide +kernel, ?_, by decide, by decide⟩
  exact (List.reverse_perm _).symm

/-! Non-vacuity in configuration mode: two common declarations swapped, two declarations of a group swapped. -/

/-- (Example, models no code.) -/
def orderEnv : Env := ⟨fun _ => true, fun p => some p, id, []⟩
/-- See the definition before it.  (Specification notion, models no code.) -/
def orderA : Decl := .struct c!"A" (.named c!"B" c!"b" .absent) []
/-- See the definition before it.  (Specification notion, models no code.) -/
def orderB : Decl := .enum false c!"B" ⟨c!"X", none⟩ [] false
/-- See the definition before it.  (Specification notion, models no code.) -/
def orderC : Decl := .struct c!"C" (.simple .int c!"c" .absent) []
/-- See the definition before it.  (Specification notion, models no code.) -/
def orderD : Decl := .struct c!"D" (.vector c!"A" c!"as") []
/-- A file system with the two input files of the configuration.  (Example, models no code.) -/
def orderWorld (common group : Str) : World :=
  ⟨[], fun q => if q = c!"/d/a.h" then some common else if q = c!"/d/b.h" then some group else none, []⟩
/-- (Example, models no code.) -/
def orderConfig : Config :=
  ⟨[c!"a.h"], { headerSpec with enumFile := c!"e", structsFile := c!"s" },
   [([c!"b.h"], { headerSpec with enumFile := [], structsFile := c!"t", fileType := 1 })]⟩
/-- The declarations of the two files.  (Example, models no code.) -/
def orderDecls (a b : Header) : Str → Header := fun n => if n = c!"a.h" then a else b

example :
    let w := orderWorld c!"struct A { B b; };\nenum B { X };" c!"struct C { int c; };\nstruct D { std::vector<A> as; };"
    let w' := orderWorld c!"enum B { X };\nstruct A { B b; };" c!"struct D { std::vector<A> as; };\nstruct C { int c; };"
    let hd := orderDecls ⟨orderA, [orderB]⟩ ⟨orderC, [orderD]⟩
    let hd' := orderDecls ⟨orderB, [orderA]⟩ ⟨orderD, [orderC]⟩
    SameOut (fun q => ∃ n ∈ orderConfig.inputs, q = orderEnv.ident (join (parentPath c!"/d/x.stfx") n))
      (processStfxFile orderEnv c!"/d/x.stfx" (.loaded orderConfig) w)
      (processStfxFile orderEnv c!"/d/x.stfx" (.loaded orderConfig) w') := by
  intro w w' hd hd'
  refine C23_config orderEnv c!"/d/x.stfx" orderConfig w w' hd hd' ?_ ?_ ?_ ?_ (by decide) ?_ (by unfold Disjoint'; decide) rfl ?_
  · intro n hn
    have hn : n = c!"a.h" ∨ n = c!"b.h" := by simpa [orderConfig, Config.inputs] using hn
    rcases hn with rfl | rfl
    · exact ⟨c!"struct A { B b; };\nenum B { X };", by decide, by decide +kernel⟩
    · exact ⟨c!"struct C { int c; };\nstruct D { std::vector<A> as; };", by decide, by decide +kernel⟩
  · intro n hn
    have hn : n = c!"a.h" ∨ n = c!"b.h" := by simpa [orderConfig, Config.inputs] using hn
    rcases hn with rfl | rfl
    · exact ⟨c!"enum B { X };\nstruct A { B b; };", by decide, by decide +kernel⟩
    · exact ⟨c!"struct D { std::vector<A> as; };\nstruct C { int c; };", by decide, by decide +kernel⟩
  · exact (List.reverse_perm [orderA, orderB]).symm
  · intro g hg
    have : g = ([c!"b.h"], { headerSpec with enumFile := [], structsFile := c!"t", fileType := 1 }) := by
      simpa [orderConfig] using hg
    subst this
    exact (List.reverse_perm [orderC, orderD]).symm
  · decide
  · intro q hq
    have h1 : q ≠ c!"/d/a.h" := fun h => hq ⟨c!"a.h", by decide, by rw [h]; decide⟩
    have h2 : q ≠ c!"/d/b.h" := fun h => hq ⟨c!"b.h", by decide, by rw [h]; decide⟩
    show (orderWorld _ _).files q = (orderWorld _ _).files q
    simp only [orderWorld, if_neg h1, if_neg h2]

end Stfx.Main
