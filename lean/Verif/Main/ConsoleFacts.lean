import Verif.Main.Console
import Verif.Main.Facts
import Verif.Props.C08_C11_Parser
/-
When the messages of a run contain a complaint.
-/
set_option autoImplicit false
namespace Stfx.Main
open Stfx.Lexer Stfx.Parser Stfx.Items Stfx.Gen

/-! ### Complaints -/

/-- How the messages that report a problem begin: main.cpp:92, 110, 132, 172, 193, 230, the value `false` in
main.cpp:88, items.cpp:56, 78, 115, process_items.cpp:129, 135, process_items_xml.cpp:199, 205, 386, 391, ...,
process_items_ini.cpp:272, 278, 423, 428, 433, ....  (Specification notion, models no code.) -/
def complaints : List Str :=
  [c!"ERROR", c!"\nERROR", c!"// ", c!"\t// WARNING", c!"failed to process ", c!"Failed to correctly parse ",
   c!"Processing items done. Success = false"]

/-- Does a message report a problem?  (Specification notion, models no code.) -/
def complains (l : Str) : Bool := complaints.any (·.isPrefixOf l)

/-- None of the messages reports a problem.  (Specification notion, models no code.) -/
def Quiet (ls : List Str) : Prop := ∀ l ∈ ls, complains l = false

theorem quiet_nil : Quiet [] := fun _ h => by cases h

theorem quiet_cons {l : Str} {ls : List Str} : Quiet (l :: ls) ↔ complains l = false ∧ Quiet ls := by
  unfold Quiet
  rw [List.forall_mem_cons]

theorem quiet_append {a b : List Str} : Quiet (a ++ b) ↔ Quiet a ∧ Quiet b := by
  unfold Quiet
  rw [List.forall_mem_append]

theorem quiet_one {l : Str} : Quiet [l] ↔ complains l = false := by
  rw [quiet_cons]
  exact ⟨fun h => h.1, fun h => ⟨h, quiet_nil⟩⟩

theorem quiet_flatMap {α : Type} {f : α → List Str} {xs : List α} : Quiet (xs.flatMap f) ↔ ∀ x ∈ xs, Quiet (f x) := by
  unfold Quiet
  constructor
  · exact fun h x hx l hl => h l (List.mem_flatMap.2 ⟨x, hx, hl⟩)
  · intro h l hl
    obtain ⟨x, hx, hl⟩ := List.mem_flatMap.1 hl
    exact h x hx l hl

/-! ### The calls of a parse -/

/-- Is the name in use in object `self`?  (Proof notion, models no code.) -/
def Known (h : Heap) (self : Nat) (n : Str) : Prop := ∃ i, h[self]? = some i ∧ getItemType i n ≠ .unknown

/-- The name a call declares.  (Proof notion, models no code.) -/
def callName : Call → Option Str
  | .enum n _ => some n
  | .struct n => some n
  | _ => none

theorem itemType_unknown {i : Info} {n : Str} :
    getItemType i n = .unknown ↔ i.structs.find? n = none ∧ i.enums.find? n = none := by
  unfold getItemType
  cases i.structs.find? n <;> cases i.enums.find? n <;> simp

/-- A call adds the name it declares to object `self`, and no other name to any object. -/
theorem applyCall_known {h h' : Heap} {self : Nat} {c : Call} (e : applyCall self h c = some h') (j : Nat) (n : Str) :
    Known h' j n ↔ Known h j n ∨ (j = self ∧ callName c = some n) := by
  have mod : ∀ (o o' : Info) (k : Nat), h[k]? = some o →
      (∀ m, getItemType o' m = .unknown ↔ getItemType o m = .unknown) →
      (Known (h.set k o') j n ↔ Known h j n) := by
    intro o o' k hk hm
    have hlt := (List.getElem?_eq_some_iff.1 hk).1
    unfold Known
    by_cases hj : k = j
    · subst hj
      rw [List.getElem?_set_self hlt, hk]
      simp [hm]
    · rw [List.getElem?_set_ne hj]
  cases c with
  | enum m b =>
    simp only [applyCall, processEnum, Option.bind_eq_bind] at e
    cases hi : h[self]? with
    | none => rw [hi] at e; cases e
    | some i =>
      have hlt := (List.getElem?_eq_some_iff.1 hi).1
      rw [hi, Option.bind_some] at e
      split at e
      · rename_i hk
        cases e
        simp only [callName, Option.some.injEq]
        refine ⟨Or.inl, ?_⟩
        rintro (hh | ⟨rfl, rfl⟩)
        · exact hh
        · exact ⟨i, hi, hk⟩
      · cases e
        simp only [callName, Option.some.injEq]
        unfold Known
        by_cases hj : self = j
        · subst hj
          rw [List.getElem?_set_self hlt, hi]
          simp only [Option.some.injEq, exists_eq_left', ne_eq, itemType_unknown, SMap.find?_insert, true_and]
          by_cases hm : m = n
          · simp [hm]
          · simp [hm]
        · rw [List.getElem?_set_ne hj]
          simp [Ne.symm hj]
  | struct m =>
    simp only [applyCall, processStruct, Option.bind_eq_bind] at e
    cases hi : h[self]? with
    | none => rw [hi] at e; cases e
    | some i =>
      have hlt := (List.getElem?_eq_some_iff.1 hi).1
      rw [hi, Option.bind_some] at e
      split at e
      · rename_i hk
        cases e
        simp only [callName, Option.some.injEq]
        refine ⟨Or.inl, ?_⟩
        rintro (hh | ⟨rfl, rfl⟩)
        · exact hh
        · exact ⟨i, hi, hk⟩
      · cases e
        simp only [callName, Option.some.injEq]
        unfold Known
        by_cases hj : self = j
        · subst hj
          rw [List.getElem?_set_self hlt, hi]
          simp only [Option.some.injEq, exists_eq_left', ne_eq, itemType_unknown, SMap.find?_insert, true_and]
          by_cases hm : m = n
          · simp [hm]
          · simp [hm]
        · rw [List.getElem?_set_ne hj]
          simp [Ne.symm hj]
  | enumLine a b v =>
    simp only [callName, reduceCtorEq, and_false, or_false]
    simp only [applyCall, processEnumLine, Option.bind_eq_bind, Option.bind_eq_some_iff] at e
    obtain ⟨i, hi, e⟩ := e
    split at e
    · cases e; rfl
    · simp only [Option.bind_eq_some_iff] at e
      obtain ⟨o, ho, _, _, e⟩ := e
      cases e
      refine mod o _ _ ho fun m => ?_
      simp only [itemType_unknown, SMap.find?_modify]
      split <;> simp
  | simple a b v =>
    simp only [callName, reduceCtorEq, and_false, or_false]
    simp only [applyCall, processSimple, Option.bind_eq_bind, Option.bind_eq_some_iff] at e
    obtain ⟨i, hi, e⟩ := e
    split at e
    · cases e; rfl
    · simp only [Option.bind_eq_some_iff] at e
      obtain ⟨o, ho, _, _, e⟩ := e
      cases e
      refine mod o _ _ ho fun m => ?_
      simp only [itemType_unknown, SMap.find?_modify]
      split <;> simp
  | complex a b v =>
    simp only [callName, reduceCtorEq, and_false, or_false]
    simp only [applyCall, processComplex, Option.bind_eq_bind, Option.bind_eq_some_iff] at e
    obtain ⟨i, hi, e⟩ := e
    split at e
    · cases e; rfl
    · simp only [Option.bind_eq_some_iff] at e
      obtain ⟨o, ho, _, _, e⟩ := e
      cases e
      refine mod o _ _ ho fun m => ?_
      simp only [itemType_unknown, SMap.find?_modify]
      split <;> simp

theorem applyCalls_known {self : Nat} {cs : List Call} {h h' : Heap} (e : applyCalls self cs h = some h') (j : Nat) (n : Str) :
    Known h' j n ↔ Known h j n ∨ (j = self ∧ n ∈ cs.filterMap callName) := by
  induction cs generalizing h with
  | nil => cases e; simp
  | cons c cs ih =>
    simp only [applyCalls, Option.bind_eq_some_iff] at e
    obtain ⟨h1, e1, e2⟩ := e
    rw [ih e2, applyCall_known e1, List.filterMap_cons]
    cases callName c with
    | none => simp
    | some m =>
      simp only [Option.some.injEq, List.mem_cons]
      rw [or_assoc, ← and_or_left, @eq_comm _ m n]

theorem quiet_call {self : Nat} {h : Heap} {c : Call} :
    Quiet (callSays self h c) ↔ ∀ n, callName c = some n → ¬ Known h self n := by
  have key : ∀ (m a : Str), complains (c!"ERROR process_" ++ a) = true →
      (Quiet (match h[self]? with
        | none => []
        | some i => if getItemType i m ≠ .unknown then [c!"ERROR process_" ++ a] else []) ↔ ¬ Known h self m) := by
    intro m a ha
    unfold Known
    cases hi : h[self]? with
    | none => simp [quiet_nil]
    | some i =>
      simp only [Option.some.injEq, exists_eq_left']
      split
      · rename_i hk
        rw [quiet_one, ha]
        simp [hk]
      · rename_i hk
        simp [quiet_nil, hk]
  cases c with
  | enum m b =>
    simp only [callName, Option.some.injEq, forall_eq']
    exact key m (c!"enum : name '" ++ m ++ c!" already in use") rfl
  | struct m =>
    simp only [callName, Option.some.injEq, forall_eq']
    exact key m (c!"struct : name '" ++ m ++ c!" already in use") rfl
  | enumLine a b v => simp [callSays, callName, quiet_nil]
  | simple a b v => simp [callSays, callName, quiet_nil]
  | complex a b v => simp [callSays, callName, quiet_nil]

/-- The calls of a parse are reported as errors unless they declare different names, none of them in use. -/
theorem quiet_calls {self : Nat} {cs : List Call} {h h' : Heap} (e : applyCalls self cs h = some h') :
    Quiet (callsSay self cs h) ↔ (cs.filterMap callName).Nodup ∧ ∀ n ∈ cs.filterMap callName, ¬ Known h self n := by
  induction cs generalizing h with
  | nil => simp [callsSay, quiet_nil]
  | cons c cs ih =>
    simp only [applyCalls, Option.bind_eq_some_iff] at e
    obtain ⟨h1, e1, e2⟩ := e
    have hh := ih e2
    have hk := applyCall_known e1 self
    simp only [callsSay, e1, quiet_append, quiet_call, hh, List.filterMap_cons]
    cases hc : callName c with
    | none =>
      simp only [reduceCtorEq, false_implies, implies_true, true_and, hk, hc, and_false, or_false]
    | some m =>
      simp only [Option.some.injEq, forall_eq', List.nodup_cons, List.forall_mem_cons, hk, hc, true_and]
      constructor
      · rintro ⟨a, b, d⟩
        refine ⟨⟨fun hm => ?_, b⟩, a, fun n hn hkn => d n hn (Or.inl hkn)⟩
        exact d m hm (Or.inr rfl)
      · rintro ⟨⟨a, b⟩, d, f⟩
        refine ⟨d, b, fun n hn => ?_⟩
        rintro (hkn | rfl)
        · exact f n hn hkn
        · exact a hn

theorem calls_names (ds : List Decl) : (ds.flatMap Decl.calls).filterMap callName = ds.map Decl.name := by
  induction ds with
  | nil => rfl
  | cons d ds ih =>
    rw [List.flatMap_cons, List.filterMap_append, ih, List.map_cons]
    have hm : ∀ ms : List Member, (ms.map Member.call).filterMap callName = [] := by
      intro ms
      rw [List.filterMap_eq_nil_iff]
      intro c hc
      obtain ⟨m, _, rfl⟩ := List.mem_map.1 hc
      cases m <;> rfl
    have he : ∀ es : List Enumerator, (es.map Enumerator.call).filterMap callName = [] := by
      intro es
      rw [List.filterMap_eq_nil_iff]
      intro c hc
      obtain ⟨m, _, rfl⟩ := List.mem_map.1 hc
      obtain ⟨n, v⟩ := m
      cases v <;> rfl
    cases d with
    | enum c n e es t =>
      simp only [Decl.calls, List.filterMap_cons, callName, he, Decl.name, List.cons_append, List.nil_append]
    | struct n m ms =>
      simp only [Decl.calls, List.filterMap_cons, callName, hm, Decl.name, List.cons_append, List.nil_append]

/-! ### Input files -/

theorem known_setRv (h : Heap) (self rv j : Nat) (n : Str) : Known (setRv self rv h) j n ↔ Known h j n := by
  unfold setRv
  cases hi : h[self]? with
  | none => rfl
  | some i =>
    have hlt := (List.getElem?_eq_some_iff.1 hi).1
    unfold Known
    by_cases hj : self = j
    · subst hj
      dsimp only
      rw [List.getElem?_set_self hlt, hi]
      simp only [Option.some.injEq, exists_eq_left', ne_eq, itemType_unknown]
    · dsimp only
      rw [List.getElem?_set_ne hj]

/-- Reading a file adds no name to another object. -/
theorem processInputFile_other {self : Nat} {c : Option Str} {h h' : Heap} {b : Bool}
    (e : processInputFile self c h = some (h', b)) {j : Nat} (hj : j ≠ self) (n : Str) : Known h' j n ↔ Known h j n := by
  cases c with
  | none => cases e; rfl
  | some t =>
    simp only [processInputFile, Option.bind_eq_bind, Option.bind_eq_some_iff] at e
    obtain ⟨toks, _, e⟩ := e
    split at e
    · simp only [Option.bind_eq_some_iff] at e
      obtain ⟨h1, e1, e⟩ := e
      cases e
      rw [known_setRv, applyCalls_known e1]
      simp [hj]
    · simp only [Option.bind_eq_some_iff] at e
      obtain ⟨h1, e1, e⟩ := e
      cases e
      rw [known_setRv, applyCalls_known e1]
      simp [hj]
    · cases e

/-- Reading one file is reported without complaint iff it can be opened, it is a sentence of the grammar, and its
declarations have different names, none of them in use. -/
theorem quiet_input {self : Nat} {path : Str} {c : Option Str} {h h' : Heap} {b : Bool}
    (e : processInputFile self c h = some (h', b)) :
    (Quiet (inputSays self path c h) ∧ b = true) ↔
      ∃ t hd, c = some t ∧ toksFile t = some (Header.toks hd) ∧ (hd.decls.map Decl.name).Nodup ∧
        ∀ d ∈ hd.decls, ¬ Known h self d.name := by
  cases c with
  | none =>
    cases e
    simp
  | some t =>
    simp only [processInputFile, Option.bind_eq_bind, Option.bind_eq_some_iff] at e
    obtain ⟨toks, ht, e⟩ := e
    have hopen : complains (c!"\nFile opened for input:\t\t" ++ path) = false := rfl
    split at e
    · rename_i log hp
      simp only [Option.bind_eq_some_iff] at e
      obtain ⟨h1, e1, e⟩ := e
      cases e
      obtain ⟨hd, rfl, rfl⟩ := (C10_calls (scanned_ok ht) log).1 hp
      have hq := quiet_calls e1
      rw [Header.calls, calls_names] at hq
      simp only [inputSays, ht, hp, quiet_cons, hopen, true_and, and_true]
      rw [show callsSay self hd.calls h = callsSay self (hd.decls.flatMap Decl.calls) h from rfl, hq]
      constructor
      · rintro ⟨hn, hk⟩
        exact ⟨t, hd, rfl, ht, hn, fun d hd => hk _ (List.mem_map_of_mem hd)⟩
      · rintro ⟨t', hd', ht', hts, hn, hk⟩
        cases ht'
        have hcalls : hd'.calls = hd.calls := by
          have := C10_header hd'
          rw [hts] at ht
          rw [Option.some.inj ht, hp] at this
          exact Result.accepted.inj this.symm
        have hnames : hd'.decls.map Decl.name = hd.decls.map Decl.name := by
          rw [← calls_names, ← calls_names]
          exact congrArg (List.filterMap callName) hcalls
        refine ⟨hnames ▸ hn, fun n hn' => ?_⟩
        rw [← hnames] at hn'
        obtain ⟨d, hd2, rfl⟩ := List.mem_map.1 hn'
        exact hk d hd2
    · rename_i log x y hp
      simp only [Option.bind_eq_some_iff] at e
      obtain ⟨h1, e1, e⟩ := e
      cases e
      simp only [Bool.false_eq_true, and_false, false_iff]
      rintro ⟨t', hd', ht', hts, -⟩
      cases ht'
      rw [hts] at ht
      have := C10_header hd'
      rw [Option.some.inj ht, hp] at this
      cases this
    · cases e

/-- After reading a file that is a sentence, the names in use are those before and those it declares. -/
theorem input_known {self : Nat} {t : Str} {hd : Header} {h h' : Heap} {b : Bool}
    (e : processInputFile self (some t) h = some (h', b)) (ht : toksFile t = some hd.toks) (n : Str) :
    Known h' self n ↔ Known h self n ∨ n ∈ hd.decls.map Decl.name := by
  simp only [processInputFile, Option.bind_eq_bind, Option.bind_eq_some_iff, ht, Option.some.injEq, exists_eq_left',
    C10_header] at e
  obtain ⟨h1, e1, e⟩ := e
  cases e
  rw [known_setRv, applyCalls_known e1, Header.calls, calls_names]
  simp

/-- The files hold these headers.  (Specification notion, models no code.) -/
def HoldsAll (env : Env) (base : Str) (w : World) : List Str → List Header → Prop
  | [], [] => True
  | n :: ns, hd :: hds => (∃ t, w.read env (join base n) = some t ∧ toksFile t = some hd.toks) ∧ HoldsAll env base w ns hds
  | _, _ => False

/-- The names declared by headers.  (Specification notion, models no code.) -/
def declared (hds : List Header) : List Str := (hds.flatMap Header.decls).map Decl.name

theorem declared_cons (hd : Header) (hds : List Header) : declared (hd :: hds) = hd.decls.map Decl.name ++ declared hds := by
  simp [declared]

theorem read_heap (w : World) (env : Env) (p : Str) (h : Heap) : World.read { w with heap := h } env p = w.read env p := rfl

theorem holdsAll_heap {env : Env} {base : Str} {w : World} {h : Heap} {ns : List Str} {hds : List Header} :
    HoldsAll env base { w with heap := h } ns hds ↔ HoldsAll env base w ns hds := by
  induction ns generalizing hds with
  | nil => cases hds <;> rfl
  | cons n ns ih =>
    cases hds with
    | nil => rfl
    | cons hd hds =>
      simp only [HoldsAll, read_heap, ih]

theorem readInputs_cons {env : Env} {base : Str} {self : Nat} {n : Str} {ns : List Str} {w w' : World}
    (e : readInputs env base self (n :: ns) w = .ok () w') :
    ∃ h b, processInputFile self (w.read env (join base n)) w.heap = some (h, b) ∧
      readInputs env base self ns { w with heap := h } = .ok () w' := by
  unfold readInputs at e
  rw [List.map_cons, processFiles] at e
  cases h1 : processInputFile self (w.read env (join base n)) w.heap with
  | none => rw [h1] at e; cases e
  | some r =>
    obtain ⟨h, b⟩ := r
    rw [h1, Option.bind_some] at e
    refine ⟨h, b, rfl, ?_⟩
    unfold readInputs
    simp only [read_heap]
    cases h2 : processFiles self (ns.map fun n => w.read env (join base n)) h with
    | none => rw [h2] at e; cases e
    | some h' => rw [h2] at e; exact e

/-- Reading files into one object is reported without complaint iff they all can be opened, are sentences of the
grammar, and declare different names, none of them in use. -/
theorem quiet_reads {env : Env} {base : Str} {self : Nat} {ns : List Str} {w w' : World}
    (e : readInputs env base self ns w = .ok () w') :
    Quiet (readsSay env base self ns w) ↔
      ∃ hds, HoldsAll env base w ns hds ∧ (declared hds).Nodup ∧ ∀ n ∈ declared hds, ¬ Known w.heap self n := by
  induction ns generalizing w with
  | nil =>
    simp only [readsSay, quiet_nil, true_iff]
    exact ⟨[], trivial, List.nodup_nil, fun n hn => by cases hn⟩
  | cons n ns ih =>
    obtain ⟨h, b, e1, e2⟩ := readInputs_cons e
    have hq := quiet_input (path := join base n) e1
    have ih := ih e2
    simp only [readsSay, e1, quiet_append, quiet_cons]
    have hb : complains (if b = true then c!"Successfully parsed file:\t" ++ join base n
        else c!"ERROR : failed to process " ++ join base n) = false ↔ b = true := by
      cases b
      · exact ⟨fun h => (by cases h), fun h => (by cases h)⟩
      · exact ⟨fun _ => rfl, fun _ => rfl⟩
    rw [hb, ← and_assoc, hq, ih]
    constructor
    · rintro ⟨⟨t, hd, ht, htk, hn, hk⟩, hds, hh, hnd, hkn⟩
      rw [ht] at e1
      refine ⟨hd :: hds, ⟨⟨t, ht, htk⟩, holdsAll_heap.1 hh⟩, ?_, ?_⟩
      · rw [declared_cons, List.nodup_append]
        refine ⟨hn, hnd, fun a ha c hc hac => hkn c hc ((input_known e1 htk c).2 (Or.inr (hac ▸ ha)))⟩
      · intro m hm
        rw [declared_cons, List.mem_append] at hm
        rcases hm with hm | hm
        · obtain ⟨d, hd2, rfl⟩ := List.mem_map.1 hm
          exact hk d hd2
        · exact fun hc => hkn m hm ((input_known e1 htk m).2 (Or.inl hc))
    · rintro ⟨hds, hh, hnd, hkn⟩
      cases hds with
      | nil => cases hh
      | cons hd hds =>
        obtain ⟨⟨t, ht, htk⟩, hh⟩ := hh
        rw [ht] at e1
        rw [declared_cons, List.nodup_append] at hnd
        refine ⟨⟨t, hd, ht, htk, hnd.1, fun d hd2 => hkn _ ?_⟩, hds, holdsAll_heap.2 hh, hnd.2.1, fun m hm hc => ?_⟩
        · rw [declared_cons]
          exact List.mem_append_left _ (List.mem_map_of_mem hd2)
        · rcases (input_known e1 htk m).1 hc with hc | hc
          · refine hkn m ?_ hc
            rw [declared_cons]
            exact List.mem_append_right _ hm
          · exact hnd.2.2 m hc m hm rfl

/-- After reading files that hold headers, the names in use are those before and those declared. -/
theorem reads_known {env : Env} {base : Str} {self : Nat} {ns : List Str} {hds : List Header} {w w' : World}
    (e : readInputs env base self ns w = .ok () w') (hh : HoldsAll env base w ns hds) (n : Str) :
    Known w'.heap self n ↔ Known w.heap self n ∨ n ∈ declared hds := by
  induction ns generalizing w hds with
  | nil =>
    cases hds with
    | nil =>
      unfold readInputs at e
      cases e
      simp [declared]
    | cons => cases hh
  | cons m ns ih =>
    cases hds with
    | nil => cases hh
    | cons hd hds =>
      obtain ⟨⟨t, ht, htk⟩, hh⟩ := hh
      obtain ⟨h, b, e1, e2⟩ := readInputs_cons e
      rw [ht] at e1
      rw [ih e2 (holdsAll_heap.2 hh), input_known e1 htk, declared_cons, List.mem_append, or_assoc]

/-- Reading files adds no name to another object. -/
theorem reads_other {env : Env} {base : Str} {self : Nat} {ns : List Str} {w w' : World}
    (e : readInputs env base self ns w = .ok () w') {j : Nat} (hj : j ≠ self) (n : Str) :
    Known w'.heap j n ↔ Known w.heap j n := by
  induction ns generalizing w with
  | nil => unfold readInputs at e; cases e; rfl
  | cons m ns ih =>
    obtain ⟨h, b, e1, e2⟩ := readInputs_cons e
    rw [ih e2, processInputFile_other e1 hj]

/-! ### Generation -/

/-- Both files with root name `f` can be opened for writing.  (Specification notion, models no code.) -/
def Opens (env : Env) (base : Str) (out : OutSpec) (f : Str) : Prop :=
  ∃ dir, outDir env base out = some dir ∧ env.canWrite (cppPath dir f) = true ∧ env.canWrite (hPath dir f) = true

theorem quiet_line {k : Kind} (hk : k ≠ .ini) {co : ComplexLine} :
    Quiet (lineSays k co) ↔ co.ty = .enum ∨ co.ty = .struct ∨ (co.ty = .vector ∧ k ≠ .nIni) := by
  obtain ⟨ty, tn, n⟩ := co
  have bad : ∀ l : Str, complains l = true → ¬ Quiet [l] := by
    intro l hl hq
    rw [quiet_one, hl] at hq
    cases hq
  cases k <;> first | exact absurd rfl hk | skip
  all_goals cases ty
  all_goals first
    | exact iff_of_true quiet_nil (by simp)
    | exact iff_of_false (bad _ rfl) (by simp)

theorem quiet_struct {k : Kind} (hk : k ≠ .ini) {s : StructS} : Quiet (structSays k s) ↔ readerOk k s = true := by
  unfold structSays
  rw [quiet_flatMap]
  simp only [quiet_line hk]
  cases k with
  | ini => exact absurd rfl hk
  | xml => simp [readerOk, or_assoc]
  | attrib => simp [readerOk, or_assoc]
  | nIni => simp [readerOk]

theorem quiet_struct_ini (s : StructS) : Quiet (structSays .ini s) := by
  unfold structSays
  rw [quiet_flatMap]
  exact fun co _ => quiet_nil

theorem quiet_pair {env : Env} {what tabs cpp h : Str} {inner : List Str} :
    Quiet (pairSays env what tabs cpp h inner) ↔ env.canWrite cpp = true ∧ env.canWrite h = true ∧ Quiet inner := by
  have bad : ∀ l : Str, complains (c!"\nERROR : Failed to open output file " ++ l) = true := fun _ => rfl
  have good : ∀ l : Str, complains (c!"Opened " ++ l) = false := fun _ => rfl
  unfold pairSays
  cases h1 : env.canWrite cpp with
  | false =>
    rw [if_neg (by decide), quiet_one, bad]
    simp
  | true =>
    rw [if_pos rfl, quiet_cons]
    simp only [List.append_assoc, good, true_and]
    cases h2 : env.canWrite h with
    | false =>
      rw [if_neg (by decide), quiet_one, bad]
      simp
    | true =>
      rw [if_pos rfl, quiet_cons]
      simp only [good, true_and]

/-- Every line of every struct gets code only if all names of types were resolved. -/
theorem fixup_of_readers {i : Info} (ht : TabOk i) {k : Kind}
    (h : ((findTop (fixup i).1).1.structs.all fun p => readerOk k p.2) = true) : (fixup i).2 = true := by
  unfold fixup
  simp only [List.all_eq_true] at h ⊢
  rintro ⟨n, s⟩ hp co hco
  have hf := prep_find i n
  rw [ht.sortedS.find?_of_mem hp] at hf
  have hr := h _ (SMap.find?_some_mem hf)
  have hm : fixupLine i co ∈ s.complex.map (fixupLine i) := List.mem_map_of_mem hco
  have hu : (fixupLine i co).ty ≠ .unknown := by
    intro hu
    cases k <;> simp only [readerOk, List.all_eq_true, fixupStruct, Bool.or_eq_true, decide_eq_true_eq] at hr
    · have := hr _ hm; rw [hu] at this; simp at this
    · have := hr _ hm; rw [hu] at this; simp at this
    · cases hr
    · have := hr _ hm; rw [hu] at this; simp at this
  unfold fixupLineOk
  unfold fixupLine at hu
  by_cases h1 : co.ty = .enumOrStruct
  · rw [if_pos h1] at hu
    simp only [h1, decide_true, Bool.true_and, Bool.not_eq_true', decide_eq_false_iff_not]
    exact hu
  · simp [h1]

/-- What generation reports: without complaint iff the files could be opened and, except for the ini generator, code
was generated for every line of every struct. -/
theorem quiet_items {env : Env} {k : Kind} {base : Str} {self : Nat} {inputs : List Str} {out : OutSpec} {w w' : World} {b : Bool}
    (hok : HeapOk w.heap) (e : processItems env k base self inputs out w = .ok b w') :
    Quiet (processItemsSays env k base self inputs out w) ↔
      (disabled out.enumFile = false → Opens env base out out.enumFile) ∧
      (disabled out.structsFile = false → Opens env base out out.structsFile ∧ (k ≠ .ini → b = true)) := by
  unfold processItems at e
  unfold processItemsSays
  rw [quiet_cons]
  have h0 : complains c!"\nStarting to create output." = false := rfl
  have h1 : Quiet [c!"Not generating enum information at this point"] := quiet_one.2 rfl
  have h2 : Quiet [c!"Not generating struct information at this point"] := quiet_one.2 rfl
  simp only [h0, true_and]
  cases hi0 : w.heap[self]? with
  | none =>
    have : prepare self w.heap = none := by unfold prepare; rw [hi0]; rfl
    rw [this] at e; cases e
  | some i0 =>
    have hlt := (List.getElem?_eq_some_iff.1 hi0).1
    have hp : prepare self w.heap = some (w.heap.set self (findTop (fixup i0).1).1, (fixup i0).2 && true) := by
      unfold prepare; rw [hi0]; rfl
    have hi : (w.heap.set self (findTop (fixup i0).1).1)[self]? = some (findTop (fixup i0).1).1 := List.getElem?_set_self hlt
    rw [hp] at e ⊢
    dsimp only at e ⊢
    rw [hi] at e ⊢
    dsimp only at e ⊢
    have hfix := fixup_of_readers (hok.tab _ _ hi0) (k := k)
    generalize (findTop (fixup i0).1).1 = i at *
    generalize w.heap.set self i = hp' at *
    have inner : ∀ {dir}, outDir env base out = some dir → (Quiet (structsSay env k base out i) ↔
        env.canWrite (cppPath dir out.structsFile) = true ∧ env.canWrite (hPath dir out.structsFile) = true ∧
          (k ≠ .ini → structsOk k out i.structs = true)) := by
      intro dir hd
      unfold structsSay
      rw [hd]
      dsimp only
      rw [quiet_pair, quiet_append, quiet_flatMap]
      by_cases hk : k = .ini
      · subst hk
        have : Quiet (if out.onlyRead = true then [] else i.structs.flatMap fun p => structSays .ini p.2) := by
          split
          · exact quiet_nil
          · exact quiet_flatMap.2 fun p _ => quiet_struct_ini p.2
        simp [this, quiet_struct_ini]
      · simp only [quiet_struct hk, ne_eq, hk, not_false_eq_true, forall_const]
        unfold structsOk writerOk
        have : ∀ b : Bool, (Quiet (if b = true then [] else i.structs.flatMap fun p => structSays k p.2) ↔
            b = true ∨ ∀ p ∈ i.structs, readerOk k p.2 = true) := by
          intro b
          cases b
          · simp only [Bool.false_eq_true, if_false, quiet_flatMap, quiet_struct hk, false_or]
          · simp [quiet_nil]
        simp only [this, Bool.and_eq_true, Bool.or_eq_true, List.all_eq_true]
    have all_of : structsOk k out i.structs = true → (i.structs.all fun p => readerOk k p.2) = true := by
      intro h
      unfold structsOk at h
      rw [Bool.and_eq_true] at h
      exact h.1
    cases hd : outDir env base out with
    | none =>
      cases d1 : disabled out.enumFile <;> rw [d1] at e
      · simp [processAllEnums, hd, Res.bind] at e
      · cases d2 : disabled out.structsFile <;> rw [d2] at e
        · simp [processAllStructs, hd, Res.bind] at e
        · simp only [if_true, quiet_append, h1, h2, true_and, Bool.true_eq_false, false_implies, and_self]
    | some dir =>
      have ho : ∀ f, Opens env base out f ↔ env.canWrite (cppPath dir f) = true ∧ env.canWrite (hPath dir f) = true := by
        intro f
        unfold Opens
        rw [hd]
        simp
      have he : Quiet (enumsSay env base out) ↔ Opens env base out out.enumFile := by
        rw [ho]
        unfold enumsSay
        rw [hd]
        dsimp only
        rw [quiet_pair]
        simp [quiet_nil]
      cases d1 : disabled out.enumFile <;> cases d2 : disabled out.structsFile <;>
        simp only [d1, d2, processAllEnums, processAllStructs, hd, Res.bind, Bool.false_eq_true, if_false, if_true, Res.ok.injEq,
          writePair_ok, Bool.and_true, Bool.true_and] at e ⊢ <;>
        simp only [quiet_append, h1, h2, he, and_true, true_and, forall_const, false_implies, reduceCtorEq, Bool.true_eq_false, inner hd, ho]
      · obtain ⟨e, -⟩ := e
        subst e
        refine and_congr_right fun _ => ?_
        constructor
        · rintro ⟨a, b, c⟩
          refine ⟨⟨a, b⟩, fun hk => ?_⟩
          rw [hfix (all_of (c hk)), a, b, c hk]; rfl
        · rintro ⟨⟨a, b⟩, c⟩
          refine ⟨a, b, fun hk => ?_⟩
          have := c hk
          simp only [Bool.and_eq_true] at this
          exact this.2.2
      · obtain ⟨e, -⟩ := e
        subst e
        constructor
        · rintro ⟨a, b, c⟩
          refine ⟨⟨a, b⟩, fun hk => ?_⟩
          rw [hfix (all_of (c hk)), a, b, c hk]; rfl
        · rintro ⟨⟨a, b⟩, c⟩
          refine ⟨a, b, fun hk => ?_⟩
          have := c hk
          simp only [Bool.and_eq_true] at this
          exact this.2.2

/-- Generation changes no names. -/
theorem items_known {env : Env} {k : Kind} {base : Str} {self : Nat} {inputs : List Str} {out : OutSpec} {w w' : World} {b : Bool}
    (e : processItems env k base self inputs out w = .ok b w') (j : Nat) (n : Str) : Known w'.heap j n ↔ Known w.heap j n := by
  unfold processItems at e
  cases hi0 : w.heap[self]? with
  | none =>
    have : prepare self w.heap = none := by unfold prepare; rw [hi0]; rfl
    rw [this] at e; cases e
  | some i0 =>
    have hlt := (List.getElem?_eq_some_iff.1 hi0).1
    have hp : prepare self w.heap = some (w.heap.set self (findTop (fixup i0).1).1, (fixup i0).2 && true) := by
      unfold prepare; rw [hi0]; rfl
    have hi : (w.heap.set self (findTop (fixup i0).1).1)[self]? = some (findTop (fixup i0).1).1 := List.getElem?_set_self hlt
    have hh : w'.heap = w.heap.set self (findTop (fixup i0).1).1 := by
      rw [hp] at e
      dsimp only at e
      rw [hi] at e
      dsimp only at e
      generalize (findTop (fixup i0).1).1 = i at *
      cases hd : outDir env base out <;> cases d1 : disabled out.enumFile <;> cases d2 : disabled out.structsFile <;>
        simp only [d1, d2, processAllEnums, processAllStructs, hd, Res.bind, Bool.false_eq_true, if_false, if_true, Res.ok.injEq,
          reduceCtorEq] at e <;>
        (obtain ⟨-, e⟩ := e; subst e; simp only [writePair_heap])
    rw [hh]
    unfold Known
    by_cases hj : self = j
    · subst hj
      rw [hi, hi0]
      simp [((fixup_same i0).trans (findTop_same _)).itemType]
    · rw [List.getElem?_set_ne hj]

/-! ### Groups -/

/-- One output specification is carried out without anything to complain about: its type is supported, the files can
be opened and, except for the ini generator, code is generated for every line of every struct.  (Specification
notion, models no code.) -/
def Fine (env : Env) (base : Str) (self : Nat) (inputs : List Str) (out : OutSpec) (w : World) : Prop :=
  ∃ k b w', kindOf out.fileType = some k ∧ processItems env k base self inputs out w = .ok b w' ∧
    (disabled out.enumFile = false → Opens env base out out.enumFile) ∧
    (disabled out.structsFile = false → Opens env base out out.structsFile ∧ (k ≠ .ini → b = true))

theorem quiet_generate {env : Env} {base : Str} {self : Nat} {inputs : List Str} {out : OutSpec} {named : Int} {w w' : World}
    (hok : HeapOk w.heap) (e : generate env base self inputs out w = .ok () w') :
    Quiet (generateSays env base self inputs out named w) ↔ Fine env base self inputs out w := by
  unfold generate at e
  unfold generateSays Fine
  cases hk : kindOf out.fileType with
  | none =>
    dsimp only
    rw [quiet_one]
    have : complains (unsupported named) = true := rfl
    rw [this]
    simp
  | some k =>
    rw [hk] at e
    dsimp only at e ⊢
    cases hp : processItems env k base self inputs out w with
    | stop f x => rw [hp] at e; cases e
    | ok b x =>
      rw [quiet_items hok hp]
      constructor
      · exact fun h => ⟨k, b, x, rfl, hp, h⟩
      · rintro ⟨k', b', x', hk', hp', h⟩
        cases hk'
        rw [hp] at hp'
        cases hp'
        exact h

theorem generate_known {env : Env} {base : Str} {self : Nat} {inputs : List Str} {out : OutSpec} {w w' : World}
    (e : generate env base self inputs out w = .ok () w') (j : Nat) (n : Str) : Known w'.heap j n ↔ Known w.heap j n := by
  unfold generate at e
  cases hk : kindOf out.fileType with
  | none => rw [hk] at e; cases e; rfl
  | some k =>
    rw [hk] at e
    dsimp only at e
    cases hp : processItems env k base self inputs out w with
    | stop f x => rw [hp] at e; cases e
    | ok b x =>
      rw [hp] at e
      cases e
      exact items_known hp j n

/-- One output group is carried out in this state without anything to complain about: the files hold headers, all
declared names are different and not in use in the common object, and the output specification is carried out.
(Specification notion, models no code.) -/
def GroupFine (env : Env) (base : Str) (commonIn : List Str) (g : List Str × OutSpec) (w : World) : Prop :=
  ∃ hds i w', HoldsAll env base w g.1 hds ∧ (declared hds).Nodup ∧ (∀ n ∈ declared hds, ¬ Known w.heap 0 n) ∧
    w.heap[0]? = some i ∧
    readInputs env base w.heap.length g.1 { w with heap := w.heap ++ [i] } = .ok () w' ∧
    Fine env base w.heap.length (commonIn ++ g.1) g.2 w'

theorem quiet_group {env : Env} {base : Str} {ci : List Str} {co : OutSpec} {g : List Str × OutSpec} {w w' : World}
    (hok : HeapOk w.heap) (e : runGroup env base ci g w = .ok () w') :
    Quiet (groupSays env base ci co g w) ↔ GroupFine env base ci g w := by
  unfold runGroup at e
  unfold groupSays
  cases hi : w.heap[0]? with
  | none =>
    have hc : copyInfo 0 w.heap = none := by unfold copyInfo; rw [hi]; rfl
    rw [hc] at e; cases e
  | some i =>
    have hc : copyInfo 0 w.heap = some (w.heap ++ [i]) := by unfold copyInfo; rw [hi]; rfl
    have h0 := (List.getElem?_eq_some_iff.1 hi).1
    rw [hc] at e ⊢
    dsimp only at e ⊢
    obtain ⟨hp, e1, hok1, hl1, _⟩ := readInputs_spec (w := { w with heap := w.heap ++ [i] }) (self := w.heap.length)
      (hok.copy hi) (by simp) env base g.1
    rw [e1] at e ⊢
    dsimp only [Res.bind] at e ⊢
    cases hg : generate env base w.heap.length (ci ++ g.1) g.2 { w with heap := hp } with
    | stop f x => rw [hg] at e; cases e
    | ok u x =>
      have hk : ∀ n, Known (w.heap ++ [i]) w.heap.length n ↔ Known w.heap 0 n := by
        intro n
        unfold Known
        rw [hi]
        simp
      rw [quiet_append, quiet_reads e1, quiet_generate hok1 hg]
      unfold GroupFine
      constructor
      · rintro ⟨⟨hds, hh, hn, hu⟩, hf⟩
        refine ⟨hds, i, _, holdsAll_heap.1 hh, hn, fun n hn => ?_, hi, e1, hf⟩
        rw [← hk]
        exact hu n hn
      · rintro ⟨hds, i', x', hh, hn, hu, hi', e1', hf⟩
        rw [hi] at hi'
        cases hi'
        rw [e1] at e1'
        cases e1'
        refine ⟨⟨hds, holdsAll_heap.2 hh, hn, fun n hn => ?_⟩, hf⟩
        rw [hk]
        exact hu n hn

theorem known_dropLast {h : Heap} {j : Nat} (hj : j + 1 < h.length) (n : Str) : Known h.dropLast j n ↔ Known h j n := by
  unfold Known
  rw [List.getElem?_dropLast, if_pos (by omega)]

/-- The names in use in the common object are not changed by an output group. -/
theorem group_known {env : Env} {base : Str} {ci : List Str} {g : List Str × OutSpec} {w w' : World}
    (hok : HeapOk w.heap) (e : runGroup env base ci g w = .ok () w') (n : Str) :
    Known w'.heap 0 n ↔ Known w.heap 0 n := by
  unfold runGroup at e
  cases hi : w.heap[0]? with
  | none =>
    have hc : copyInfo 0 w.heap = none := by unfold copyInfo; rw [hi]; rfl
    rw [hc] at e; cases e
  | some i =>
    have hc : copyInfo 0 w.heap = some (w.heap ++ [i]) := by unfold copyInfo; rw [hi]; rfl
    have h0 := (List.getElem?_eq_some_iff.1 hi).1
    rw [hc] at e
    dsimp only at e
    obtain ⟨hp, e1, hok1, hl1, _⟩ := readInputs_spec (w := { w with heap := w.heap ++ [i] }) (self := w.heap.length)
      (hok.copy hi) (by simp) env base g.1
    rw [e1] at e
    dsimp only [Res.bind] at e
    simp only [List.length_append, List.length_cons, List.length_nil] at hl1
    obtain ⟨_, _, h3, _⟩ := generate_spec (w := { w with heap := hp }) hok1 (self := w.heap.length)
      (by simp [hl1]) env base (ci ++ g.1) g.2
    cases hg : generate env base w.heap.length (ci ++ g.1) g.2 { w with heap := hp } with
    | stop f x => rw [hg] at e; cases e
    | ok u x =>
      rw [hg] at e h3
      cases e
      simp only [Res.world] at h3
      dsimp only
      rw [known_dropLast (by omega), generate_known hg, reads_other e1 (by omega)]
      unfold Known
      dsimp only
      rw [List.getElem?_append_left h0]

theorem runGroups_cons {env : Env} {base : Str} {ci : List Str} {g : List Str × OutSpec} {gs : List (List Str × OutSpec)}
    {w w' : World} (e : runGroups env base ci (g :: gs) w = .ok () w') :
    ∃ w1, runGroup env base ci g w = .ok () w1 ∧ runGroups env base ci gs w1 = .ok () w' := by
  unfold runGroups at e
  cases hg : runGroup env base ci g w with
  | stop f x => rw [hg] at e; cases e
  | ok u x => rw [hg] at e; exact ⟨x, rfl, e⟩

/-- The loop over the groups is reported without complaint iff every group, in the state the groups before it
leave, is carried out without anything to complain about. -/
theorem quiet_groups {env : Env} {base : Str} {ci : List Str} {co : OutSpec} {gs : List (List Str × OutSpec)} {w w' : World}
    (hok : HeapOk w.heap) (hs : 0 < w.heap.length) (e : runGroups env base ci gs w = .ok () w') :
    Quiet (groupsSay env base ci co gs w) ↔
      ∀ before g after, gs = before ++ g :: after →
        ∃ wg, runGroups env base ci before w = .ok () wg ∧ GroupFine env base ci g wg := by
  induction gs generalizing w with
  | nil =>
    refine iff_of_true quiet_nil fun before g after h => ?_
    cases before <;> cases h
  | cons g gs ih =>
    obtain ⟨w1, e1, e2⟩ := runGroups_cons e
    obtain ⟨_, h2, _⟩ := runGroup_spec hok hs env base ci g
    obtain ⟨hok1, hl1⟩ := h2 _ e1
    unfold groupsSay
    rw [e1]
    dsimp only
    rw [quiet_append, quiet_group hok e1, ih hok1 (by omega) e2]
    constructor
    · rintro ⟨hg, hgs⟩ before g' after h
      cases before with
      | nil =>
        cases h
        exact ⟨w, rfl, hg⟩
      | cons b before =>
        cases h
        obtain ⟨wg, ew, hf⟩ := hgs before g' after rfl
        refine ⟨wg, ?_, hf⟩
        unfold runGroups
        rw [e1]
        exact ew
    · intro h
      constructor
      · obtain ⟨wg, ew, hf⟩ := h [] g gs rfl
        cases ew
        exact hf
      · intro before g' after hh
        obtain ⟨wg, ew, hf⟩ := h (g :: before) g' after (by rw [hh]; rfl)
        obtain ⟨w2, e3, e4⟩ := runGroups_cons ew
        rw [e1] at e3
        cases e3
        exact ⟨wg, e4, hf⟩

/-- The names in use in the common object are not changed by the output groups. -/
theorem groups_known {env : Env} {base : Str} {ci : List Str} {gs : List (List Str × OutSpec)} {w w' : World}
    (hok : HeapOk w.heap) (hs : 0 < w.heap.length) (e : runGroups env base ci gs w = .ok () w') (n : Str) :
    Known w'.heap 0 n ↔ Known w.heap 0 n := by
  induction gs generalizing w with
  | nil => cases e; rfl
  | cons g gs ih =>
    obtain ⟨w1, e1, e2⟩ := runGroups_cons e
    obtain ⟨_, h2, _⟩ := runGroup_spec hok hs env base ci g
    obtain ⟨hok1, hl1⟩ := h2 _ e1
    rw [ih hok1 (by omega) e2, group_known hok e1]

end Stfx.Main
