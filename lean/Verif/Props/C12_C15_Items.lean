import Verif.Items.Add
import Verif.Items.Resolve
import Verif.Props.C01_C07_Lexer
import Verif.Props.C08_C11_Parser
/-
Properties C12-C15: the name tables.
-/
namespace Stfx.Items
open Stfx.Parser Stfx.Lexer

/-! ### Reading files never fails badly -/

theorem toksFile_total (w : Str) : ∃ ts, toksFile w = some ts := by
  obtain ⟨ls, h, _⟩ := C02_total_lossless w
  unfold lexFile at h
  unfold toksFile toksFrom
  rw [h]
  exact ⟨_, rfl⟩

theorem processInputFile_ok {h : Heap} (hok : HeapOk h) {self : Nat} (hs : self < h.length) (c : Option Str) :
    ∃ h' b, processInputFile self c h = some (h', b) ∧ HeapOk h' ∧ h'.length = h.length := by
  cases c with
  | none => exact ⟨h, false, rfl, hok, rfl⟩
  | some w =>
    obtain ⟨ts, ht⟩ := toksFile_total w
    unfold processInputFile
    simp only [ht, Option.bind_eq_bind, Option.bind_some]
    rcases C09_total ts with ⟨log, h1⟩ | ⟨log, t, rest, h1⟩
    · obtain ⟨h', e, ok, l⟩ := applyCalls_ok hok hs log
      rw [h1]
      simp only [e, Option.bind_some]
      exact ⟨_, _, rfl, ok.setRv _ _, by rw [length_setRv]; exact l⟩
    · obtain ⟨h', e, ok, l⟩ := applyCalls_ok hok hs log
      rw [h1]
      simp only [e, Option.bind_some]
      exact ⟨_, _, rfl, ok.setRv _ _, by rw [length_setRv]; exact l⟩

theorem processFiles_ok {h : Heap} (hok : HeapOk h) {self : Nat} (hs : self < h.length) (cs : List (Option Str)) :
    ∃ h', processFiles self cs h = some h' ∧ HeapOk h' ∧ h'.length = h.length := by
  induction cs generalizing h with
  | nil => exact ⟨h, rfl, hok, rfl⟩
  | cons c cs ih =>
    obtain ⟨h1, b, e1, ok1, l1⟩ := processInputFile_ok hok hs c
    obtain ⟨h2, e2, ok2, l2⟩ := ih ok1 (by omega)
    exact ⟨h2, by unfold processFiles; rw [e1]; exact e2, ok2, by omega⟩

/-! ### C12 -/

theorem header_step {h : Heap} {self : Nat} {i : Info} (hi : h[self]? = some i) (ht : TabOk i) {w : Str} (hd : Header)
    (hw : toksFile w = some hd.toks) (hnd : (hd.decls.map Decl.name).Nodup)
    (hn : ∀ d ∈ hd.decls, getItemType i d.name = .unknown) :
    processInputFile self (some w) h =
      some (h.set self { hd.decls.foldl (Info.add self) i with parseRv := 0 }, true) := by
  have hlt : self < h.length := (List.getElem?_eq_some_iff.1 hi).1
  unfold processInputFile
  simp only [hw, Option.bind_eq_bind, Option.bind_some, C10_header]
  unfold Header.calls
  rw [apply_news hi ht _ hnd hn]
  simp [setRv, hlt]

theorem foldl_unknown (self : Nat) {i : Info} {k : Str} (ds : List Decl) (hk : k ∉ ds.map Decl.name)
    (hn : getItemType i k = .unknown) : getItemType (ds.foldl (Info.add self) i) k = .unknown := by
  induction ds generalizing i with
  | nil => exact hn
  | cons d ds ih =>
    simp only [List.map_cons, List.mem_cons, not_or] at hk
    exact ih hk.2 (add_unknown (fun e => hk.1 e.symm) hn)

theorem TabOk.rv {i : Info} (ht : TabOk i) (n : Nat) : TabOk { i with parseRv := n } :=
  ⟨ht.sortedS, ht.sortedE, ht.nameS, ht.nameE, ht.disj, ht.oneCur⟩

theorem add_rv (self : Nat) (i : Info) (d : Decl) (n : Nat) :
    Info.add self { i with parseRv := n } d = { Info.add self i d with parseRv := n } := by
  cases d <;> rfl

theorem foldl_add_rv (self : Nat) (i : Info) (ds : List Decl) (n : Nat) :
    ds.foldl (Info.add self) { i with parseRv := n } = { ds.foldl (Info.add self) i with parseRv := n } := by
  induction ds generalizing i with
  | nil => rfl
  | cons d ds ih => rw [List.foldl_cons, List.foldl_cons, add_rv, ih]

theorem rv_eq {i : Info} (h : i.parseRv = 0) : ({ i with parseRv := 0 } : Info) = i := by
  cases i; cases h; rfl

theorem headers_steps {h : Heap} {self : Nat} {i : Info} (hi : h[self]? = some i) (ht : TabOk i) (hr : i.parseRv = 0)
    (fs : List (Str × Header)) (hw : ∀ f ∈ fs, toksFile f.1 = some f.2.toks)
    (hnd : ((fs.flatMap fun f => f.2.decls).map Decl.name).Nodup)
    (hn : ∀ d ∈ fs.flatMap (fun f => f.2.decls), getItemType i d.name = .unknown) :
    processFiles self (fs.map fun f => some f.1) h =
      some (h.set self ((fs.flatMap fun f => f.2.decls).foldl (Info.add self) i)) := by
  induction fs generalizing h i with
  | nil => simp [processFiles, set_self hi]
  | cons f fs ih =>
    have hlt : self < h.length := (List.getElem?_eq_some_iff.1 hi).1
    obtain ⟨w, hd⟩ := f
    simp only [List.flatMap_cons, List.map_append] at hnd
    have hnd' := List.nodup_append.1 hnd
    have hn1 : ∀ d ∈ hd.decls, getItemType i d.name = .unknown := fun d hd' => hn d (by simp [hd'])
    simp only [List.map_cons, processFiles]
    rw [header_step hi ht hd (hw (w, hd) (by simp)) hnd'.1 hn1, Option.bind_some]
    have hrv : (hd.decls.foldl (Info.add self) i).parseRv = 0 := by
      have := foldl_add_rv self i hd.decls 0
      rw [rv_eq hr] at this
      rw [this]
    rw [rv_eq hrv]
    dsimp only
    rw [ih (List.getElem?_set_self hlt) (foldl_add_ok self ht _ hnd'.1 hn1) hrv
      (fun f hf => hw f (by simp [hf])) hnd'.2.1]
    · simp
    · intro d hd'
      refine foldl_unknown self _ ?_ (hn d (by rw [List.flatMap_cons]; exact List.mem_append_right _ hd'))
      intro hm
      exact hnd'.2.2 _ hm _ (List.mem_map_of_mem hd') rfl

/-- C12: the tables read from header files with pairwise different type names hold exactly what the
headers declare, members and enumerators in written order.  `fs` are the files: text and the
declarations the text is written from. -/
theorem C12_tables (fs : List (Str × Header)) (hw : ∀ f ∈ fs, toksFile f.1 = some f.2.toks)
    (hnd : ((fs.flatMap fun f => f.2.decls).map Decl.name).Nodup) :
    ∃ i, processFiles 0 (fs.map fun f => some f.1) [Info.empty] = some [i] ∧
      (∀ n s, i.structs.find? n = some s ↔ ∃ m ms, Decl.struct n m ms ∈ fs.flatMap (fun f => f.2.decls) ∧
        s = ⟨n, (m :: ms).filterMap simpleOf, (m :: ms).filterMap complexOf, 0⟩) ∧
      (∀ n e, i.enums.find? n = some e ↔ ∃ c x xs t, Decl.enum c n x xs t ∈ fs.flatMap (fun f => f.2.decls) ∧
        e = ⟨n, c, (x :: xs).map lineOf⟩) ∧
      i.structs.Sorted ∧ i.enums.Sorted ∧ i.parseRv = 0 := by
  have ht : TabOk Info.empty := (HeapOk.new HeapOk.nil).tab 0 _ rfl
  have hn : ∀ d ∈ fs.flatMap (fun f => f.2.decls), getItemType Info.empty d.name = .unknown := fun _ _ => rfl
  refine ⟨_, headers_steps (i := Info.empty) rfl ht rfl fs hw hnd hn, ?_, ?_, ?_, ?_, ?_⟩
  · intro n s
    rw [foldl_add_structs 0 _ _ hnd]
    generalize fs.flatMap (fun f => f.2.decls) = ds at hnd
    constructor
    · intro h
      cases hf : ds.find? (fun d => decide (d.name = n)) with
      | none => rw [hf] at h; cases h
      | some d =>
        rw [hf] at h
        have hd := List.mem_of_find?_eq_some hf
        have hdn := List.find?_some hf
        cases d with
        | enum => cases h
        | struct n' m ms =>
          have hdn := of_decide_eq_true hdn
          simp only [Decl.name] at hdn
          subst hdn
          simp only [Option.bind_some, Decl.structRec, Option.some.injEq] at h
          exact ⟨m, ms, hd, h.symm⟩
    · rintro ⟨m, ms, hm, rfl⟩
      have : ds.find? (fun d => decide (d.name = n)) = some (.struct n m ms) := find_nodup hnd hm
      rw [this]; rfl
  · intro n s
    rw [foldl_add_enums 0 _ _ hnd]
    generalize fs.flatMap (fun f => f.2.decls) = ds at hnd
    constructor
    · intro h
      cases hf : ds.find? (fun d => decide (d.name = n)) with
      | none => rw [hf] at h; cases h
      | some d =>
        rw [hf] at h
        have hd := List.mem_of_find?_eq_some hf
        have hdn := List.find?_some hf
        cases d with
        | struct => cases h
        | enum c n' x xs t =>
          have hdn := of_decide_eq_true hdn
          simp only [Decl.name] at hdn
          subst hdn
          simp only [Option.bind_some, Decl.enumRec, Option.some.injEq] at h
          exact ⟨c, x, xs, t, hd, h.symm⟩
    · rintro ⟨c, x, xs, t, hm, rfl⟩
      have : ds.find? (fun d => decide (d.name = n)) = some (.enum c n x xs t) := find_nodup hnd hm
      rw [this]; rfl
  · exact (foldl_add_ok 0 ht _ hnd hn).sortedS
  · exact (foldl_add_ok 0 ht _ hnd hn).sortedE
  · have := foldl_add_rv 0 Info.empty (fs.flatMap fun f => f.2.decls) 0
    rw [show ({ Info.empty with parseRv := 0 } : Info) = Info.empty from rfl] at this
    rw [this]
where
  find_nodup {ds : List Decl} {n : Str} (hnd : (ds.map Decl.name).Nodup) {d : Decl} (hm : d ∈ ds) (hdn : d.name = n := by rfl) :
      ds.find? (fun d => decide (d.name = n)) = some d := by
    induction ds with
    | nil => cases hm
    | cons x xs ih =>
      rw [List.map_cons, List.nodup_cons] at hnd
      rw [List.find?_cons]
      rcases List.mem_cons.1 hm with rfl | hm
      · simp [hdn]
      · have : x.name ≠ n := by
          intro e
          exact hnd.1 (by rw [e, ← hdn]; exact List.mem_map_of_mem hm)
        simp [this, ih hnd.2 hm]

/-- C12 in any layout: one header. -/
theorem C12_layout (hd : Header) {w : Str} (hw : Laid true w hd.toks) (hnd : (hd.decls.map Decl.name).Nodup) :
    ∃ i, processInputFile 0 (some w) [Info.empty] = some ([i], true) ∧
      (∀ n s, i.structs.find? n = some s ↔ ∃ m ms, Decl.struct n m ms ∈ hd.decls ∧
        s = ⟨n, (m :: ms).filterMap simpleOf, (m :: ms).filterMap complexOf, 0⟩) ∧
      (∀ n e, i.enums.find? n = some e ↔ ∃ c x xs t, Decl.enum c n x xs t ∈ hd.decls ∧
        e = ⟨n, c, (x :: xs).map lineOf⟩) := by
  obtain ⟨i, h1, h2, h3, _⟩ := C12_tables [(w, hd)] (by simpa using C05_layout hw) (by simpa using hnd)
  refine ⟨i, ?_, by simpa using h2, by simpa using h3⟩
  have hs := header_step (h := [Info.empty]) (self := 0) (i := Info.empty) rfl ((HeapOk.new HeapOk.nil).tab 0 _ rfl) hd (C05_layout hw) hnd
    (fun _ _ => rfl)
  rw [hs]
  simp only [List.map_cons, List.map_nil, processFiles, hs, Option.bind_some, Option.some.injEq] at h1
  rw [h1]

/-- The sample header and its tables. -/
example : toksFile c!"enum class E{A,B=2,};\nstruct S{int i{7};E e;std::vector<T> v;};" = some sampleHeader.toks := by
  decide +kernel
example : (sampleHeader.decls.map Decl.name).Nodup := by decide
example : processInputFile 0 (some c!"enum class E{A,B=2,};\nstruct S{int i{7};E e;std::vector<T> v;};") [Info.empty] =
    some ([⟨[(c!"S", ⟨c!"S", [⟨.int, c!"i", c!"{7}"⟩], [⟨.enumOrStruct, c!"E", c!"e"⟩, ⟨.vector, c!"T", c!"v"⟩], 0⟩)],
      [(c!"E", ⟨c!"E", true, [⟨c!"A", false, c!"-"⟩, ⟨c!"B", true, c!"2"⟩]⟩)], some ⟨0, c!"S"⟩, none, 0⟩], true) := by
  decide +kernel

/-! ### C13 -/

/-- Everything that happens to the table objects during a run of stfx: objects are created, copied and
destroyed (youngest first), files are read into them, and generation resolves and counts.  (Specification notion, models no code.) -/
inductive History : Heap → Prop where
  | start : History []
  | new {h} : History h → History (h ++ [Info.empty])
  | copy {h src h'} : History h → copyInfo src h = some h' → History h'
  | destroy {h} : History h → History h.dropLast
  | file {h self c h' b} : History h → processInputFile self c h = some (h', b) → History h'
  | generate {h self h' b} : History h → prepare self h = some (h', b) → History h'

theorem processInputFile_lt {h h' : Heap} {self : Nat} {c : Option Str} {b : Bool}
    (e : processInputFile self c h = some (h', b)) : self < h.length ∨ h' = h := by
  by_cases hlt : self < h.length
  · exact Or.inl hlt
  · right
    have hn : h[self]? = none := List.getElem?_eq_none (by omega)
    have hcall : ∀ c, applyCall self h c = none := by
      intro c; cases c <;> simp [applyCall, processEnum, processStruct, processEnumLine, processSimple, processComplex, hn]
    have hcalls : ∀ cs h1, applyCalls self cs h = some h1 → h1 = h := by
      intro cs h1 he
      cases cs with
      | nil => cases he; rfl
      | cons c cs => simp [applyCalls, hcall] at he
    have hrv : ∀ rv, setRv self rv h = h := by intro rv; simp [setRv, hn]
    cases c with
    | none => cases e; rfl
    | some w =>
      unfold processInputFile at e
      obtain ⟨ts, ht⟩ := toksFile_total w
      simp only [ht, Option.bind_eq_bind, Option.bind_some] at e
      rcases C09_total ts with ⟨log, h1⟩ | ⟨log, t, rest, h1⟩ <;> rw [h1] at e <;> dsimp only at e <;>
      · cases hl : applyCalls self log h with
        | none => rw [hl] at e; cases e
        | some h2 =>
          rw [hl] at e
          have := hcalls _ _ hl
          subst this
          simp only [Option.bind_some, Option.some.injEq, Prod.mk.injEq] at e
          rw [← e.1, hrv]

theorem History.ok {h : Heap} (hh : History h) : HeapOk h := by
  induction hh with
  | start => exact HeapOk.nil
  | new _ ih => exact ih.new
  | @copy h src h' _ e ih =>
    unfold copyInfo at e
    cases hi : h[src]? with
    | none => simp [hi] at e
    | some i =>
      simp [hi] at e
      subst e
      exact ih.copy hi
  | destroy _ ih => exact ih.dropLast
  | @file h self c h' b _ e ih =>
    rcases processInputFile_lt e with hlt | rfl
    · obtain ⟨h2, b2, e2, ok, _⟩ := processInputFile_ok ih hlt c
      rw [e] at e2
      cases e2
      exact ok
    · exact ih
  | @generate h self h' b _ e ih =>
    by_cases hlt : self < h.length
    · obtain ⟨h2, b2, e2, ok, _⟩ := prepare_ok ih hlt
      rw [e] at e2
      cases e2
      exact ok
    · unfold prepare at e
      have hn : h[self]? = none := List.getElem?_eq_none (by omega)
      simp [hn] at e

/-- C13: whatever files were read, accepted or rejected, into whatever objects: no name is both a
struct and an enum, every entry is filed under its own name, no name has two entries, and looking a
name up reports struct, enum or unknown accordingly. -/
theorem C13_names {h : Heap} (hh : History h) {j : Nat} {i : Info} (hi : h[j]? = some i) :
    (∀ k, ¬ (k ∈ i.structs.keys ∧ k ∈ i.enums.keys)) ∧
    (∀ p ∈ i.structs, p.2.name = p.1) ∧ (∀ p ∈ i.enums, p.2.name = p.1) ∧
    i.structs.keys.Nodup ∧ i.enums.keys.Nodup ∧
    (∀ k, (getItemType i k = .struct ↔ k ∈ i.structs.keys) ∧ (getItemType i k = .enum ↔ k ∈ i.enums.keys) ∧
      (getItemType i k = .unknown ↔ k ∉ i.structs.keys ∧ k ∉ i.enums.keys)) := by
  have ht := hh.ok.tab j i hi
  have hdisj : ∀ k, ¬ (k ∈ i.structs.keys ∧ k ∈ i.enums.keys) := by
    rintro k ⟨h1, h2⟩
    rcases ht.disj k with hd | hd
    · exact SMap.find?_none_iff.1 hd h1
    · exact SMap.find?_none_iff.1 hd h2
  have nodup : ∀ {α : Type} {m : SMap α}, SMap.Sorted m → m.keys.Nodup := by
    intro α m hs
    rw [SMap.sorted_iff_keys] at hs
    refine hs.imp ?_
    intro a b hab e
    subst e
    rw [sLt_irrefl] at hab
    cases hab
  refine ⟨hdisj, ?_, ?_, nodup ht.sortedS, nodup ht.sortedE, ?_⟩
  · rintro ⟨k, s⟩ hp; exact ht.nameS k s (ht.sortedS.find?_of_mem hp)
  · rintro ⟨k, s⟩ hp; exact ht.nameE k s (ht.sortedE.find?_of_mem hp)
  · intro k
    have hs : k ∈ i.structs.keys ↔ i.structs.find? k ≠ none := by rw [ne_eq, SMap.find?_none_iff]; simp
    have he : k ∈ i.enums.keys ↔ i.enums.find? k ≠ none := by rw [ne_eq, SMap.find?_none_iff]; simp
    rw [hs, he]
    unfold getItemType
    have := ht.disj k
    cases h1 : i.structs.find? k <;> cases h2 : i.enums.find? k <;> simp_all

/-- C13: reading a file and generating are always defined (the raw pointers to the current struct and
enum never dangle), whatever happened before. -/
theorem C13_defined {h : Heap} (hh : History h) {self : Nat} (hs : self < h.length) (c : Option Str) :
    (∃ h' b, processInputFile self c h = some (h', b)) ∧ (∃ h' b, prepare self h = some (h', b)) := by
  obtain ⟨h', b, e, _⟩ := processInputFile_ok hh.ok hs c
  obtain ⟨h2, b2, e2, _⟩ := prepare_ok hh.ok hs
  exact ⟨⟨h', b, e⟩, ⟨h2, b2, e2⟩⟩

/-- The object obtained by reading one file into an empty object (for the examples).  (Specification notion, models no code.) -/
def readFresh (w : Str) : Info :=
  match processInputFile 0 (some w) [Info.empty] with
  | some ([i], _) => i
  | _ => Info.empty

theorem readFresh_history (w : Str) : History [readFresh w] := by
  have h0 : History [Info.empty] := .new .start
  obtain ⟨h', b, e, _, l⟩ := processInputFile_ok h0.ok (self := 0) (by decide) (some w)
  have := History.file h0 e
  unfold readFresh
  rw [e]
  match h', l with
  | [i], _ => exact this

/-- A history with a rejected file, a repeated name and a copy. -/
example : ∃ i, History [i, i] ∧ getItemType i c!"A" = .struct ∧ getItemType i c!"E" = .enum ∧ i.parseRv = 1 :=
  ⟨readFresh c!"struct A{int a;};enum A{X};enum E{X};;", .copy (src := 0) (readFresh_history _) rfl,
    by decide +kernel, by decide +kernel, by decide +kernel⟩

/-! ### C14 -/

/-- The records of an object, as seen by lookup.  (Specification notion, models no code.) -/
def sameRecord (i i' : Info) (k : Str) : Prop :=
  i'.structs.find? k = i.structs.find? k ∧ i'.enums.find? k = i.enums.find? k

/-- C14 is false: the members of a repeated declaration are added to the type declared before it.
Witness: `struct A {int a;}; struct B {int b;}; struct A {int c;};`. -/
theorem C14_refuted : ¬ ∀ (i : Info) (d : Decl) (h' : Heap), History [i] → getItemType i d.name ≠ .unknown →
    applyCalls 0 d.calls [i] = some h' → ∀ i', h'[0]? = some i' → ∀ k, k ≠ d.name → sameRecord i i' k := by
  intro H
  have hist : History [⟨[(c!"A", ⟨c!"A", [⟨.int, c!"a", c!"-"⟩], [], 0⟩), (c!"B", ⟨c!"B", [⟨.int, c!"b", c!"-"⟩], [], 0⟩)],
      [], some ⟨0, c!"B"⟩, none, 0⟩] :=
    .file (.new .start) (c := some c!"struct A{int a;};struct B{int b;};") (self := 0) (b := true) (by decide +kernel)
  have := H _ (.struct c!"A" (.simple .int c!"c" .absent) []) _ hist (by decide) rfl _ rfl c!"B" (by decide)
  exact absurd this.1 (by decide)

/-- The witness as a file: `B` ends up with `b` and `c`. -/
example : processInputFile 0 (some c!"struct A{int a;};struct B{int b;};struct A{int c;};") [Info.empty] =
    some ([⟨[(c!"A", ⟨c!"A", [⟨.int, c!"a", c!"-"⟩], [], 0⟩),
      (c!"B", ⟨c!"B", [⟨.int, c!"b", c!"-"⟩, ⟨.int, c!"c", c!"-"⟩], [], 0⟩)], [], some ⟨0, c!"B"⟩, none, 0⟩], true) := by
  decide +kernel

/-- What is true (structs): a repeated `struct` declaration changes nothing if the last new declaration was
an enum (or there was none), and otherwise changes exactly the struct that was declared last, by appending
its members.  Missing from the full claim: that it changes nothing in the second case. -/
theorem C14_struct_partial {h : Heap} (hh : History h) {self : Nat} {i : Info} (hi : h[self]? = some i) (n : Str) (m : Member)
    (ms : List Member) (hn : getItemType i n ≠ .unknown) :
    (i.curStruct = none → applyCalls self (Decl.struct n m ms).calls h = some h) ∧
    (∀ p, i.curStruct = some p → ∃ o o' s, h[p.obj]? = some o ∧ o.structs.find? p.key = some s ∧
      applyCalls self (Decl.struct n m ms).calls h = some (h.set p.obj o') ∧
      o'.structs.find? p.key = some { s with simple := s.simple ++ (m :: ms).filterMap simpleOf,
                                             complex := s.complex ++ (m :: ms).filterMap complexOf } ∧
      ∀ k, k ≠ p.key → sameRecord o o' k) := by
  have hd := apply_dup hi (.struct n m ms) hn
  constructor
  · intro hc
    rw [hd]
    exact structLines_none hi hc (m :: ms)
  · intro p hc
    obtain ⟨_, o, s, h1, h2⟩ := (hh.ok.ptr _ _ hi).s p hc
    refine ⟨o, { o with structs := o.structs.modify p.key fun s =>
        { s with simple := s.simple ++ (m :: ms).filterMap simpleOf, complex := s.complex ++ (m :: ms).filterMap complexOf } },
      s, h1, h2, ?_, ?_, ?_⟩
    · rw [hd]
      exact structLines_at hi hc h1 h2 (hh.ok.tab _ _ h1).sortedS (m :: ms)
    · simp [SMap.find?_modify, h2]
    · intro k hk
      exact ⟨by simp [SMap.find?_modify, Ne.symm hk], rfl⟩

/-- What is true (enums): a repeated `enum` declaration changes nothing if the last new declaration was
a struct (or there was none), and otherwise changes exactly the enum that was declared last, by appending
its enumerators. -/
theorem C14_enum_partial {h : Heap} (hh : History h) {self : Nat} {i : Info} (hi : h[self]? = some i) (c : Bool) (n : Str)
    (e : Enumerator) (es : List Enumerator) (t : Bool) (hn : getItemType i n ≠ .unknown) :
    (i.curEnum = none → applyCalls self (Decl.enum c n e es t).calls h = some h) ∧
    (∀ p, i.curEnum = some p → ∃ o o' s, h[p.obj]? = some o ∧ o.enums.find? p.key = some s ∧
      applyCalls self (Decl.enum c n e es t).calls h = some (h.set p.obj o') ∧
      o'.enums.find? p.key = some { s with enums := s.enums ++ (e :: es).map lineOf } ∧
      ∀ k, k ≠ p.key → sameRecord o o' k) := by
  have hd := apply_dup hi (.enum c n e es t) hn
  constructor
  · intro hc
    rw [hd]
    exact enumLines_none hi hc (e :: es)
  · intro p hc
    obtain ⟨_, o, s, h1, h2⟩ := (hh.ok.ptr _ _ hi).e p hc
    refine ⟨o, { o with enums := o.enums.modify p.key fun s => { s with enums := s.enums ++ (e :: es).map lineOf } },
      s, h1, h2, ?_, ?_, ?_⟩
    · rw [hd]
      exact enumLines_at hi hc h1 h2 (hh.ok.tab _ _ h1).sortedE (e :: es)
    · simp [SMap.find?_modify, h2]
    · intro k hk
      exact ⟨rfl, by simp [SMap.find?_modify, Ne.symm hk]⟩

/-- The hypotheses are met by a history whose last new declaration was an enum and one where it was a struct. -/
example : ∃ i, History [i] ∧ getItemType i c!"A" ≠ .unknown ∧ i.curStruct = none :=
  ⟨readFresh c!"struct A{int a;};enum E{X};", readFresh_history _, by decide +kernel, by decide +kernel⟩
example : ∃ i, History [i] ∧ getItemType i c!"E" ≠ .unknown ∧ i.curEnum = some ⟨0, c!"F"⟩ :=
  ⟨readFresh c!"enum E{X};enum F{Y};", readFresh_history _, by decide +kernel, by decide +kernel⟩

/-! ### C15 -/

/-- The current pointers of an object point into the object itself.  (Specification notion, models no code.) -/
def OwnPtrs (self : Nat) (i : Info) : Prop :=
  (∀ p, i.curStruct = some p → p.obj = self) ∧ (∀ p, i.curEnum = some p → p.obj = self)

theorem applyCall_own {h h' : Heap} {self : Nat} {i : Info} (hi : h[self]? = some i) (ho : OwnPtrs self i) (c : Call)
    (e : applyCall self h c = some h') :
    ∃ i', h' = h.set self i' ∧ OwnPtrs self i' := by
  have hself : h = h.set self i := (set_self hi).symm
  cases c with
  | enum n cl =>
    simp only [applyCall, processEnum, hi, Option.bind_eq_bind, Option.bind_some] at e
    split at e
    · cases e; exact ⟨i, hself, ho⟩
    · cases e
      refine ⟨_, rfl, ?_, ?_⟩
      · intro p hp; cases hp
      · intro p hp; cases hp; rfl
  | struct n =>
    simp only [applyCall, processStruct, hi, Option.bind_eq_bind, Option.bind_some] at e
    split at e
    · cases e; exact ⟨i, hself, ho⟩
    · cases e
      refine ⟨_, rfl, ?_, ?_⟩
      · intro p hp; cases hp; rfl
      · intro p hp; cases hp
  | enumLine n b v =>
    simp only [applyCall, processEnumLine, hi, Option.bind_eq_bind, Option.bind_some] at e
    cases hc : i.curEnum with
    | none => rw [hc] at e; cases e; exact ⟨i, hself, ho⟩
    | some p =>
      rw [hc] at e
      have hp := ho.2 p hc
      dsimp only at e
      rw [hp, hi] at e
      simp only [Option.bind_some] at e
      cases hf : i.enums.find? p.key with
      | none => rw [hf] at e; cases e
      | some r => rw [hf] at e; cases e; exact ⟨_, rfl, ho⟩
  | simple ty n d =>
    simp only [applyCall, processSimple, hi, Option.bind_eq_bind, Option.bind_some] at e
    cases hc : i.curStruct with
    | none => rw [hc] at e; cases e; exact ⟨i, hself, ho⟩
    | some p =>
      rw [hc] at e
      have hp := ho.1 p hc
      dsimp only at e
      rw [hp, hi] at e
      simp only [Option.bind_some] at e
      cases hf : i.structs.find? p.key with
      | none => rw [hf] at e; cases e
      | some r => rw [hf] at e; cases e; exact ⟨_, rfl, ho⟩
  | complex ty tn n =>
    simp only [applyCall, processComplex, hi, Option.bind_eq_bind, Option.bind_some] at e
    cases hc : i.curStruct with
    | none => rw [hc] at e; cases e; exact ⟨i, hself, ho⟩
    | some p =>
      rw [hc] at e
      have hp := ho.1 p hc
      dsimp only at e
      rw [hp, hi] at e
      simp only [Option.bind_some] at e
      cases hf : i.structs.find? p.key with
      | none => rw [hf] at e; cases e
      | some r => rw [hf] at e; cases e; exact ⟨_, rfl, ho⟩

theorem applyCalls_own {h h' : Heap} {self : Nat} {i : Info} (hi : h[self]? = some i) (ho : OwnPtrs self i) (cs : List Call)
    (e : applyCalls self cs h = some h') :
    ∃ i', h' = h.set self i' ∧ OwnPtrs self i' := by
  have hlt : self < h.length := (List.getElem?_eq_some_iff.1 hi).1
  induction cs generalizing h i with
  | nil => cases e; exact ⟨i, (set_self hi).symm, ho⟩
  | cons c cs ih =>
    unfold applyCalls at e
    cases hc : applyCall self h c with
    | none => rw [hc] at e; cases e
    | some h1 =>
      rw [hc, Option.bind_some] at e
      obtain ⟨i1, rfl, o1⟩ := applyCall_own hi ho c hc
      obtain ⟨i2, rfl, o2⟩ := ih (List.getElem?_set_self hlt) o1 e (by simpa using hlt)
      exact ⟨i2, by rw [List.set_set], o2⟩

theorem setRv_own {h : Heap} {self : Nat} {i : Info} (hi : h[self]? = some i) (ho : OwnPtrs self i) (rv : Nat) :
    ∃ i', setRv self rv h = h.set self i' ∧ OwnPtrs self i' :=
  ⟨{ i with parseRv := rv }, by unfold setRv; rw [hi], ho⟩

theorem processInputFile_own {h h' : Heap} {self : Nat} {i : Info} (hi : h[self]? = some i) (ho : OwnPtrs self i)
    (c : Option Str) {b : Bool} (e : processInputFile self c h = some (h', b)) :
    ∃ i', h' = h.set self i' ∧ OwnPtrs self i' := by
  have hlt : self < h.length := (List.getElem?_eq_some_iff.1 hi).1
  cases c with
  | none => cases e; exact ⟨i, (set_self hi).symm, ho⟩
  | some w =>
    unfold processInputFile at e
    obtain ⟨ts, ht⟩ := toksFile_total w
    simp only [ht, Option.bind_eq_bind, Option.bind_some] at e
    rcases C09_total ts with ⟨log, h1⟩ | ⟨log, t, rest, h1⟩ <;> rw [h1] at e <;> dsimp only at e <;>
    · cases hl : applyCalls self log h with
      | none => rw [hl] at e; cases e
      | some h2 =>
        rw [hl] at e
        simp only [Option.bind_some, Option.some.injEq, Prod.mk.injEq] at e
        obtain ⟨i1, rfl, o1⟩ := applyCalls_own hi ho log hl
        obtain ⟨i2, e2, o2⟩ := setRv_own (List.getElem?_set_self hlt) o1 (rv := _)
        rw [← e.1, e2]
        exact ⟨i2, by rw [List.set_set], o2⟩

theorem processFiles_own {h h' : Heap} {self : Nat} {i : Info} (hi : h[self]? = some i) (ho : OwnPtrs self i)
    (cs : List (Option Str)) (e : processFiles self cs h = some h') :
    ∃ i', h' = h.set self i' ∧ OwnPtrs self i' := by
  have hlt : self < h.length := (List.getElem?_eq_some_iff.1 hi).1
  induction cs generalizing h i with
  | nil => cases e; exact ⟨i, (set_self hi).symm, ho⟩
  | cons c cs ih =>
    unfold processFiles at e
    cases hc : processInputFile self c h with
    | none => rw [hc] at e; cases e
    | some r =>
      obtain ⟨h1, b⟩ := r
      rw [hc, Option.bind_some] at e
      obtain ⟨i1, rfl, o1⟩ := processInputFile_own hi ho c hc
      obtain ⟨i2, rfl, o2⟩ := ih (List.getElem?_set_self hlt) o1 e (by simpa using hlt)
      exact ⟨i2, by rw [List.set_set], o2⟩

/-- C15 is false: if a group's additional file starts by repeating a name of the common files, its
members are added to a struct of the common tables.
Witness: common file `struct A {int a;};`, group file `struct A {int x;};`. -/
theorem C15_refuted : ¬ ∀ (common : Info) (files : List (Option Str)) (h' : Heap), History [common] →
    processFiles 1 files [common, common] = some h' → h'[0]? = some common := by
  intro H
  have hist : History [⟨[(c!"A", ⟨c!"A", [⟨.int, c!"a", c!"-"⟩], [], 0⟩)], [], some ⟨0, c!"A"⟩, none, 0⟩] :=
    .file (.new .start) (c := some c!"struct A{int a;};") (self := 0) (b := true) (by decide +kernel)
  have := H _ [some c!"struct A{int x;};"]
    [⟨[(c!"A", ⟨c!"A", [⟨.int, c!"a", c!"-"⟩, ⟨.int, c!"x", c!"-"⟩], [], 0⟩)], [], some ⟨0, c!"A"⟩, none, 0⟩,
     ⟨[(c!"A", ⟨c!"A", [⟨.int, c!"a", c!"-"⟩], [], 0⟩)], [], some ⟨0, c!"A"⟩, none, 0⟩] hist (by decide +kernel)
  exact absurd this (by decide)

/-- What is true: if the first declaration of a group's first file (unreadable files aside) has a new name,
then reading that file and any number of further files, whatever they contain, changes no other object.  Missing from the full claim: the case where the first
declaration repeats a name. -/
theorem C15_isolated_partial {h h' : Heap} {common : Info} {src : Nat} (hh : History h)
    (hi : h[src]? = some common) (unreadable : Nat) (hd : Header) {w : Str} (hw : toksFile w = some hd.toks)
    (hn : getItemType common hd.first.name = .unknown) (files : List (Option Str))
    (e : processFiles h.length (List.replicate unreadable none ++ some w :: files) (h ++ [common]) = some h') :
    ∀ j, j < h.length → h'[j]? = h[j]? := by
  have hskip : ∀ n cs hp, processFiles h.length (List.replicate n none ++ cs) hp = processFiles h.length cs hp := by
    intro n cs hp
    induction n with
    | zero => rfl
    | succ n ih => simp only [List.replicate_succ, List.cons_append, processFiles, processInputFile, Option.bind_some]; exact ih
  rw [hskip] at e
  have hok := hh.ok.copy hi
  have hself : (h ++ [common])[h.length]? = some common := by simp
  have hlt : h.length < (h ++ [common]).length := by simp
  unfold processFiles at e
  cases hc : processInputFile h.length (some w) (h ++ [common]) with
  | none => rw [hc] at e; cases e
  | some r =>
    obtain ⟨h1, b⟩ := r
    rw [hc, Option.bind_some] at e
    have step1 : ∃ i1, h1 = (h ++ [common]).set h.length i1 ∧ OwnPtrs h.length i1 := by
      unfold processInputFile at hc
      simp only [hw, Option.bind_eq_bind, Option.bind_some, C10_header] at hc
      unfold Header.calls Header.decls at hc
      rw [List.flatMap_cons, applyCalls_append, apply_new hself (hok.tab _ _ hself) _ hn, Option.bind_some] at hc
      cases hl : applyCalls h.length (hd.more.flatMap Decl.calls)
          ((h ++ [common]).set h.length (common.add h.length hd.first)) with
      | none => rw [hl] at hc; cases hc
      | some h2 =>
        rw [hl] at hc
        simp only [Option.bind_some, Option.some.injEq, Prod.mk.injEq] at hc
        have own : OwnPtrs h.length (common.add h.length hd.first) := by
          cases hd.first with
          | enum c n e es t =>
            constructor
            · intro p hp; cases hp
            · intro p hp; cases hp; rfl
          | struct n m ms =>
            constructor
            · intro p hp; cases hp; rfl
            · intro p hp; cases hp
        obtain ⟨i1, rfl, o1⟩ := applyCalls_own (List.getElem?_set_self hlt) own _ hl
        obtain ⟨i2, e2, o2⟩ := setRv_own (h := ((h ++ [common]).set h.length (common.add h.length hd.first)).set h.length i1)
          (List.getElem?_set_self (by simpa using hlt)) o1 0
        rw [← hc.1, e2]
        exact ⟨i2, by simp only [List.set_set], o2⟩
    obtain ⟨i1, rfl, o1⟩ := step1
    obtain ⟨i2, rfl, _⟩ := processFiles_own (List.getElem?_set_self hlt) o1 files e
    intro j hj
    rw [List.set_set, List.getElem?_set_ne (by omega), List.getElem?_append_left hj]

/-- An object into which no declaration was read yet is isolated from the start. -/
theorem C15_empty_partial {h h' : Heap} {common : Info}
    (hs : common.curStruct = none) (he : common.curEnum = none) (files : List (Option Str))
    (e : processFiles h.length files (h ++ [common]) = some h') : ∀ j, j < h.length → h'[j]? = h[j]? := by
  have hself : (h ++ [common])[h.length]? = some common := by simp
  obtain ⟨i, rfl, _⟩ := processFiles_own hself ⟨by rw [hs]; simp, by rw [he]; simp⟩ files e
  intro j hj
  rw [List.getElem?_set_ne (by omega), List.getElem?_append_left hj]

/-- Hypotheses of `C15_isolated_partial`: the group first declares `B`, then repeats `A`. -/
example : ∃ common, History [common] ∧ getItemType common c!"B" = .unknown ∧ getItemType common c!"A" = .struct ∧
    (processFiles 1 [none, some c!"struct B{int b;};", some c!"struct A{int x;};"] [common, common]).isSome :=
  ⟨readFresh c!"struct A{int a;};", readFresh_history _, by decide +kernel, by decide +kernel, by decide +kernel⟩

end Stfx.Items
