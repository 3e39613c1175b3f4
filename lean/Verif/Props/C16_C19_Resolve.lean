import Verif.Items.Refs
import Verif.Gen.Contents
/-
Properties C16-C19: type resolution and entry points.
-/
set_option autoImplicit false
namespace Stfx.Gen
open Stfx.Parser Stfx.Items

/-! ### C16 -/

/-- A heap in which generation for object 0 has run, object 1 is a copy of object 0 that has read another file,
and generation for object 1 has run.  (Specification notion, models no code.) -/
def secondRun (common extra : Str) : Heap :=
  ((prepare 0 [readFresh common]).bind fun r1 =>
    (copyInfo 0 r1.1).bind fun h2 =>
    (processInputFile 1 (some extra) h2).bind fun r3 =>
    (prepare 1 r3.1).map fun r4 => r4.1).getD []

/-- The same before the last step.  (Specification notion, models no code.) -/
def beforeSecond (common extra : Str) : Heap :=
  ((prepare 0 [readFresh common]).bind fun r1 =>
    (copyInfo 0 r1.1).bind fun h2 =>
    (processInputFile 1 (some extra) h2).map fun r3 => r3.1).getD []

theorem beforeSecond_history (common extra : Str) : History (beforeSecond common extra) := by
  have h0 : History [readFresh common] := readFresh_history common
  unfold beforeSecond
  cases h1 : prepare 0 [readFresh common] with
  | none => exact .start
  | some r1 =>
    have hh1 : History r1.1 := .generate h0 (b := r1.2) h1
    simp only [Option.bind_some]
    cases h2 : copyInfo 0 r1.1 with
    | none => exact .start
    | some r2 =>
      have hh2 : History r2 := .copy hh1 h2
      simp only [Option.bind_some]
      cases h3 : processInputFile 1 (some extra) r2 with
      | none => exact .start
      | some r3 => exact .file hh2 (b := r3.2) h3

/-- The common header uses a type that only the group's header declares.  (Specification notion, models no code.) -/
def late : Heap := beforeSecond c!"struct A { B b; };" c!"struct B { int x; };"
/-- See the definition before it.  (Specification notion, models no code.) -/
def late' : Heap := secondRun c!"struct A { B b; };" c!"struct B { int x; };"
/-- See the definition before it.  (Specification notion, models no code.) -/
def lateI : Info := late[1]?.getD Info.empty
/-- See the definition before it.  (Specification notion, models no code.) -/
def lateI' : Info := late'[1]?.getD Info.empty

/-- C16 as stated is false: a member whose type was not known when generation ran for the common part stays
"unknown" in the copy of the tables used for an output group, even though the group declares the type. -/
theorem C16_refuted :
    ¬ ∀ (h h' : Heap) (self : Nat) (i i' : Info) (ok : Bool), History h → h[self]? = some i →
      prepare self h = some (h', ok) → h'[self]? = some i' →
      ∀ n s co, i'.structs.find? n = some s → co ∈ s.complex → co.ty ≠ .vector →
        co.tyName ∈ i'.structs.keys → co.ty = .struct := by
  intro hall
  have e1 : late[1]? = some lateI := by decide +kernel
  have e2 : prepare 1 late = some (late', true) := by decide +kernel
  have e3 : late'[1]? = some lateI' := by decide +kernel
  have := hall late late' 1 lateI lateI' true (beforeSecond_history _ _) e1 e2 e3
    c!"A" ⟨c!"A", [], [⟨.unknown, c!"B", c!"b"⟩], 0⟩ ⟨.unknown, c!"B", c!"b"⟩
    (by decide +kernel) (by decide) (by decide) (by decide +kernel)
  cases this

/-- C16, the part that holds.  After the first two steps of generation on any object, at any time in any run:
no line is left unresolved; a line treated as struct (enum) names a declared struct (enum); and a line that was
not already given up as "unknown" in an earlier run is resolved to what its type name is declared as, or else,
if it is not declared, becomes "unknown" and the return value is false. -/
theorem C16_resolved_partial {h h' : Heap} {self : Nat} {i i' : Info} {ok : Bool} (hh : History h)
    (hi : h[self]? = some i) (hp : prepare self h = some (h', ok)) (hi' : h'[self]? = some i') :
    i'.structs.keys = i.structs.keys ∧ i'.enums = i.enums ∧
    (∀ n s co, i'.structs.find? n = some s → co ∈ s.complex →
      co.ty ≠ .enumOrStruct ∧ (co.ty = .struct → co.tyName ∈ i.structs.keys) ∧
      (co.ty = .enum → co.tyName ∈ i.enums.keys)) ∧
    (∀ n s, i.structs.find? n = some s → ∃ s', i'.structs.find? n = some s' ∧ s'.name = s.name ∧
      s'.simple = s.simple ∧ s'.complex.length = s.complex.length ∧
      ∀ (j : Nat) (co : ComplexLine), s.complex[j]? = some co → ∃ co' : ComplexLine, s'.complex[j]? = some co' ∧
        co'.name = co.name ∧ co'.tyName = co.tyName ∧ (co'.ty = .vector ↔ co.ty = .vector) ∧
        (co.ty ≠ .vector → co.ty ≠ .unknown →
          (co.tyName ∈ i.structs.keys → co'.ty = .struct) ∧ (co.tyName ∈ i.enums.keys → co'.ty = .enum) ∧
          (co.tyName ∉ i.structs.keys → co.tyName ∉ i.enums.keys → co'.ty = .unknown ∧ ok = false))) := by
  have ht := hh.ok.tab _ _ hi
  have hsound := hh.sound hi
  have hlt : self < h.length := (List.getElem?_eq_some_iff.1 hi).1
  simp only [prepare, hi, Option.bind_eq_bind, Option.bind_some, Option.some.injEq, Prod.mk.injEq] at hp
  obtain ⟨rfl, hok⟩ := hp
  rw [List.getElem?_set_self hlt] at hi'
  cases hi'
  have names := (fixup_same i).trans (findTop_same (fixup i).1)
  have hS : ∀ {k}, k ∈ i.structs.keys ↔ ∃ s, i.structs.find? k = some s := by
    intro k
    cases hf : i.structs.find? k with
    | none => simp [SMap.find?_none_iff.1 hf]
    | some s => simp only [Option.some.injEq, exists_eq', iff_true]
                exact SMap.mem_keys.2 ⟨s, SMap.find?_some_mem hf⟩
  have hE : ∀ {k}, k ∈ i.enums.keys ↔ ∃ s, i.enums.find? k = some s := by
    intro k
    cases hf : i.enums.find? k with
    | none => simp [SMap.find?_none_iff.1 hf]
    | some s => simp only [Option.some.injEq, exists_eq', iff_true]
                exact SMap.mem_keys.2 ⟨s, SMap.find?_some_mem hf⟩
  refine ⟨names.keys, rfl, ?_, ?_⟩
  · intro n s co hn hco
    have hsound' := hsound.generate i ht
    refine ⟨?_, ?_, ?_⟩
    · rw [prep_find] at hn
      cases h0 : i.structs.find? n with
      | none => rw [h0] at hn; cases hn
      | some s0 =>
        rw [h0] at hn; cases hn
        obtain ⟨co0, hco0, rfl⟩ := List.mem_map.1 hco
        by_cases he : co0.ty = .enumOrStruct
        · rw [fixupLine_ty he]
          rcases itemType_cases i co0.tyName with h | h | h <;> rw [h] <;> decide
        · rw [fixupLine_keep he]; exact he
    · intro hty
      obtain ⟨t, ht⟩ := hsound'.struct n s co hn hco hty
      rw [← names.keys]
      exact SMap.mem_keys.2 ⟨t, SMap.find?_some_mem ht⟩
    · intro hty
      obtain ⟨t, ht⟩ := hsound'.enum n s co hn hco hty
      exact SMap.mem_keys.2 ⟨t, SMap.find?_some_mem ht⟩
  · intro n s hn
    refine ⟨{ s with complex := s.complex.map (fixupLine i), incoming := s.incoming + refs (fixup i).1.structs n },
      by rw [prep_find, hn]; rfl, rfl, rfl, by simp, ?_⟩
    intro j co hj
    refine ⟨fixupLine i co, by simp [hj], fixupLine_name _ _, fixupLine_tyName _ _, ?_, ?_⟩
    · by_cases he : co.ty = .enumOrStruct
      · rw [fixupLine_ty he, he]
        rcases itemType_cases i co.tyName with h | h | h <;> rw [h] <;> decide
      · rw [fixupLine_keep he]
    · intro hv hu
      have hco : co ∈ s.complex := List.mem_of_getElem? hj
      by_cases he : co.ty = .enumOrStruct
      · rw [fixupLine_ty he]
        refine ⟨?_, ?_, ?_⟩
        · intro hk
          obtain ⟨t, ht⟩ := hS.1 hk
          exact itemType_of_struct ht
        · intro hk
          obtain ⟨t, ht2⟩ := hE.1 hk
          exact itemType_of_enum ht ht2
        · intro h1 h2
          have hun : getItemType i co.tyName = .unknown :=
            unknown_iff.2 ⟨SMap.find?_none_iff.2 h1, SMap.find?_none_iff.2 h2⟩
          refine ⟨hun, ?_⟩
          rw [← hok, Bool.and_eq_false_iff]
          left
          simp only [fixup]
          rw [List.all_eq_false]
          refine ⟨(n, s), SMap.find?_some_mem hn, ?_⟩
          rw [Bool.not_eq_true, List.all_eq_false]
          exact ⟨co, hco, by simp [fixupLineOk, he, hun]⟩
      · rw [fixupLine_keep he]
        have hcases : co.ty = .enum ∨ co.ty = .struct := by
          cases hc : co.ty <;> simp_all
        rcases hcases with hc | hc
        · have h1 := hE.2 (hsound.enum _ _ _ hn hco hc)
          refine ⟨?_, fun _ => hc, fun _ h2 => absurd h1 h2⟩
          intro hk
          obtain ⟨t1, e1⟩ := hS.1 hk
          obtain ⟨t2, e2⟩ := hE.1 h1
          rcases ht.disj co.tyName with hd | hd
          · rw [e1] at hd; cases hd
          · rw [e2] at hd; cases hd
        · have h1 := hS.2 (hsound.struct _ _ _ hn hco hc)
          refine ⟨fun _ => hc, ?_, fun h2 => absurd h1 h2⟩
          intro hk
          obtain ⟨t1, e1⟩ := hS.1 h1
          obtain ⟨t2, e2⟩ := hE.1 hk
          rcases ht.disj co.tyName with hd | hd
          · rw [e1] at hd; cases hd
          · rw [e2] at hd; cases hd

/-- C16 for tables that have only been read so far (the common part, and single headers): the statement holds
in full. -/
theorem C16_first_run {h h' : Heap} {self : Nat} {i i' : Info} {ok : Bool} (hh : Reading h)
    (hi : h[self]? = some i) (hp : prepare self h = some (h', ok)) (hi' : h'[self]? = some i') :
    (∀ n s' co', i'.structs.find? n = some s' → co' ∈ s'.complex → co'.ty ≠ .vector →
      (co'.tyName ∈ i.structs.keys → co'.ty = .struct) ∧ (co'.tyName ∈ i.enums.keys → co'.ty = .enum)) ∧
    (ok = true ↔ ∀ n s co, i.structs.find? n = some s → co ∈ s.complex → co.ty ≠ .vector →
      co.tyName ∈ i.structs.keys ∨ co.tyName ∈ i.enums.keys) := by
  obtain ⟨hk, hee, h1, h2⟩ := C16_resolved_partial hh.history hi hp hi'
  have hun := hh.unresolved hi
  constructor
  · intro n s' co' hn hco hv
    have : ∃ s, i.structs.find? n = some s := by
      have := find?_isSome_of_keys hk n
      rw [hn] at this
      exact Option.isSome_iff_exists.1 this.symm
    obtain ⟨s, hs⟩ := this
    obtain ⟨s2, e2, _, _, el, hl⟩ := h2 n s hs
    rw [hn] at e2; cases e2
    obtain ⟨j, hj, hje⟩ := List.getElem_of_mem hco
    obtain ⟨co2, e3, e4, e5, e6, e7⟩ := hl j s.complex[j] (List.getElem?_eq_getElem (by omega))
    rw [List.getElem?_eq_getElem hj, hje] at e3
    cases e3
    have hcm : s.complex[j] ∈ s.complex := List.getElem_mem _
    have hc2 : s.complex[j].ty ≠ .vector := fun h => hv (e6.2 h)
    have hc3 : s.complex[j].ty ≠ .unknown := hun.noUnknown n s _ hs hcm
    have := e7 hc2 hc3
    rw [e5]
    exact ⟨this.1, this.2.1⟩
  · have hok : ok = (fixup i).2 := by
      simp only [prepare, hi, Option.bind_eq_bind, Option.bind_some, Option.some.injEq, Prod.mk.injEq] at hp
      rw [← hp.2]; simp [findTop]
    constructor
    · intro ht n s co hn hco hv
      apply Classical.byContradiction
      intro hno
      obtain ⟨s2, _, _, _, _, hl⟩ := h2 n s hn
      obtain ⟨j, hj, hje⟩ := List.getElem_of_mem hco
      obtain ⟨co2, _, _, _, _, e7⟩ := hl j co (by rw [List.getElem?_eq_getElem hj, hje])
      have := (e7 hv (hun.noUnknown n s _ hn hco)).2.2 (fun h => hno (Or.inl h)) (fun h => hno (Or.inr h))
      rw [this.2] at ht; cases ht
    · intro hall
      rw [hok]
      simp only [fixup, List.all_eq_true]
      intro p hp co hco
      have hs := (hh.history.ok.tab _ _ hi).sortedS
      unfold fixupLineOk
      rw [Bool.not_eq_true', Bool.and_eq_false_iff]
      by_cases he : co.ty = .enumOrStruct
      · right
        rw [decide_eq_false_iff_not]
        intro hun
        obtain ⟨u1, u2⟩ := unknown_iff.1 hun
        rcases hall p.1 p.2 co (hs.find?_of_mem hp) hco (by rw [he]; decide) with h | h
        · exact SMap.find?_none_iff.1 u1 h
        · exact SMap.find?_none_iff.1 u2 h
      · left; simpa using he

/-- Non-vacuity: a header using a struct, an enum, a vector and an undeclared type. -/
example : (prepare 0 [readFresh (c!"enum E { a }; struct B { int x; };" ++ c!"struct A { B b; E e; std::vector<B> v; Q q; };")]).map
      (fun r => (r.2, (r.1[0]?.getD Info.empty).structs.find? c!"A" |>.map fun s => s.complex.map ComplexLine.ty)) =
    some (false, some [.struct, .enum, .vector, .unknown]) := by decide +kernel

/-! ### C17 -/

/-- C17 is false: the type declared by the group is not used. -/
theorem C17_refuted :
    ¬ ∀ (common extra : Str) (n : Str) (s s' : StructS) (co co' : ComplexLine) (g g' : Info),
      (readFresh common).structs.find? n = some s → co ∈ s.complex → co.ty ≠ .vector →
      (beforeSecond common extra)[1]? = some g → co.tyName ∈ g.structs.keys →
      (secondRun common extra)[1]? = some g' → g'.structs.find? n = some s' →
      co' ∈ s'.complex → co'.name = co.name → co'.ty = .struct := by
  intro hall
  have := hall c!"struct A { B b; };" c!"struct B { int x; };" c!"A"
    ⟨c!"A", [], [⟨.enumOrStruct, c!"B", c!"b"⟩], 0⟩ ⟨c!"A", [], [⟨.unknown, c!"B", c!"b"⟩], 0⟩
    ⟨.enumOrStruct, c!"B", c!"b"⟩ ⟨.unknown, c!"B", c!"b"⟩
    lateI lateI'
    (by decide +kernel) (by decide) (by decide) (by decide +kernel) (by decide +kernel) (by decide +kernel)
    (by decide +kernel) (by decide) (by decide)
  cases this

/-- C17, the part that holds: if generation has not run on the common tables before they are copied (the common
output type is unsupported), the group's own declarations do resolve the members of the common structs. -/
theorem C17_unsupported_common_partial {h h1 h2 h' : Heap} {common g g' : Info} {files : List (Option Str)} {ok : Bool}
    (hh : Reading h) (_hc : h[0]? = some common) (hcopy : copyInfo 0 h = some h1)
    (hfiles : processFiles h.length files h1 = some h2) (hg : h2[h.length]? = some g)
    (hp : prepare h.length h2 = some (h', ok)) (hg' : h'[h.length]? = some g')
    {n : Str} {s' : StructS} {co' : ComplexLine} (hn : g'.structs.find? n = some s') (hco : co' ∈ s'.complex)
    (hv : co'.ty ≠ .vector) :
    (co'.tyName ∈ g.structs.keys → co'.ty = .struct) ∧ (co'.tyName ∈ g.enums.keys → co'.ty = .enum) := by
  have hr1 : Reading h1 := .copy hh hcopy
  have hr2 : Reading h2 := by
    clear hg hp
    induction files generalizing h1 with
    | nil => cases hfiles; exact hr1
    | cons c cs ih =>
      simp only [processFiles, Option.bind_eq_some_iff] at hfiles
      obtain ⟨⟨h3, b⟩, e1, e2⟩ := hfiles
      exact ihAux e1 e2 hr1
  exact (C16_first_run hr2 hg hp hg').1 n s' co' hn hco hv
where
  ihAux {h1 h3 h2 : Heap} {self : Nat} {c : Option Str} {cs : List (Option Str)} {b : Bool}
      (e1 : processInputFile self c h1 = some (h3, b)) (e2 : processFiles self cs h3 = some h2) (hr : Reading h1) :
      Reading h2 := by
    have hr3 : Reading h3 := .file hr e1
    clear e1 hr
    induction cs generalizing h3 with
    | nil => cases e2; exact hr3
    | cons c cs ih =>
      simp only [processFiles, Option.bind_eq_some_iff] at e2
      obtain ⟨⟨h4, b4⟩, e3, e4⟩ := e2
      exact ih e4 (.file hr3 e3)

/-- Non-vacuity: the same two headers without the first generation. -/
example : ((copyInfo 0 [readFresh c!"struct A { B b; };"]).bind fun h1 =>
      (processFiles 1 [some c!"struct B { int x; };"] h1).bind fun h2 =>
      (prepare 1 h2).map fun r => (r.2, (r.1[1]?.getD Info.empty).structs.find? c!"A" |>.map fun s => s.complex.map ComplexLine.ty)) =
    some (true, some [.struct]) := by decide +kernel

/-! ### C18 -/

/-- An output specification.  (Specification notion, models no code.) -/
def someSpec : OutSpec := ⟨[], c!"enums", c!"structs", c!"R", c!"W", 0, false, false⟩

/-- Some struct has a member of type `n`, or a vector of `n`.  (Specification notion, models no code.) -/
def Used (S : SMap StructS) (n : Str) : Prop :=
  ∃ m s co, S.find? m = some s ∧ co ∈ s.complex ∧ co.tyName = n

/-- The structs with entry points after the first two steps of generation. -/
theorem tops_iff {h h' : Heap} {self : Nat} {i i' : Info} {ok : Bool} (hh : History h)
    (hi : h[self]? = some i) (hp : prepare self h = some (h', ok)) (hi' : h'[self]? = some i') (n : Str) :
    n ∈ tops i'.structs ↔ n ∈ i.structs.keys ∧ ¬ Ref i'.structs n := by
  have ht := hh.ok.tab _ _ hi
  have hh' : History h' := .generate hh hp
  have ht' := hh'.ok.tab _ _ hi'
  have hs' := hh'.sound hi'
  have hlt : self < h.length := (List.getElem?_eq_some_iff.1 hi).1
  simp only [prepare, hi, Option.bind_eq_bind, Option.bind_some, Option.some.injEq, Prod.mk.injEq] at hp
  obtain ⟨rfl, hok⟩ := hp
  rw [List.getElem?_set_self hlt] at hi'
  cases hi'
  have names := (fixup_same i).trans (findTop_same (fixup i).1)
  rw [← names.keys]
  constructor
  · intro hm
    simp only [tops, List.mem_map, List.mem_filter, Prod.exists, exists_eq_right, isTop, decide_eq_true_eq] at hm
    obtain ⟨s, ⟨⟨k, hks⟩, hz⟩, rfl⟩ := hm
    have hf := ht'.sortedS.find?_of_mem hks
    have hname : s.name = k := ht'.nameS _ _ hf
    rw [hname]
    refine ⟨SMap.mem_keys.2 ⟨s, hks⟩, ?_⟩
    intro hr
    rw [ref_findTop] at hr
    have hr' := (refs_pos ((fixup_same i).tabOk ht).sortedS).2 hr
    rw [prep_find] at hf
    cases h0 : i.structs.find? k with
    | none => rw [h0] at hf; cases hf
    | some s0 =>
      rw [h0] at hf
      cases hf
      simp only at hz
      omega
  · rintro ⟨hk, hr⟩
    obtain ⟨s, hks⟩ := SMap.mem_keys.1 hk
    have hf := ht'.sortedS.find?_of_mem hks
    have hname : s.name = n := ht'.nameS _ _ hf
    simp only [tops, List.mem_map, List.mem_filter, Prod.exists, exists_eq_right, isTop, decide_eq_true_eq]
    refine ⟨s, ⟨⟨n, hks⟩, ?_⟩, hname⟩
    apply Classical.byContradiction
    intro hz
    exact hr (hs'.counted n s hf hz)

/-- The entry points of the generated reader and writer classes are exactly those for `names`.  (Example, models no code.) -/
def EntryPoints (k : Kind) (stamp fc fh : Str) (inputs : List Str) (out : OutSpec) (S : SMap StructS)
    (names : Str → Prop) : Prop :=
  ∀ n, (n ∈ (structsH k stamp fh inputs out S).filterMap Item.readFileDecl ↔ names n) ∧
    ((out.readerClass, n) ∈ (structsCpp k stamp fc fh inputs out S).filterMap Item.readFileDef ↔ names n) ∧
    (n ∈ (structsH k stamp fh inputs out S).filterMap Item.writeFileDecl ↔ out.onlyRead = false ∧ names n) ∧
    ((out.writerClass, n) ∈ (structsCpp k stamp fc fh inputs out S).filterMap Item.writeFileDef ↔
      out.onlyRead = false ∧ names n)

theorem entryPoints_tops (k : Kind) (stamp fc fh : Str) (inputs : List Str) (out : OutSpec) (S : SMap StructS) :
    EntryPoints k stamp fc fh inputs out S (· ∈ tops S) := by
  intro n
  obtain ⟨h1, h2, _⟩ := structsH_contents k stamp fh inputs out S
  obtain ⟨h3, h4, _⟩ := structsCpp_contents k stamp fc fh inputs out S
  rw [h1, h2, h3, h4]
  cases out.onlyRead <;> simp

/-- C18 as stated is false: in the run for the group below, `B` is the type of a member of `A` and still gets
entry points (that member was given up as "unknown" in the run for the common part). -/
theorem C18_refuted :
    ¬ ∀ (h h' : Heap) (self : Nat) (i i' : Info) (ok : Bool), History h → h[self]? = some i →
      prepare self h = some (h', ok) → h'[self]? = some i' →
      ∀ n, n ∈ (structsH .attrib [] [] [] someSpec i'.structs).filterMap Item.readFileDecl ↔
        n ∈ i.structs.keys ∧ ¬ Used i.structs n := by
  intro hall
  have e1 : late[1]? = some lateI := by decide +kernel
  have e2 : prepare 1 late = some (late', true) := by decide +kernel
  have e3 : late'[1]? = some lateI' := by decide +kernel
  have := (hall late late' 1 lateI lateI' true (beforeSecond_history _ _) e1 e2 e3 c!"B").1
    (by rw [(structsH_contents .attrib [] [] [] someSpec lateI'.structs).1]; decide +kernel)
  exact this.2 ⟨c!"A", ⟨c!"A", [], [⟨.unknown, c!"B", c!"b"⟩], 0⟩, ⟨.unknown, c!"B", c!"b"⟩,
    by decide +kernel, by decide, by decide⟩

/-- C18, the part that holds: it is enough that no member was given up as "unknown" in an earlier run, however
many runs there were before on this or other (copied) tables. -/
theorem C18_entry_points_partial {h h' : Heap} {self : Nat} {i i' : Info} {ok : Bool} (hh : History h)
    (hi : h[self]? = some i) (hnu : NoUnknown i.structs i.enums)
    (hp : prepare self h = some (h', ok)) (hi' : h'[self]? = some i')
    (k : Kind) (stamp fc fh : Str) (inputs : List Str) (out : OutSpec) :
    EntryPoints k stamp fc fh inputs out i'.structs (fun n => n ∈ i.structs.keys ∧ ¬ Used i.structs n) := by
  have key : ∀ n, n ∈ tops i'.structs ↔ n ∈ i.structs.keys ∧ ¬ Used i.structs n := by
    intro n
    rw [tops_iff hh hi hp hi' n]
    refine and_congr_right fun hk => not_congr ?_
    obtain ⟨hkeys, _, _, hl⟩ := C16_resolved_partial hh hi hp hi'
    constructor
    · rintro ⟨m, s', co', r1, r2, r3, r4⟩
      have : ∃ s, i.structs.find? m = some s := by
        have := find?_isSome_of_keys hkeys m
        rw [r1] at this
        exact Option.isSome_iff_exists.1 this.symm
      obtain ⟨s, hs⟩ := this
      obtain ⟨s2, e2, _, _, el, hl⟩ := hl m s hs
      rw [r1] at e2; cases e2
      obtain ⟨j, hj, hje⟩ := List.getElem_of_mem r2
      obtain ⟨co2, e3, _, e5, _⟩ := hl j s.complex[j] (List.getElem?_eq_getElem (by omega))
      rw [List.getElem?_eq_getElem hj, hje] at e3
      cases e3
      exact ⟨m, s, s.complex[j], hs, List.getElem_mem _, by rw [← e5]; exact r4⟩
    · rintro ⟨m, s, co, u1, u2, rfl⟩
      obtain ⟨s', e2, _, _, _, hl⟩ := hl m s u1
      obtain ⟨j, hj, hje⟩ := List.getElem_of_mem u2
      obtain ⟨co', e3, _, e5, e6, e7⟩ := hl j co (by rw [List.getElem?_eq_getElem hj, hje])
      refine ⟨m, s', co', e2, List.mem_of_getElem? e3, ?_, e5⟩
      by_cases hv : co.ty = .vector
      · exact Or.inr (e6.2 hv)
      · exact Or.inl ((e7 hv (hnu m s co u1 u2)).1 hk)
  intro n
  have := entryPoints_tops k stamp fc fh inputs out i'.structs n
  simpa only [key] using this

/-- The hypothesis of `C18_entry_points_partial` always holds in the first run. -/
theorem C18_first_run {h h' : Heap} {self : Nat} {i i' : Info} {ok : Bool} (hh : Reading h)
    (hi : h[self]? = some i) (hp : prepare self h = some (h', ok)) (hi' : h'[self]? = some i')
    (k : Kind) (stamp fc fh : Str) (inputs : List Str) (out : OutSpec) :
    EntryPoints k stamp fc fh inputs out i'.structs (fun n => n ∈ i.structs.keys ∧ ¬ Used i.structs n) :=
  C18_entry_points_partial hh.history hi (hh.unresolved hi).noUnknown hp hi' k stamp fc fh inputs out

/-- Non-vacuity: `A` uses `B` and a vector of `C`, `D` uses itself. -/
example : (prepare 0 [readFresh (c!"struct B { int x; }; struct C { int y; };" ++
      c!"struct A { B b; std::vector<C> c; }; struct D { std::vector<D> d; };")]).map
      (fun r => tops (r.1[0]?.getD Info.empty).structs) = some [c!"A"] := by decide +kernel

/-! ### C19 -/

/-- `a` has a member of type `b` or a vector of `b`, and `b` is a declared struct.  (Specification notion, models no code.) -/
def Contains (S : SMap StructS) (a b : Str) : Prop :=
  b ∈ S.keys ∧ ∃ s co, S.find? a = some s ∧ co ∈ s.complex ∧ co.tyName = b

/-- The same as far as generation resolved it: the code generated for `a` calls the code for `b`.
(Specification notion, models no code.) -/
def Handles (S : SMap StructS) (a b : Str) : Prop :=
  ∃ s co, S.find? a = some s ∧ co ∈ s.complex ∧ (co.ty = .struct ∨ co.ty = .vector) ∧ co.tyName = b

/-- Reached from `a` by following `r` zero or more times.  (Specification notion, models no code.) -/
def Reaches (r : Str → Str → Prop) (a b : Str) : Prop := a = b ∨ Relation.TransGen r a b

theorem transGen_head {α : Type} {r : α → α → Prop} {a b c : α} (h1 : r a b) (h2 : Relation.TransGen r b c) :
    Relation.TransGen r a c := by
  induction h2 with
  | single h => exact .tail (.single h1) h
  | tail _ h ih => exact .tail ih h

theorem transGen_trans {α : Type} {r : α → α → Prop} {a b c : α} (h1 : Relation.TransGen r a b)
    (h2 : Relation.TransGen r b c) : Relation.TransGen r a c := by
  induction h2 with
  | single h => exact .tail h1 h
  | tail _ h ih => exact .tail ih h

theorem transGen_mono {α : Type} {r r' : α → α → Prop} (h : ∀ a b, r a b → r' a b) {a b : α}
    (h1 : Relation.TransGen r a b) : Relation.TransGen r' a b := by
  induction h1 with
  | single h1 => exact .single (h _ _ h1)
  | tail _ h2 ih => exact .tail ih (h _ _ h2)

/-- Going backwards along an acyclic relation on finitely many names ends at a name nothing points to. -/
theorem source_exists {r : Str → Str → Prop} {names : List Str} (hdom : ∀ a b, r a b → a ∈ names)
    (hac : ∀ a, ¬ Relation.TransGen r a a) :
    ∀ (fuel : Nat) (n : Str) (vs : List Str), n ∈ names → vs.Nodup → (∀ v ∈ vs, v ∈ names) →
      (∀ v ∈ vs, Relation.TransGen r n v) → names.length ≤ vs.length + fuel →
      ∃ e ∈ names, Reaches r e n ∧ ∀ m, ¬ r m e := by
  intro fuel
  induction fuel with
  | zero =>
    intro n vs hn hnd hsub htr hlen
    exfalso
    have hnv : n ∉ vs := fun h => hac n (htr n h)
    have := List.Nodup.length_le_of_subset (List.nodup_cons.2 ⟨hnv, hnd⟩)
      (fun x hx => (List.mem_cons.1 hx).elim (fun e => e ▸ hn) (hsub x) : n :: vs ⊆ names)
    simp at this
    omega
  | succ fuel ih =>
    intro n vs hn hnd hsub htr hlen
    have hnv : n ∉ vs := fun h => hac n (htr n h)
    by_cases hp : ∃ m, r m n
    · obtain ⟨m, hm⟩ := hp
      obtain ⟨e, he, hreach, hsrc⟩ := ih m (n :: vs) (hdom _ _ hm) (List.nodup_cons.2 ⟨hnv, hnd⟩)
        (fun x hx => (List.mem_cons.1 hx).elim (fun e => e ▸ hn) (hsub x))
        (fun x hx => by
          rcases List.mem_cons.1 hx with rfl | hx
          · exact .single hm
          · exact transGen_head hm (htr x hx))
        (by simp; omega)
      refine ⟨e, he, Or.inr ?_, hsrc⟩
      rcases hreach with rfl | hreach
      · exact .single hm
      · exact .tail hreach hm
    · exact ⟨n, hn, Or.inl rfl, fun m hm => hp ⟨m, hm⟩⟩

/-- C19: if no struct contains itself, directly or through members and vectors, then every struct is reached
from one with entry points (so there is one as soon as there is a struct), at any time in any run.  "Reached"
follows the calls the generated code makes. -/
theorem C19_reachable {h h' : Heap} {self : Nat} {i i' : Info} {ok : Bool} (hh : History h)
    (hi : h[self]? = some i) (hp : prepare self h = some (h', ok)) (hi' : h'[self]? = some i')
    (hac : ∀ n, ¬ Relation.TransGen (Contains i.structs) n n)
    (k : Kind) (stamp fh : Str) (inputs : List Str) (out : OutSpec) {n : Str} (hn : n ∈ i.structs.keys) :
    ∃ e ∈ (structsH k stamp fh inputs out i'.structs).filterMap Item.readFileDecl,
      Reaches (Handles i'.structs) e n := by
  have ht := hh.ok.tab _ _ hi
  have hsound' := (History.generate hh hp).sound hi'
  obtain ⟨hkeys, _, _, hl⟩ := C16_resolved_partial hh hi hp hi'
  let r : Str → Str → Prop := fun a b => b ∈ i.structs.keys ∧ Handles i'.structs a b
  have hrc : ∀ a b, r a b → Contains i.structs a b := by
    rintro a b ⟨hb, s', co', r1, r2, r3, r4⟩
    have : ∃ s, i.structs.find? a = some s := by
      have := find?_isSome_of_keys hkeys a
      rw [r1] at this
      exact Option.isSome_iff_exists.1 this.symm
    obtain ⟨s, hs⟩ := this
    obtain ⟨s2, e2, _, _, el, hl⟩ := hl a s hs
    rw [r1] at e2; cases e2
    obtain ⟨j, hj, hje⟩ := List.getElem_of_mem r2
    obtain ⟨co2, e3, _, e5, _⟩ := hl j s.complex[j] (List.getElem?_eq_getElem (by omega))
    rw [List.getElem?_eq_getElem hj, hje] at e3
    cases e3
    exact ⟨hb, s, s.complex[j], hs, List.getElem_mem _, by rw [← e5]; exact r4⟩
  have hdom : ∀ a b, r a b → a ∈ i.structs.keys := by
    rintro a b ⟨_, s, _, r1, _⟩
    rw [← hkeys]
    exact SMap.mem_keys.2 ⟨s, SMap.find?_some_mem r1⟩
  obtain ⟨e, he, hreach, hsrc⟩ := source_exists hdom (fun a ha => hac a (transGen_mono hrc ha))
    i.structs.keys.length n [] hn List.nodup_nil (by simp) (by simp) (by simp)
  refine ⟨e, ?_, ?_⟩
  · rw [(structsH_contents k stamp fh inputs out i'.structs).1, tops_iff hh hi hp hi']
    refine ⟨he, ?_⟩
    rintro ⟨m, s, co, r1, r2, r3, r4⟩
    exact hsrc m ⟨he, s, co, r1, r2, r3, r4⟩
  · rcases hreach with rfl | hreach
    · exact Or.inl rfl
    · exact Or.inr (transGen_mono (fun _ _ h => h.2) hreach)

/-- Non-vacuity: the schema of stfx's own configuration has this shape; here a chain of three structs. -/
example : (prepare 0 [readFresh (c!"struct Z { int x; }; struct M { Z z; };" ++ c!"struct A { std::vector<M> m; };")]).map
      (fun r => tops (r.1[0]?.getD Info.empty).structs) = some [c!"A"] := by decide +kernel

/-- The acyclicity hypothesis is needed: a struct with a vector of itself has no entry point. -/
example : (prepare 0 [readFresh c!"struct A { std::vector<A> a; };"]).map
      (fun r => tops (r.1[0]?.getD Info.empty).structs) = some [] := by decide +kernel

end Stfx.Gen
