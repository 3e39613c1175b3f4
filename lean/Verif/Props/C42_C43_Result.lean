import Verif.Props.C16_C19_Resolve
import Verif.Main.Facts
/-
Properties C42, C43, C47 and the reporting part of C16: what generation reports.
-/
set_option autoImplicit false
namespace Stfx.Main
open Stfx.Lexer Stfx.Parser Stfx.Items Stfx.Gen

/-- Is the member's type declared?  (Specification notion, models no code.) -/
def Declared (i : Info) (co : ComplexLine) : Prop := co.tyName ∈ i.structs.keys ∨ co.tyName ∈ i.enums.keys

/-- Could both struct files be opened?  (Specification notion, models no code.) -/
def StructFilesOpen (env : Env) (base : Str) (out : OutSpec) : Prop :=
  ∃ dir, outDir env base out = some dir ∧ env.canWrite (cppPath dir out.structsFile) = true ∧
    env.canWrite (hPath dir out.structsFile) = true

theorem processItems_result {w w' : World} {self : Nat} {i : Info} (hi : w.heap[self]? = some i) {env : Env} {k : Kind}
    {base : Str} {inputs : List Str} {out : OutSpec} {b : Bool} (e : processItems env k base self inputs out w = .ok b w')
    (hd : disabled out.structsFile = false) :
    b = true ↔ (fixup i).2 = true ∧ StructFilesOpen env base out ∧
      structsOk k out (findTop (fixup i).1).1.structs = true := by
  have hlt : self < w.heap.length := (List.getElem?_eq_some_iff.1 hi).1
  have hp : prepare self w.heap = some (w.heap.set self (findTop (fixup i).1).1, (fixup i).2 && true) := by
    simp only [prepare, hi, Option.bind_eq_bind, Option.bind_some]; rfl
  unfold processItems at e
  rw [hp] at e
  simp only [List.getElem?_set_self hlt, hd, Bool.false_eq_true, if_false, Bool.and_true] at e
  cases ho : outDir env base out with
  | none =>
    exfalso
    cases h1 : disabled out.enumFile <;> simp [h1, processAllEnums, processAllStructs, ho, Res.bind] at e
  | some dir =>
    have hf : StructFilesOpen env base out ↔ env.canWrite (cppPath dir out.structsFile) = true ∧
        env.canWrite (hPath dir out.structsFile) = true := by
      unfold StructFilesOpen; rw [ho]; simp
    rw [hf]
    cases h1 : disabled out.enumFile <;>
      simp only [h1, processAllEnums, processAllStructs, ho, Res.bind, writePair_ok, Bool.false_eq_true, if_false,
        if_true, Bool.and_true] at e <;>
      injection e with e1 e2 <;> rw [← e1] <;> simp [Bool.and_eq_true, and_assoc]

theorem all_find {S : SMap StructS} (hs : SMap.Sorted S) (p : StructS → Bool) :
    (S.all fun x => p x.2) = true ↔ ∀ n s, S.find? n = some s → p s = true := by
  rw [List.all_eq_true]
  constructor
  · intro h n s hn
    exact h (n, s) (SMap.find?_some_mem hn)
  · intro h x hx
    exact h x.1 x.2 (hs.find?_of_mem hx)

theorem structsOk_iff {S : SMap StructS} (hs : SMap.Sorted S) (k : Kind) (out : OutSpec) :
    structsOk k out S = true ↔ ∀ n s, S.find? n = some s → readerOk k s = true := by
  rw [← all_find hs]
  unfold structsOk writerOk
  rw [Bool.and_eq_true, Bool.or_eq_true]
  exact ⟨fun h => h.1, fun h => ⟨h, Or.inr h⟩⟩

theorem prepOk_iff {i : Info} (ht : TabOk i) (k : Kind) (out : OutSpec) :
    structsOk k out (findTop (fixup i).1).1.structs = true ↔
      ∀ n s, i.structs.find? n = some s → readerOk k { s with complex := s.complex.map (fixupLine i) } = true := by
  have names := (fixup_same i).trans (findTop_same (fixup i).1)
  rw [structsOk_iff (names.tabOk ht).sortedS]
  constructor
  · intro h n s hn
    have := h n { s with complex := s.complex.map (fixupLine i), incoming := s.incoming + refs (fixup i).1.structs n }
      (by rw [prep_find, hn]; rfl)
    cases k <;> exact this
  · intro h n s hn
    rw [prep_find] at hn
    cases h0 : i.structs.find? n with
    | none => rw [h0] at hn; cases hn
    | some s0 =>
      rw [h0] at hn; cases hn
      have := h n s0 h0
      cases k <;> exact this

/-- What a line is after resolution. -/
theorem fixupLine_iff {i : Info} (hsound : Sound i.structs i.enums) {n : Str} {s : StructS}
    {co : ComplexLine} (hn : i.structs.find? n = some s) (hco : co ∈ s.complex) :
    (fixupLine i co).ty = .enum ∨ (fixupLine i co).ty = .struct ↔ co.ty ≠ .vector ∧ co.ty ≠ .unknown ∧ Declared i co := by
  have hS : ∀ {k s}, i.structs.find? k = some s → k ∈ i.structs.keys :=
    fun h => SMap.mem_keys.2 ⟨_, SMap.find?_some_mem h⟩
  have hE : ∀ {k s}, i.enums.find? k = some s → k ∈ i.enums.keys :=
    fun h => SMap.mem_keys.2 ⟨_, SMap.find?_some_mem h⟩
  by_cases he : co.ty = .enumOrStruct
  · rw [fixupLine_ty he, he]
    constructor
    · intro h
      refine ⟨by decide, by decide, ?_⟩
      rcases h with h | h
      · obtain ⟨t, h⟩ := itemType_enum h; exact Or.inr (hE h)
      · obtain ⟨t, h⟩ := itemType_struct h; exact Or.inl (hS h)
    · rintro ⟨_, _, h⟩
      cases h1 : getItemType i co.tyName with
      | enum => exact Or.inl rfl
      | struct => exact Or.inr rfl
      | unknown =>
        obtain ⟨u1, u2⟩ := unknown_iff.1 h1
        rcases h with h | h
        · exact absurd h (SMap.find?_none_iff.1 u1)
        · exact absurd h (SMap.find?_none_iff.1 u2)
      | vector => rcases itemType_cases i co.tyName with h2 | h2 | h2 <;> rw [h1] at h2 <;> cases h2
      | enumOrStruct => rcases itemType_cases i co.tyName with h2 | h2 | h2 <;> rw [h1] at h2 <;> cases h2
  · rw [fixupLine_keep he]
    constructor
    · rintro (h | h)
      · obtain ⟨t, h'⟩ := hsound.enum _ _ _ hn hco h
        exact ⟨by rw [h]; decide, by rw [h]; decide, Or.inr (hE h')⟩
      · obtain ⟨t, h'⟩ := hsound.struct _ _ _ hn hco h
        exact ⟨by rw [h]; decide, by rw [h]; decide, Or.inl (hS h')⟩
    · rintro ⟨h1, h2, _⟩
      cases h : co.ty <;> simp_all

theorem fixup_ok_iff {i : Info} (ht : TabOk i) :
    (fixup i).2 = true ↔ ∀ n s co, i.structs.find? n = some s → co ∈ s.complex → co.ty = .enumOrStruct → Declared i co := by
  show (i.structs.all fun p => p.2.complex.all (fixupLineOk i)) = true ↔ _
  rw [all_find ht.sortedS (fun s => s.complex.all (fixupLineOk i))]
  have key : ∀ co : ComplexLine, fixupLineOk i co = true ↔ (co.ty = .enumOrStruct → Declared i co) := by
    intro co
    unfold fixupLineOk
    by_cases he : co.ty = .enumOrStruct
    · simp only [he, decide_true, Bool.true_and, Bool.not_eq_true', decide_eq_false_iff_not, unknown_iff, forall_const]
      rw [SMap.find?_none_iff, SMap.find?_none_iff]
      unfold Declared
      constructor
      · intro h; exact Classical.byContradiction fun h2 => h ⟨fun h3 => h2 (Or.inl h3), fun h3 => h2 (Or.inr h3)⟩
      · rintro (h | h) ⟨h1, h2⟩
        · exact h1 h
        · exact h2 h
    · simp [he]
  constructor
  · intro h n s co hn hco he
    exact (key co).1 (List.all_eq_true.1 (h n s hn) co hco) he
  · intro h n s hn
    rw [List.all_eq_true]
    intro co hco
    exact (key co).2 (h n s co hn hco)

/-- Success of every generator but ini, exactly. -/
theorem result_iff {w w' : World} (hh : History w.heap) {self : Nat} {i : Info} (hi : w.heap[self]? = some i) {env : Env}
    {k : Kind} (hk : k ≠ .ini) {base : Str} {inputs : List Str} {out : OutSpec} {b : Bool}
    (e : processItems env k base self inputs out w = .ok b w') (hd : disabled out.structsFile = false) :
    b = true ↔ StructFilesOpen env base out ∧ ∀ n s co, i.structs.find? n = some s → co ∈ s.complex →
      (co.ty = .vector → k ≠ .nIni) ∧ (co.ty ≠ .vector → co.ty ≠ .unknown ∧ Declared i co) := by
  have ht := hh.ok.tab _ _ hi
  have hsound := hh.sound hi
  rw [processItems_result hi e hd, fixup_ok_iff ht, prepOk_iff ht]
  have vec : ∀ co : ComplexLine, (fixupLine i co).ty = .vector ↔ co.ty = .vector := by
    intro co
    by_cases he : co.ty = .enumOrStruct
    · rw [fixupLine_ty he, he]
      rcases itemType_cases i co.tyName with h | h | h <;> rw [h] <;> decide
    · rw [fixupLine_keep he]
  constructor
  · rintro ⟨h1, h2, h3⟩
    refine ⟨h2, fun n s co hn hco => ?_⟩
    have h4 := h3 n s hn
    constructor
    · rintro hv rfl
      simp only [readerOk, List.all_map, List.all_eq_true, Function.comp_apply, Bool.or_eq_true, decide_eq_true_eq] at h4
      have := h4 co hco
      rw [(vec co).2 hv] at this
      simp at this
    · intro hv
      have : (fixupLine i co).ty = .enum ∨ (fixupLine i co).ty = .struct := by
        cases k
        case ini => exact absurd rfl hk
        case nIni =>
          simp only [readerOk, List.all_map, List.all_eq_true, Function.comp_apply, Bool.or_eq_true, decide_eq_true_eq] at h4
          exact h4 co hco
        all_goals
          simp only [readerOk, List.all_map, List.all_eq_true, Function.comp_apply, Bool.or_eq_true, decide_eq_true_eq] at h4
          rcases h4 co hco with h5 | h5
          · exact h5
          · exact absurd ((vec co).1 h5) hv
      exact ((fixupLine_iff hsound hn hco).1 this).2
  · rintro ⟨h2, h3⟩
    refine ⟨fun n s co hn hco he => ((h3 n s co hn hco).2 (by rw [he]; decide)).2, h2, fun n s hn => ?_⟩
    have line : ∀ co ∈ s.complex, co.ty ≠ .vector → (fixupLine i co).ty = .enum ∨ (fixupLine i co).ty = .struct :=
      fun co hco hv => (fixupLine_iff hsound hn hco).2 ⟨hv, (h3 n s co hn hco).2 hv⟩
    cases k
    case ini => exact absurd rfl hk
    case nIni =>
      simp only [readerOk, List.all_map, List.all_eq_true, Function.comp_apply, Bool.or_eq_true, decide_eq_true_eq]
      intro co hco
      exact line co hco fun hv => (h3 n s co hn hco).1 hv rfl
    all_goals
      simp only [readerOk, List.all_map, List.all_eq_true, Function.comp_apply, Bool.or_eq_true, decide_eq_true_eq]
      intro co hco
      by_cases hv : co.ty = .vector
      · exact Or.inr ((vec co).2 hv)
      · exact Or.inl (line co hco hv)

/-! ### C42 -/

/-- C42: the ini generator never reports success if there is a struct and struct files are wanted (the run may also be
ended by an exception), and the files it writes contain no reader and no writer function. -/
theorem C42_ini {w w' : World} (hh : History w.heap) {self : Nat} {i : Info} (hi : w.heap[self]? = some i)
    (hne : i.structs ≠ []) {env : Env} {base : Str} {inputs : List Str} {out : OutSpec} {b : Bool}
    (hd : out.structsFile ≠ [] ∧ out.structsFile ≠ c!"-")
    (e : processItems env .ini base self inputs out w = .ok b w') :
    b = false ∧
    (∀ stamp fc fh, (structsCpp .ini stamp fc fh inputs out i.structs).filterMap Item.readerDefined = [] ∧
      (structsCpp .ini stamp fc fh inputs out i.structs).filterMap Item.writerDefined = [] ∧
      (structsH .ini stamp fh inputs out i.structs).filterMap Item.readerDeclared = [] ∧
      (structsH .ini stamp fh inputs out i.structs).filterMap Item.writerDeclared = []) := by
  constructor
  · cases b
    · rfl
    · exfalso
      have hd' : disabled out.structsFile = false := by simp [disabled, hd]
      have h := ((processItems_result hi e hd').1 rfl).2.2
      have ht := hh.ok.tab _ _ hi
      rw [prepOk_iff ht] at h
      cases hs : i.structs with
      | nil => exact hne hs
      | cons p l =>
        have := h p.1 p.2 (ht.sortedS.find?_of_mem (by rw [hs]; exact List.mem_cons_self))
        cases this
  · intro stamp fc fh
    have h1 := structsCpp_contents .ini stamp fc fh inputs out i.structs
    have h2 := structsH_contents .ini stamp fh inputs out i.structs
    refine ⟨by rw [h1.2.2.1]; rfl, ?_, by rw [h2.2.2.1]; rfl, ?_⟩
    · rw [h1.2.2.2]; cases out.onlyRead <;> rfl
    · rw [h2.2.2.2.1]; cases out.onlyRead <;> rfl

/-- An environment in which everything can be written.  (Example, models no code.) -/
def openEnv : Env := ⟨fun _ => true, fun p => some p, id, []⟩
/-- Tables read from a header, nothing written yet.  (Example, models no code.) -/
def readWorld (text : Str) : World := ⟨[readFresh text], fun _ => none, []⟩

/-- The result of generation from a header in that environment.  (Specification notion, models no code.) -/
def resultOf (k : Kind) (text : Str) : Option Bool :=
  match processItems openEnv k c!"/d" 0 [] someSpec (readWorld text) with
  | .ok b _ => some b
  | .stop _ _ => none

/-- Non-vacuity: a header with a struct. -/
example : resultOf .ini c!"struct A { int a; };" = some false ∧ resultOf .nIni c!"struct A { int a; };" = some true ∧
    (readFresh c!"struct A { int a; };").structs ≠ [] := by
  refine ⟨by decide +kernel, by decide +kernel, by decide +kernel⟩

/-! ### C43, C47 -/

/-- C43 as stated is false: a member type that was unknown in the first run is not looked up again, so generation
reports failure although all types are declared. -/
theorem C43_refuted :
    ¬ ∀ (w w' : World) (self : Nat) (i : Info) (env : Env) (base : Str) (inputs : List Str) (out : OutSpec) (b : Bool),
      History w.heap → w.heap[self]? = some i → StructFilesOpen env base out → disabled out.structsFile = false →
      processItems env .nIni base self inputs out w = .ok b w' →
      (b = true ↔ ∀ n s co, i.structs.find? n = some s → co ∈ s.complex → co.ty ≠ .vector ∧ Declared i co) := by
  intro hall
  have hi : late[1]? = some lateI := by decide +kernel
  have hh : History late := beforeSecond_history _ _
  have ho : StructFilesOpen openEnv c!"/d" someSpec := ⟨_, rfl, rfl, rfl⟩
  have hlt : 1 < late.length := (List.getElem?_eq_some_iff.1 hi).1
  have hd : disabled someSpec.structsFile = false := by decide
  obtain ⟨_, _, _, h4⟩ := processItems_spec (w := ⟨late, fun _ => none, []⟩) hh.ok hlt openEnv .nIni c!"/d" [] someSpec
  rcases h4 with ⟨b, w', e⟩ | ⟨_, h5, _⟩
  · have h1 := hall _ w' 1 lateI openEnv c!"/d" [] someSpec b hh hi ho hd e
    have h2 := result_iff (w := ⟨late, fun _ => none, []⟩) hh hi (by decide) e hd
    have h3 : b = true := by
      apply h1.2
      have key : lateI.structs.all (fun p => p.2.complex.all fun co =>
          decide (co.ty ≠ .vector) && decide (co.tyName ∈ lateI.structs.keys)) = true := by decide +kernel
      intro n s co hn hco
      have := List.all_eq_true.1 key _ (SMap.find?_some_mem hn)
      have := List.all_eq_true.1 this co hco
      simp only [Bool.and_eq_true, decide_eq_true_eq] at this
      exact ⟨this.1, Or.inl this.2⟩
    have h6 := (h2.1 h3).2 c!"A" ⟨c!"A", [], [⟨.unknown, c!"B", c!"b"⟩], 0⟩ ⟨.unknown, c!"B", c!"b"⟩ (by decide +kernel)
      List.mem_cons_self
    exact (h6.2 (by decide)).1 rfl
  · exact h5 rfl

/-- C43, the part that holds: n_ini generation reports success exactly if the struct files can be opened, no struct has a
vector member, every member type is declared, and no member was given up as unknown in an earlier run. -/
theorem C43_nIni_partial {w w' : World} (hh : History w.heap) {self : Nat} {i : Info} (hi : w.heap[self]? = some i)
    {env : Env} {base : Str} {inputs : List Str} {out : OutSpec} {b : Bool}
    (hd : out.structsFile ≠ [] ∧ out.structsFile ≠ c!"-")
    (e : processItems env .nIni base self inputs out w = .ok b w') :
    b = true ↔ StructFilesOpen env base out ∧ ∀ n s co, i.structs.find? n = some s → co ∈ s.complex →
      co.ty ≠ .vector ∧ co.ty ≠ .unknown ∧ Declared i co := by
  rw [result_iff hh hi (by decide) e (by simp [disabled, hd])]
  constructor
  · rintro ⟨h1, h2⟩
    refine ⟨h1, fun n s co hn hco => ?_⟩
    have h3 := h2 n s co hn hco
    have hv : co.ty ≠ .vector := fun hv => h3.1 hv rfl
    exact ⟨hv, h3.2 hv⟩
  · rintro ⟨h1, h2⟩
    refine ⟨h1, fun n s co hn hco => ?_⟩
    obtain ⟨h3, h4⟩ := h2 n s co hn hco
    exact ⟨fun hv => absurd hv h3, fun _ => h4⟩

/-- C43 as stated, for tables on which generation has not run before (single headers, the common part, and groups after
an unsupported common output type). -/
theorem C43_first_run {w w' : World} (hh : Reading w.heap) {self : Nat} {i : Info} (hi : w.heap[self]? = some i)
    {env : Env} {base : Str} {inputs : List Str} {out : OutSpec} {b : Bool}
    (hd : out.structsFile ≠ [] ∧ out.structsFile ≠ c!"-") (ho : StructFilesOpen env base out)
    (e : processItems env .nIni base self inputs out w = .ok b w') :
    b = true ↔ ∀ n s co, i.structs.find? n = some s → co ∈ s.complex → co.ty ≠ .vector ∧ Declared i co := by
  rw [C43_nIni_partial hh.history hi hd e]
  have hun := (hh.unresolved hi).noUnknown
  constructor
  · rintro ⟨_, h⟩ n s co hn hco
    exact ⟨(h n s co hn hco).1, (h n s co hn hco).2.2⟩
  · intro h
    exact ⟨ho, fun n s co hn hco => ⟨(h n s co hn hco).1, hun n s co hn hco, (h n s co hn hco).2⟩⟩

/-- Non-vacuity: nested structs and enums are supported, vectors and undeclared types are not. -/
example : resultOf .nIni c!"enum E { a }; struct B { E e; }; struct A { B b; };" = some true ∧
    resultOf .nIni c!"struct B { int e; }; struct A { std::vector<B> b; };" = some false ∧
    resultOf .nIni c!"struct A { B b; };" = some false := by
  refine ⟨by decide +kernel, by decide +kernel, by decide +kernel⟩

/-- C47: for tables on which generation has not run before, the XML generators report success exactly if the struct files
can be opened and the type of every member that is not a vector is declared. -/
theorem C47_xml_result {w w' : World} (hh : Reading w.heap) {self : Nat} {i : Info} (hi : w.heap[self]? = some i)
    {env : Env} {k : Kind} (hk : k = .xml ∨ k = .attrib) {base : Str} {inputs : List Str} {out : OutSpec} {b : Bool}
    (hd : out.structsFile ≠ [] ∧ out.structsFile ≠ c!"-")
    (e : processItems env k base self inputs out w = .ok b w') :
    b = true ↔ StructFilesOpen env base out ∧
      ∀ n s co, i.structs.find? n = some s → co ∈ s.complex → co.ty ≠ .vector → Declared i co := by
  have hun := (hh.unresolved hi).noUnknown
  rw [result_iff hh.history hi (by rcases hk with rfl | rfl <;> decide) e (by simp [disabled, hd])]
  constructor
  · rintro ⟨h1, h2⟩
    exact ⟨h1, fun n s co hn hco hv => ((h2 n s co hn hco).2 hv).2⟩
  · rintro ⟨h1, h2⟩
    refine ⟨h1, fun n s co hn hco => ⟨fun _ => by rcases hk with rfl | rfl <;> decide, fun hv => ?_⟩⟩
    exact ⟨hun n s co hn hco, h2 n s co hn hco hv⟩

/-- Non-vacuity: the element type of a vector is not checked. -/
example : resultOf .xml c!"struct A { std::vector<B> b; };" = some true ∧
    resultOf .attrib c!"struct A { std::vector<B> b; B c; };" = some false := by
  refine ⟨by decide +kernel, by decide +kernel⟩

/-! ### C16, reporting -/

/-- C16, reporting: in any run, at any time, if struct files are wanted and some member that is not a vector has an
undeclared type, generation does not report success. -/
theorem C16_reported {w w' : World} (hh : History w.heap) {self : Nat} {i : Info} (hi : w.heap[self]? = some i)
    {env : Env} {k : Kind} {base : Str} {inputs : List Str} {out : OutSpec} {b : Bool}
    (hd : out.structsFile ≠ [] ∧ out.structsFile ≠ c!"-")
    {n : Str} {s : StructS} {co : ComplexLine} (hn : i.structs.find? n = some s) (hco : co ∈ s.complex)
    (hv : co.ty ≠ .vector) (hno : co.tyName ∉ i.structs.keys ∧ co.tyName ∉ i.enums.keys)
    (e : processItems env k base self inputs out w = .ok b w') : b = false := by
  cases b
  · rfl
  · exfalso
    by_cases hk : k = .ini
    · subst hk
      have := (C42_ini hh hi (by intro h; rw [h] at hn; cases hn) hd e).1
      cases this
    · have := (((result_iff hh hi hk e (by simp [disabled, hd])).1 rfl).2 n s co hn hco).2 hv
      rcases this.2 with h | h
      · exact hno.1 h
      · exact hno.2 h

/-- Without struct files it can: the member that became unknown in the first run is not reported in the second.
(Example, models no code.) -/
def againWorld : World := ⟨beforeSecond c!"struct A { B b; };" c!"enum E { a };", fun _ => none, []⟩
/-- See the definition before it.  (Specification notion, models no code.) -/
def enumsOnly : OutSpec := { someSpec with structsFile := [] }

theorem C16_unreported : ∃ w', processItems openEnv .xml c!"/d" 1 [] enumsOnly againWorld = .ok true w' ∧
    ∃ i s co, againWorld.heap[1]? = some i ∧ i.structs.find? c!"A" = some s ∧ co ∈ s.complex ∧ co.ty ≠ .vector ∧
      co.tyName ∉ i.structs.keys ∧ co.tyName ∉ i.enums.keys := by
  have key : ∃ b w', processItems openEnv .xml c!"/d" 1 [] enumsOnly againWorld = .ok b w' ∧ b = true := by
    unfold processItems
    have hp : ∃ h', prepare 1 againWorld.heap = some (h', true) ∧ h'[1]?.isSome = true := by
      refine ⟨secondRun c!"struct A { B b; };" c!"enum E { a };", by decide +kernel, by decide +kernel⟩
    obtain ⟨h', e1, e2⟩ := hp
    obtain ⟨i, e3⟩ := Option.isSome_iff_exists.1 e2
    rw [e1]
    simp only [e3]
    exact ⟨_, _, rfl, rfl⟩
  obtain ⟨b, w', e, rfl⟩ := key
  exact ⟨w', e, againWorld.heap[1]?.getD Info.empty, ⟨c!"A", [], [⟨.unknown, c!"B", c!"b"⟩], 0⟩, ⟨.unknown, c!"B", c!"b"⟩,
    by decide +kernel, by decide +kernel, List.mem_cons_self, by decide, by decide +kernel, by decide +kernel⟩

/-- Non-vacuity: see the examples of C43 and C47; here with the ini generator. -/
example : resultOf .ini c!"struct A { B b; };" = some false := by decide +kernel

end Stfx.Main
