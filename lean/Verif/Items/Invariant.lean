import Verif.Props.C12_C15_Items
/-
Invariants of the tables along every history: what reading and generating can do to one object.
-/
namespace Stfx.Items
open Stfx.Parser Stfx.Lexer

/-! ### The calls the parser makes -/

/-- Lines with a type name are filed as "enum or struct" or as vectors, nothing else.  (Proof notion, models no code.) -/
def GoodCall : Call → Prop
  | .complex ty _ _ => ty = .enumOrStruct ∨ ty = .vector
  | _ => True

theorem act_good {n : Nat} {st : List Cell} {init v : SemVal} {cs : List Call} (h : act n st init = some (v, cs)) :
    ∀ c ∈ cs, GoodCall c := by
  unfold act at h
  split at h <;> simp only [Option.bind_eq_bind, Option.bind_eq_some_iff, Option.some.injEq, Prod.mk.injEq] at h <;>
    first
    | (obtain ⟨_, rfl⟩ := h; simp)
    | (obtain ⟨_, _, _, rfl⟩ := h; simp [GoodCall])
    | (obtain ⟨_, _, _, _, _, rfl⟩ := h; simp [GoodCall])
    | (obtain ⟨_, _, _, _, _, _, _, rfl⟩ := h; simp [GoodCall])

theorem reduce_good {c c' : Cfg} {n : Nat} (h : reduce c n = some (.cont c')) (hl : ∀ x ∈ c.log, GoodCall x) :
    ∀ x ∈ c'.log, GoodCall x := by
  unfold reduce at h
  simp only [Option.bind_eq_bind, Option.bind_eq_some_iff, Option.some.injEq, Step.cont.injEq] at h
  obtain ⟨_, _, _, _, _, _, _, _, ⟨v, cs⟩, ha, rfl⟩ := h
  intro x hx
  rcases List.mem_append.1 hx with hx | hx
  · exact hl x hx
  · exact act_good ha x hx

theorem default_good {c c' : Cfg} {n : Nat} (h : Parser.default c n = some (.cont c')) (hl : ∀ x ∈ c.log, GoodCall x) :
    ∀ x ∈ c'.log, GoodCall x := by
  unfold Parser.default at h
  simp only [Option.bind_eq_bind, Option.bind_eq_some_iff] at h
  obtain ⟨_, _, h⟩ := h
  split at h
  · cases h
  · exact reduce_good h hl

theorem step_good {c c' : Cfg} (h : step c = some (.cont c')) (hl : ∀ x ∈ c.log, GoodCall x) :
    ∀ x ∈ c'.log, GoodCall x := by
  unfold step at h
  simp only [Option.bind_eq_bind, Option.bind_eq_some_iff] at h
  obtain ⟨top, _, h⟩ := h
  split at h
  · cases h
  · simp only [Option.bind_eq_some_iff] at h
    obtain ⟨p, _, h⟩ := h
    split at h
    · exact default_good h hl
    · split at h
      · exact default_good h hl
      · simp only [Option.bind_eq_some_iff] at h
        obtain ⟨p, _, h⟩ := h
        split at h
        · exact default_good h hl
        · simp only [Option.bind_eq_some_iff] at h
          obtain ⟨p, _, h⟩ := h
          split at h
          · exact reduce_good h hl
          · cases h; exact hl

theorem run_good (fuel : Nat) (c : Cfg) (hl : ∀ x ∈ c.log, GoodCall x) :
    (∀ log, run fuel c = .accepted log → ∀ x ∈ log, GoodCall x) ∧
    (∀ log t r, run fuel c = .rejected log t r → ∀ x ∈ log, GoodCall x) := by
  induction fuel generalizing c with
  | zero => simp [run]
  | succ n ih =>
    unfold run
    cases hs : step c with
    | none => simp
    | some s =>
      cases s with
      | cont c' => exact ih c' (step_good hs hl)
      | accept => simpa using hl
      | error =>
        cases recovers c.stack with
        | none => simp
        | some b =>
          cases b with
          | true => simp
          | false =>
            simp only [Result.rejected.injEq, reduceCtorEq, false_implies, implies_true, true_and]
            rintro log t r ⟨rfl, _⟩
            exact hl

theorem parse_good (ts : List Token) :
    (∀ log, parse ts = .accepted log → ∀ x ∈ log, GoodCall x) ∧
    (∀ log t r, parse ts = .rejected log t r → ∀ x ∈ log, GoodCall x) :=
  run_good _ _ (by simp [Cfg.init])

/-! ### Predicates kept by reading and by generation -/

/-- `P` holds for empty tables and is kept by everything reading a file can do to them.  (Proof notion, models no code.) -/
structure ReadClosed (P : SMap StructS → SMap EnumS → Prop) : Prop where
  empty : P [] []
  addEnum : ∀ S E n c, P S E → S.find? n = none → E.find? n = none → P S (E.insert n ⟨n, c, []⟩)
  addStruct : ∀ S E n, P S E → S.find? n = none → E.find? n = none → P (S.insert n ⟨n, [], [], 0⟩) E
  enumLine : ∀ S E k l, P S E → P S (E.modify k fun e => { e with enums := e.enums ++ [l] })
  simple : ∀ S E k l, P S E → P (S.modify k fun s => { s with simple := s.simple ++ [l] }) E
  complex : ∀ S E k l, P S E → (l.ty = .enumOrStruct ∨ l.ty = .vector) →
    P (S.modify k fun s => { s with complex := s.complex ++ [l] }) E

/-- All objects of the heap satisfy `P`.  (Proof notion, models no code.) -/
def Every (P : SMap StructS → SMap EnumS → Prop) (h : Heap) : Prop :=
  ∀ (j : Nat) (i : Info), h[j]? = some i → P i.structs i.enums

theorem Every.set {P : SMap StructS → SMap EnumS → Prop} {h : Heap} (hp : Every P h) {j : Nat} {i : Info}
    (hi : P i.structs i.enums) : Every P (h.set j i) := by
  intro k x hx
  rcases getElem?_set' hx with ⟨rfl, rfl, _⟩ | ⟨_, hx⟩
  · exact hi
  · exact hp k x hx

theorem applyCall_every {P : SMap StructS → SMap EnumS → Prop} (hc : ReadClosed P) {h h' : Heap} {self : Nat} {c : Call}
    (hg : GoodCall c) (hp : Every P h) (e : applyCall self h c = some h') : Every P h' := by
  cases c with
  | enum name isClass =>
    simp only [applyCall, processEnum, Option.bind_eq_bind, Option.bind_eq_some_iff] at e
    obtain ⟨i, hi, e⟩ := e
    split at e
    · cases e; exact hp
    · next hu =>
      cases e
      obtain ⟨u1, u2⟩ := unknown_iff.1 (Classical.not_not.1 hu)
      exact hp.set (hc.addEnum _ _ _ _ (hp _ _ hi) u1 u2)
  | struct name =>
    simp only [applyCall, processStruct, Option.bind_eq_bind, Option.bind_eq_some_iff] at e
    obtain ⟨i, hi, e⟩ := e
    split at e
    · cases e; exact hp
    · next hu =>
      cases e
      obtain ⟨u1, u2⟩ := unknown_iff.1 (Classical.not_not.1 hu)
      exact hp.set (hc.addStruct _ _ _ (hp _ _ hi) u1 u2)
  | enumLine name init value =>
    simp only [applyCall, processEnumLine, Option.bind_eq_bind, Option.bind_eq_some_iff] at e
    obtain ⟨i, hi, e⟩ := e
    split at e
    · cases e; exact hp
    · simp only [Option.bind_eq_some_iff] at e
      obtain ⟨o, ho, _, _, e⟩ := e
      cases e
      exact hp.set (hc.enumLine _ _ _ _ (hp _ _ ho))
  | simple ty name dflt =>
    simp only [applyCall, processSimple, Option.bind_eq_bind, Option.bind_eq_some_iff] at e
    obtain ⟨i, hi, e⟩ := e
    split at e
    · cases e; exact hp
    · simp only [Option.bind_eq_some_iff] at e
      obtain ⟨o, ho, _, _, e⟩ := e
      cases e
      exact hp.set (hc.simple _ _ _ _ (hp _ _ ho))
  | complex ty tyName name =>
    simp only [applyCall, processComplex, Option.bind_eq_bind, Option.bind_eq_some_iff] at e
    obtain ⟨i, hi, e⟩ := e
    split at e
    · cases e; exact hp
    · simp only [Option.bind_eq_some_iff] at e
      obtain ⟨o, ho, _, _, e⟩ := e
      cases e
      exact hp.set (hc.complex _ _ _ _ (hp _ _ ho) hg)

theorem applyCalls_every {P : SMap StructS → SMap EnumS → Prop} (hc : ReadClosed P) {h h' : Heap} {self : Nat}
    {cs : List Call} (hg : ∀ c ∈ cs, GoodCall c) (hp : Every P h) (e : applyCalls self cs h = some h') : Every P h' := by
  induction cs generalizing h with
  | nil => cases e; exact hp
  | cons c cs ih =>
    simp only [applyCalls, Option.bind_eq_some_iff] at e
    obtain ⟨h1, e1, e2⟩ := e
    exact ih (fun x hx => hg x (List.mem_cons_of_mem _ hx)) (applyCall_every hc (hg c List.mem_cons_self) hp e1) e2

theorem setRv_every {P : SMap StructS → SMap EnumS → Prop} {h : Heap} (hp : Every P h) (self rv : Nat) :
    Every P (setRv self rv h) := by
  unfold setRv
  split
  · next i hi =>
    have := hp _ _ hi
    exact hp.set this
  · exact hp

theorem processInputFile_every {P : SMap StructS → SMap EnumS → Prop} (hc : ReadClosed P) {h h' : Heap} {self : Nat}
    {c : Option Str} {b : Bool} (hp : Every P h) (e : processInputFile self c h = some (h', b)) : Every P h' := by
  cases c with
  | none => cases e; exact hp
  | some w =>
    simp only [processInputFile, Option.bind_eq_bind, Option.bind_eq_some_iff] at e
    obtain ⟨ts, _, e⟩ := e
    split at e
    · next log hl =>
      simp only [Option.bind_eq_some_iff] at e
      obtain ⟨h1, e1, e⟩ := e
      cases e
      exact setRv_every (applyCalls_every hc ((parse_good ts).1 log hl) hp e1) _ _
    · next log t r hl =>
      simp only [Option.bind_eq_some_iff] at e
      obtain ⟨h1, e1, e⟩ := e
      cases e
      exact setRv_every (applyCalls_every hc ((parse_good ts).2 log t r hl) hp e1) _ _
    · cases e

theorem processFiles_every {P : SMap StructS → SMap EnumS → Prop} (hc : ReadClosed P) {h h' : Heap} {self : Nat}
    {cs : List (Option Str)} (hp : Every P h) (e : processFiles self cs h = some h') : Every P h' := by
  induction cs generalizing h with
  | nil => cases e; exact hp
  | cons c cs ih =>
    simp only [processFiles, Option.bind_eq_some_iff] at e
    obtain ⟨⟨h1, b⟩, e1, e2⟩ := e
    exact ih (processInputFile_every hc hp e1) e2

theorem Every.new {P : SMap StructS → SMap EnumS → Prop} (hc : ReadClosed P) {h : Heap} (hp : Every P h) :
    Every P (h ++ [Info.empty]) := by
  intro j i hi
  rw [List.getElem?_append] at hi
  split at hi
  · exact hp j i hi
  · rw [List.getElem?_singleton] at hi
    split at hi
    · cases hi; exact hc.empty
    · cases hi

theorem Every.copy {P : SMap StructS → SMap EnumS → Prop} {h h' : Heap} {src : Nat} (hp : Every P h)
    (e : copyInfo src h = some h') : Every P h' := by
  simp only [copyInfo, Option.bind_eq_bind, Option.bind_eq_some_iff] at e
  obtain ⟨x, hx, e⟩ := e
  cases e
  intro j i hi
  rw [List.getElem?_append] at hi
  split at hi
  · exact hp j i hi
  · rw [List.getElem?_singleton] at hi
    split at hi
    · cases hi; exact hp _ _ hx
    · cases hi

theorem Every.dropLast {P : SMap StructS → SMap EnumS → Prop} {h : Heap} (hp : Every P h) : Every P h.dropLast := by
  intro j i hi
  rw [List.getElem?_dropLast] at hi
  split at hi
  · exact hp j i hi
  · cases hi

/-- Tables that were only read, never generated from.  (Proof notion, models no code.) -/
inductive Reading : Heap → Prop where
  | start : Reading []
  | new {h} : Reading h → Reading (h ++ [Info.empty])
  | copy {h src h'} : Reading h → copyInfo src h = some h' → Reading h'
  | destroy {h} : Reading h → Reading h.dropLast
  | file {h self c h' b} : Reading h → processInputFile self c h = some (h', b) → Reading h'

theorem Reading.history {h : Heap} (hr : Reading h) : History h := by
  induction hr with
  | start => exact .start
  | new _ ih => exact .new ih
  | copy _ e ih => exact .copy ih e
  | destroy _ ih => exact .destroy ih
  | file _ e ih => exact .file ih e

theorem Reading.every {P : SMap StructS → SMap EnumS → Prop} (hc : ReadClosed P) {h : Heap} (hr : Reading h) :
    Every P h := by
  induction hr with
  | start => intro j i hi; simp at hi
  | new _ ih => exact ih.new hc
  | copy _ e ih => exact ih.copy e
  | destroy _ ih => exact ih.dropLast
  | file _ e ih => exact processInputFile_every hc ih e

/-- A predicate also kept by `fixup_types_of_names` and `find_top_struct` holds along every history. -/
theorem History.every {P : SMap StructS → SMap EnumS → Prop} (hc : ReadClosed P)
    (hgen : ∀ i, TabOk i → P i.structs i.enums →
      P (findTop (fixup i).1).1.structs (findTop (fixup i).1).1.enums) {h : Heap} (hr : History h) :
    Every P h := by
  induction hr with
  | start => intro j i hi; simp at hi
  | new _ ih => exact ih.new hc
  | copy _ e ih => exact ih.copy e
  | destroy _ ih => exact ih.dropLast
  | file _ e ih => exact processInputFile_every hc ih e
  | @generate h self h' b hh e ih =>
    simp only [prepare, Option.bind_eq_bind, Option.bind_eq_some_iff] at e
    obtain ⟨i, hi, e⟩ := e
    cases e
    exact ih.set (hgen i (hh.ok.tab _ _ hi) (ih _ _ hi))

end Stfx.Items
