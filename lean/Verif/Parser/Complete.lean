import Verif.Parser.Sound
import Verif.Parser.Ast
/-
Completeness of the driver: every header is accepted, with the operations it stands for.
-/
namespace Stfx.Parser

/-- `n` steps that continue.  (Proof notion, models no code.) -/
def asteps : Nat → ACfg → Option ACfg
  | 0, a => some a
  | n + 1, a => match astep a with
    | some (.cont a') => asteps n a'
    | _ => none

/-- Reachability.  (Proof notion, models no code.) -/
def Steps (a b : ACfg) : Prop := ∃ n, asteps n a = some b

theorem Steps.of {a : ACfg} {st : List Cell} {inp : List Token} {l l' : List Call} (n : Nat)
    (h : asteps n a = some ⟨st, inp, l'⟩) (hl : l' = l) : Steps a ⟨st, inp, l⟩ := ⟨n, hl ▸ h⟩

theorem asteps_add (n m : Nat) (a : ACfg) : asteps (n + m) a = (asteps n a).bind (asteps m) := by
  induction n generalizing a with
  | zero => simp [asteps]
  | succ n ih =>
    rw [Nat.succ_add]
    unfold asteps
    split
    · exact ih _
    · rfl

theorem Steps.refl (a : ACfg) : Steps a a := ⟨0, rfl⟩

theorem Steps.trans {a b c : ACfg} (h : Steps a b) (h' : Steps b c) : Steps a c := by
  obtain ⟨n, h⟩ := h
  obtain ⟨m, h'⟩ := h'
  exact ⟨n + m, by rw [asteps_add, h]; exact h'⟩

/-- Closes equations between logs. -/
local macro "logs" : tactic => `(tactic| first
  | (simp [Member.call, Decl.calls, Enumerator.call, EnumVal.text, Header.calls, Header.decls]; done)
  | (simp [Member.call, Decl.calls, Enumerator.call, EnumVal.text]; rfl)
  | (simp [Member.call, Decl.calls, Enumerator.call, EnumVal.text]; exact ⟨rfl, rfl⟩))

theorem steps_type {s : Nat} (hs : s = 22 ∨ s = 47) (ty : SimpleTy) (v : SemVal) (st : List Cell)
    (inp : List Token) (log : List Call) :
    Steps ⟨⟨s, v⟩ :: st, ty.toks ++ inp, log⟩ ⟨⟨48, .ty ty⟩ :: ⟨s, v⟩ :: st, inp, log⟩ := by
  rcases hs with rfl | rfl
  · cases ty
    case unsignedInt => exact .of 5 rfl (by logs)
    case unsignedShort => exact .of 5 rfl (by logs)
    case unsignedLong => exact .of 5 rfl (by logs)
    all_goals exact .of 3 rfl (by logs)
  · cases ty
    case unsignedInt => exact .of 5 rfl (by logs)
    case unsignedShort => exact .of 5 rfl (by logs)
    case unsignedLong => exact .of 5 rfl (by logs)
    all_goals exact .of 3 rfl (by logs)
/-- State after a default value.  (Proof notion, models no code.) -/
def afterDefault (s : Nat) : Nat := if s = 61 then 75 else 78

theorem steps_default_empty {s : Nat} (hs : s = 61 ∨ s = 64) (v : SemVal) (st : List Cell)
    (inp : List Token) (log : List Call) :
    Steps ⟨⟨s, v⟩ :: st, Default.empty.toks ++ inp, log⟩
      ⟨⟨afterDefault s, .str c!"{}"⟩ :: ⟨s, v⟩ :: st, inp, log⟩ := by
  rcases hs with rfl | rfl <;> exact .of 5 rfl (by logs)

theorem steps_default_val {s : Nat} (hs : s = 61 ∨ s = 64) (d : DefVal) (v : SemVal) (st : List Cell)
    (inp : List Token) (log : List Call) :
    Steps ⟨⟨s, v⟩ :: st, (Default.val d).toks ++ inp, log⟩
      ⟨⟨afterDefault s, .str (Default.val d).text⟩ :: ⟨s, v⟩ :: st, inp, log⟩ := by
  rcases hs with rfl | rfl
  · cases d
    case true_ => exact .of 8 rfl (by logs)
    case false_ => exact .of 8 rfl (by logs)
    all_goals exact .of 7 rfl (by logs)
  · cases d
    case true_ => exact .of 8 rfl (by logs)
    case false_ => exact .of 8 rfl (by logs)
    all_goals exact .of 7 rfl (by logs)

theorem steps_member {s : Nat} (hs : s = 22 ∨ s = 47) (m : Member) (v : SemVal) (st : List Cell)
    (inp : List Token) (log : List Call) :
    Steps ⟨⟨s, v⟩ :: st, m.toks ++ inp, log⟩
      ⟨⟨47, .none⟩ :: ⟨s, v⟩ :: st, inp, log ++ [m.call]⟩ := by
  cases m with
  | vector elem name => rcases hs with rfl | rfl <;> exact .of 14 rfl (by logs)
  | simple ty name d =>
    have e : (Member.simple ty name d).toks ++ inp =
        ty.toks ++ (⟨.name, name⟩ :: (d.toks ++ tk .semicolon :: inp)) := by
      simp [Member.toks]
    rw [e]
    refine (steps_type hs ty v st _ log).trans ?_
    have h1 : ∀ inp', Steps ⟨⟨48, .ty ty⟩ :: ⟨s, v⟩ :: st, ⟨.name, name⟩ :: inp', log⟩
        ⟨⟨64, .str name⟩ :: ⟨48, .ty ty⟩ :: ⟨s, v⟩ :: st, inp', log⟩ :=
      fun _ => .of 2 rfl (by logs)
    refine (h1 _).trans ?_
    cases d with
    | absent =>
      rcases hs with rfl | rfl <;> exact .of 3 rfl (by logs)
    | empty =>
      refine (steps_default_empty (Or.inr rfl) _ _ _ _).trans ?_
      rcases hs with rfl | rfl <;> exact .of 3 rfl (by logs)
    | val d =>
      refine (steps_default_val (Or.inr rfl) d _ _ _ _).trans ?_
      rcases hs with rfl | rfl <;> exact .of 3 rfl (by logs)
  | named ty name d =>
    have h1 : ∀ inp', Steps ⟨⟨s, v⟩ :: st, ⟨.name, ty⟩ :: ⟨.name, name⟩ :: inp', log⟩
        ⟨⟨61, .str name⟩ :: ⟨45, .str ty⟩ :: ⟨s, v⟩ :: st, inp', log⟩ := by
      intro inp'
      rcases hs with rfl | rfl <;> exact .of 4 rfl (by logs)
    have e : (Member.named ty name d).toks ++ inp =
        ⟨.name, ty⟩ :: ⟨.name, name⟩ :: (d.toks ++ tk .semicolon :: inp) := by
      simp [Member.toks]
    rw [e]
    refine (h1 _).trans ?_
    cases d with
    | absent =>
      rcases hs with rfl | rfl <;> exact .of 3 rfl (by logs)
    | empty =>
      refine (steps_default_empty (Or.inl rfl) _ _ _ _).trans ?_
      rcases hs with rfl | rfl <;> exact .of 3 rfl (by logs)
    | val d =>
      refine (steps_default_val (Or.inl rfl) d _ _ _ _).trans ?_
      rcases hs with rfl | rfl <;> exact .of 3 rfl (by logs)

/-- State after the members of a struct.  (Proof notion, models no code.) -/
def afterMembers (s : Nat) : Nat := if s = 22 then 46 else 63

theorem steps_members {s : Nat} (hs : s = 22 ∨ s = 47) (m : Member) (ms : List Member) (v : SemVal)
    (st : List Cell) (inp : List Token) (log : List Call) :
    Steps ⟨⟨s, v⟩ :: st, (m :: ms).flatMap Member.toks ++ tk .blockEnd :: inp, log⟩
      ⟨⟨afterMembers s, .none⟩ :: ⟨s, v⟩ :: st, tk .blockEnd :: inp, log ++ (m :: ms).map Member.call⟩ := by
  induction ms generalizing m s v st log with
  | nil =>
    simp only [List.flatMap_cons, List.flatMap_nil, List.append_nil, List.map_cons, List.map_nil]
    refine (steps_member hs m v st _ log).trans ?_
    rcases hs with rfl | rfl <;> exact .of 1 rfl (by logs)
  | cons m' ms ih =>
    rw [List.flatMap_cons, List.append_assoc]
    refine (steps_member hs m v st _ log).trans ?_
    refine (ih (Or.inr rfl) m' _ _ _).trans ?_
    rcases hs with rfl | rfl <;> exact .of 1 rfl (by logs)

/-- Tokens that can follow an enumerator.  (Proof notion, models no code.) -/
def EntFollow (t : Token) : Prop := t = tk .comma ∨ t = tk .blockEnd

theorem steps_enumerator {s : Nat} (hs : s = 20 ∨ s = 55) (e : Enumerator) (v : SemVal)
    (st : List Cell) {t : Token} (ht : EntFollow t) (inp : List Token) (log : List Call) :
    Steps ⟨⟨s, v⟩ :: st, e.toks ++ t :: inp, log⟩
      ⟨⟨26, .none⟩ :: ⟨s, v⟩ :: st, t :: inp, log ++ [e.call]⟩ := by
  obtain ⟨name, value⟩ := e
  cases value with
  | none =>
    rcases hs with rfl | rfl <;> rcases ht with rfl | rfl <;>
      exact .of 3 rfl (by logs)
  | some ev =>
    rcases hs with rfl | rfl <;> cases ev <;>
      exact .of 6 rfl (by logs)

/-- State after the enumerators of an enum.  (Proof notion, models no code.) -/
def afterEnumerators (s : Nat) : Nat := if s = 20 then 25 else 71

theorem steps_enumerators {s : Nat} (hs : s = 20 ∨ s = 55) (trailing : Bool) (e : Enumerator)
    (es : List Enumerator) (v : SemVal) (st : List Cell) (inp : List Token) (log : List Call) :
    Steps ⟨⟨s, v⟩ :: st, enumeratorsToks trailing e es ++ tk .blockEnd :: inp, log⟩
      ⟨⟨afterEnumerators s, .none⟩ :: ⟨s, v⟩ :: st, tk .blockEnd :: inp,
        log ++ (e :: es).map Enumerator.call⟩ := by
  induction es generalizing e s v st log with
  | nil =>
    cases trailing with
    | false =>
      simp only [enumeratorsToks, List.append_nil, List.map_cons, List.map_nil, Bool.false_eq_true, if_false]
      refine (steps_enumerator hs e v st (Or.inr rfl) _ log).trans ?_
      rcases hs with rfl | rfl <;> exact .of 1 rfl (by logs)
    | true =>
      simp only [enumeratorsToks, if_true, List.map_cons, List.map_nil, List.append_assoc,
        List.cons_append, List.nil_append]
      refine (steps_enumerator hs e v st (Or.inl rfl) _ log).trans ?_
      rcases hs with rfl | rfl <;> exact .of 3 rfl (by logs)
  | cons e' es ih =>
    simp only [enumeratorsToks, List.append_assoc, List.cons_append]
    refine (steps_enumerator hs e v st (Or.inl rfl) _ log).trans ?_
    have h1 : ∀ inp' log', Steps ⟨⟨26, .none⟩ :: ⟨s, v⟩ :: st, tk .comma :: inp', log'⟩
        ⟨⟨55, .none⟩ :: ⟨26, .none⟩ :: ⟨s, v⟩ :: st, inp', log'⟩ :=
      fun _ _ => .of 2 rfl (by logs)
    refine (h1 _ _).trans ?_
    refine (ih (Or.inr rfl) e' _ _ _).trans ?_
    rcases hs with rfl | rfl <;> exact .of 1 rfl (by logs)

theorem steps_decl {s : Nat} (hs : s = 0 ∨ s = 5) (d : Decl) (v : SemVal) (st : List Cell)
    (inp : List Token) (log : List Call) :
    Steps ⟨⟨s, v⟩ :: st, d.toks ++ inp, log⟩
      ⟨⟨5, .none⟩ :: ⟨s, v⟩ :: st, inp, log ++ d.calls⟩ := by
  cases d with
  | enum isClass name e es trailing =>
    have h1 : ∀ inp', Steps ⟨⟨s, v⟩ :: st,
          tk .enum :: (if isClass then [tk .class_] else []) ++ ⟨.name, name⟩ :: tk .blockStart :: inp', log⟩
        ⟨⟨20, .none⟩ :: ⟨9, .none⟩ :: ⟨s, v⟩ :: st, inp', log ++ [.enum name isClass]⟩ := by
      intro inp'
      cases isClass
      · rcases hs with rfl | rfl <;> exact .of 6 rfl (by logs)
      · rcases hs with rfl | rfl <;> exact .of 9 rfl (by logs)
    have e : (Decl.enum isClass name e es trailing).toks ++ inp =
        tk .enum :: (if isClass then [tk .class_] else []) ++ ⟨.name, name⟩ :: tk .blockStart ::
          (enumeratorsToks trailing e es ++ tk .blockEnd :: tk .semicolon :: inp) := by
      simp [Decl.toks]
    rw [e]
    refine (h1 _).trans ?_
    refine (steps_enumerators (Or.inl rfl) trailing _ es _ _ _ _).trans ?_
    rcases hs with rfl | rfl <;> exact .of 7 rfl (by logs)
  | struct name m ms =>
    have h1 : ∀ inp', Steps ⟨⟨s, v⟩ :: st, tk .struct :: ⟨.name, name⟩ :: tk .blockStart :: inp', log⟩
        ⟨⟨22, .none⟩ :: ⟨11, .none⟩ :: ⟨s, v⟩ :: st, inp', log ++ [.struct name]⟩ := by
      intro inp'
      rcases hs with rfl | rfl <;> exact .of 7 rfl (by logs)
    have e : (Decl.struct name m ms).toks ++ inp =
        tk .struct :: ⟨.name, name⟩ :: tk .blockStart ::
          ((m :: ms).flatMap Member.toks ++ tk .blockEnd :: tk .semicolon :: inp) := by
      simp [Decl.toks]
    rw [e]
    refine (h1 _).trans ?_
    refine (steps_members (Or.inl rfl) m ms _ _ _ _).trans ?_
    rcases hs with rfl | rfl <;> exact .of 6 rfl (by logs)

/-- State after the declarations.  (Proof notion, models no code.) -/
def afterDecls (s : Nat) : Nat := if s = 0 then 4 else 13

theorem steps_decls {s : Nat} (hs : s = 0 ∨ s = 5) (d : Decl) (ds : List Decl) (v : SemVal)
    (st : List Cell) (log : List Call) :
    Steps ⟨⟨s, v⟩ :: st, (d :: ds).flatMap Decl.toks, log⟩
      ⟨⟨afterDecls s, .none⟩ :: ⟨s, v⟩ :: st, [], log ++ (d :: ds).flatMap Decl.calls⟩ := by
  induction ds generalizing d s v st log with
  | nil =>
    simp only [List.flatMap_cons, List.flatMap_nil]
    refine (steps_decl hs d v st [] log).trans ?_
    rcases hs with rfl | rfl <;> exact .of 1 rfl (by logs)
  | cons d' ds ih =>
    rw [List.flatMap_cons]
    refine (steps_decl hs d v st _ log).trans ?_
    refine (ih (Or.inr rfl) d' _ _ _).trans ?_
    rcases hs with rfl | rfl <;> exact .of 1 rfl (by logs)

/-- A header is read up to the final state, and its operations are logged. -/
theorem steps_header (h : Header) (v : SemVal) :
    Steps ⟨[⟨0, v⟩], h.toks, []⟩ ⟨[⟨12, .none⟩, ⟨3, .none⟩, ⟨0, v⟩], [], h.calls⟩ := by
  refine (steps_decls (Or.inl rfl) h.first h.more v [] []).trans ?_
  exact .of 2 rfl (by logs)

/-- Running from a configuration that reaches an accepting one. -/
theorem arun_steps (n fuel : Nat) {a b : ACfg} (h : asteps n a = some b)
    (hb : astep b = some .accept) : arun fuel a = .accepted b.log ∨ arun fuel a = .timeout := by
  induction n generalizing a fuel with
  | zero =>
    cases h
    cases fuel with
    | zero => right; rfl
    | succ k => left; unfold arun; rw [hb]
  | succ n ih =>
    cases fuel with
    | zero => right; rfl
    | succ k =>
      unfold asteps at h
      split at h
      · next a' e =>
        unfold arun
        rw [e]
        exact ih k h
      · cases h

theorem aparse_header (h : Header) : aparse h.toks = .accepted h.calls := by
  obtain ⟨n, hn⟩ := steps_header h .none
  unfold aparse
  rcases arun_steps n (fuelFor h.toks) hn rfl with e | e
  · exact e
  · rcases arun_ok (fuelFor h.toks) (inv_init h.toks) (measure_init h.toks) with ⟨a, _, e', _⟩ | ⟨a, _, e', _⟩
    · rw [e] at e'; cases e'
    · rw [e] at e'; cases e'

end Stfx.Parser
