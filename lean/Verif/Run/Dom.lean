import Verif.Run.Val
/-
The document object model of tinyxml2 as far as the generated code uses it.  tinyxml2 and tixml2ex are not in /repo;
the definitions here are library contracts.
-/
set_option autoImplicit false
namespace Stfx.Run

/-- A node of an XML document, library contract (tinyxml2), called from the code of process_items_xml.cpp:213-578. -/
inductive Node where
  /-- text, also CDATA -/
  | text (s : Str)
  | comment
  /-- declarations, unknown nodes -/
  | misc
  | elem (name : Str) (attrs : List (Str × Str)) (kids : List Node)
deriving Repr

mutual
/-- Decides equality of nodes.  (Proof notion, models no code.) -/
def Node.eqb : Node → Node → Bool
  | .text a, .text b => a = b
  | .comment, .comment => true
  | .misc, .misc => true
  | .elem n as ks, .elem n' as' ks' => n = n' && as = as' && Node.eqbL ks ks'
  | _, _ => false
/-- Decides equality of lists of nodes.  (Proof notion, models no code.) -/
def Node.eqbL : List Node → List Node → Bool
  | [], [] => true
  | a :: as, b :: bs => Node.eqb a b && Node.eqbL as bs
  | _, _ => false
end

mutual
theorem Node.eqb_iff : ∀ a b : Node, Node.eqb a b = true ↔ a = b
  | .text a, b => by cases b <;> simp [Node.eqb]
  | .comment, b => by cases b <;> simp [Node.eqb]
  | .misc, b => by cases b <;> simp [Node.eqb]
  | .elem n as ks, b => by cases b <;> simp [Node.eqb, Node.eqbL_iff ks, and_assoc]
theorem Node.eqbL_iff : ∀ a b : List Node, Node.eqbL a b = true ↔ a = b
  | [], b => by cases b <;> simp [Node.eqbL]
  | a :: as, b => by
    cases b with
    | nil => simp [Node.eqbL]
    | cons p bs => simp [Node.eqbL, Node.eqb_iff a, Node.eqbL_iff as]
end

instance : DecidableEq Node := fun a b => decidable_of_iff _ (Node.eqb_iff a b)

/-- Is this an element with this name?  Library contract (tinyxml2), called from the code of
process_items_xml.cpp:213-578. -/
def Node.named (n : Str) : Node → Bool
  | .elem m _ _ => m = n
  | _ => false

/-- Is this an element?  Library contract (tinyxml2), called from the code of process_items_xml.cpp:213-578. -/
def Node.isElem : Node → Bool
  | .elem _ _ _ => true
  | _ => false

/-- The children of a node, library contract (tinyxml2), called from the code of process_items_xml.cpp:213-578. -/
def Node.kids : Node → List Node
  | .elem _ _ ks => ks
  | _ => []

/-- `FirstChildElement(n)`; `find_element(el, n)` of tixml2ex with a path of one step, library contract (tinyxml2),
called from the code of process_items_xml.cpp:213-578. -/
def first (ks : List Node) (n : Str) : Option Node := ks.find? (Node.named n)

/-- The text the `Query...Text` functions convert: that of the first child, if it is a text, library contract
(tinyxml2), called from the code of process_items_xml.cpp:213-578. -/
def queryText (ks : List Node) : Option Str :=
  match ks with
  | .text s :: _ => some s
  | _ => none

/-- `GetText`: as before, but comments in front are skipped, library contract (tinyxml2), called from the code of
process_items_xml.cpp:213-578. -/
def getText : List Node → Option Str
  | .comment :: ks => getText ks
  | .text s :: _ => some s
  | _ => none

/-- `SetAttribute`: replaces the value of the attribute, or appends a new attribute, library contract (tinyxml2),
called from the code of process_items_xml.cpp:213-578. -/
def setAttr (n s : Str) : List (Str × Str) → List (Str × Str)
  | [] => [(n, s)]
  | (m, t) :: as => if m = n then (m, s) :: as else (m, t) :: setAttr n s as

/-- `c_str()`: what a C function sees of a string, `std::string::c_str()` in process_items_xml.cpp:458. -/
def cStr (s : Str) : Str := s.takeWhile (· ≠ '\x00')

/-! ### Saving and loading -/

/-- Newline normalisation of the parser, library contract (tinyxml2), called from the code of
process_items_xml.cpp:213-578. -/
def nl : Str → Str
  | '\r' :: '\n' :: s => '\n' :: nl s
  | '\n' :: '\r' :: s => '\n' :: nl s
  | '\r' :: s => '\n' :: nl s
  | c :: s => c :: nl s
  | [] => []

/-- Only white space, library contract (tinyxml2), called from the code of process_items_xml.cpp:213-578. -/
def blank (s : Str) : Bool := s.all isSpace

/-- A text that the parser drops, library contract (tinyxml2), called from the code of process_items_xml.cpp:213-578. -/
def Node.isBlank : Node → Bool
  | .text s => blank s
  | _ => false

mutual
/-- The node `LoadFile` builds for what `SaveFile` wrote of a node: names and structure are kept, newlines in
attribute values and texts are normalised, texts of white space are dropped.  Names are taken to be XML names, texts
to be free of NUL, and no two texts to be neighbours, library contract (tinyxml2), called from the code of
process_items_xml.cpp:213-578. -/
def reload : Node → Node
  | .elem n as ks => .elem n (as.map fun p => (p.1, nl p.2)) (reloadKids ks)
  | .text s => .text (nl s)
  | .comment => .comment
  | .misc => .misc
/-- The same for children (library contract, tinyxml2, called from the code of process_items_xml.cpp:213-578). -/
def reloadKids : List Node → List Node
  | [] => []
  | k :: ks => if k.isBlank then reloadKids ks else reload k :: reloadKids ks
end

mutual
/-- Number of nested elements, library contract (tinyxml2), called from the code of process_items_xml.cpp:213-578. -/
def depth : Node → Nat
  | .elem _ _ ks => depthKids ks + 1
  | _ => 0
/-- The same for children (library contract, tinyxml2, called from the code of process_items_xml.cpp:213-578). -/
def depthKids : List Node → Nat
  | [] => 0
  | k :: ks => max (depth k) (depthKids ks)
end

/-! ### Facts -/

theorem nl_id {s : Str} (h : '\r' ∉ s) : nl s = s := by
  induction s with
  | nil => rfl
  | cons c s ih =>
    rw [List.mem_cons, not_or] at h
    have ih := ih h.2
    unfold nl
    split
    · rename_i heq; injection heq with h1 _; exact absurd h1.symm h.1
    · rename_i heq
      injection heq with h1 h2
      rw [h2] at h
      exact absurd (List.mem_cons_self) h.2
    · rename_i heq; injection heq with h1 _; exact absurd h1.symm h.1
    · rename_i heq; injection heq with h1 h2; rw [← h1, ← h2, ih]
    · rename_i heq; cases heq

theorem reload_named (n : Str) (k : Node) : (reload k).named n = k.named n := by
  cases k <;> simp [reload, Node.named]

theorem reload_isElem (k : Node) : (reload k).isElem = k.isElem := by
  cases k <;> simp [reload, Node.isElem]

theorem named_not_blank {n : Str} {k : Node} (h : k.named n = true) : k.isBlank = false := by
  cases k <;> simp_all [Node.named, Node.isBlank]

theorem first_reload (ks : List Node) (n : Str) : first (reloadKids ks) n = (first ks n).map reload := by
  induction ks with
  | nil => rfl
  | cons k ks ih =>
    unfold first at ih ⊢
    unfold reloadKids
    cases hn : k.named n with
    | true => simp [named_not_blank hn, List.find?_cons, hn, reload_named]
    | false =>
      cases hb : k.isBlank with
      | true => simp [List.find?_cons, hn, ih]
      | false => simp [List.find?_cons, hn, ih, reload_named]

theorem elems_reload (ks : List Node) :
    (reloadKids ks).filter Node.isElem = (ks.filter Node.isElem).map reload := by
  induction ks with
  | nil => rfl
  | cons k ks ih =>
    unfold reloadKids
    cases he : k.isElem with
    | true =>
      have hb : k.isBlank = false := by cases k <;> simp_all [Node.isElem, Node.isBlank]
      simp [hb, List.filter_cons, he, reload_isElem, ih]
    | false =>
      cases hb : k.isBlank with
      | true => simp [List.filter_cons, he, ih]
      | false => simp [List.filter_cons, he, ih, reload_isElem]

theorem lookup_map_snd (f : Str → Str) (as : List (Str × Str)) (n : Str) :
    (as.map fun p => (p.1, f p.2)).lookup n = (as.lookup n).map f := by
  induction as with
  | nil => rfl
  | cons p as ih =>
    obtain ⟨m, s⟩ := p
    by_cases h : n = m
    · subst h; simp
    · have hb : (n == m) = false := by simpa using h
      simp [List.lookup_cons, hb, ih]

theorem setAttr_self (n s : Str) (as : List (Str × Str)) : (setAttr n s as).lookup n = some s := by
  induction as with
  | nil => simp [setAttr]
  | cons p as ih =>
    obtain ⟨m, t⟩ := p
    unfold setAttr
    by_cases h : m = n
    · subst h; simp
    · have hb : (n == m) = false := by simpa using fun h' => h h'.symm
      simp [if_neg h, List.lookup_cons, hb, ih]

theorem setAttr_other {n m : Str} (s : Str) (h : m ≠ n) (as : List (Str × Str)) :
    (setAttr n s as).lookup m = as.lookup m := by
  induction as with
  | nil =>
    have hb : (m == n) = false := by simpa using h
    simp [setAttr, List.lookup_cons, hb]
  | cons p as ih =>
    obtain ⟨k, t⟩ := p
    unfold setAttr
    by_cases hk : k = n
    · subst hk
      have hb : (m == k) = false := by simpa using h
      simp [List.lookup_cons, hb]
    · rw [if_neg hk]
      by_cases hmk : m = k
      · subst hmk; simp
      · have hb : (m == k) = false := by simpa using hmk
        simp [List.lookup_cons, hb, ih]

theorem setAttr_names (n s : Str) (as : List (Str × Str)) :
    (setAttr n s as).map Prod.fst = if n ∈ as.map Prod.fst then as.map Prod.fst else as.map Prod.fst ++ [n] := by
  induction as with
  | nil => simp [setAttr]
  | cons p as ih =>
    obtain ⟨m, t⟩ := p
    unfold setAttr
    by_cases h : m = n
    · subst h; simp
    · rw [if_neg h]
      have h' : ¬ n = m := fun e => h e.symm
      rw [List.map_cons, ih]
      by_cases hm : n ∈ as.map Prod.fst
      · rw [if_pos hm, if_pos (by simp only [List.map_cons, List.mem_cons]; exact Or.inr hm)]
        rfl
      · rw [if_neg hm, if_neg (by simp only [List.map_cons, List.mem_cons, not_or]; exact ⟨h', hm⟩)]
        rfl

end Stfx.Run
