import Verif.Cpp.Parse
import Verif.Cpp.Tactic
/-
Pieces of text that are sequences of statements.
-/
set_option autoImplicit false
namespace Stfx.Cpp

/-- `k` statements, none of them the end of a block.  (Proof notion, models no code.) -/
def pN (p : List Tok → Option (Stmt × List Tok)) : Nat → List Tok → Option (List Stmt × List Tok)
  | 0, ts => some ([], ts)
  | _ + 1, .op .rbrace :: _ => none
  | k + 1, ts => match p ts with
    | some (s, r) => match pN p k r with
      | some (ss, r) => some (s :: ss, r)
      | none => none
    | none => none

/-- The tokens that start the statements of the generated code or end a block.  (Proof notion, models no code.) -/
inductive Next : Tok → Prop
  | id (s : Str) : Next (.id s)
  | if_ : Next (.kw .if_)
  | return_ : Next (.kw .return_)
  | auto_ : Next (.kw .auto_)
  | bool_ : Next (.kw .bool_)
  | try_ : Next (.kw .try_)
  | lbrace : Next (.op .lbrace)
  | rbrace : Next (.op .rbrace)

/-- The tokens are the statements `ss`, whatever follows; `d` is fuel that suffices.  (Proof notion, models no code.) -/
structure IsStmts (d : Nat) (ext : Bool) (ts : List Tok) (ss : List Stmt) : Prop where
  head : ∀ t r, ts = t :: r → Next t
  len : ss.length ≤ ts.length
  parse : ∀ f t r, ts.length ≤ f → Next t → pN (pStmt ext (f + d)) ss.length (ts ++ t :: r) = some (ss, t :: r)

/-- The text is the statements `ss`, whatever follows.  (Proof notion, models no code.) -/
def Chunk (d : Nat) (ext : Bool) (text : Str) (ss : List Stmt) : Prop :=
  ∃ ts, scan isLetter wordTok .start text = (ts, .start) ∧ IsStmts d ext ts ss

theorem pN_inv {p : List Tok → Option (Stmt × List Tok)} {k : Nat} {ts r : List Tok} {ss : List Stmt}
    (h : pN p (k + 1) ts = some (ss, r)) :
    ∃ s r1 ss', (∀ r, ts ≠ .op .rbrace :: r) ∧ p ts = some (s, r1) ∧ pN p k r1 = some (ss', r) ∧ ss = s :: ss' := by
  by_cases hb : ∃ r, ts = .op .rbrace :: r
  · obtain ⟨r', rfl⟩ := hb; cases h
  · have hb : ∀ r, ts ≠ .op .rbrace :: r := fun r h => hb ⟨r, h⟩
    rw [pN.eq_3 _ _ _ hb] at h
    cases hp : p ts with
    | none => rw [hp] at h; cases h
    | some q =>
      obtain ⟨s, r1⟩ := q
      rw [hp] at h
      simp only at h
      cases hk : pN p k r1 with
      | none => rw [hk] at h; cases h
      | some q =>
        obtain ⟨ss1, r2⟩ := q
        rw [hk] at h
        simp only [Option.some.injEq, Prod.mk.injEq] at h
        exact ⟨s, r1, ss1, hb, rfl, by rw [hk, h.2], h.1.symm⟩

theorem pN_append {p : List Tok → Option (Stmt × List Tok)} {k l : Nat} {ts r r' : List Tok} {ss ss' : List Stmt}
    (h1 : pN p k ts = some (ss, r)) (h2 : pN p l r = some (ss', r')) : pN p (k + l) ts = some (ss ++ ss', r') := by
  induction k generalizing ts ss with
  | zero => simp only [pN] at h1; cases h1; simpa using h2
  | succ k ih =>
    obtain ⟨s, r1, ss1, hb, hp, hk, rfl⟩ := pN_inv h1
    rw [Nat.succ_add, pN.eq_3 _ _ _ hb, hp]
    simp only [ih hk, List.cons_append]

/-- Statements up to the end of a block. -/
theorem pMany_of_pN {p : List Tok → Option (Stmt × List Tok)} {k n : Nat} {ts r : List Tok} {ss : List Stmt}
    (h : pN p k ts = some (ss, .op .rbrace :: r)) : pMany p (n + k + 1) ts = some (ss, r) := by
  induction k generalizing ts ss with
  | zero =>
    simp only [pN] at h
    cases h
    rfl
  | succ k ih =>
    obtain ⟨s, r1, ss1, hb, hp, hk, rfl⟩ := pN_inv h
    rw [pMany.eq_3 _ _ _ hb, hp, show n + (k + 1) = n + k + 1 from rfl]
    simp only [ih hk]

namespace IsStmts
variable {d : Nat} {ext : Bool}

theorem nil : IsStmts d ext [] [] := ⟨(fun _ _ h => by cases h), Nat.le_refl _, fun _ _ _ _ _ => rfl⟩

theorem append {ts us : List Tok} {ss vs : List Stmt} (h1 : IsStmts d ext ts ss) (h2 : IsStmts d ext us vs) :
    IsStmts d ext (ts ++ us) (ss ++ vs) := by
  refine ⟨?_, ?_, ?_⟩
  · intro t r h
    cases ts with
    | nil => exact h2.head t r h
    | cons a ts => cases h; exact h1.head _ _ rfl
  · have := h1.len; have := h2.len; simp; omega
  · intro f t r hf ht
    rw [List.length_append] at hf
    rw [List.length_append, List.append_assoc]
    refine pN_append (r := us ++ t :: r) ?_ (h2.parse f t r (by omega) ht)
    cases us with
    | nil => exact h1.parse f t r (by omega) ht
    | cons a us => exact h1.parse f a _ (by omega) (h2.head _ _ rfl)

/-- More fuel does no harm. -/
theorem mono {ts : List Tok} {ss : List Stmt} {e : Nat} (h : IsStmts d ext ts ss) (he : d ≤ e) : IsStmts e ext ts ss :=
  ⟨h.head, h.len, fun f t r hf ht => by
    have := h.parse (f + (e - d)) t r (by omega) ht
    rwa [show f + (e - d) + d = f + e by omega] at this⟩

/-- The statements as the body of a block. -/
theorem block {ts : List Tok} {ss : List Stmt} (h : IsStmts d ext ts ss) (f n : Nat) (hf : ts.length ≤ f) (hn : ss.length < n)
    (r : List Tok) :
    pMany (pStmt ext (f + d)) n (ts ++ .op .rbrace :: r) = some (ss, r) := by
  have := pMany_of_pN (n := n - ss.length - 1) (h.parse f _ r hf .rbrace)
  rwa [show n - ss.length - 1 + ss.length + 1 = n by omega] at this

end IsStmts

namespace Chunk
variable {d : Nat} {ext : Bool}

theorem nil : Chunk d ext [] [] := ⟨[], rfl, .nil⟩

theorem append {a b : Str} {as bs : List Stmt} (h1 : Chunk d ext a as) (h2 : Chunk d ext b bs) : Chunk d ext (a ++ b) (as ++ bs) := by
  obtain ⟨ts, h1, i1⟩ := h1
  obtain ⟨us, h2, i2⟩ := h2
  exact ⟨ts ++ us, by rw [scan_append, h1]; simp only [h2], i1.append i2⟩

theorem flatMap {α : Type} {l : List α} {text : α → Str} {ast : α → List Stmt} (h : ∀ x ∈ l, Chunk d ext (text x) (ast x)) :
    Chunk d ext (l.flatMap text) (l.flatMap ast) := by
  induction l with
  | nil => exact nil
  | cons x l ih =>
    rw [List.flatMap_cons, List.flatMap_cons]
    exact (h x List.mem_cons_self).append (ih fun y hy => h y (List.mem_cons_of_mem _ hy))

end Chunk

/-! ### Templates -/

/-- The template `tmpl`, filled with `F`, is `text`, and has the tokens `toks`.  (Proof notion, models no code.) -/
structure IsTemplate (F : List Str) (tmpl text : Str) (toks toks' : List Tok) : Prop where
  text : text = fill F tmpl
  scan : scan letterH wordTokH .start tmpl = (toks, .start)
  ok : toks.all (· ≠ noTok) = true
  toks : toks.map (Tok.fill F) = toks'

theorem IsTemplate.scanned {F : List Str} {tmpl text : Str} {toks toks' : List Tok} (hF : GoodFill F)
    (h : IsTemplate F tmpl text toks toks') : Cpp.scan isLetter wordTok .start text = (toks', .start) := by
  have := scan_fill hF (m := .start) trivial tmpl (by rw [h.scan]; exact fun h => by cases h)
    (by
      rw [h.scan]
      intro hm
      have := (List.all_eq_true.1 h.ok) _ hm
      simp at this)
  rw [h.scan] at this
  rw [h.text, ← h.toks]
  exact this

theorem fill_piece {F : List Str} {a b a' b' : Str} (ha : a' = fill F a) (hb : b' = fill F b) : a' ++ b' = fill F (a ++ b) := by
  rw [fill_append, ha, hb]

theorem good1 {a : Str} (h : Ident a) : GoodFill [a] := by
  intro i w hi
  match i, hi with
  | 0, hi => cases hi; exact ⟨fun _ => h, fun h => by omega⟩

theorem good2 {a b : Str} (h : Ident a) (h' : Ident b) : GoodFill [a, b] := by
  intro i w hi
  match i, hi with
  | 0, hi => cases hi; exact ⟨fun _ => h, fun h => by omega⟩
  | 1, hi => cases hi; exact ⟨fun _ => h', fun h => by omega⟩

theorem good0 : GoodFill [] := by
  intro i w hi
  cases hi

theorem good3 {a b t : Str} (h : Ident a) (h' : Ident b) (ht : Plain t) : GoodFill [a, b, c!"x", c!"x", t] := by
  intro i w hi
  match i, hi with
  | 0, hi => cases hi; exact ⟨fun _ => h, fun h => by omega⟩
  | 1, hi => cases hi; exact ⟨fun _ => h', fun h => by omega⟩
  | 2, hi => cases hi; exact ⟨fun _ => ⟨⟨_, _, rfl, by decide, by decide⟩, by decide⟩, fun h => by omega⟩
  | 3, hi => cases hi; exact ⟨fun _ => ⟨⟨_, _, rfl, by decide, by decide⟩, by decide⟩, fun h => by omega⟩
  | 4, hi => cases hi; exact ⟨fun h => by omega, fun _ => ht⟩

theorem goodT {t : Str} (ht : Plain t) : GoodFill [c!"x", c!"x", c!"x", c!"x", t] := by
  have hx : Ident c!"x" := ⟨⟨_, _, rfl, by decide, by decide⟩, by decide⟩
  have := good3 hx hx ht
  exact this

/-- Proves `IsTemplate` for the template with the given definition by computation. -/
macro "template " d:ident : tactic => `(tactic|
  refine ⟨(by delta $d; (repeat' apply fill_piece) <;> kernel_rfl), by kernel_rfl, by kernel_rfl, by kernel_rfl⟩)

/-- Proves `IsStmts` for explicit tokens and trees by computation. -/
macro "stmts" : tactic => `(tactic|
  (refine ⟨(by intro t r h; cases h <;> constructor), Nat.le_of_ble_eq_true (by kernel_rfl), ?_⟩
   intro f t r _ ht
   cases ht <;> kernel_rfl))

end Stfx.Cpp
