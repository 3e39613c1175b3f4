import Verif.Cpp.Chunk
/-
Statements with blocks inside that are pieces of their own.
-/
set_option autoImplicit false
namespace Stfx.Cpp

theorem Next.not_else {t : Tok} (h : Next t) : t ≠ .kw .else_ := by cases h <;> simp

theorem pN_one {p : List Tok → Option (Stmt × List Tok)} {ts r : List Tok} {s : Stmt} (hne : ∀ r, ts ≠ .op .rbrace :: r)
    (h : p ts = some (s, r)) : pN p 1 ts = some ([s], r) := by
  rw [pN.eq_3 _ _ _ hne, h]
  rfl

/-- `if (c) { ss }` -/
theorem IsStmts.when {ext : Bool} {d : Nat} {c : Expr} {cts body : List Tok} {ss : List Stmt}
    (hc : ∀ f r, pExpr ext (f + d + 1) (cts ++ .op .rpar :: .op .lbrace :: r) = some (c, .op .rpar :: .op .lbrace :: r))
    (hb : IsStmts d ext body ss) :
    IsStmts (d + 2) ext (.kw .if_ :: .op .lpar :: (cts ++ .op .rpar :: .op .lbrace :: (body ++ [.op .rbrace]))) [.when c (.block ss)] := by
  refine ⟨(fun t r h => by cases h; exact .if_), by simp, fun f t r hf ht => ?_⟩
  simp only [List.length_cons, List.length_append, List.length_nil] at hf
  refine pN_one (fun r => by simp) ?_
  have hb := hb.block f (f + d) (by omega) (by have := hb.len; omega) (t :: r)
  simp only [List.cons_append, List.append_assoc, List.nil_append]
  rw [show f + (d + 2) = f + d + 1 + 1 from rfl, pStmt]
  simp only [hc]
  rw [pStmt]
  simp only [hb]
  split
  · next h => cases h; exact absurd rfl ht.not_else
  · next h => cases h; rfl
  · next h => cases h

/-- `try { ss } catch (t) { hs }` -/
theorem IsStmts.try {ext : Bool} {d : Nat} {ty : Ty} {cts body hand : List Tok} {ss hs : List Stmt}
    (hc : ∀ f r, pTy (f + d) (cts ++ .op .rpar :: r) = some (ty, .op .rpar :: r))
    (hb : IsStmts d ext body ss) (hh : IsStmts d ext hand hs) :
    IsStmts (d + 1) ext (.kw .try_ :: .op .lbrace :: (body ++ .op .rbrace :: .kw .catch_ :: .op .lpar :: (cts ++ .op .rpar ::
      .op .lbrace :: (hand ++ [.op .rbrace])))) [.try ss ty hs] := by
  refine ⟨(fun t r h => by cases h; exact .try_), by simp, fun f t r hf ht => ?_⟩
  simp only [List.length_cons, List.length_append, List.length_nil] at hf
  refine pN_one (fun r => by simp) ?_
  have hb := hb.block f (f + d) (by omega) (by have := hb.len; omega)
  have hh := hh.block f (f + d) (by omega) (by have := hh.len; omega) (t :: r)
  simp only [List.cons_append, List.append_assoc, List.nil_append]
  rw [show f + (d + 1) = f + d + 1 from rfl, pStmt]
  simp only [hb, hc, hh]

/-- The elements of a braced list, each followed by a comma. -/
theorem pList_flatMap {α β : Type} {p : List Tok → Option (β × List Tok)} (toks : α → List Tok) (el : α → β) (l : List α)
    (hne : ∀ x ∈ l, ∀ r r', toks x ++ r ≠ .op .rbrace :: r') (h : ∀ x ∈ l, ∀ r, p (toks x ++ .op .comma :: r) = some (el x, .op .comma :: r)) (n : Nat) (r : List Tok) :
    pList p (n + l.length + 1) (l.flatMap (fun x => toks x ++ [.op .comma]) ++ .op .rbrace :: r) = some (l.map el, r) := by
  induction l with
  | nil => rfl
  | cons x l ih =>
    have ih := ih (fun y hy => hne y (List.mem_cons_of_mem _ hy)) (fun y hy => h y (List.mem_cons_of_mem _ hy))
    simp only [List.flatMap_cons, List.append_assoc, List.cons_append, List.nil_append, List.length_cons, List.map_cons]
    rw [pList.eq_3 _ _ _ (fun r' => hne x List.mem_cons_self _ r'), h x List.mem_cons_self]
    simp only [show n + (l.length + 1) = n + l.length + 1 from rfl, ih]

/-- A declaration with a braced list. -/
theorem IsStmts.mapDecl {ext : Bool} {α : Type} {d : Nat} {ty : Ty} {n : Str} {hts : List Tok} (toks : α → List Tok) (el : α → Expr)
    (l : List α) (hne : ∀ x ∈ l, ∀ r r', toks x ++ r ≠ .op .rbrace :: r')
    (hx : ∀ x ∈ l, ∀ f r, pElem ext (f + d) (toks x ++ .op .comma :: r) = some (el x, .op .comma :: r))
    (hlen : ∀ x ∈ l, 1 ≤ (toks x).length)
    (hh : ∀ r, ∃ s r', hts ++ r = .id s :: r')
    (hs : ∀ f r, pStmt ext (f + (d + 1)) (hts ++ .op .lbrace :: r) = match pInit ext (f + d) (.op .lbrace :: r) with
      | some (e, .op .semi :: r) => some (.decl ty n none (some e), r)
      | _ => none) :
    IsStmts (d + 1) ext (hts ++ .op .lbrace :: (l.flatMap (fun x => toks x ++ [.op .comma]) ++ [.op .rbrace, .op .semi]))
      [.decl ty n none (some (.braces (l.map el)))] := by
  refine ⟨?_, by simp; omega, fun f t r hf ht => ?_⟩
  · intro t r h
    obtain ⟨s, r', h'⟩ := hh (.op .lbrace :: (l.flatMap (fun x => toks x ++ [.op .comma]) ++ [.op .rbrace, .op .semi]))
    rw [h'] at h
    cases h
    exact .id _
  · simp only [List.length_cons, List.length_append, List.length_nil] at hf
    refine pN_one (fun r'' h => ?_) ?_
    · obtain ⟨s, r', h'⟩ := hh (.op .lbrace :: (l.flatMap (fun x => toks x ++ [.op .comma]) ++ [.op .rbrace, .op .semi]) ++ t :: r)
      rw [List.append_assoc, h'] at h
      cases h
    · have hl : l.length ≤ (l.flatMap (fun x => toks x ++ [Tok.op .comma])).length := by
        clear hf hx hs hh hne
        induction l with
        | nil => simp
        | cons x l ih =>
          simp only [List.flatMap_cons, List.length_append, List.length_cons, List.length_nil]
          have := ih fun y hy => hlen y (List.mem_cons_of_mem _ hy)
          omega
      have := pList_flatMap (p := pElem ext (f + d)) toks el l hne (fun x hx' => hx x hx' f) (f + d - l.length - 1) (.op .semi :: t :: r)
      rw [show f + d - l.length - 1 + l.length + 1 = f + d by omega] at this
      simp only [List.append_assoc, List.cons_append, List.nil_append]
      rw [hs, pInit]
      simp only [this]

end Stfx.Cpp
