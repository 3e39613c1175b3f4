import Verif.Cpp.Chunk
/-
Pieces of text that are sequences of function definitions.
-/
set_option autoImplicit false
namespace Stfx.Cpp

/-- Put the functions before those of the rest of the file.  (Proof notion, models no code.) -/
def addFuns (fs : List Fun) : Option (List Fun) → Option (List Fun)
  | some gs => some (fs ++ gs)
  | none => none

theorem addFuns_nil (o : Option (List Fun)) : addFuns [] o = o := by cases o <;> rfl

theorem addFuns_append (fs gs : List Fun) (o : Option (List Fun)) : addFuns fs (addFuns gs o) = addFuns (fs ++ gs) o := by
  cases o <;> simp [addFuns]

/-- The tokens are the definitions `fs`, whatever follows.  (Proof notion, models no code.) -/
def IsDefs (ext : Bool) (ts : List Tok) (fs : List Fun) : Prop :=
  ∃ k, k ≤ ts.length ∧ ∀ fuel n r, ts.length + 60 ≤ fuel →
    pFile ext fuel (n + k) (ts ++ r) = addFuns fs (pFile ext fuel n r)

/-- The text is the definitions `fs`, whatever follows.  (Proof notion, models no code.) -/
def DefChunk (ext : Bool) (text : Str) (fs : List Fun) : Prop :=
  ∃ ts, scan isLetter wordTok .start text = (ts, .start) ∧ IsDefs ext ts fs

namespace IsDefs
variable {ext : Bool}

theorem nil : IsDefs ext [] [] := ⟨0, Nat.le_refl _, fun _ _ _ _ => by rw [addFuns_nil]; rfl⟩

theorem append {ts us : List Tok} {fs gs : List Fun} (h1 : IsDefs ext ts fs) (h2 : IsDefs ext us gs) :
    IsDefs ext (ts ++ us) (fs ++ gs) := by
  obtain ⟨k, hk, h1⟩ := h1
  obtain ⟨l, hl, h2⟩ := h2
  refine ⟨l + k, by simp; omega, fun fuel n r hf => ?_⟩
  simp only [List.length_append] at hf
  rw [← Nat.add_assoc, List.append_assoc, h1 _ _ _ (by omega), h2 _ _ _ (by omega), addFuns_append]

theorem dir : IsDefs ext [.dir] [] := ⟨1, Nat.le_refl _, fun _ _ _ _ => by rw [addFuns_nil]; rfl⟩

theorem semi : IsDefs ext [.op .semi] [] := ⟨1, Nat.le_refl _, fun _ _ _ _ => by rw [addFuns_nil]; rfl⟩

theorem dirs (n : Nat) : IsDefs ext (List.replicate n .dir) [] := by
  induction n with
  | zero => exact nil
  | succ n ih => exact dir.append ih

/-- One function. -/
theorem one {ts : List Tok} {g : Fun} (hne : ∃ t r, ts = t :: r ∧ t ≠ .dir ∧ t ≠ .op .semi)
    (h : ∀ f r, ts.length ≤ f → pFun ext (f + 60) (ts ++ r) = some (g, r)) : IsDefs ext ts [g] := by
  obtain ⟨t, us, rfl, h1, h2⟩ := hne
  refine ⟨1, by simp, fun fuel n r hf => ?_⟩
  have := h (fuel - 60) r (by omega)
  rw [show fuel - 60 + 60 = fuel by omega, List.cons_append] at this
  rw [List.cons_append, pFile.eq_5 _ _ _ _ (by simp) (by simpa using h1) (by simpa using h2), this]
  simp only
  generalize pFile ext fuel n r = o
  cases o <;> rfl

end IsDefs

namespace DefChunk
variable {ext : Bool}

theorem nil : DefChunk ext [] [] := ⟨[], rfl, .nil⟩

theorem append {a b : Str} {as bs : List Fun} (h1 : DefChunk ext a as) (h2 : DefChunk ext b bs) :
    DefChunk ext (a ++ b) (as ++ bs) := by
  obtain ⟨ts, h1, i1⟩ := h1
  obtain ⟨us, h2, i2⟩ := h2
  exact ⟨ts ++ us, by rw [scan_append, h1]; simp only [h2], i1.append i2⟩

theorem flatMap {α : Type} {l : List α} {text : α → Str} {fs : α → List Fun} (h : ∀ x ∈ l, DefChunk ext (text x) (fs x)) :
    DefChunk ext (l.flatMap text) (l.flatMap fs) := by
  induction l with
  | nil => exact nil
  | cons x l ih =>
    rw [List.flatMap_cons, List.flatMap_cons]
    exact (h x List.mem_cons_self).append (ih fun y hy => h y (List.mem_cons_of_mem _ hy))

/-- Comments and directives. -/
theorem quiet {a : Str} {ts : List Tok} (h : scan isLetter wordTok .start a = (ts, .start))
    (hd : ts = List.replicate ts.length .dir) : DefChunk ext a [] :=
  ⟨ts, h, by rw [hd]; exact .dirs _⟩

/-- The text defines exactly these functions. -/
theorem parse {a : Str} {fs : List Fun} (h : DefChunk ext a fs) : Cpp.parse ext a = some fs := by
  obtain ⟨ts, hs, k, hk, h⟩ := h
  have hl : lex a = some ts := by rw [lex, hs]
  rw [Cpp.parse, hl]
  have := h (ts.length + 100) (ts.length + 1 - k) [] (by omega)
  rw [List.append_nil, show ts.length + 1 - k + k = ts.length + 1 by omega] at this
  simp only [this]
  cases ts.length + 1 - k <;> simp [pFile, addFuns]

end DefChunk

/-- A function made of its head, its body and its end. -/
theorem defs_fun {d : Nat} {ext : Bool} (hd60 : d ≤ 60) {hd body : List Tok} {ss : List Stmt} {ret : Option Ty} {name : List Str} {ps : List (Ty × Str)}
    (hne : ∃ t r, hd = t :: r ∧ t ≠ .dir ∧ t ≠ .op .semi)
    (hh : ∀ f r, pFun ext (f + 60) (hd ++ r) = mkFun ret name ps none (pMany (pStmt ext (f + 60)) (f + 60) r))
    (hb : IsStmts d ext body ss) :
    IsDefs ext (hd ++ body ++ [.op .rbrace]) [⟨ret, name, ps, none, ss⟩] := by
  obtain ⟨t, r, rfl, h1, h2⟩ := hne
  refine .one ⟨t, r ++ body ++ [.op .rbrace], by simp, h1, h2⟩ fun f r' hf => ?_
  rw [List.append_assoc, List.append_assoc, hh]
  have hl := hb.len
  simp only [List.length_append, List.length_cons] at hf
  have := (hb.mono hd60).block f (f + 60) (by omega) (by omega) r'
  rw [show [Tok.op Op.rbrace] ++ r' = .op .rbrace :: r' from rfl, this]
  rfl

end Stfx.Cpp
