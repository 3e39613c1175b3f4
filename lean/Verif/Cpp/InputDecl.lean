import Verif.Cpp.InputLex
/-
The declarations stfx finds in a header and those C++ finds in it.
-/
set_option autoImplicit false
namespace Stfx.Cpp
open Stfx.Lexer Stfx.Parser

/-! ### What the grammar lets follow -/

/-- The kinds after which anything may follow.  (Proof notion, models no code.) -/
def free (k : TokKind) : Bool :=
  match k with
  | .value | .hexValue | .fValue | .equals | .lessthan | .greaterthan => false
  | _ => true

theorem adj_free {k : TokKind} {ts : List Token} (hk : free k = true) (h : Adj none ts) : Adj (some k) ts := by
  cases ts with
  | nil => trivial
  | cons t ts =>
    refine ⟨?_, h⟩
    cases k <;> first | rfl | cases hk

theorem adj_enumerators (t : Bool) (rest : List Token) (hr : Adj none rest) (hr2 : ∃ u us, rest = u :: us ∧ u.kind = .blockEnd) :
    ∀ (e : Enumerator) (es : List Enumerator), Adj none (enumeratorsToks t e es ++ rest) := by
  have h0 : ∀ (e : Enumerator) (us : List Token), Adj none us → (∃ u vs, us = u :: vs ∧ (u.kind = .comma ∨ u.kind = .blockEnd)) →
      Adj none (e.toks ++ us) := by
    rintro ⟨n, v⟩ us h ⟨u, vs, rfl, hu⟩
    cases v with
    | none => exact adj_free rfl h
    | some v =>
      have hk : adjOk v.tok.kind u.kind = true := by cases v <;> rcases hu with hu | hu <;> simp [adjOk, EnumVal.tok, hu]
      have hv : adjOk .equals v.tok.kind = true := by cases v <;> rfl
      exact ⟨rfl, hv, hk, h⟩
  intro e es
  induction es generalizing e with
  | nil =>
    rw [enumeratorsToks, List.append_assoc]
    cases t with
    | false =>
      obtain ⟨u, us, hu, hk⟩ := hr2
      exact h0 e _ hr ⟨u, us, hu, .inr hk⟩
    | true => exact h0 e _ (adj_free (k := .comma) rfl hr) ⟨_, _, rfl, .inl rfl⟩
  | cons e' es ih =>
    rw [enumeratorsToks, List.append_assoc]
    exact h0 e _ (adj_free (k := .comma) rfl (ih e')) ⟨_, _, rfl, .inl rfl⟩

theorem adj_default (d : Default) (us : List Token) (h : Adj none us) : Adj none (d.toks ++ us) := by
  cases d with
  | absent => exact h
  | empty => exact ⟨rfl, adj_free rfl h⟩
  | val v =>
    have hk : adjOk v.tok.kind .blockEnd = true := by cases v <;> rfl
    exact ⟨rfl, hk, adj_free rfl h⟩

theorem adj_member (m : Parser.Member) (us : List Token) (h : Adj none us) : Adj none (m.toks ++ us) := by
  have hs : Adj none (tk .semicolon :: us) := adj_free (k := .semicolon) rfl h
  cases m with
  | simple ty n d =>
    have hd := adj_default d (tk .semicolon :: us) hs
    have hn : Adj none (⟨.name, n⟩ :: (d.toks ++ tk .semicolon :: us)) := adj_free (k := .name) rfl hd
    have : (Parser.Member.simple ty n d).toks ++ us = ty.toks ++ (⟨.name, n⟩ :: (d.toks ++ tk .semicolon :: us)) := by
      simp [Parser.Member.toks]
    rw [this]
    cases ty <;> first | exact adj_free rfl hn | exact ⟨rfl, adj_free rfl hn⟩
  | named ty n d =>
    have hd := adj_default d (tk .semicolon :: us) hs
    have hn : Adj none (⟨.name, n⟩ :: (d.toks ++ tk .semicolon :: us)) := adj_free (k := .name) rfl hd
    have : (Parser.Member.named ty n d).toks ++ us = ⟨.name, ty⟩ :: (⟨.name, n⟩ :: (d.toks ++ tk .semicolon :: us)) := by
      simp [Parser.Member.toks]
    rw [this]
    exact adj_free (k := .name) rfl hn
  | vector el n => exact ⟨rfl, rfl, rfl, rfl, rfl, adj_free rfl h⟩

theorem adj_members (ms : List Parser.Member) (us : List Token) (h : Adj none us) : Adj none (ms.flatMap Parser.Member.toks ++ us) := by
  induction ms with
  | nil => exact h
  | cons m ms ih => rw [List.flatMap_cons, List.append_assoc]; exact adj_member m _ ih

theorem adj_decl (d : Decl) (us : List Token) (h : Adj none us) : Adj none (d.toks ++ us) := by
  have he : Adj none (tk .blockEnd :: tk .semicolon :: us) := ⟨rfl, adj_free rfl h⟩
  cases d with
  | enum c n e es t =>
    have h1 := adj_enumerators t _ he ⟨_, _, rfl, rfl⟩ e es
    have : (Decl.enum c n e es t).toks ++ us = tk .enum :: ((if c then [tk .class_] else []) ++ (⟨.name, n⟩ :: tk .blockStart ::
        (enumeratorsToks t e es ++ (tk .blockEnd :: tk .semicolon :: us)))) := by
      simp [Decl.toks]
    rw [this]
    cases c with
    | false => exact ⟨rfl, rfl, adj_free rfl h1⟩
    | true => exact ⟨rfl, rfl, rfl, adj_free rfl h1⟩
  | struct n m ms =>
    have h1 := adj_members (m :: ms) _ he
    have : (Decl.struct n m ms).toks ++ us = tk .struct :: ⟨.name, n⟩ :: tk .blockStart :: ((m :: ms).flatMap Parser.Member.toks ++
        (tk .blockEnd :: tk .semicolon :: us)) := by
      simp [Decl.toks]
    rw [this]
    exact ⟨rfl, rfl, adj_free rfl h1⟩

/-- The grammar of stfx lets only commas and closing braces follow numbers, and so on. -/
theorem adj_header (hd : Header) : Adj none hd.toks := by
  unfold Header.toks
  induction hd.decls with
  | nil => trivial
  | cons d ds ih => rw [List.flatMap_cons]; exact adj_decl d _ ih

/-! ### Directives -/

/-- The tokens a preprocessing token stands for where no macro is replaced.  C++ [lex.phases]. -/
def ptTok : PTok → List Tok
  | .word w => [wordTok w]
  | .tok t => [t]
  | .dir _ => []

/-- Every token of the header is kept: the conditional groups are those of include guards and the like, no group is skipped, and the
names of macros are used nowhere else.  `macros`: the macros defined so far, `depth`: the number of open groups.  (Specification notion,
models no code.) -/
def keeps : List Str → Nat → List PTok → Bool
  | _, depth, [] => depth = 0
  | macros, depth, .word w :: ts => !macros.contains w && keeps macros depth ts
  | macros, depth, .tok _ :: ts => keeps macros depth ts
  | macros, depth, .dir u :: ts =>
    match dirOf u with
    | some .include | some .pragma => keeps macros depth ts
    | some (.ifdef n) => macros.contains n && keeps macros (depth + 1) ts
    | some (.ifndef n) => !macros.contains n && keeps macros (depth + 1) ts
    | some .if1 => keeps macros (depth + 1) ts
    | some .endif => match depth with
      | d + 1 => keeps macros d ts
      | 0 => false
    | some (.define n) => keeps (n :: macros) depth ts
    | some .if0 | some .else_ | none => false

theorem preprocess_keeps (macros : List Str) (depth : Nat) (ps : List PTok) (h : keeps macros depth ps = true) :
    preprocess macros (List.replicate depth true) ps = some (ps.flatMap ptTok) := by
  have hall : ∀ d, (List.replicate d true).all id = true := by intro d; simp
  induction ps generalizing macros depth with
  | nil =>
    simp only [keeps, decide_eq_true_eq] at h
    subst h; rfl
  | cons p ps ih =>
    cases p with
    | word w =>
      simp only [keeps, Bool.and_eq_true, Bool.not_eq_true'] at h
      simp only [preprocess, hall, h.1, Bool.not_false, Bool.and_self, if_true, ih _ _ h.2]
      rfl
    | tok t =>
      simp only [keeps] at h
      simp only [preprocess, hall, if_true, ih _ _ h]
      rfl
    | dir u =>
      simp only [keeps] at h
      rw [preprocess.eq_def, List.flatMap_cons, ptTok, List.nil_append]
      simp only
      cases hu : dirOf u with
      | none => rw [hu] at h; cases h
      | some x =>
        rw [hu] at h
        cases x with
        | «include» => exact ih _ _ h
        | pragma => exact ih _ _ h
        | ifdef n =>
          simp only [Bool.and_eq_true] at h
          have := ih _ _ h.2
          rw [List.replicate_succ] at this
          simp only [h.1, this]
        | ifndef n =>
          simp only [Bool.and_eq_true, Bool.not_eq_true'] at h
          have := ih _ _ h.2
          rw [List.replicate_succ] at this
          simp only [h.1, Bool.not_false, this]
        | if0 => cases h
        | if1 =>
          have := ih _ _ h
          rw [List.replicate_succ] at this
          exact this
        | else_ => cases h
        | endif =>
          cases depth with
          | zero => cases h
          | succ d => exact ih _ _ h
        | define n =>
          simp only [hall, if_true]
          exact ih _ _ h

/-! ### The declarations of stfx in C++ -/

/-- The text of a literal, C++ [lex.string], [lex.ccon]. -/
def litText (s : Str) : Str :=
  match literal s with
  | [.tok (.str w)] => w
  | [.tok (.chr w)] => w
  | _ => []

/-- A type keyword, struct_yacc.y:173-182. -/
def simpleCpp : SimpleTy → ITy
  | .bool => .prim .bool
  | .int => .prim .int
  | .short => .prim .short
  | .long => .prim .long
  | .unsignedInt => .prim .uint
  | .unsignedShort => .prim .ushort
  | .unsignedLong => .prim .ulong
  | .float => .prim .float
  | .double => .prim .double
  | .stdString => .name [c!"std", c!"string"]

/-- A default value, struct_yacc.y:187-193. -/
def valCpp : DefVal → Expr
  | .int s => .num s
  | .float s => .num s
  | .true_ => .bool true
  | .false_ => .bool false
  | .enumerator s => .id [(scopeParts s).1, (scopeParts s).2]
  | .string s => .str (litText s)
  | .chr s => .chr (litText s)

/-- A default member initialiser, struct_yacc.y:184-185. -/
def initCpp : Default → Option Expr
  | .absent => none
  | .empty => some (.braces [])
  | .val v => some (.braces [valCpp v])

/-- A member, struct_yacc.y:167-171. -/
def memberCpp : Parser.Member → IMember
  | .simple ty n d => .field (simpleCpp ty) n none (initCpp d)
  | .named ty n d => .field (.name [ty]) n none (initCpp d)
  | .vector el n => .field (.tmpl [c!"std", c!"vector"] (.name [el])) n none none

/-- The value of an enumerator, struct_yacc.y:156-158. -/
def enumValCpp : EnumVal → Expr
  | .dec s => .num s
  | .hex s => .num s
  | .chr s => .chr (litText s)

/-- A declaration of stfx is this declaration of C++, struct_yacc.y:92-93, 143-165. -/
def declCpp : Decl → IDecl
  | .enum c n e es _ => .enum c n none ((e :: es).map fun e => (e.name, e.value.map enumValCpp))
  | .struct n m ms => .struct n ((m :: ms).map memberCpp)

/-! ### Grammar -/

/-- A token which C++ reads as stfx does.  (Proof notion, models no code.) -/
structure CleanTok (t : Token) : Prop where
  name : t.kind = .name → keywords.lookup t.text = none
  scope : t.kind = .enumValue → keywords.lookup (scopeParts t.text).1 = none ∧ keywords.lookup (scopeParts t.text).2 = none
  string : t.kind = .stringConstant → literal t.text = [.tok (.str (litText t.text))]
  char : t.kind = .charConstant → literal t.text = [.tok (.chr (litText t.text))]

/-- The tokens of C++ for a token of stfx.  (Proof notion, models no code.) -/
def tokCpp (t : Token) : List Tok := (cToks t).flatMap ptTok

theorem word_cpp {w : Str} (h : keywords.lookup w = none) : wordTok w = .id w := by rw [wordTok, h]

theorem name_cpp {n : Str} (h : CleanTok ⟨.name, n⟩) : tokCpp ⟨.name, n⟩ = [.id n] := by
  have := h.name rfl
  simp only at this
  simp [tokCpp, cToks, ptTok, word_cpp this]

theorem expr_single (fuel : Nat) (t : Tok) (e : Expr) (o : Op) (r : List Tok) (ho : o = .comma ∨ o = .rbrace)
    (h : ∀ f ts, pPrimary false (f + 1) (t :: ts) = some (e, ts)) (ht : ∀ x, t ≠ .op x) : pExpr false (fuel + 5) (t :: .op o :: r) = some (e, .op o :: r) := by
  have hu : pUnary false (fuel + 3) (t :: .op o :: r) = some (e, .op o :: r) := by
    have hp : pPostfix false (fuel + 2) e (.op o :: r) = some (e, .op o :: r) := by
      rcases ho with rfl | rfl <;> rw [pPostfix] <;> simp
    cases t with
    | op x => exact absurd rfl (ht x)
    | _ => rw [pUnary] <;> first | simp [h, hp] | simp
  have hb : pBinRest false (fuel + 3) 0 e (.op o :: r) = some (e, .op o :: r) := by
    rcases ho with rfl | rfl <;> rw [pBinRest] <;> simp [binOp]
  rw [pExpr, pBin, hu]
  simp only [hb]
  rcases ho with rfl | rfl <;> rfl

theorem expr_scope (fuel : Nat) (a b : Str) (o : Op) (r : List Tok) (ho : o = .comma ∨ o = .rbrace) :
    pExpr false (fuel + 5) (.id a :: .op .scope :: .id b :: .op o :: r) = some (.id [a, b], .op o :: r) := by
  have hu : pUnary false (fuel + 3) (.id a :: .op .scope :: .id b :: .op o :: r) = some (.id [a, b], .op o :: r) := by
    have hp : pPostfix false (fuel + 2) (.id [a, b]) (.op o :: r) = some (.id [a, b], .op o :: r) := by
      rcases ho with rfl | rfl <;> rw [pPostfix] <;> simp
    have hq : pPrimary false (fuel + 2) (.id a :: .op .scope :: .id b :: .op o :: r) = some (.id [a, b], .op o :: r) := by
      rcases ho with rfl | rfl <;> simp [pPrimary, pQual]
    rw [pUnary]
    · simp only [hq, hp]
    · simp
    · simp
  have hb : pBinRest false (fuel + 3) 0 (.id [a, b]) (.op o :: r) = some (.id [a, b], .op o :: r) := by
    rcases ho with rfl | rfl <;> rw [pBinRest] <;> simp [binOp]
  rw [pExpr, pBin, hu]
  simp only [hb]
  rcases ho with rfl | rfl <;> rfl

/-- The tokens of C++ for some tokens of stfx.  (Proof notion, models no code.) -/
def toksCpp (ts : List Token) : List Tok := ts.flatMap tokCpp

theorem toksCpp_append (a b : List Token) : toksCpp (a ++ b) = toksCpp a ++ toksCpp b := List.flatMap_append
theorem toksCpp_cons (t : Token) (b : List Token) : toksCpp (t :: b) = tokCpp t ++ toksCpp b := List.flatMap_cons

theorem lit_cpp {k : TokKind} {s : Str} (h : CleanTok ⟨k, s⟩) :
    (k = .stringConstant → tokCpp ⟨k, s⟩ = [.str (litText s)]) ∧ (k = .charConstant → tokCpp ⟨k, s⟩ = [.chr (litText s)]) ∧
    (k = .enumValue → tokCpp ⟨k, s⟩ = [.id (scopeParts s).1, .op .scope, .id (scopeParts s).2]) := by
  refine ⟨?_, ?_, ?_⟩
  · rintro rfl
    have := h.string rfl
    simp only at this
    simp [tokCpp, cToks, this, ptTok]
  · rintro rfl
    have := h.char rfl
    simp only at this
    simp [tokCpp, cToks, this, ptTok]
  · rintro rfl
    have := h.scope rfl
    simp only at this
    simp [tokCpp, cToks, ptTok, word_cpp this.1, word_cpp this.2]

theorem words_cpp : tokCpp (tk .enum) = [.kw .enum_] ∧ tokCpp (tk .class_) = [.kw .class_] ∧ tokCpp (tk .struct) = [.kw .struct_] ∧
    tokCpp (tk .bool) = [.kw .bool_] ∧ tokCpp (tk .int) = [.kw .int_] ∧ tokCpp (tk .short) = [.kw .short_] ∧ tokCpp (tk .long) = [.kw .long_] ∧
    tokCpp (tk .unsigned) = [.kw .unsigned_] ∧ tokCpp (tk .float) = [.kw .float_] ∧ tokCpp (tk .double) = [.kw .double_] ∧
    tokCpp (tk .true_) = [.kw .true_] ∧ tokCpp (tk .false_) = [.kw .false_] ∧
    tokCpp (tk .stdString) = [.id c!"std", .op .scope, .id c!"string"] ∧ tokCpp (tk .stdVector) = [.id c!"std", .op .scope, .id c!"vector"] := by
  decide +kernel

theorem puncts_cpp : tokCpp (tk .blockStart) = [.op .lbrace] ∧ tokCpp (tk .blockEnd) = [.op .rbrace] ∧ tokCpp (tk .equals) = [.op .assign] ∧
    tokCpp (tk .comma) = [.op .comma] ∧ tokCpp (tk .semicolon) = [.op .semi] ∧ tokCpp (tk .lessthan) = [.op .lt] ∧
    tokCpp (tk .greaterthan) = [.op .gt] := by decide +kernel

theorem num_cpp (s : Str) : tokCpp ⟨.value, s⟩ = [.num s] ∧ tokCpp ⟨.hexValue, s⟩ = [.num s] ∧ tokCpp ⟨.fValue, s⟩ = [.num s] := ⟨rfl, rfl, rfl⟩

theorem simple_cpp (fuel : Nat) (ty : SimpleTy) (n : Str) (r : List Tok) :
    piTy (fuel + 1) (toksCpp ty.toks ++ .id n :: r) = some (simpleCpp ty, .id n :: r) := by
  have w := words_cpp
  cases ty <;> simp [SimpleTy.toks, toksCpp, w, piTy, dropConst, pPrim, pQual, piPtr, simpleCpp]

theorem val_cpp (fuel : Nat) (v : DefVal) (h : CleanTok v.tok) (r : List Tok) :
    pExpr false (fuel + 5) (tokCpp v.tok ++ .op .rbrace :: r) = some (valCpp v, .op .rbrace :: r) := by
  have w := words_cpp
  have one := fun t e h ht => expr_single fuel t e .rbrace r (.inr rfl) h ht
  cases v with
  | int s => exact one _ _ (fun _ _ => by rw [pPrimary]; rfl) (fun x h => by cases h)
  | float s => exact one _ _ (fun _ _ => by rw [pPrimary]; rfl) (fun x h => by cases h)
  | true_ => simp only [DefVal.tok, w]; exact one _ _ (fun _ _ => by rw [pPrimary]; rfl) (fun x h => by cases h)
  | false_ => simp only [DefVal.tok, w]; exact one _ _ (fun _ _ => by rw [pPrimary]; rfl) (fun x h => by cases h)
  | enumerator s => simp only [DefVal.tok, (lit_cpp h).2.2 rfl]; exact expr_scope fuel _ _ _ r (.inr rfl)
  | string s => simp only [DefVal.tok, (lit_cpp h).1 rfl]; exact one _ _ (fun _ _ => by rw [pPrimary]; rfl) (fun x h => by cases h)
  | chr s => simp only [DefVal.tok, (lit_cpp h).2.1 rfl]; exact one _ _ (fun _ _ => by rw [pPrimary]; rfl) (fun x h => by cases h)

/-- The first token of a value is no brace. -/
theorem val_head (v : DefVal) (h : CleanTok v.tok) : ∃ t ts, tokCpp v.tok = t :: ts ∧ ∀ x, t ≠ .op x := by
  have w := words_cpp
  cases v with
  | int s => exact ⟨_, _, rfl, fun x h => by cases h⟩
  | float s => exact ⟨_, _, rfl, fun x h => by cases h⟩
  | true_ => simp only [DefVal.tok, w]; exact ⟨_, _, rfl, fun x h => by cases h⟩
  | false_ => simp only [DefVal.tok, w]; exact ⟨_, _, rfl, fun x h => by cases h⟩
  | enumerator s => simp only [DefVal.tok, (lit_cpp h).2.2 rfl]; exact ⟨_, _, rfl, fun x h => by cases h⟩
  | string s => simp only [DefVal.tok, (lit_cpp h).1 rfl]; exact ⟨_, _, rfl, fun x h => by cases h⟩
  | chr s => simp only [DefVal.tok, (lit_cpp h).2.1 rfl]; exact ⟨_, _, rfl, fun x h => by cases h⟩

theorem init_cpp (fuel : Nat) (v : DefVal) (h : CleanTok v.tok) (r : List Tok) :
    pInit false (fuel + 5) (.op .lbrace :: (tokCpp v.tok ++ .op .rbrace :: r)) = some (.braces [valCpp v], r) := by
  obtain ⟨t, ts, ht, hx⟩ := val_head v h
  have hv := val_cpp fuel v h r
  rw [ht] at hv ⊢
  have he : pElem false (fuel + 5) (t :: ts ++ .op .rbrace :: r) = some (valCpp v, .op .rbrace :: r) := by
    rw [List.cons_append] at hv ⊢
    cases t with
    | op x => exact absurd rfl (hx x)
    | _ => exact hv
  have hl : pList (pElem false (fuel + 5)) (fuel + 5) (t :: ts ++ .op .rbrace :: r) = some ([valCpp v], r) := by
    rw [List.cons_append] at he ⊢
    rw [pList]
    · rw [he]
    · rintro _ h
      injection h with h _
      exact hx _ h
  rw [pInit, hl]

/-- A member. -/
theorem field_cpp (fuel : Nat) (ty : ITy) (tts : List Tok) (n : Str) (d : Default) (hd : ∀ t ∈ d.toks, CleanTok t) (r : List Tok)
    (hty : ∀ r, piTy (fuel + 5) (tts ++ .id n :: r) = some (ty, .id n :: r)) :
    piMember (fuel + 5) (tts ++ .id n :: (toksCpp d.toks ++ .op .semi :: r)) = some (.field ty n none (initCpp d), r) := by
  have p := puncts_cpp
  unfold piMember
  rw [hty]
  cases d with
  | absent => rfl
  | empty => simp [Default.toks, toksCpp, p, pInit, pList, initCpp]
  | val v =>
    have hv := init_cpp fuel v (hd _ (by simp [Default.toks])) (.op .semi :: r)
    have e : toksCpp (Default.val v).toks ++ .op .semi :: r = .op .lbrace :: (tokCpp v.tok ++ .op .rbrace :: .op .semi :: r) := by
      simp [Default.toks, toksCpp, p]
    rw [e]
    simp only [hv]
    rfl

theorem member_cpp (fuel : Nat) (m : Parser.Member) (hm : ∀ t ∈ m.toks, CleanTok t) (r : List Tok) :
    piMember (fuel + 5) (toksCpp m.toks ++ r) = some (memberCpp m, r) := by
  have w := words_cpp
  have p := puncts_cpp
  cases m with
  | simple ty n d =>
    have hn := name_cpp (hm ⟨.name, n⟩ (by simp [Parser.Member.toks]))
    have := field_cpp fuel (simpleCpp ty) (toksCpp ty.toks) n d (fun t ht => hm t (by simp [Parser.Member.toks, ht])) r
      (fun r => simple_cpp (fuel + 4) ty n r)
    simpa [Parser.Member.toks, toksCpp, hn, p, memberCpp] using this
  | named ty n d =>
    have hn := name_cpp (hm ⟨.name, n⟩ (by simp [Parser.Member.toks]))
    have ht := name_cpp (hm ⟨.name, ty⟩ (by simp [Parser.Member.toks]))
    have := field_cpp fuel (.name [ty]) [.id ty] n d (fun t ht => hm t (by simp [Parser.Member.toks, ht])) r
      (fun r => by simp [piTy, dropConst, pQual, piPtr])
    simpa [Parser.Member.toks, toksCpp, hn, ht, p, memberCpp] using this
  | vector el n =>
    have hn := name_cpp (hm ⟨.name, n⟩ (by simp [Parser.Member.toks]))
    have ht := name_cpp (hm ⟨.name, el⟩ (by simp [Parser.Member.toks]))
    simp [Parser.Member.toks, toksCpp, hn, ht, p, w, piMember, piTy, dropConst, pQual, piPtr, memberCpp]

/-- The first token of a member is not `}`. -/
theorem member_head (m : Parser.Member) (hm : ∀ t ∈ m.toks, CleanTok t) : ∃ t ts, toksCpp m.toks = t :: ts ∧ t ≠ .op .rbrace := by
  have w := words_cpp
  cases m with
  | simple ty n d => cases ty <;> simp [Parser.Member.toks, SimpleTy.toks, toksCpp, w]
  | named ty n d =>
    have ht := name_cpp (hm ⟨.name, ty⟩ (by simp [Parser.Member.toks]))
    simp [Parser.Member.toks, toksCpp, ht]
  | vector el n => simp [Parser.Member.toks, toksCpp, w]

theorem members_cpp (fuel : Nat) (ms : List Parser.Member) (hm : ∀ m ∈ ms, ∀ t ∈ m.toks, CleanTok t) (n : Nat) (hn : ms.length < n) (r : List Tok) :
    piMembers (fuel + 5) n (toksCpp (ms.flatMap Parser.Member.toks) ++ .op .rbrace :: r) = some (ms.map memberCpp, r) := by
  induction ms generalizing n with
  | nil =>
    obtain ⟨n, rfl⟩ := Nat.exists_eq_succ_of_ne_zero (n := n) (by rintro rfl; simp at hn)
    rfl
  | cons m ms ih =>
    obtain ⟨n, rfl⟩ := Nat.exists_eq_succ_of_ne_zero (n := n) (by rintro rfl; simp at hn)
    have h1 := member_cpp fuel m (hm m List.mem_cons_self) (toksCpp (ms.flatMap Parser.Member.toks) ++ .op .rbrace :: r)
    obtain ⟨t, ts, ht, hne⟩ := member_head m (hm m List.mem_cons_self)
    rw [List.flatMap_cons, toksCpp_append, List.append_assoc]
    rw [ht, List.cons_append] at h1 ⊢
    rw [piMembers]
    · rw [h1]
      simp only [ih (fun m h => hm m (List.mem_cons_of_mem _ h)) n (by simpa using hn)]
      rfl
    · rintro _ h
      injection h with h _
      exact hne h

/-! ### Enums -/

theorem enumVal_cpp (fuel : Nat) (v : EnumVal) (h : CleanTok v.tok) (o : Op) (r : List Tok) (ho : o = .comma ∨ o = .rbrace) :
    pExpr false (fuel + 5) (tokCpp v.tok ++ .op o :: r) = some (enumValCpp v, .op o :: r) := by
  have one := fun t e h ht => expr_single fuel t e o r ho h ht
  cases v with
  | dec s => exact one _ _ (fun _ _ => by rw [pPrimary]; rfl) (fun x h => by cases h)
  | hex s => exact one _ _ (fun _ _ => by rw [pPrimary]; rfl) (fun x h => by cases h)
  | chr s => simp only [EnumVal.tok, (lit_cpp h).2.1 rfl]; exact one _ _ (fun _ _ => by rw [pPrimary]; rfl) (fun x h => by cases h)

theorem enumerator_cpp (fuel : Nat) (e : Enumerator) (h : ∀ t ∈ e.toks, CleanTok t) (o : Op) (r : List Tok) (ho : o = .comma ∨ o = .rbrace) :
    piEnumerator (fuel + 5) (toksCpp e.toks ++ .op o :: r) = some ((e.name, e.value.map enumValCpp), .op o :: r) := by
  have p := puncts_cpp
  obtain ⟨n, v⟩ := e
  cases v with
  | none =>
    have hn := name_cpp (h ⟨.name, n⟩ (by simp [Enumerator.toks]))
    rcases ho with rfl | rfl <;> simp [Enumerator.toks, toksCpp, hn, piEnumerator]
  | some v =>
    have hn := name_cpp (h ⟨.name, n⟩ (by simp [Enumerator.toks]))
    have hv := enumVal_cpp fuel v (h v.tok (by simp [Enumerator.toks])) o r ho
    simp [Enumerator.toks, toksCpp, hn, p, piEnumerator, hv]

theorem enumerator_head (e : Enumerator) (h : ∀ t ∈ e.toks, CleanTok t) : ∃ ts, toksCpp e.toks = .id e.name :: ts := by
  obtain ⟨n, v⟩ := e
  cases v with
  | none =>
    have hn := name_cpp (h ⟨.name, n⟩ (by simp [Enumerator.toks]))
    exact ⟨[], by simp [Enumerator.toks, toksCpp, hn]⟩
  | some v =>
    have hn := name_cpp (h ⟨.name, n⟩ (by simp [Enumerator.toks]))
    exact ⟨toksCpp [tk .equals, v.tok], by simp [Enumerator.toks, toksCpp, hn]⟩

theorem enumerators_cpp (fuel : Nat) (t : Bool) (e : Enumerator) (es : List Enumerator) (h : ∀ x ∈ enumeratorsToks t e es, CleanTok x) (n : Nat)
    (hn : es.length + 1 < n) (r : List Tok) :
    pList (piEnumerator (fuel + 5)) n (toksCpp (enumeratorsToks t e es) ++ .op .rbrace :: r) =
      some ((e :: es).map fun e => (e.name, e.value.map enumValCpp), r) := by
  have p := puncts_cpp
  induction es generalizing e n with
  | nil =>
    obtain ⟨n, rfl⟩ := Nat.exists_eq_succ_of_ne_zero (n := n) (by rintro rfl; simp at hn)
    obtain ⟨n, rfl⟩ := Nat.exists_eq_succ_of_ne_zero (n := n) (by rintro rfl; simp at hn)
    have he : ∀ x ∈ e.toks, CleanTok x := fun x hx => h x (by rw [enumeratorsToks]; exact List.mem_append_left _ hx)
    obtain ⟨ts, hts⟩ := enumerator_head e he
    cases t with
    | false =>
      have h1 := enumerator_cpp fuel e he .rbrace r (.inr rfl)
      rw [show enumeratorsToks false e [] = e.toks by simp [enumeratorsToks]]
      rw [hts, List.cons_append] at h1 ⊢
      rw [pList]
      · rw [h1]; rfl
      · simp
    | true =>
      have h1 := enumerator_cpp fuel e he .comma (.op .rbrace :: r) (.inl rfl)
      rw [show toksCpp (enumeratorsToks true e []) ++ .op .rbrace :: r = toksCpp e.toks ++ .op .comma :: .op .rbrace :: r by
        simp [enumeratorsToks, toksCpp, p]]
      rw [hts, List.cons_append] at h1 ⊢
      rw [pList]
      · rw [h1]; rfl
      · simp
  | cons e' es ih =>
    obtain ⟨n, rfl⟩ := Nat.exists_eq_succ_of_ne_zero (n := n) (by rintro rfl; simp at hn)
    have he : ∀ x ∈ e.toks, CleanTok x := fun x hx => h x (by rw [enumeratorsToks]; exact List.mem_append_left _ hx)
    have hr : ∀ x ∈ enumeratorsToks t e' es, CleanTok x := fun x hx => h x (by
      rw [enumeratorsToks]; exact List.mem_append_right _ (List.mem_cons_of_mem _ hx))
    obtain ⟨ts, hts⟩ := enumerator_head e he
    have h1 := enumerator_cpp fuel e he .comma (toksCpp (enumeratorsToks t e' es) ++ .op .rbrace :: r) (.inl rfl)
    have h2 := ih e' hr n (by simpa using hn)
    rw [show toksCpp (enumeratorsToks t e (e' :: es)) ++ .op .rbrace :: r =
      toksCpp e.toks ++ .op .comma :: (toksCpp (enumeratorsToks t e' es) ++ .op .rbrace :: r) by
        simp [enumeratorsToks, toksCpp, p]]
    rw [hts, List.cons_append] at h1 ⊢
    rw [pList]
    · rw [h1]; simp only [h2]; rfl
    · simp

/-! ### Declarations -/

theorem members_length (ms : List Parser.Member) (hm : ∀ m ∈ ms, ∀ t ∈ m.toks, CleanTok t) :
    ms.length ≤ (toksCpp (ms.flatMap Parser.Member.toks)).length := by
  induction ms with
  | nil => simp
  | cons m ms ih =>
    obtain ⟨t, ts, ht, _⟩ := member_head m (hm m List.mem_cons_self)
    have := ih fun m h => hm m (List.mem_cons_of_mem _ h)
    rw [List.flatMap_cons, toksCpp_append, ht]
    simp only [List.length_cons, List.length_append]
    omega

theorem enumerators_length (t : Bool) (e : Enumerator) (es : List Enumerator) (h : ∀ x ∈ enumeratorsToks t e es, CleanTok x) :
    es.length + 1 ≤ (toksCpp (enumeratorsToks t e es)).length := by
  induction es generalizing e with
  | nil =>
    obtain ⟨ts, hts⟩ := enumerator_head e fun x hx => h x (by rw [enumeratorsToks]; exact List.mem_append_left _ hx)
    rw [enumeratorsToks, toksCpp_append, hts]
    simp
  | cons e' es ih =>
    obtain ⟨ts, hts⟩ := enumerator_head e fun x hx => h x (by rw [enumeratorsToks]; exact List.mem_append_left _ hx)
    have := ih e' fun x hx => h x (by rw [enumeratorsToks]; exact List.mem_append_right _ (List.mem_cons_of_mem _ hx))
    rw [enumeratorsToks, toksCpp_append, toksCpp_cons, hts]
    simp only [List.length_cons, List.length_append]
    omega

theorem decl_cpp (fuel : Nat) (d : Decl) (h : ∀ t ∈ d.toks, CleanTok t) (hf : (toksCpp d.toks).length ≤ fuel) (r : List Tok) :
    piDecl (fuel + 5) (toksCpp d.toks ++ r) = some (declCpp d, r) := by
  have w := words_cpp
  have p := puncts_cpp
  cases d with
  | enum c n e es t =>
    have hn := name_cpp (h ⟨.name, n⟩ (by simp [Decl.toks]))
    have he : ∀ x ∈ enumeratorsToks t e es, CleanTok x := fun x hx => h x (by simp [Decl.toks, hx])
    have hl := enumerators_length t e es he
    have hlen : (toksCpp (enumeratorsToks t e es)).length ≤ (toksCpp (Decl.enum c n e es t).toks).length := by
      simp only [Decl.toks, toksCpp_append, toksCpp_cons, List.length_append, List.cons_append]
      omega
    have h1 := enumerators_cpp fuel t e es he (fuel + 5) (by omega) (.op .semi :: r)
    have e1 : toksCpp (Decl.enum c n e es t).toks ++ r = .kw .enum_ :: ((if c then [.kw .class_] else []) ++ .id n :: .op .lbrace ::
        (toksCpp (enumeratorsToks t e es) ++ .op .rbrace :: .op .semi :: r)) := by
      cases c <;> simp [Decl.toks, toksCpp, w, p, hn]
    rw [e1]
    cases c <;> simp [piDecl, piEnumHead, piEnum, h1, declCpp]
  | struct n m ms =>
    have hn := name_cpp (h ⟨.name, n⟩ (by simp [Decl.toks]))
    have he : ∀ x ∈ m :: ms, ∀ t ∈ x.toks, CleanTok t := fun x hx t ht => h t (by
      have : t ∈ (m :: ms).flatMap Parser.Member.toks := List.mem_flatMap.2 ⟨x, hx, ht⟩
      simp only [Decl.toks, List.cons_append, List.mem_cons, List.mem_append]
      exact .inr (.inr (.inr (.inl this))))
    have hl := members_length (m :: ms) he
    have hlen : (toksCpp ((m :: ms).flatMap Parser.Member.toks)).length ≤ (toksCpp (Decl.struct n m ms).toks).length := by
      simp only [Decl.toks, toksCpp_append, toksCpp_cons, List.length_append, List.cons_append]
      omega
    have h1 := members_cpp fuel (m :: ms) he (fuel + 5) (by omega) (.op .semi :: r)
    have e1 : toksCpp (Decl.struct n m ms).toks ++ r = .kw .struct_ :: .id n :: .op .lbrace ::
        (toksCpp ((m :: ms).flatMap Parser.Member.toks) ++ .op .rbrace :: .op .semi :: r) := by
      simp [Decl.toks, toksCpp, w, p, hn]
    rw [e1, piDecl, h1]
    rfl

theorem decl_head (d : Decl) : ∃ k ts, toksCpp d.toks = .kw k :: ts := by
  have w := words_cpp
  cases d with
  | enum c n e es t => exact ⟨.enum_, _, by simp [Decl.toks, toksCpp_cons, w]; rfl⟩
  | struct n m ms => exact ⟨.struct_, _, by simp [Decl.toks, toksCpp_cons, w]; rfl⟩

theorem file_cpp (fuel : Nat) (ds : List Decl) (h : ∀ d ∈ ds, ∀ t ∈ d.toks, CleanTok t) (hf : (toksCpp (ds.flatMap Decl.toks)).length ≤ fuel)
    (n : Nat) (hn : ds.length ≤ n) : piFile (fuel + 5) n (toksCpp (ds.flatMap Decl.toks)) = some (ds.map declCpp) := by
  induction ds generalizing n with
  | nil => cases n <;> rfl
  | cons d ds ih =>
    obtain ⟨n, rfl⟩ := Nat.exists_eq_succ_of_ne_zero (n := n) (by rintro rfl; simp at hn)
    obtain ⟨k, ts, hk⟩ := decl_head d
    rw [List.flatMap_cons, toksCpp_append, List.length_append] at hf
    have h1 := decl_cpp fuel d (h d List.mem_cons_self) (by omega) (toksCpp (ds.flatMap Decl.toks))
    have h2 := ih (fun d hd => h d (List.mem_cons_of_mem _ hd)) (by omega) n (by simpa using hn)
    rw [List.flatMap_cons, toksCpp_append]
    rw [hk, List.cons_append] at h1 ⊢
    rw [piFile]
    · rw [h1]; simp only [h2]; rfl
    · simp
    · simp

theorem decls_length (ds : List Decl) : ds.length ≤ (toksCpp (ds.flatMap Decl.toks)).length := by
  induction ds with
  | nil => simp
  | cons d ds ih =>
    obtain ⟨k, ts, hk⟩ := decl_head d
    rw [List.flatMap_cons, toksCpp_append, hk]
    simp only [List.length_cons, List.length_append]
    omega

/-! ### A header -/

/-- A header which C++ reads as stfx does: all lexemes are clean, no comment is left open, no line ends with a backslash, and no
directive takes tokens away.  (Specification notion, models no code.) -/
def plainText (w : Str) : Bool :=
  match lexFrom LexSt.init w with
  | some ls => ls.all cleanLexeme && decide (endSC .initial ls = .initial) && decide (splice w = w) && keeps [] 0 (ls.flatMap lexemeToks)
  | none => false

theorem lexeme_toks (l : Lexeme) : (lexemeToks l).flatMap ptTok = toksCpp (tokensOf [l]) := by
  unfold lexemeToks
  split
  · rename_i h
    simp [tokensOf, Lexeme.token?, h, actKind, toksCpp, ptTok]
  · cases h : l.token? with
    | none => simp [tokensOf, h, toksCpp]
    | some t => simp [tokensOf, h, toksCpp, tokCpp]

theorem lexemes_toks (ls : List Lexeme) : (ls.flatMap lexemeToks).flatMap ptTok = toksCpp (tokensOf ls) := by
  induction ls with
  | nil => rfl
  | cons l ls ih =>
    have e : tokensOf (l :: ls) = tokensOf [l] ++ tokensOf ls := by
      unfold tokensOf; rw [← List.filterMap_append]; rfl
    rw [List.flatMap_cons, List.flatMap_append, ih, lexeme_toks, e, toksCpp_append]

theorem clean_tok {l : Lexeme} {t : Token} (h : CleanLexeme l) (ht : l.token? = some t) : CleanTok t := by
  obtain ⟨r, text, loc⟩ := l
  simp only [Lexeme.token?, Option.map_eq_some_iff] at ht
  obtain ⟨k, hk, rfl⟩ := ht
  have hrule : ∀ k' r', actKind r = some k' → (∀ r, actKind r = some k' → r = r') → r = r' := fun k' r' h1 h2 => h2 r h1
  refine ⟨?_, ?_, ?_, ?_⟩ <;> intro e <;> simp only at e <;> subst e
  · obtain rfl := hrule .name 30 hk (by intro r; unfold actKind; split <;> simp)
    exact h.name rfl
  · obtain rfl := hrule .enumValue 31 hk (by intro r; unfold actKind; split <;> simp)
    exact h.scope rfl
  · obtain rfl := hrule .stringConstant 35 hk (by intro r; unfold actKind; split <;> simp)
    obtain ⟨s, hs⟩ := h.string rfl
    simp only at hs
    simp [actText, literal, litText, hs]
  · obtain rfl := hrule .charConstant 36 hk (by intro r; unfold actKind; split <;> simp)
    obtain ⟨s, hs⟩ := h.char rfl
    simp only at hs
    simp [actText, literal, litText, hs]

/-- C++ finds in a header the declarations stfx finds in it. -/
theorem parse_plain {w : Str} {hd : Header} (hp : plainText w = true) (ht : toksFile w = some hd.toks) :
    parseInput w = some (hd.decls.map declCpp) := by
  unfold plainText at hp
  cases hl : lexFrom LexSt.init w with
  | none => rw [hl] at hp; cases hp
  | some ls =>
    rw [hl] at hp
    simp only [Bool.and_eq_true, List.all_eq_true, decide_eq_true_eq] at hp
    obtain ⟨⟨⟨hc, he⟩, hs⟩, hk⟩ := hp
    have hc' : ∀ l ∈ ls, CleanLexeme l := fun l h => clean_of (hc l h)
    have htoks : tokensOf ls = hd.toks := by
      simpa [toksFile, toksFrom, hl] using ht
    have hscan := (scan_lexemes w.length LexSt.init w ls (Nat.le_refl _) hl hc' he).1 rfl none .start .start (by rw [htoks]; exact adj_header hd)
    have h1 : pptoks w = some (ls.flatMap lexemeToks) := by
      unfold pptoks
      rw [hs, hscan]; rfl
    have h2 := preprocess_keeps [] 0 _ hk
    rw [lexemes_toks, htoks] at h2
    have h3 : ∀ d ∈ hd.decls, ∀ t ∈ d.toks, CleanTok t := by
      intro d hd' t ht
      have : t ∈ tokensOf ls := by rw [htoks]; exact List.mem_flatMap.2 ⟨d, hd', ht⟩
      unfold tokensOf at this
      obtain ⟨l, hl', hlt⟩ := List.mem_filterMap.1 this
      exact clean_tok (hc' l hl') hlt
    unfold parseInput
    rw [h1]
    simp only
    rw [show ([] : List Bool) = List.replicate 0 true from rfl, h2]
    simp only
    have := file_cpp ((toksCpp hd.toks).length + 15) hd.decls h3 (by unfold Header.toks; omega) ((toksCpp hd.toks).length + 1) (by
      have := decls_length hd.decls; unfold Header.toks; omega)
    exact this

end Stfx.Cpp
