import Verif.Cpp.Eval
/-
The generated .h files: their grammar, and what making an object of one of their classes does.

Like `Parse.lean` and `Eval.lean` this is a reading of the C++ standard, not of /repo.  What the grammar does not know it rejects.
-/
set_option autoImplicit false
namespace Stfx.Cpp
open Stfx.Run Stfx.Parser Stfx.Items

/-! ### Syntax -/

/-- Access of members and base classes.  C++ [class.access]. -/
inductive Access where
  | priv | prot | pub
deriving DecidableEq, Repr

/-- A data member: its type, name and default member initialiser.  C++ [class.mem]. -/
structure Field where
  ty : Ty
  name : Str
  init : Option Expr
deriving Repr

/-- A declaration of a function; `ret` is `none` for constructors.  Parameters have a type, a name and perhaps a default argument.
C++ [dcl.fct]. -/
structure FDecl where
  virt : Bool
  ret : Option Ty
  name : Str
  params : List (Ty × Str × Option Expr)
deriving Repr

/-- What stands between the braces of a class.  `nested`: a class with data members only.  C++ [class.mem]. -/
inductive Member where
  | access (a : Access)
  | field (f : Field)
  | fn (f : FDecl)
  | nested (n : Str) (fs : List Field)
deriving Repr

/-- A class with at most one base class.  C++ [class]. -/
structure Class where
  name : Str
  base : Option (Access × List Str)
  members : List Member
deriving Repr

/-- An explicit specialisation `template <> struct tmpl<arg> : base<baseArg>` with one member function template
`template <typename tparam> auto fn(params) const { body return base<retArg>::retFn(args); }`.  C++ [temp.expl.spec], [temp.mem]. -/
structure Special where
  tmpl : List Str
  arg : List Str
  base : List Str
  baseArg : List Str
  tparam : Str
  fn : Str
  params : List (Ty × Str)
  body : List Stmt
  ret : List Str × List Str × Str
  retArgs : List Expr
deriving Repr

/-- What a header declares.  C++ [dcl.pre]. -/
inductive HDecl where
  | cls (c : Class)
  | ns (n : Str) (fs : List FDecl)
  | special (s : Special)
deriving Repr

/-! ### Grammar -/

/-- Access specifiers.  C++ [class.access.spec]. -/
def accessOf : Kw → Option Access
  | .private_ => some .priv
  | .protected_ => some .prot
  | .public_ => some .pub
  | _ => none

/-- One or more parameters up to the closing parenthesis.  C++ [dcl.fct], [dcl.fct.default]. -/
def pDParams (ext : Bool) (fuel : Nat) : Nat → List Tok → Option (List (Ty × Str × Option Expr) × List Tok)
  | 0, _ => none
  | n + 1, ts => match pTy fuel ts with
    | some (t, .id x :: .op .comma :: r) => match pDParams ext fuel n r with
      | some (ps, r) => some ((t, x, none) :: ps, r)
      | none => none
    | some (t, .id x :: .op .rpar :: r) => some ([(t, x, none)], r)
    | some (t, .id x :: .op .assign :: r) => match pExpr ext fuel r with
      | some (e, .op .comma :: r) => match pDParams ext fuel n r with
        | some (ps, r) => some ((t, x, some e) :: ps, r)
        | none => none
      | some (e, .op .rpar :: r) => some ([(t, x, some e)], r)
      | _ => none
    | _ => none

/-- A declaration of a function from its parameters on.  C++ [dcl.fct]. -/
def pFDecl (ext : Bool) (fuel : Nat) (virt : Bool) (ret : Option Ty) (name : Str) : List Tok → Option (FDecl × List Tok)
  | .op .rpar :: .op .semi :: r => some (⟨virt, ret, name, []⟩, r)
  | ts => match pDParams ext fuel fuel ts with
    | some (ps, .op .semi :: r) => some (⟨virt, ret, name, ps⟩, r)
    | _ => none

/-- A declaration of a function with a result.  C++ [dcl.fct]. -/
def pFn (ext : Bool) (fuel : Nat) (virt : Bool) (ts : List Tok) : Option (FDecl × List Tok) :=
  match pTy fuel ts with
  | some (t, .id n :: .op .lpar :: r) => pFDecl ext fuel virt (some t) n r
  | _ => none

/-- A data member.  C++ [class.mem]. -/
def pField (ext : Bool) (fuel : Nat) (ts : List Tok) : Option (Field × List Tok) :=
  match pDecl ext fuel ts with
  | some (.decl t n none i, r) => some (⟨t, n, i⟩, r)
  | _ => none

/-- Members up to a closing brace, which is dropped.  C++ [class.mem]. -/
def pUntil {α : Type} (p : List Tok → Option (α × List Tok)) : Nat → List Tok → Option (List α × List Tok)
  | 0, _ => none
  | _ + 1, .op .rbrace :: r => some ([], r)
  | n + 1, ts => match p ts with
    | some (a, r) => match pUntil p n r with
      | some (as, r) => some (a :: as, r)
      | none => none
    | none => none

/-- A declaration of a function as a member.  C++ [class.mem]. -/
def fnMember : Option (FDecl × List Tok) → Option (Member × List Tok)
  | some (f, r) => some (.fn f, r)
  | none => none

/-- A member of the class `cls`.  C++ [class.mem]. -/
def pMember (ext : Bool) (fuel : Nat) (cls : Str) : List Tok → Option (Member × List Tok)
  | .kw k :: .op .colon :: r => match accessOf k with
    | some a => some (.access a, r)
    | none => none
  | .kw .struct_ :: .id n :: .op .lbrace :: r => match pUntil (pField ext fuel) fuel r with
    | some (fs, .op .semi :: r) => some (.nested n fs, r)
    | _ => none
  | .kw .virtual_ :: r => fnMember (pFn ext fuel true r)
  | .id n :: .op .lpar :: r => if n = cls then fnMember (pFDecl ext fuel false none n r) else none
  | ts => match fnMember (pFn ext fuel false ts) with
    | some m => some m
    | none => match pField ext fuel ts with
      | some (f, r) => some (.field f, r)
      | none => none

/-- The members of a class and its end.  C++ [class]. -/
def pClassRest (ext : Bool) (fuel : Nat) (name : Str) (base : Option (Access × List Str)) (ts : List Tok) : Option (HDecl × List Tok) :=
  match pUntil (pMember ext fuel name) fuel ts with
  | some (ms, .op .semi :: r) => some (.cls ⟨name, base, ms⟩, r)
  | _ => none

/-- Statements before `return`.  C++ [stmt.block]. -/
def pBefore (p : List Tok → Option (Stmt × List Tok)) : Nat → List Tok → Option (List Stmt × List Tok)
  | 0, _ => none
  | _ + 1, .kw .return_ :: r => some ([], r)
  | n + 1, ts => match p ts with
    | some (s, r) => match pBefore p n r with
      | some (ss, r) => some (s :: ss, r)
      | none => none
    | none => none

/-- A template with one argument.  C++ [temp.names]. -/
def pTemplateId (ts : List Tok) : Option (List Str × List Str × List Tok) :=
  match pQual ts with
  | some (q, .op .lt :: r) => match pQual r with
    | some (a, .op .gt :: r) => some (q, a, r)
    | _ => none
  | _ => none

/-- The body of the member function of a specialisation: statements, `return base<arg>::fn(args);` and the end of the class.
C++ [stmt.return], [temp.names]. -/
def pSpecialBody (ext : Bool) (fuel : Nat) (ts : List Tok) : Option (List Stmt × (List Str × List Str × Str) × List Expr × List Tok) :=
  match pBefore (pStmt ext fuel) fuel ts with
  | some (ss, r) => match pTemplateId r with
    | some (q, a, .op .scope :: .id f :: .op .lpar :: r) => match pArgs ext fuel r with
      | some (es, .op .semi :: .op .rbrace :: .op .rbrace :: .op .semi :: r) => some (ss, (q, a, f), es, r)
      | _ => none
    | _ => none
  | none => none

/-- An explicit specialisation after `template <> struct`.  C++ [temp.expl.spec]. -/
def pSpecial (ext : Bool) (fuel : Nat) (ts : List Tok) : Option (HDecl × List Tok) :=
  match pTemplateId ts with
  | some (q, a, .op .colon :: r) => match pTemplateId r with
    | some (b, ba, .op .lbrace :: .kw .template_ :: .op .lt :: .kw .typename_ :: .id p :: .op .gt :: .kw .auto_ :: .id f :: .op .lpar :: r) =>
      match pParams fuel r with
      | some (ps, .kw .const_ :: .op .lbrace :: r) => match pSpecialBody ext fuel r with
        | some (ss, ret, es, r) => some (.special ⟨q, a, b, ba, p, f, ps, ss, ret, es⟩, r)
        | none => none
      | _ => none
    | _ => none
  | _ => none

/-- A declaration of a header.  C++ [dcl.pre]. -/
def pHDecl (ext : Bool) (fuel : Nat) : List Tok → Option (HDecl × List Tok)
  | .kw .class_ :: .id n :: .op .lbrace :: r => pClassRest ext fuel n none r
  | .kw .class_ :: .id n :: .op .colon :: .kw k :: r => match accessOf k, pQual r with
    | some a, some (b, .op .lbrace :: r) => pClassRest ext fuel n (some (a, b)) r
    | _, _ => none
  | .kw .namespace_ :: .id n :: .op .lbrace :: r => match pUntil (pFn ext fuel false) fuel r with
    | some (fs, r) => some (.ns n fs, r)
    | none => none
  | .kw .template_ :: .op .lt :: .op .gt :: .kw .struct_ :: r => pSpecial ext fuel r
  | _ => none

/-- The declarations of a header; directives and empty declarations are dropped.  C++ [basic.link]. -/
def pHFile (ext : Bool) (fuel : Nat) : Nat → List Tok → Option (List HDecl)
  | _, [] => some []
  | 0, _ => none
  | n + 1, .dir :: ts => pHFile ext fuel n ts
  | n + 1, .op .semi :: ts => pHFile ext fuel n ts
  | n + 1, ts => match pHDecl ext fuel ts with
    | some (d, r) => match pHFile ext fuel n r with
      | some ds => some (d :: ds)
      | none => none
    | none => none

/-- The declarations of a .h file. -/
def parseH (ext : Bool) (text : Str) : Option (List HDecl) :=
  match lex text with
  | some ts => pHFile ext (ts.length + 100) (ts.length + 1) ts
  | none => none

/-! ### Classes -/

/-- The data members of a class, in the order they are declared.  C++ [class.mem]. -/
def Class.fields (c : Class) : List Field :=
  c.members.filterMap fun
    | .field f => some f
    | _ => none

/-- The functions a class declares.  C++ [class.mem]. -/
def Class.fns (c : Class) : List FDecl :=
  c.members.filterMap fun
    | .fn f => some f
    | _ => none

/-- The classes nested in a class.  C++ [class.nest]. -/
def Class.nested (c : Class) : List (Str × List Field) :=
  c.members.filterMap fun
    | .nested n fs => some (n, fs)
    | _ => none

/-- The members with their access; those of a class are private at first.  C++ [class.access.spec]. -/
def withAccess : Access → List Member → List (Access × Member)
  | _, [] => []
  | _, .access a :: ms => withAccess a ms
  | a, m :: ms => (a, m) :: withAccess a ms

/-- The access and the name of a function.  C++ [class.access]. -/
def accessName : Access × Member → Option (Access × Str)
  | (a, .fn f) => some (a, f.name)
  | _ => none

/-- The functions of a class with their access.  C++ [class.access.spec]. -/
def Class.fnAccess (c : Class) : List (Access × Str) := (withAccess .priv c.members).filterMap accessName

/-- The classes of a header.  C++ [class.pre]. -/
def classesOf (ds : List HDecl) : List Class :=
  ds.filterMap fun
    | .cls c => some c
    | _ => none

/-- The data members of `read_item_S`, for which `CTy.item` stands in `Eval.lean`: what `memTy` says about it.
(Proof notion, models no code.) -/
def itemFields : List (Ty × Str) :=
  [(.map (.name [c!"std", c!"string"]) (.name [c!"std", c!"string"]), c!"items"),
   (.map (.name [c!"std", c!"string"]) (.name [c!"read_item_S"]), c!"under")]

/-- The classes describe what `E` says about classes: base classes, and the nested classes, of which there may be `read_item_S` with
the members that `CTy.item` has.  C++ [class.derived], [class.nest]. -/
structure Described (cs : List Class) (E : Env) : Prop where
  base : ∀ c ∈ cs, E.base c.name = match c.base with
    | some (_, [b]) => some b
    | _ => none
  nested : E.nested = (cs.flatMap Class.nested).map Prod.fst
  items : ∀ p ∈ cs.flatMap Class.nested, p.1 = c!"read_item_S" → p.2.map (fun f => (f.ty, f.name)) = itemFields ∧ ∀ f ∈ p.2, f.init.isNone = true

/-! ### Objects -/

/-- Make the data members of an object, one after the other.  C++ [class.base.init]/9, 13. -/
def initFields (E : Env) (cls : Str) : List Field → List (Str × Var) → M (List (Str × Var))
  | [], acc => pure acc
  | f :: fs, acc => do
    let u ← M.opt (tyOf E (some cls) acc f.ty)
    let v ← match f.init with
      | none => pure (initV E.T u)
      | some e => eval ⟨E, some cls, acc, fun _ _ => M.stuck, 0⟩ e >>= initFrom u
    let l ← alloc v
    initFields E cls fs (acc ++ [(f.name, ⟨u, ⟨l, []⟩⟩)])

/-- The arguments of a call, default arguments added.  C++ [dcl.fct.default]. -/
def withDefaults (E : Env) : List (Ty × Str × Option Expr) → List EV → M (List EV)
  | [], [] => pure []
  | _ :: ps, a :: as => do
    let r ← withDefaults E ps as
    pure (a :: r)
  | (_, _, some e) :: ps, [] => do
    let a ← eval ⟨E, none, [], fun _ _ => M.stuck, 0⟩ e
    let r ← withDefaults E ps []
    pure (a :: r)
  | _, _ => M.stuck

/-- Run the body of a constructor.  C++ [class.base.init]/13. -/
def invokeCtor (C : Ctx) (f : Fun) (args : List EV) : M Unit := fun s =>
  match scope (do
    bindParams C.E C.cls C.self f.params args
    execs C f.body) { s with vars := [] } with
  | .ok .next s' => .ok () { s' with vars := s.vars }
  | .ok _ _ => .stuck
  | .thr s' => .thr { s' with vars := s.vars }
  | .ub => .ub
  | .stuck => .stuck
  | .more => .more

/-- A constructor of the class `cls`?  C++ [class.ctor]. -/
def isCtor (cls : Str) : Access × Member → Bool
  | (_, .fn g) => g.name = cls
  | _ => false

/-- Make an object: the base class first, then the data members, then the body of the constructor.  The class must declare the one
constructor it has as public; the constructor of the base class takes no arguments.  Gives the data members; those of the class come
before those of its base class.  Simplification: the parameters are made after the data members, which do not see them.
C++ [class.ctor], [class.base.init]/13, [class.access.base]. -/
def construct (E : Env) (cs : List Class) : Nat → Str → List EV → M (List (Str × Var))
  | 0, _, _ => fun _ => .more
  | n + 1, cls, args =>
    match cs.find? (fun c => c.name = cls), E.prog.filter (fun f => f.name = [cls, cls]) with
    | some c, [f] =>
      match (withAccess .priv c.members).filter (isCtor cls) with
      | [(.pub, .fn g)] =>
        if g.ret.isNone && f.ret.isNone && decide (g.params.map (fun p => (p.1, p.2.1)) = f.params) then do
          let as ← withDefaults E g.params args
          let inh ← match c.base, f.base with
            | none, none => pure []
            | some (_, [b]), none => construct E cs n b []
            | some (_, [b]), some b' => if b' = [b] then construct E cs n b [] else M.stuck
            | _, _ => M.stuck
          let own ← initFields E cls c.fields []
          invokeCtor ⟨E, some cls, own ++ inh, run E (own ++ inh) n, n⟩ f as
          pure (own ++ inh)
        else M.stuck
      | _ => M.stuck
    | _, _ => M.stuck

/-- The access of the functions of a class that have a name.  C++ [class.access.spec]. -/
def Class.named (c : Class) (f : Str) : List Access := (c.fnAccess.filter fun p => p.2 = f).map Prod.fst

/-- May everybody call the function of the class?  If the class does not declare it, its public base class does.  All functions with the
name must be public.  C++ [class.access], [class.member.lookup]. -/
def canCall (cs : List Class) (cls f : Str) : Bool :=
  match cs.find? (fun c => c.name = cls) with
  | none => false
  | some c => match c.named f with
    | a :: as => (a :: as).all fun x => x = .pub
    | [] => match c.base with
      | some (.pub, [b]) => match cs.find? (fun c => c.name = b) with
        | some d => !(d.named f).isEmpty && (d.named f).all fun x => x = .pub
        | none => false
      | _ => false

/-- `cls o(cargs); return o.f(args);` in a block: make an object, call a member function, destroy the object.  The destructors of the
generated classes do nothing.  C++ [class.temporary], [basic.stc.auto]. -/
def onNew (E : Env) (cs : List Class) (fuel : Nat) (cls : Str) (cargs : List EV) (f : Str) (args : List EV) : M EV :=
  if canCall cs cls f then scope (do
    let self ← construct E cs fuel cls cargs
    callMethod E self fuel cls f args)
  else M.stuck

end Stfx.Cpp
