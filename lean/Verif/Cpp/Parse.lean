import Verif.Cpp.Lex
/-
Grammar of the part of C++17 that the generated .cpp files use: from tokens to syntax trees.

The parser is a recursive descent with a bound on the depth of its calls.  What it does not know it rejects.  Where C++ needs to
know whether a name is a type, the parser goes by what follows: a name followed by another name, or by `*` and a name, starts a
declaration; only `std::map` is followed by template arguments.
-/
set_option autoImplicit false
namespace Stfx.Cpp

/-- Fundamental types.  C++ [basic.fundamental]. -/
inductive Prim where
  | bool | char | short | ushort | int | uint | long | ulong | float | double
deriving DecidableEq, Repr

/-- Types as written; `const` is left out.  C++ [dcl.type]. -/
inductive Ty where
  | prim (p : Prim)
  | name (q : List Str)
  | map (k v : Ty)
  | ptr (t : Ty)
  | ref (t : Ty)
  | auto
deriving DecidableEq, Repr

/-- Binary operators.  C++ [expr.compound]. -/
inductive BOp where
  | or | and | eq | ne | gt | add
deriving DecidableEq, Repr

/-- Expressions.  `cast`: both `(T)e` and `T(e)` for fundamental types.  C++ [expr]. -/
inductive Expr where
  | id (q : List Str)
  | num (s : Str)
  | str (s : Str)
  | chr (s : Str)
  | bool (b : Bool)
  | null
  | addr (e : Expr)
  | bin (o : BOp) (a b : Expr)
  | assign (a b : Expr)
  | plusAssign (a b : Expr)
  | cond (c a b : Expr)
  | mem (e : Expr) (n : Str)
  | arrow (e : Expr) (n : Str)
  | call (f : Expr) (args : List Expr)
  | index (a i : Expr)
  | cast (p : Prim) (e : Expr)
  | braces (es : List Expr)
deriving Repr

/-- Statements.  `decl`: type, name, array bound, initialiser (`= e`, or a braced list).  C++ [stmt]. -/
inductive Stmt where
  | expr (e : Expr)
  | decl (t : Ty) (n : Str) (arr init : Option Expr)
  | block (ss : List Stmt)
  | when (c : Expr) (s : Stmt)
  | ite (c : Expr) (s t : Stmt)
  | while (c : Expr) (s : Stmt)
  | forEach (t : Ty) (n : Str) (e : Expr) (s : Stmt)
  | switch (e : Expr) (ss : List Stmt)
  | case (e : Expr)
  | default
  | brk
  | cont
  | ret (e : Expr)
  | try (ss : List Stmt) (t : Ty) (hs : List Stmt)
deriving Repr

/-- A function definition.  `ret` is `none` for constructors; `base`: the base class a constructor initialises.  C++ [dcl.fct.def]. -/
structure Fun where
  ret : Option Ty
  name : List Str
  params : List (Ty × Str)
  base : Option (List Str)
  body : List Stmt
deriving Repr

/-! ### Types and names -/

/-- A qualified name.  C++ [expr.prim.id.qual]. -/
def pQual : List Tok → Option (List Str × List Tok)
  | .id a :: .op .scope :: ts => match pQual ts with
    | some (q, r) => some (a :: q, r)
    | none => none
  | .id a :: ts => some ([a], ts)
  | _ => none

/-- A fundamental type.  C++ [dcl.type.simple]. -/
def pPrim : List Tok → Option (Prim × List Tok)
  | .kw .bool_ :: ts => some (.bool, ts)
  | .kw .char_ :: ts => some (.char, ts)
  | .kw .short_ :: ts => some (.short, ts)
  | .kw .int_ :: ts => some (.int, ts)
  | .kw .long_ :: ts => some (.long, ts)
  | .kw .float_ :: ts => some (.float, ts)
  | .kw .double_ :: ts => some (.double, ts)
  | .kw .unsigned_ :: .kw .int_ :: ts => some (.uint, ts)
  | .kw .unsigned_ :: .kw .short_ :: ts => some (.ushort, ts)
  | .kw .unsigned_ :: .kw .long_ :: ts => some (.ulong, ts)
  | .kw .unsigned_ :: ts => some (.uint, ts)
  | _ => none

/-- The names that are templates.  C++ [temp.names]. -/
def isTemplate (q : List Str) : Bool := q = [c!"std", c!"map"]

/-- `const` after a type.  C++ [dcl.type.cv]. -/
def dropConst : List Tok → List Tok
  | .kw .const_ :: ts => ts
  | ts => ts

/-- `*` and `&` after a type.  C++ [dcl.ptr], [dcl.ref]. -/
def pPtr : Ty → List Tok → Ty × List Tok
  | t, .op .star :: ts => pPtr (.ptr t) ts
  | t, .op .amp :: ts => (.ref t, ts)
  | t, ts => (t, ts)

/-- A type; `fuel` bounds the nesting of template arguments.  C++ [dcl.name]. -/
def pTy : Nat → List Tok → Option (Ty × List Tok)
  | 0, _ => none
  | fuel + 1, ts =>
    match dropConst ts with
    | .kw .auto_ :: r => some (pPtr .auto r)
    | .kw k :: r => match pPrim (.kw k :: r) with
      | some (p, r) => some (pPtr (.prim p) (dropConst r))
      | none => none
    | ts => match pQual ts with
      | some (q, .op .lt :: r) =>
        if isTemplate q then
          match pTy fuel r with
          | some (a, .op .comma :: r) => match pTy fuel r with
            | some (b, .op .gt :: r) => some (pPtr (.map a b) (dropConst r))
            | _ => none
          | _ => none
        else none
      | some (q, r) => some (pPtr (.name q) (dropConst r))
      | none => none

/-! ### Expressions -/

/-- Keywords that start a type.  C++ [dcl.type.simple]. -/
def isTypeKw : Kw → Bool
  | .bool_ | .char_ | .short_ | .int_ | .long_ | .unsigned_ | .float_ | .double_ | .const_ | .auto_ => true
  | _ => false

/-- The precedence of a binary operator.  C++ [expr.mul] to [expr.log.or]. -/
def binOp : Op → Option (Nat × BOp)
  | .or => some (1, .or)
  | .and => some (2, .and)
  | .eq => some (3, .eq)
  | .ne => some (3, .ne)
  | .gt => some (4, .gt)
  | .plus => some (5, .add)
  | _ => none

mutual
/-- An assignment or conditional expression.  `ext`: accept `unsigned short(e)` and `unsigned long(e)`, which C++ does not allow
([expr.type.conv] takes one simple type specifier) but some compilers do.  C++ [expr.assign], [expr.cond]. -/
def pExpr (ext : Bool) : Nat → List Tok → Option (Expr × List Tok)
  | 0, _ => none
  | fuel + 1, ts =>
    match pBin ext fuel 0 ts with
    | some (c, .op .assign :: r) => match pExpr ext fuel r with
      | some (e, r) => some (.assign c e, r)
      | none => none
    | some (c, .op .plusAssign :: r) => match pExpr ext fuel r with
      | some (e, r) => some (.plusAssign c e, r)
      | none => none
    | some (c, .op .question :: r) => match pExpr ext fuel r with
      | some (a, .op .colon :: r) => match pExpr ext fuel r with
        | some (b, r) => some (.cond c a b, r)
        | none => none
      | _ => none
    | res => res
/-- Binary operators of precedence at least `p`.  C++ [expr.mul] to [expr.log.or]. -/
def pBin (ext : Bool) : Nat → Nat → List Tok → Option (Expr × List Tok)
  | 0, _, _ => none
  | fuel + 1, p, ts =>
    match pUnary ext fuel ts with
    | some (a, r) => pBinRest ext fuel p a r
    | none => none
/-- What follows the left operand `a`.  C++ [expr.mul] to [expr.log.or]. -/
def pBinRest (ext : Bool) : Nat → Nat → Expr → List Tok → Option (Expr × List Tok)
  | 0, _, _, _ => none
  | fuel + 1, p, a, .op o :: r =>
    match binOp o with
    | some (q, b) =>
      if p ≤ q then
        match pBin ext fuel (q + 1) r with
        | some (c, r) => pBinRest ext fuel p (.bin b a c) r
        | none => none
      else some (a, .op o :: r)
    | none => some (a, .op o :: r)
  | _ + 1, _, a, ts => some (a, ts)
/-- A unary expression.  C++ [expr.unary], [expr.cast]. -/
def pUnary (ext : Bool) : Nat → List Tok → Option (Expr × List Tok)
  | 0, _ => none
  | fuel + 1, .op .amp :: r => match pUnary ext fuel r with
    | some (e, r) => some (.addr e, r)
    | none => none
  | fuel + 1, .op .lpar :: .kw k :: r =>
    match pPrim (.kw k :: r) with
    | some (p, .op .rpar :: r) => match pUnary ext fuel r with
      | some (e, r) => some (.cast p e, r)
      | none => none
    | some _ => none
    | none => match pPrimary ext fuel (.op .lpar :: .kw k :: r) with
      | some (e, r) => pPostfix ext fuel e r
      | none => none
  | fuel + 1, ts => match pPrimary ext fuel ts with
    | some (e, r) => pPostfix ext fuel e r
    | none => none
/-- A primary expression, or the conversion `T(e)`.  C++ [expr.prim], [expr.type.conv]. -/
def pPrimary (ext : Bool) : Nat → List Tok → Option (Expr × List Tok)
  | 0, _ => none
  | _ + 1, .num s :: r => some (.num s, r)
  | _ + 1, .str s :: r => some (.str s, r)
  | _ + 1, .chr s :: r => some (.chr s, r)
  | _ + 1, .kw .true_ :: r => some (.bool true, r)
  | _ + 1, .kw .false_ :: r => some (.bool false, r)
  | _ + 1, .kw .nullptr_ :: r => some (.null, r)
  | fuel + 1, .op .lpar :: r => match pExpr ext fuel r with
    | some (e, .op .rpar :: r) => some (e, r)
    | _ => none
  | fuel + 1, .kw k :: .op .lpar :: r => match pPrim [.kw k] with
    | some (p, _) => match pExpr ext fuel r with
      | some (e, .op .rpar :: r) => some (.cast p e, r)
      | _ => none
    | none => none
  | fuel + 1, .kw k :: .kw l :: .op .lpar :: r =>
    if ext then match pPrim [.kw k, .kw l] with
      | some (p, []) => match pExpr ext fuel r with
        | some (e, .op .rpar :: r) => some (.cast p e, r)
        | _ => none
      | _ => none
    else none
  | _ + 1, .id a :: r => match pQual (.id a :: r) with
    | some (q, r) => some (.id q, r)
    | none => none
  | _ + 1, _ => none
/-- What follows a postfix expression.  C++ [expr.post]. -/
def pPostfix (ext : Bool) : Nat → Expr → List Tok → Option (Expr × List Tok)
  | 0, _, _ => none
  | fuel + 1, e, .op .dot :: .id n :: r => pPostfix ext fuel (.mem e n) r
  | fuel + 1, e, .op .arrow :: .id n :: r => pPostfix ext fuel (.arrow e n) r
  | fuel + 1, e, .op .lpar :: .op .rpar :: r => pPostfix ext fuel (.call e []) r
  | fuel + 1, e, .op .lpar :: r => match pArgs ext fuel r with
    | some (as, r) => pPostfix ext fuel (.call e as) r
    | none => none
  | fuel + 1, e, .op .lbrack :: r => match pExpr ext fuel r with
    | some (i, .op .rbrack :: r) => pPostfix ext fuel (.index e i) r
    | _ => none
  | _ + 1, e, ts => some (e, ts)
/-- Arguments up to the closing parenthesis.  C++ [expr.call]. -/
def pArgs (ext : Bool) : Nat → List Tok → Option (List Expr × List Tok)
  | 0, _ => none
  | fuel + 1, ts => match pExpr ext fuel ts with
    | some (e, .op .comma :: r) => match pArgs ext fuel r with
      | some (es, r) => some (e :: es, r)
      | none => none
    | some (e, .op .rpar :: r) => some ([e], r)
    | _ => none
end

/-- A braced list up to its closing brace, with the parser of its elements; a comma may follow the last one.  C++ [dcl.init.list]. -/
def pList {α : Type} (p : List Tok → Option (α × List Tok)) : Nat → List Tok → Option (List α × List Tok)
  | 0, _ => none
  | _ + 1, .op .rbrace :: r => some ([], r)
  | fuel + 1, ts => match p ts with
    | some (e, .op .comma :: r) => match pList p fuel r with
      | some (es, r) => some (e :: es, r)
      | none => none
    | some (e, .op .rbrace :: r) => some ([e], r)
    | _ => none

/-- An element of a braced list: an expression or a braced list of expressions.  C++ [dcl.init.list]. -/
def pElem (ext : Bool) (fuel : Nat) : List Tok → Option (Expr × List Tok)
  | .op .lbrace :: r => match pList (pExpr ext fuel) fuel r with
    | some (es, r) => some (.braces es, r)
    | none => none
  | ts => pExpr ext fuel ts

/-- An initialiser: an expression or a braced list.  C++ [dcl.init]. -/
def pInit (ext : Bool) (fuel : Nat) : List Tok → Option (Expr × List Tok)
  | .op .lbrace :: r => match pList (pElem ext fuel) fuel r with
    | some (es, r) => some (.braces es, r)
    | none => none
  | ts => pExpr ext fuel ts

/-! ### Statements -/

/-- Does a declaration start here?  C++ [stmt.ambig]. -/
def startsDecl (ts : List Tok) : Bool :=
  match ts with
  | .kw k :: _ => isTypeKw k
  | _ => match pQual ts with
    | some (_, .id _ :: _) => true
    | some (_, .op .star :: .id _ :: _) => true
    | some (q, .op .lt :: _) => isTemplate q
    | _ => false

/-- A declaration of a variable.  C++ [dcl.pre]. -/
def pDecl (ext : Bool) (fuel : Nat) (ts : List Tok) : Option (Stmt × List Tok) :=
  match pTy fuel ts with
  | some (t, .id n :: .op .semi :: r) => some (.decl t n none none, r)
  | some (t, .id n :: .op .assign :: r) => match pInit ext fuel r with
    | some (e, .op .semi :: r) => some (.decl t n none (some e), r)
    | _ => none
  | some (t, .id n :: .op .lbrace :: r) => match pInit ext fuel (.op .lbrace :: r) with
    | some (e, .op .semi :: r) => some (.decl t n none (some e), r)
    | _ => none
  | some (t, .id n :: .op .lbrack :: r) => match pExpr ext fuel r with
    | some (e, .op .rbrack :: .op .semi :: r) => some (.decl t n (some e) none, r)
    | _ => none
  | _ => none

/-- Statements up to a closing brace, which is dropped.  C++ [stmt.block]. -/
def pMany (p : List Tok → Option (Stmt × List Tok)) : Nat → List Tok → Option (List Stmt × List Tok)
  | 0, _ => none
  | _ + 1, .op .rbrace :: r => some ([], r)
  | n + 1, ts => match p ts with
    | some (s, r) => match pMany p n r with
      | some (ss, r) => some (s :: ss, r)
      | none => none
    | none => none

/-- A statement.  C++ [stmt]. -/
def pStmt (ext : Bool) : Nat → List Tok → Option (Stmt × List Tok)
  | 0, _ => none
  | fuel + 1, .op .lbrace :: r => match pMany (fun ts => pStmt ext fuel ts) fuel r with
    | some (ss, r) => some (.block ss, r)
    | none => none
  | fuel + 1, .kw .if_ :: .op .lpar :: r => match pExpr ext fuel r with
    | some (c, .op .rpar :: r) => match pStmt ext fuel r with
      | some (s, .kw .else_ :: r) => match pStmt ext fuel r with
        | some (t, r) => some (.ite c s t, r)
        | none => none
      | some (s, r) => some (.when c s, r)
      | none => none
    | _ => none
  | fuel + 1, .kw .while_ :: .op .lpar :: r => match pExpr ext fuel r with
    | some (c, .op .rpar :: r) => match pStmt ext fuel r with
      | some (s, r) => some (.while c s, r)
      | none => none
    | _ => none
  | fuel + 1, .kw .for_ :: .op .lpar :: r => match pTy fuel r with
    | some (t, .id n :: .op .colon :: r) => match pExpr ext fuel r with
      | some (e, .op .rpar :: r) => match pStmt ext fuel r with
        | some (s, r) => some (.forEach t n e s, r)
        | none => none
      | _ => none
    | _ => none
  | fuel + 1, .kw .switch_ :: .op .lpar :: r => match pExpr ext fuel r with
    | some (e, .op .rpar :: .op .lbrace :: r) => match pMany (fun ts => pStmt ext fuel ts) fuel r with
      | some (ss, r) => some (.switch e ss, r)
      | none => none
    | _ => none
  | fuel + 1, .kw .case_ :: r => match pExpr ext fuel r with
    | some (e, .op .colon :: r) => some (.case e, r)
    | _ => none
  | _ + 1, .kw .default_ :: .op .colon :: r => some (.default, r)
  | _ + 1, .kw .break_ :: .op .semi :: r => some (.brk, r)
  | _ + 1, .kw .continue_ :: .op .semi :: r => some (.cont, r)
  | fuel + 1, .kw .return_ :: r => match pExpr ext fuel r with
    | some (e, .op .semi :: r) => some (.ret e, r)
    | _ => none
  | fuel + 1, .kw .try_ :: .op .lbrace :: r => match pMany (fun ts => pStmt ext fuel ts) fuel r with
    | some (ss, .kw .catch_ :: .op .lpar :: r) => match pTy fuel r with
      | some (t, .op .rpar :: .op .lbrace :: r) => match pMany (fun ts => pStmt ext fuel ts) fuel r with
        | some (hs, r) => some (.try ss t hs, r)
        | none => none
      | _ => none
    | _ => none
  | fuel + 1, ts =>
    if startsDecl ts then pDecl ext fuel ts
    else match pExpr ext fuel ts with
      | some (e, .op .semi :: r) => some (.expr e, r)
      | _ => none

/-! ### Functions and files -/

/-- Parameters up to the closing parenthesis.  C++ [dcl.fct]. -/
def pParams : Nat → List Tok → Option (List (Ty × Str) × List Tok)
  | 0, _ => none
  | _ + 1, .op .rpar :: r => some ([], r)
  | fuel + 1, ts => match pTy fuel ts with
    | some (t, .id n :: .op .comma :: r) => match pParams fuel r with
      | some (ps, r) => some ((t, n) :: ps, r)
      | none => none
    | some (t, .id n :: .op .rpar :: r) => some ([(t, n)], r)
    | _ => none

/-- A function with the body that was parsed.  C++ [dcl.fct.def]. -/
def mkFun (ret : Option Ty) (name : List Str) (ps : List (Ty × Str)) (base : Option (List Str)) :
    Option (List Stmt × List Tok) → Option (Fun × List Tok)
  | some (ss, r) => some (⟨ret, name, ps, base, ss⟩, r)
  | none => none

/-- A function definition from its parameters on.  C++ [dcl.fct.def]. -/
def pFunRest (ext : Bool) (fuel : Nat) (ret : Option Ty) (name : List Str) (ts : List Tok) : Option (Fun × List Tok) :=
  match pParams fuel ts with
  | some (ps, .op .lbrace :: r) => mkFun ret name ps none (pMany (pStmt ext fuel) fuel r)
  | some (ps, .op .colon :: r) => match ret, pQual r with
    | none, some (b, .op .lpar :: .op .rpar :: .op .lbrace :: r) => mkFun ret name ps (some b) (pMany (pStmt ext fuel) fuel r)
    | _, _ => none
  | _ => none

/-- A function definition.  C++ [dcl.fct.def]. -/
def pFun (ext : Bool) (fuel : Nat) (ts : List Tok) : Option (Fun × List Tok) :=
  match pQual ts with
  | some (q, .op .lpar :: r) => pFunRest ext fuel none q r
  | _ => match pTy fuel ts with
    | some (t, r) => match pQual r with
      | some (q, .op .lpar :: r) => pFunRest ext fuel (some t) q r
      | _ => none
    | none => none

/-- The definitions of a file; directives and empty declarations are dropped.  C++ [basic.link]. -/
def pFile (ext : Bool) (fuel : Nat) : Nat → List Tok → Option (List Fun)
  | _, [] => some []
  | 0, _ => none
  | n + 1, .dir :: ts => pFile ext fuel n ts
  | n + 1, .op .semi :: ts => pFile ext fuel n ts
  | n + 1, ts => match pFun ext fuel ts with
    | some (f, r) => match pFile ext fuel n r with
      | some fs => some (f :: fs)
      | none => none
    | none => none

/-- The functions defined in a .cpp file. -/
def parse (ext : Bool) (text : Str) : Option (List Fun) :=
  match lex text with
  | some ts => pFile ext (ts.length + 100) (ts.length + 1) ts
  | none => none

end Stfx.Cpp
