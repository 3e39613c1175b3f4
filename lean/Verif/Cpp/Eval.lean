import Verif.Cpp.Parse
import Verif.Run.Ini
/-
What the functions of the generated files do when they run: an interpreter for the syntax trees of `Parse.lean`.

It follows the C++17 standard for the part of the language that is generated, and the contracts of the libraries
(`Run/Num.lean`, `Run/Dom.lean`, `Run/Xml.lean`, `Run/Ini.lean`).  It knows nothing of the generators.  Types are found while running:
an expression that has no type in C++, or a meaning that is not modelled, is `stuck`.  Recursion is bounded by fuel; `more` is
the outcome when it runs out.
-/
set_option autoImplicit false
namespace Stfx.Cpp
open Stfx.Run Stfx.Parser Stfx.Items

/-! ### Types and values -/

/-- Types of expressions.  `xml...`: classes of tinyxml2; `item`: `read_item_S` of the n_ini readers; `iter`: iterators of maps;
`buf`: arrays of `char` and their size.  C++ [basic.types]. -/
inductive CTy where
  | prim (p : Prim)
  | str
  | enum (n : Str)
  | struct (n : Str)
  | vec (n : Str)
  | ptr (t : CTy)
  | null
  | xmlEl | xmlDoc | xmlErr
  | map (k v : CTy)
  | iter (k v : CTy)
  | item
  | file
  | smatch | submatch | regex
  | buf (size : Nat)
  | void
deriving DecidableEq, Repr

/-- Where an object is: the variable (or heap object) that contains it and the members on the way.  The keys of a map count as
members.  C++ [intro.object]. -/
structure Place where
  addr : Nat
  path : List Str
deriving DecidableEq, Repr

/-- Values that are no objects of the headers, and those that are.  `val .undef`: indeterminate.  C++ [basic.types].
Maps and `read_item_S` objects are represented by `val (.struct _)`: the keys (numbers by their decimal digits) and the
values, in no particular order; the generated code does not iterate over maps. -/
inductive V where
  | val (v : Val)
  | null
  /-- pointers and map iterators -/
  | ptr (p : Place)
  /-- a pointer to an element of a document: the document and the way down -/
  | el (doc : Nat) (path : List Nat)
  /-- a pointer to an element that is not in the tree yet -/
  | fresh (doc : Nat) (n : Node)
  /-- a pointer to characters that end with NUL -/
  | cstr (s : Str)
  /-- is it `XML_SUCCESS`? -/
  | err (ok : Bool)
  | doc (ks : List Node)
  | file (h : Nat)
  | regex (s : Str)
  | smatch (gs : List Str)

/-- The value of an expression: an object, a value, or a braced list.  C++ [basic.lval]. -/
inductive EV where
  | lv (t : CTy) (p : Place)
  | rv (t : CTy) (v : V)
  | lst (vs : List EV)

/-- A variable in scope.  C++ [basic.scope]. -/
structure Var where
  ty : CTy
  at_ : Place
deriving DecidableEq

/-- What was saved to a file.  `SaveFile` and `std::fclose` in the code of process_items_xml.cpp:174, process_items_ini.cpp:247. -/
inductive Saved where
  | doc (ks : List Node)
  | text (s : Str)

/-- Open files.  `std::FILE`.  process_items_ini.cpp:125-189, 243-247. -/
inductive FileSt where
  | rd (rest : Str)
  | wr (name text : Str)
  | closed

/-- The state of the program: objects by address, variables in scope (innermost first), open files, files written.  C++
[intro.object], [basic.scope]. -/
structure St where
  mem : List V
  vars : List (Str × Var)
  files : List FileSt
  out : List (Str × Saved)

/-- Outcomes.  `thr`: an exception (all that are thrown derive from `std::exception`).  C++ [intro.execution]. -/
inductive Res (α : Type) where
  | ok (a : α) (s : St)
  | thr (s : St)
  | ub
  | stuck
  | more

/-- Computations.  C++ [intro.execution]. -/
def M (α : Type) := St → Res α

namespace Res
variable {α β : Type}
/-- Go on after a normal end.  C++ [intro.execution]. -/
def bind (r : Res α) (f : α → M β) : Res β :=
  match r with
  | .ok a s => f a s
  | .thr s => .thr s
  | .ub => .ub
  | .stuck => .stuck
  | .more => .more
@[simp] theorem ok_bind (a : α) (s : St) (f : α → M β) : (Res.ok a s).bind f = f a s := rfl
@[simp] theorem thr_bind (s : St) (f : α → M β) : (Res.thr s : Res α).bind f = .thr s := rfl
@[simp] theorem ub_bind (f : α → M β) : (Res.ub : Res α).bind f = .ub := rfl
@[simp] theorem stuck_bind (f : α → M β) : (Res.stuck : Res α).bind f = .stuck := rfl
@[simp] theorem more_bind (f : α → M β) : (Res.more : Res α).bind f = .more := rfl
end Res

namespace M
variable {α β : Type}
instance : Monad M where
  pure a := fun s => .ok a s
  bind x f := fun s => (x s).bind f
@[simp] theorem bind_run (x : M α) (f : α → M β) (s : St) : (x >>= f) s = (x s).bind f := rfl
@[simp] theorem pure_run (a : α) (s : St) : (pure a : M α) s = .ok a s := rfl
/-- Not C++, or not modelled.  C++ [intro.compliance]. -/
def stuck : M α := fun _ => .stuck
/-- Undefined behaviour.  C++ [defns.undefined]. -/
def ub : M α := fun _ => .ub
/-- An exception.  C++ [except.throw]. -/
def throw : M α := fun s => .thr s
/-- `none` is stuck.  C++ [intro.compliance]. -/
def opt : Option α → M α
  | some a => pure a
  | none => stuck
/-- Outcomes of library functions.  C++ [intro.compliance]. -/
def lift : R α → M α
  | .ok a => pure a
  | .ub => ub
  | .stuck => stuck
@[simp] theorem stuck_run (s : St) : (stuck : M α) s = .stuck := rfl
@[simp] theorem ub_run (s : St) : (ub : M α) s = .ub := rfl
@[simp] theorem throw_run (s : St) : (throw : M α) s = .thr s := rfl
@[simp] theorem opt_some (a : α) : (opt (some a) : M α) = pure a := rfl
@[simp] theorem opt_none : (opt none : M α) = stuck := rfl
@[simp] theorem lift_ok (a : α) : (lift (.ok a) : M α) = pure a := rfl
@[simp] theorem lift_ub : (lift .ub : M α) = ub := rfl
@[simp] theorem lift_stuck : (lift .stuck : M α) = stuck := rfl
end M

/-! ### Objects -/

/-- The part of an object at a path.  C++ [expr.ref]. -/
def vGet : Val → List Str → Option Val
  | v, [] => some v
  | .struct fs, n :: p => match fs.lookup n with
    | some v => vGet v p
    | none => none
  | _, _ :: _ => none

/-- Replace a member.  C++ [expr.ref]. -/
def setField (n : Str) (v : Val) : List (Str × Val) → List (Str × Val)
  | [] => []
  | (m, w) :: fs => if m = n then (m, v) :: fs else (m, w) :: setField n v fs

/-- Replace the part of an object at a path.  C++ [expr.assign]. -/
def vSet : Val → List Str → Val → Option Val
  | _, [], x => some x
  | .struct fs, n :: p, x => match fs.lookup n with
    | some v => match vSet v p x with
      | some v' => some (.struct (setField n v' fs))
      | none => none
    | none => none
  | _, _ :: _, _ => none

/-- The value of an object.  C++ [conv.lval]. -/
def peek (p : Place) : M V := fun s =>
  match s.mem[p.addr]?, p.path with
  | none, _ => .ub
  | some v, [] => .ok v s
  | some (.val v), n :: q => match vGet v (n :: q) with
    | some w => .ok (.val w) s
    | none => .stuck
  | some _, _ => .stuck

/-- Change an object.  C++ [expr.assign]. -/
def poke (p : Place) (x : V) : M Unit := fun s =>
  match s.mem[p.addr]?, p.path, x with
  | none, _, _ => .ub
  | some _, [], x => .ok () { s with mem := s.mem.set p.addr x }
  | some (.val v), n :: q, .val x => match vSet v (n :: q) x with
    | some w => .ok () { s with mem := s.mem.set p.addr (.val w) }
    | none => .stuck
  | some _, _, _ => .stuck

/-- A new object.  C++ [basic.stc]. -/
def alloc (v : V) : M Nat := fun s => .ok s.mem.length { s with mem := s.mem ++ [v] }

/-- A new variable.  C++ [basic.scope]. -/
def declare (n : Str) (x : Var) : M Unit := fun s => .ok () { s with vars := (n, x) :: s.vars }

/-- The variables in scope.  C++ [basic.scope]. -/
def getVars : M (List (Str × Var)) := fun s => .ok s.vars s

/-- Indeterminate?  C++ [dcl.init]/12. -/
def V.isUndef : V → Bool
  | .val .undef => true
  | _ => false

/-- Lvalue-to-rvalue conversion: reading an indeterminate value is undefined behaviour.  C++ [conv.lval], [dcl.init]/12. -/
def load : EV → M (CTy × V)
  | .lv t p => do
    let v ← peek p
    if v.isUndef then M.ub else pure (t, v)
  | .rv t v => pure (t, v)
  | .lst _ => M.stuck

/-! ### The program and its surroundings -/

/-- What surrounds the functions: the classes and enums of the headers, the libraries, the functions of the program, the base
classes, the classes nested in others, the files.  C++ [basic.link]. -/
structure Env where
  T : CTable
  L : Lib
  I : IniLib
  prog : List Fun
  base : Str → Option Str
  nested : List Str
  /-- the unscoped enumerators: the enum and the value -/
  enumerator : Str → Option (Str × Int)
  /-- what `XMLDocument::LoadFile` finds -/
  load : Str → Doc
  /-- does `XMLDocument::SaveFile` succeed? -/
  canSave : Str → Bool
  /-- the text of a file; `none`: it can not be opened -/
  text : Str → Option Str
  /-- can a file be opened for writing? -/
  canWrite : Str → Bool

/-- Where a statement is executed: the class of the member function, the data members of its object, the way to call other
functions, and fuel for loops.  C++ [class.mfct]. -/
structure Ctx where
  E : Env
  cls : Option Str
  self : List (Str × Var)
  call : Fun → List EV → M EV
  fuel : Nat

/-- The type of a member of a struct.  C++ [class.mem]. -/
def ofMTy : MTy → CTy
  | .simple .bool => .prim .bool
  | .simple .int => .prim .int
  | .simple .unsignedInt => .prim .uint
  | .simple .float => .prim .float
  | .simple .double => .prim .double
  | .simple .long => .prim .long
  | .simple .short => .prim .short
  | .simple .unsignedShort => .prim .ushort
  | .simple .unsignedLong => .prim .ulong
  | .simple .stdString => .str
  | .enum n => .enum n
  | .struct n => .struct n
  | .vec n => .vec n

/-- The functions a call of a member function can mean.  C++ [class.member.lookup]. -/
def methods (E : Env) (cls : Option Str) (n : Str) : List Fun :=
  match cls with
  | none => []
  | some c =>
    match E.prog.filter fun f => f.name = [c, n] with
    | [] => match E.base c with
      | some b => E.prog.filter fun f => f.name = [b, n]
      | none => []
    | fs => fs

/-- Is the name that of a variable or a member of the class, which hides types?  C++ [basic.scope.hiding]. -/
def hidden (E : Env) (cls : Option Str) (vars : List (Str × Var)) (n : Str) : Bool :=
  (vars.lookup n).isSome || !(methods E cls n).isEmpty

/-- The type a type-id means.  C++ [dcl.type]. -/
def tyOf (E : Env) (cls : Option Str) (vars : List (Str × Var)) : Ty → Option CTy
  | .prim p => some (.prim p)
  | .name [a, b] =>
    if a = c!"std" then
      if b = c!"string" then some .str
      else if b = c!"FILE" then some .file
      else if b = c!"smatch" then some .smatch
      else if b = c!"regex" then some .regex
      else none
    else if a = c!"tinyxml2" then
      if b = c!"XMLElement" then some .xmlEl
      else if b = c!"XMLDocument" then some .xmlDoc
      else if b = c!"XMLError" then some .xmlErr
      else none
    else none
  | .name [n] =>
    if hidden E cls vars n then none
    else if n ∈ E.nested then (if n = c!"read_item_S" then some .item else none)
    else if (E.T.cls n).isSome then some (.struct n)
    else if (E.T.enm n).isSome then some (.enum n)
    else if n = c!"size_t" then some (.prim .ulong)
    else none
  | .name _ => none
  | .map k v => match tyOf E cls vars k, tyOf E cls vars v with
    | some k, some v => some (.map k v)
    | _, _ => none
  | .ptr t => match tyOf E cls vars t with
    | some t => some (.ptr t)
    | none => none
  | .ref _ => none
  | .auto => none

/-- The type of a member.  C++ [expr.ref]. -/
def memTy (T : CTable) : CTy → Str → Option CTy
  | .struct c, n => (memberTy T c n).map ofMTy
  | .item, n => if n = c!"items" then some (.map .str .str) else if n = c!"under" then some (.map .str .item) else none
  | _, _ => none

/-- Default-initialisation.  C++ [dcl.init]/7. -/
def initV (T : CTable) : CTy → V
  | .str => .val (.str [])
  | .struct n => .val (T.dflt n)
  | .vec _ => .val (.vec [])
  | .xmlDoc => .doc []
  | .map _ _ => .val (.struct [])
  | .item => .val (.struct [(c!"items", .struct []), (c!"under", .struct [])])
  | .smatch => .smatch []
  | .regex => .regex []
  | _ => .val .undef

/-- Implicit conversions of values.  C++ [conv]. -/
def coerce (t : CTy) (v : V) (u : CTy) : Option V :=
  if t = u then some v
  else match t, v, u with
    | .ptr (.prim .char), .cstr s, .str => some (.val (.str s))
    | .ptr (.prim .char), .cstr s, .regex => some (.regex s)
    | .buf _, .val (.str s), .str => some (.val (.str (cStr s)))
    | .null, .null, .ptr _ => some .null
    | _, _, _ => none

/-- The key a value is in a map.  C++ [map]. -/
def keyOf : V → Option Str
  | .val (.str s) => some s
  | .val (.num i) => some (intText i)
  | _ => none

/-- The entries of a map from a braced list; of equal keys the first counts.  C++ [map.cons], [associative.reqmts]. -/
def mapInit (k v : CTy) : List EV → List (Str × Val) → M (List (Str × Val))
  | [], m => pure m
  | .lst [a, b] :: r, m => do
    let (ta, va) ← load a
    let (tb, vb) ← load b
    let key ← M.opt ((coerce ta va k).bind keyOf)
    match coerce tb vb v with
    | some (.val x) => mapInit k v r (if (m.lookup key).isSome then m else m ++ [(key, x)])
    | _ => M.stuck
  | _, _ => M.stuck

/-- Initialisation of an object of type `t`.  C++ [dcl.init]. -/
def initFrom (t : CTy) : EV → M V
  | .lst [] => match t with
    | .prim .bool => pure (.val (.bool false))
    | .ptr _ => pure .null
    | .map _ _ => pure (.val (.struct []))
    | _ => M.stuck
  | .lst (e :: es) => match t with
    | .map k v => do
      let m ← mapInit k v (e :: es) []
      pure (.val (.struct m))
    | _ => match es with
      | [] => do
        let (u, v) ← load e
        M.opt (coerce u v t)
      | _ => M.stuck
  | e => do
    let (u, v) ← load e
    M.opt (coerce u v t)

/-! ### Elements of documents -/

/-- The node at a path: which child, then which child of it, and so on.  tinyxml2, as used by process_items_xml.cpp:113-130. -/
def nodeAt : List Node → List Nat → Option Node
  | _, [] => none
  | ks, [i] => ks[i]?
  | ks, i :: j :: p => match ks[i]? with
    | some n => nodeAt n.kids (j :: p)
    | none => none

/-- Change the node at a path.  tinyxml2, as used by process_items_xml.cpp:423-572. -/
def modNode (f : Node → Node) : List Node → List Nat → List Node
  | ks, [] => ks
  | ks, [i] => ks.modify i f
  | ks, i :: j :: p => ks.modify i fun n => match n with
    | .elem m as ks' => .elem m as (modNode f ks' (j :: p))
    | n => n

/-- The element a pointer points to: its attributes and children.  Following a null pointer is undefined behaviour.  tinyxml2,
C++ [expr.ref]. -/
def elemAt (v : V) : M (Nat × List Nat × List (Str × Str) × List Node) := fun s =>
  match v with
  | .null => .ub
  | .el d p => match s.mem[d]? with
    | some (.doc ks) => match nodeAt ks p with
      | some (.elem _ as kids) => .ok (d, p, as, kids) s
      | _ => .stuck
    | _ => .ub
  | _ => .stuck

/-- Change the element at a path of a document.  tinyxml2, as used by process_items_xml.cpp:423-572. -/
def changeEl (d : Nat) (p : List Nat) (f : List (Str × Str) → List Node → List (Str × Str) × List Node) : M Unit := fun s =>
  match s.mem[d]? with
  | some (.doc ks) => .ok () { s with mem := s.mem.set d (.doc (modNode (fun n => match n with
      | .elem m as kids => .elem m (f as kids).1 (f as kids).2
      | n => n) ks p)) }
  | _ => .ub

/-- A pointer to the child element with a name, or null.  `XMLElement::FirstChildElement`, and `find_element` of tixml2ex with
a path of one step.  process_items_xml.cpp:232. -/
def childPtr (v : V) (n : Str) : M EV := do
  let (d, p, _, kids) ← elemAt v
  match kids.findIdx? (Node.named n) with
  | some i => pure (.rv (.ptr .xmlEl) (.el d (p ++ [i])))
  | none => pure (.rv (.ptr .xmlEl) .null)

/-- `SetText`: the text replaces that of the first child if it is a text, else it becomes the first child. 
process_items_xml.cpp:437. -/
def setText (s : Str) : List Node → List Node
  | .text _ :: ks => .text s :: ks
  | ks => .text s :: ks

/-- Conversion of a text by the `Query` functions for a type: `none` if it can not be converted.  process_items_xml.cpp:232-260. -/
def queryConv (L : Lib) : CTy → Str → M (Option Val)
  | .prim .bool, s => do
    let o ← M.lift (toBool s)
    pure (o.map .bool)
  | .prim .int, s => M.lift (scanVal id (toInt s))
  | .prim .uint, s => M.lift (scanVal id (toUnsigned s))
  | .prim .float, s => pure ((L.scanF s).map .flt)
  | .prim .double, s => pure ((L.scanD s).map .dbl)
  | _, _ => M.stuck

/-- The `Query` functions: convert a text, if there is one, and assign it.  process_items_xml.cpp:232-260. -/
def query (L : Lib) (t : CTy) (v : V) (txt : Option Str) : M EV :=
  match v with
  | .ptr p =>
    match txt with
    | none => pure (.rv .xmlErr (.err false))
    | some s => do
      match ← queryConv L t s with
      | some x => do
        poke p (.val x)
        pure (.rv .xmlErr (.err true))
      | none => pure (.rv .xmlErr (.err false))
  | _ => M.stuck

/-- The text of a value passed to `SetText` or `SetAttribute`, by overload: `bool`, `int`, `unsigned`, `int64_t`, `double`,
`float`, `const char*`.  `short` and `unsigned short` are promoted to `int`.  `long` is `int64_t` if it has 64 bits; otherwise the
call is ambiguous.  process_items_xml.cpp:437, process_items_xml_attrib.cpp:167. -/
def argText (T : CTable) (L : Lib) : CTy → V → Option Str
  | .prim .bool, .val (.bool b) => some (if b then c!"true" else c!"false")
  | .prim .int, .val (.num i) => some (intText i)
  | .prim .uint, .val (.num i) => some (intText i)
  | .prim .short, .val (.num i) => some (intText i)
  | .prim .ushort, .val (.num i) => some (intText i)
  | .prim .long, .val (.num i) => if T.longBits = 64 then some (intText i) else none
  | .prim .float, .val (.flt b) => some (L.fmtF b)
  | .prim .double, .val (.dbl b) => some (L.fmtD b)
  | .ptr (.prim .char), .cstr s => some s
  | _, _ => none

/-! ### Library functions -/

/-- Member functions called with `->`.  process_items_xml.cpp:232-560, process_items_xml_attrib.cpp:28-293. -/
def arrowCall (E : Env) (t : CTy) (v : V) (n : Str) (args : List EV) : M EV :=
  match t with
  | .ptr .xmlEl => do
    let (d, p, as, kids) ← elemAt v
    match args with
    | [] =>
      if n = c!"GetText" then
        match getText kids with
        | some s => pure (.rv (.ptr (.prim .char)) (.cstr s))
        | none => pure (.rv (.ptr (.prim .char)) .null)
      else M.stuck
    | [a] => do
      let (ta, va) ← load a
      if n = c!"FirstChildElement" then
        match ta, va with
        | .ptr (.prim .char), .cstr s => childPtr v s
        | _, _ => M.stuck
      else if n = c!"InsertNewChildElement" then
        match ta, va with
        | .ptr (.prim .char), .cstr s => do
          changeEl d p fun as ks => (as, ks ++ [.elem s [] []])
          pure (.rv (.ptr .xmlEl) (.el d (p ++ [kids.length])))
        | _, _ => M.stuck
      else if n = c!"SetText" then do
        let s ← M.opt (argText E.T E.L ta va)
        changeEl d p fun as ks => (as, setText s ks)
        pure (.rv .void .null)
      else if n = c!"QueryBoolText" then (if ta = .ptr (.prim .bool) then query E.L (.prim .bool) va (queryText kids) else M.stuck)
      else if n = c!"QueryIntText" then (if ta = .ptr (.prim .int) then query E.L (.prim .int) va (queryText kids) else M.stuck)
      else if n = c!"QueryUnsignedText" then
        (if ta = .ptr (.prim .uint) then query E.L (.prim .uint) va (queryText kids) else M.stuck)
      else if n = c!"QueryFloatText" then
        (if ta = .ptr (.prim .float) then query E.L (.prim .float) va (queryText kids) else M.stuck)
      else if n = c!"QueryDoubleText" then
        (if ta = .ptr (.prim .double) then query E.L (.prim .double) va (queryText kids) else M.stuck)
      else M.stuck
    | [a, b] => do
      let (ta, va) ← load a
      let (tb, vb) ← load b
      match ta, va with
      | .ptr (.prim .char), .cstr s =>
        if n = c!"SetAttribute" then do
          let x ← M.opt (argText E.T E.L tb vb)
          changeEl d p fun as ks => (setAttr s x as, ks)
          pure (.rv .void .null)
        else if n = c!"QueryAttribute" then
          match tb, vb with
          | .ptr (.ptr (.prim .char)), .ptr q =>
            match as.lookup s with
            | some x => do
              poke q (.cstr x)
              pure (.rv .xmlErr (.err true))
            | none => pure (.rv .xmlErr (.err false))
          | .ptr tb, vb => query E.L tb vb (as.lookup s)
          | _, _ => M.stuck
        else if n = c!"QueryIntAttribute" then
          (if tb = .ptr (.prim .int) then query E.L (.prim .int) vb (as.lookup s) else M.stuck)
        else if n = c!"QueryUnsignedAttribute" then
          (if tb = .ptr (.prim .uint) then query E.L (.prim .uint) vb (as.lookup s) else M.stuck)
        else M.stuck
      | _, _ => M.stuck
    | _ => M.stuck
  | _ => M.stuck

/-- The argument is a C string.  C++ [conv.array]. -/
def cstrArg (e : EV) : M Str := do
  match ← load e with
  | (.ptr (.prim .char), .cstr s) => pure s
  | _ => M.stuck

/-- `std::string::npos`, the largest `size_t`; taken to have as many bits as `long`.  C++ [basic.string],
process_items_ini.cpp:134. -/
def npos (T : CTable) : Int := 2 ^ T.longBits - 1

/-- Member functions called with `.` on an object.  process_items_xml.cpp:113-174, 376, process_items.cpp:146-206,
process_items_ini.cpp:125-181. -/
def dotCall (E : Env) (t : CTy) (p : Place) (n : Str) (args : List EV) : M EV :=
  match t, args with
  | .str, [] => do
    match ← peek p with
    | .val (.str s) =>
      if n = c!"c_str" then pure (.rv (.ptr (.prim .char)) (.cstr (cStr s)))
      else if n = c!"length" then pure (.rv (.prim .ulong) (.val (.num s.length)))
      else M.stuck
    | _ => M.stuck
  | .str, [a] =>
    if n = c!"find" then do
      let (ta, va) ← load a
      match ← peek p, ta, va with
      | .val (.str s), .prim .char, .val (.str [c]) => match s.findIdx? (· = c) with
        | some i => pure (.rv (.prim .ulong) (.val (.num i)))
        | none => pure (.rv (.prim .ulong) (.val (.num (npos E.T))))
      | _, _, _ => M.stuck
    else M.stuck
  | .str, [a, b] =>
    if n = c!"substr" then do
      let (ta, va) ← load a
      let (tb, vb) ← load b
      match ← peek p, ta, va, tb, vb with
      | .val (.str s), .prim .int, .val (.num i), .prim .ulong, .val (.num j) =>
        if 0 ≤ i then
          if i ≤ s.length then pure (.rv .str (.val (.str ((s.drop i.toNat).take j.toNat)))) else M.throw
        else M.stuck
      | _, _, _, _, _ => M.stuck
    else M.stuck
  | .vec c, [a] =>
    if n = c!"push_back" then do
      let (ta, va) ← load a
      let old ← peek p
      match old, ta, va with
      | .val (.vec vs), .struct c', .val x =>
        if c' = c then do
          poke p (.val (.vec (vs ++ [x])))
          pure (.rv .void .null)
        else M.stuck
      | _, _, _ => M.stuck
    else M.stuck
  | .map k v, [a] =>
    if n = c!"find" then do
      let (ta, va) ← load a
      let key ← M.opt ((coerce ta va k).bind keyOf)
      match ← peek p with
      | .val (.struct m) => match m.lookup key with
        | some _ => pure (.rv (.iter k v) (.ptr ⟨p.addr, p.path ++ [key]⟩))
        | none => pure (.rv (.iter k v) .null)
      | _ => M.stuck
    else M.stuck
  | .map k v, [] => if n = c!"end" ∨ n = c!"cend" then pure (.rv (.iter k v) .null) else M.stuck
  | .xmlDoc, [] => do
    match ← peek p with
    | .doc ks =>
      if n = c!"RootElement" then
        match ks.findIdx? Node.isElem with
        | some i => pure (.rv (.ptr .xmlEl) (.el p.addr [i]))
        | none => pure (.rv (.ptr .xmlEl) .null)
      else M.stuck
    | _ => M.stuck
  | .xmlDoc, [a] => do
    match ← peek p with
    | .doc ks =>
      if n = c!"LoadFile" then do
        let f ← cstrArg a
        match E.load f with
        | .ok ks => do
          poke p (.doc ks)
          pure (.rv .xmlErr (.err true))
        | .error => pure (.rv .xmlErr (.err false))
      else if n = c!"NewElement" then do
        let m ← cstrArg a
        pure (.rv (.ptr .xmlEl) (.fresh p.addr (.elem m [] [])))
      else if n = c!"InsertFirstChild" then do
        match ← load a with
        | (.ptr .xmlEl, .fresh d k) =>
          if d = p.addr then do
            poke p (.doc (k :: ks))
            pure (.rv (.ptr .xmlEl) (.el p.addr [0]))
          else M.stuck
        | _ => M.stuck
      else if n = c!"SaveFile" then do
        let f ← cstrArg a
        if E.canSave f then fun s => .ok (.rv .xmlErr (.err true)) { s with out := s.out ++ [(f, .doc ks)] }
        else pure (.rv .xmlErr (.err false))
      else M.stuck
    | _ => M.stuck
  | _, _ => M.stuck

/-- Member functions called with `.` on a value.  process_items_xml.cpp:523, process_items_ini.cpp:156-181. -/
def dotCallV (t : CTy) (v : V) (n : Str) (args : List EV) : M EV :=
  match t, v, args with
  | .str, .val (.str s), [] => if n = c!"c_str" then pure (.rv (.ptr (.prim .char)) (.cstr (cStr s))) else M.stuck
  | .submatch, .val (.str s), [] => if n = c!"str" then pure (.rv .str (.val (.str s))) else M.stuck
  | _, _, _ => M.stuck

/-- Conversions of numbers: `(T)e` and `T(e)`.  C++ [conv.integral], [conv.bool]. -/
def castV (T : CTable) (p : Prim) (t : CTy) (v : V) : Option V :=
  let int : Option Int := match t, v with
    | .prim .int, .val (.num i) | .prim .uint, .val (.num i) | .prim .short, .val (.num i) | .prim .ushort, .val (.num i)
    | .prim .long, .val (.num i) | .prim .ulong, .val (.num i) | .enum _, .val (.num i) => some i
    | .prim .bool, .val (.bool b) => some (if b then 1 else 0)
    | _, _ => none
  match int with
  | none => none
  | some i => match p with
    | .bool => some (.val (.bool (i ≠ 0)))
    | .short => some (.val (.num (wrapSigned 16 i)))
    | .ushort => some (.val (.num (wrapUnsigned 16 i)))
    | .int => some (.val (.num (wrapSigned 32 i)))
    | .uint => some (.val (.num (wrapUnsigned 32 i)))
    | .long => some (.val (.num (wrapSigned T.longBits i)))
    | .ulong => some (.val (.num (wrapUnsigned T.longBits i)))
    | _ => none

/-- Results of `std::stoi` and relatives.  C++ [string.conversions]. -/
def stoV (t : Prim) : StoRes → M EV
  | .val i => pure (.rv (.prim t) (.val (.num i)))
  | .throws => M.throw

/-- A value as `std::string`.  C++ [string.cons]. -/
def strArg (e : EV) : M Str := do
  let (t, v) ← load e
  match coerce t v .str with
  | some (.val (.str s)) => pure s
  | _ => M.stuck

/-- Open a file.  Opening for writing succeeds or not, as the surroundings say; what is written is in the file once it is closed.
C++ [cstdio.syn], process_items_ini.cpp:125, 243. -/
def fopen (E : Env) (name mode : Str) : M EV := fun s =>
  if mode = c!"r" then
    match E.text name with
    | some t => .ok (.rv (.ptr .file) (.file s.files.length)) { s with files := s.files ++ [.rd t] }
    | none => .ok (.rv (.ptr .file) .null) s
  else if mode = c!"w" then
    if E.canWrite name then .ok (.rv (.ptr .file) (.file s.files.length)) { s with files := s.files ++ [.wr name []] }
    else .ok (.rv (.ptr .file) .null) s
  else .stuck

/-- Close a file.  A null pointer or a file that is closed already is undefined behaviour.  C++ [cstdio.syn],
process_items_ini.cpp:189, 247. -/
def fclose (t : CTy) (v : V) : M EV := fun s =>
  match t, v with
  | .ptr .file, .file h => match s.files[h]? with
    | some (.rd _) => .ok (.rv (.prim .int) (.val (.num 0))) { s with files := s.files.set h .closed }
    | some (.wr n x) => .ok (.rv (.prim .int) (.val (.num 0))) { s with files := s.files.set h .closed, out := s.out ++ [(n, .text x)] }
    | _ => .ub
  | .ptr .file, .null => .ub
  | _, _ => .stuck

/-- The next characters of a file, at most `n`, up to the end of the line, and those after them.  C++ [cstdio.syn]. -/
def takeLine : Nat → Str → Str × Str
  | 0, s => ([], s)
  | _ + 1, [] => ([], [])
  | n + 1, c :: s => if c = '\n' then ([c], s) else (c :: (takeLine n s).1, (takeLine n s).2)

/-- `std::fgets`: read at most `n - 1` characters into an array.  At the end of the file nothing is read and the result is null.
Writing beyond the array is undefined behaviour.  C++ [cstdio.syn], process_items_ini.cpp:131. -/
def fgets (a : EV) (n : CTy × V) (f : CTy × V) : M EV := fun s =>
  match a, n, f with
  | .lv (.buf size) p, (.prim .int, .val (.num n)), (.ptr .file, .file h) =>
    match s.files[h]? with
    | some (.rd []) => if 1 < n then .ok (.rv (.ptr (.prim .char)) .null) s else .stuck
    | some (.rd (c :: rest)) =>
      if 1 < n then
        if (takeLine (n.toNat - 1) (c :: rest)).1.length < size then
          (poke p (.val (.str (takeLine (n.toNat - 1) (c :: rest)).1)) { s with files := s.files.set h (.rd (takeLine (n.toNat - 1) (c :: rest)).2) }).bind
            fun _ s' => .ok (.rv (.ptr (.prim .char)) (.cstr (cStr (takeLine (n.toNat - 1) (c :: rest)).1))) s'
        else .ub
      else .stuck
    | _ => .ub
  | .lv (.buf _) _, (.prim .int, .val (.num _)), (.ptr .file, .null) => .ub
  | _, _, _ => .stuck

/-- The groups of the leftmost match of one of the regular expressions in process_items_ini.cpp:153, 169, 179, from group 1 on.
`none`: another expression. -/
def regexGroups (re line : Str) : Option (Option (List Str)) :=
  if re = c!"\\[(.+)\\]" then some ((search matchSection line).map fun k => [k])
  else if re = c!"(\\w+) (.+)" then some ((search matchItem line).map fun p => [p.1, p.2])
  else if re = c!"(\\w+)" then some ((search matchWord line).map fun k => [k])
  else none

/-- `std::regex_search`.  Simplification: the match has the texts of the groups instead of iterators into the line, which is not
changed while the match is used.  C++ [re.alg.search], process_items_ini.cpp:154, 170, 180. -/
def regexSearch (a res re : EV) : M EV := do
  let line ← strArg a
  match res, ← load re with
  | .lv .smatch p, (.regex, .regex r) => do
    match ← M.opt (regexGroups r line) with
    | some gs => do
      poke p (.smatch gs)
      pure (.rv (.prim .bool) (.val (.bool true)))
    | none => do
      poke p (.smatch [])
      pure (.rv (.prim .bool) (.val (.bool false)))
  | _, _ => M.stuck

/-- Functions of the namespace `std`.  C++ [string.conversions], [cstdio.syn], [re.alg.search]. -/
def stdCall (E : Env) (n : Str) (args : List EV) : M EV :=
  match args with
  | [a] =>
    if n = c!"stoi" then do stoV .int (stoSigned 32 (← strArg a))
    else if n = c!"stol" then do stoV .long (stoSigned E.T.longBits (← strArg a))
    else if n = c!"stoul" then do stoV .ulong (stoUnsigned E.T.longBits (← strArg a))
    else if n = c!"stof" then do
      match E.I.stof (← strArg a) with
      | some b => pure (.rv (.prim .float) (.val (.flt b)))
      | none => M.throw
    else if n = c!"stod" then do
      match E.I.stod (← strArg a) with
      | some b => pure (.rv (.prim .double) (.val (.dbl b)))
      | none => M.throw
    else if n = c!"to_string" then do
      match ← load a with
      | (.prim .int, .val (.num i)) => pure (.rv .str (.val (.str (intText i))))
      | _ => M.stuck
    else if n = c!"fclose" then do
      let (t, v) ← load a
      fclose t v
    else M.stuck
  | [a, b] =>
    if n = c!"fopen" then do
      let f ← cstrArg a
      let m ← cstrArg b
      fopen E f m
    else M.stuck
  | [a, b, c] =>
    if n = c!"fgets" then do
      let x ← load b
      let f ← load c
      fgets a x f
    else if n = c!"regex_search" then regexSearch a b c
    else M.stuck
  | _ => M.stuck

/-- Binary operators other than `&&` and `||`, on values.  C++ [expr.eq], [expr.rel], [expr.add]. -/
def binV (o : BOp) (t : CTy) (v : V) (u : CTy) (w : V) : M EV :=
  let isTrue (b : Bool) : M EV := pure (.rv (.prim .bool) (.val (.bool b)))
  match o with
  | .eq | .ne =>
    match v, w with
    | .val a, .val b =>
      if t = u then do
        let d ← M.lift (neq a b)
        isTrue (if o = .ne then d else !d)
      else match t, a, u, b with
        | .prim .ulong, .num i, .prim .int, .num j => if 0 ≤ j then isTrue (if o = .ne then i ≠ j else i = j) else M.stuck
        | _, _, _, _ => M.stuck
    | .err a, .err b => if a || b then isTrue (if o = .ne then a ≠ b else a = b) else M.stuck
    | .ptr a, .ptr b => if t = u then isTrue (if o = .ne then a ≠ b else a = b) else M.stuck
    | .null, .null => isTrue (o = .eq)
    | .ptr _, .null | .null, .ptr _ | .el _ _, .null | .null, .el _ _ | .cstr _, .null | .null, .cstr _ | .file _, .null
    | .null, .file _ => isTrue (o = .ne)
    | _, _ => M.stuck
  | .gt =>
    match t, v, u, w with
    | .prim .ulong, .val (.num i), .prim .int, .val (.num j) => if 0 ≤ j then isTrue (i > j) else M.stuck
    | _, _, _, _ => M.stuck
  | .add =>
    match v, coerce u w .str with
    | .val (.str a), some (.val (.str b)) => if t = .str then pure (.rv .str (.val (.str (a ++ b)))) else M.stuck
    | .val (.num i), _ => match w with
      | .val (.num j) => if t = .prim .int ∧ u = .prim .int then pure (.rv (.prim .int) (.val (.num (i + j)))) else M.stuck
      | _ => M.stuck
    | _, _ => M.stuck
  | .or | .and => M.stuck

/-- A condition.  C++ [stmt.select], [expr.log.or]. -/
def asBool (e : EV) : M Bool := do
  match ← load e with
  | (.prim .bool, .val (.bool b)) => pure b
  | _ => M.stuck

/-! ### Functions -/

/-- Is there an implicit conversion between the types?  C++ [conv]. -/
def convertible (t u : CTy) : Bool :=
  if t = u then true
  else match t, u with
    | .ptr (.prim .char), .str | .ptr (.prim .char), .regex | .buf _, .str | .null, .ptr _ => true
    | _, _ => false

/-- Can an argument initialise a parameter of type `t`, or (`r`) of type `t&`?  `const` is not in the trees, so values are
taken to fit references.  C++ [over.match]. -/
def argFits (r : Bool) (t : CTy) : EV → Bool
  | .lv u _ => if r then u = t else convertible u t
  | .rv u _ => convertible u t
  | .lst _ => false

/-- `T&`  C++ [dcl.ref]. -/
def Ty.isRef : Ty → Bool
  | .ref _ => true
  | _ => false

/-- `T` of `T&`  C++ [dcl.ref]. -/
def Ty.noRef : Ty → Ty
  | .ref t => t
  | t => t

/-- Can the arguments initialise the parameters?  Each parameter hides types for the next.  C++ [over.match.viable]. -/
def viable (E : Env) (cls : Option Str) : List (Str × Var) → List (Ty × Str) → List EV → Bool
  | _, [], [] => true
  | vars, (t, n) :: ps, a :: as =>
    match tyOf E cls vars t.noRef with
    | some u => argFits t.isRef u a && viable E cls ((n, ⟨u, ⟨0, []⟩⟩) :: vars) ps as
    | none => false
  | _, _, _ => false

/-- The parameters as variables.  C++ [expr.call]/4. -/
def bindParams (E : Env) (cls : Option Str) (self : List (Str × Var)) : List (Ty × Str) → List EV → M Unit
  | [], [] => pure ()
  | (t, n) :: ps, a :: as => do
    let vars ← getVars
    let u ← M.opt (tyOf E cls (vars ++ self) t.noRef)
    match t.isRef, a with
    | true, .lv u' p =>
      if u = u' then do
        declare n ⟨u, p⟩
        bindParams E cls self ps as
      else M.stuck
    | _, a => do
      let v ← initFrom u a
      let l ← alloc v
      declare n ⟨u, ⟨l, []⟩⟩
      bindParams E cls self ps as
  | _, _ => M.stuck

/-- How a statement ended.  C++ [stmt.jump]. -/
inductive Flow where
  | next
  | brk
  | cont
  | ret (e : EV)

/-- Run something in a scope of its own: the variables and objects made in it are gone afterwards.  C++ [basic.scope.block],
[basic.stc.auto].  Simplification: the address of an object that is gone can be used again. -/
def scope {α : Type} (x : M α) : M α := fun s =>
  match x s with
  | .ok a s' => .ok a { s' with vars := s.vars, mem := s'.mem.take s.mem.length }
  | r => r

/-- The value a function returns: objects are copied before the variables are gone.  C++ [stmt.return]. -/
def retVal (t : CTy) : Flow → M EV
  | .ret e => do
    let v ← initFrom t e
    pure (.rv t v)
  | _ => M.ub

/-- `try x catch h`.  C++ [except]. -/
def catching {α : Type} (x h : M α) : M α := fun s =>
  match x s with
  | .thr s' => h { s' with vars := s.vars, mem := s'.mem.take s.mem.length }
  | r => r

/-- Loop over elements.  C++ [stmt.ranged]. -/
def forL {α : Type} (body : α → M Flow) : List α → M Flow
  | [] => pure .next
  | a :: as => do
    match ← body a with
    | .next | .cont => forL body as
    | .brk => pure .next
    | .ret e => pure (.ret e)

/-- `while`.  C++ [stmt.while]. -/
def loop (cond : M Bool) (body : M Flow) : Nat → M Flow
  | 0 => fun _ => .more
  | n + 1 => do
    if ← cond then
      match ← body with
      | .next | .cont => loop cond body n
      | .brk => pure .next
      | .ret e => pure (.ret e)
    else pure .next

/-- What a range-based `for` goes through: the child elements of an element (tixml2ex), or a vector. 
process_items_xml.cpp:370, 549. -/
def rangeOf (e : EV) : M (List (CTy × V)) := do
  match ← load e with
  | (.ptr .xmlEl, v) => do
    let (d, p, _, kids) ← elemAt v
    pure (((List.range kids.length).filter fun i => (kids[i]?.map Node.isElem).getD false).map
      fun i => (.ptr .xmlEl, .el d (p ++ [i])))
  | (.vec c, .val (.vec vs)) => pure (vs.map fun v => (.struct c, .val v))
  | _ => M.stuck

/-! ### Expressions and statements -/

/-- Look a name up: local variables, then members of the object, then enumerators, then constants of the libraries.
C++ [basic.lookup.unqual], [basic.lookup.qual]. -/
def lookupId (C : Ctx) (q : List Str) : M EV := fun s =>
  match q with
  | [n] => match s.vars.lookup n with
    | some x => .ok (.lv x.ty x.at_) s
    | none => match C.self.lookup n with
      | some x => .ok (.lv x.ty x.at_) s
      | none => match C.E.enumerator n with
        | some (e, i) => if (methods C.E C.cls n).isEmpty then .ok (.rv (.enum e) (.val (.num i))) s else .stuck
        | none => .stuck
  | [a, b] =>
    if a = c!"tinyxml2" ∧ b = c!"XML_SUCCESS" then .ok (.rv .xmlErr (.err true)) s
    else match C.E.T.enm a with
      | some (e, val) => if e.enums.any fun l => l.name = b then .ok (.rv (.enum a) (.val (.num (val b)))) s else .stuck
      | none => .stuck
  | [a, b, c] =>
    if a = c!"std" ∧ b = c!"string" ∧ c = c!"npos" then .ok (.rv (.prim .ulong) (.val (.num (npos C.E.T)))) s else .stuck
  | _ => .stuck

/-- Call one of these functions.  C++ [over.match]. -/
def callOne (C : Ctx) (cls : Option Str) (self : List (Str × Var)) (fs : List Fun) (args : List EV) : M EV :=
  match fs.filter fun f => viable C.E cls self f.params args with
  | [f] => C.call f args
  | _ => M.stuck

/-- Replace each `{}` of a format string.  `none`: too few arguments, or braces that mean something else.  fmt, as used by
process_items_ini.cpp:470-565. -/
def fmtText : Str → List Str → Option Str
  | '{' :: '}' :: s, x :: xs => (fmtText s xs).map fun r => x ++ r
  | '{' :: _, _ => none
  | '}' :: _, _ => none
  | c :: s, xs => (fmtText s xs).map fun r => c :: r
  | [], _ => some []

/-- The text of an argument of `fmt::println` for `{}`.  Enums are formatted by the `fmt::formatter` that stfx generates into the
header of the enums, which calls `stfx::s_from_e`.  process_items.cpp:212-223, process_items_ini.cpp:470-565. -/
def fmtArg (C : Ctx) (e : EV) : M Str := do
  let (t, v) ← load e
  match t, v with
  | .prim .int, .val (.num i) | .prim .uint, .val (.num i) | .prim .short, .val (.num i) | .prim .ushort, .val (.num i)
  | .prim .long, .val (.num i) | .prim .ulong, .val (.num i) => pure (intText i)
  | .prim .float, .val (.flt b) => pure (C.E.I.fmtF b)
  | .prim .double, .val (.dbl b) => pure (C.E.I.fmtD b)
  | .str, .val (.str s) => pure s
  | .enum _, _ => do
    match ← callOne C none [] (C.E.prog.filter fun f => f.name = [c!"stfx", c!"s_from_e"]) [.rv t v] with
    | .rv .str (.val (.str s)) => pure s
    | _ => M.stuck
  | _, _ => M.stuck

/-- The texts of the arguments.  process_items_ini.cpp:470-565. -/
def fmtArgs (C : Ctx) : List EV → M (List Str)
  | [] => pure []
  | e :: es => do
    let x ← fmtArg C e
    let xs ← fmtArgs C es
    pure (x :: xs)

/-- `fmt::println(file, format, ...)`.  process_items_ini.cpp:470-565. -/
def fmtPrintln (C : Ctx) : List EV → M EV
  | f :: a :: es => do
    let (t, v) ← load f
    let fmt ← cstrArg a
    let xs ← fmtArgs C es
    let line ← M.opt (fmtText fmt xs)
    fun s => match t, v with
      | .ptr .file, .file h => match s.files[h]? with
        | some (.wr n x) => .ok (.rv .void .null) { s with files := s.files.set h (.wr n (x ++ line ++ c!"\n")) }
        | _ => .ub
      | .ptr .file, .null => .ub
      | _, _ => .stuck
  | _ => M.stuck

/-- Call a function by its name.  C++ [expr.call], [expr.type.conv]. -/
def callId (C : Ctx) (q : List Str) (args : List EV) : M EV := do
  let vars ← getVars
  match q with
  | [n] =>
    if (vars.lookup n).isSome || (C.self.lookup n).isSome then M.stuck
    else match methods C.E C.cls n with
      | f :: fs => callOne C C.cls C.self (f :: fs) args
      | [] => match tyOf C.E C.cls vars (.name [n]), args with
        | some (.enum e), [a] => do
          let (t, v) ← load a
          match C.E.T.enm e, t, v with
          | some (en, val), .prim .int, .val (.num i) =>
            if holds en val i then pure (.rv (.enum e) (.val (.num i))) else M.ub
          | _, _, _ => M.stuck
        | some _, _ => M.stuck
        | none, [a, b] =>
          if n = c!"find_element" then do
            let (t, v) ← load a
            let s ← cstrArg b
            if t = .ptr .xmlEl then childPtr v s else M.stuck
          else M.stuck
        | none, _ => M.stuck
  | [a, b] =>
    if a = c!"std" then stdCall C.E b args
    else if a = c!"stfx" then callOne C none [] (C.E.prog.filter fun f => f.name = [a, b]) args
    else if a = c!"fmt" ∧ b = c!"println" then fmtPrintln C args
    else M.stuck
  | _ => M.stuck

/-- `e.n`  C++ [expr.ref]. -/
def dotMem (C : Ctx) (n : Str) : EV → M EV
  | .lv t p => do
    let u ← M.opt (memTy C.E.T t n)
    pure (.lv u ⟨p.addr, p.path ++ [n]⟩)
  | _ => M.stuck

/-- `e->n`  C++ [expr.ref]. -/
def arrowMem (C : Ctx) (n : Str) (e : EV) : M EV := do
  let (t, v) ← load e
  match t, v with
  | .ptr t, .ptr p => do
    let u ← M.opt (memTy C.E.T t n)
    pure (.lv u ⟨p.addr, p.path ++ [n]⟩)
  | .ptr _, .null => M.ub
  | .iter _ u, .ptr p => if n = c!"second" then pure (.lv u p) else M.stuck
  | .iter _ _, .null => M.ub
  | _, _ => M.stuck

/-- `a[i]` on a map (a new element is made if there is none), a string or a match (group 0, the whole match, is not modelled). 
C++ [map.access], [string.access], [re.results.acc]. -/
def indexE (C : Ctx) (a i : EV) : M EV := do
  let (ti, vi) ← load i
  match a with
  | .lv (.map k v) p => do
    let key ← M.opt ((coerce ti vi k).bind keyOf)
    match ← peek p with
    | .val (.struct m) =>
      if (m.lookup key).isSome then pure (.lv v ⟨p.addr, p.path ++ [key]⟩)
      else match initV C.E.T v with
        | .val x => do
          poke p (.val (.struct (m ++ [(key, x)])))
          pure (.lv v ⟨p.addr, p.path ++ [key]⟩)
        | _ => M.stuck
    | _ => M.stuck
  | .lv .str p => do
    match ← peek p, vi with
    | .val (.str s), .val (.num i) =>
      if i = s.length then pure (.rv (.prim .char) (.val (.str ['\x00'])))
      else match s[i.toNat]? with
        | some c => pure (.rv (.prim .char) (.val (.str [c])))
        | none => M.ub
    | _, _ => M.stuck
  | .lv .smatch p => do
    match ← peek p, vi with
    | .smatch gs, .val (.num i) =>
      if 0 < i then
        match gs[i.toNat - 1]? with
        | some g => pure (.rv .submatch (.val (.str g)))
        | none => M.stuck
      else M.stuck
    | _, _ => M.stuck
  | _ => M.stuck

/-- `a = b`; the right side is evaluated first.  C++ [expr.assign]. -/
def assignE (b a : EV) : M EV := do
  let (t, v) ← load b
  match a with
  | .lv u p => do
    let v ← M.opt (coerce t v u)
    poke p v
    pure (.lv u p)
  | _ => M.stuck

/-- `a += b` on strings.  C++ [string.op.append]. -/
def plusE (b a : EV) : M EV := do
  let s ← strArg b
  match a with
  | .lv .str p => do
    match ← peek p with
    | .val (.str r) => do
      poke p (.val (.str (r ++ s)))
      pure (.lv .str p)
    | _ => M.stuck
  | _ => M.stuck

mutual
/-- The value of an expression.  C++ [expr]. -/
def eval (C : Ctx) : Expr → M EV
  | .id q => lookupId C q
  | .num s => if s = c!"0" then pure (.rv (.prim .int) (.val (.num 0)))
    else if s = c!"1" then pure (.rv (.prim .int) (.val (.num 1)))
    else if s = c!"2" then pure (.rv (.prim .int) (.val (.num 2)))
    else if s = c!"80" then pure (.rv (.prim .int) (.val (.num 80)))
    else M.stuck
  | .str s => pure (.rv (.ptr (.prim .char)) (.cstr (cStr s)))
  | .chr s => pure (.rv (.prim .char) (.val (.str s)))
  | .bool b => pure (.rv (.prim .bool) (.val (.bool b)))
  | .null => pure (.rv .null .null)
  | .addr e => do
    match ← eval C e with
    | .lv t p => pure (.rv (.ptr t) (.ptr p))
    | _ => M.stuck
  | .bin .or a b => do
    if ← eval C a >>= asBool then pure (.rv (.prim .bool) (.val (.bool true)))
    else do
      let r ← eval C b >>= asBool
      pure (.rv (.prim .bool) (.val (.bool r)))
  | .bin .and a b => do
    if ← eval C a >>= asBool then do
      let r ← eval C b >>= asBool
      pure (.rv (.prim .bool) (.val (.bool r)))
    else pure (.rv (.prim .bool) (.val (.bool false)))
  | .bin o a b => do
    let (t, v) ← eval C a >>= load
    let (u, w) ← eval C b >>= load
    binV o t v u w
  | .assign a b => do
    let y ← eval C b
    let x ← eval C a
    assignE y x
  | .plusAssign a b => do
    let y ← eval C b
    let x ← eval C a
    plusE y x
  | .cond c a b => do
    if ← eval C c >>= asBool then eval C a else eval C b
  | .mem e n => eval C e >>= dotMem C n
  | .arrow e n => eval C e >>= arrowMem C n
  | .call f args => do
    match f with
    | .id q => do
      let vs ← evals C args
      callId C q vs
    | .mem e n => do
      let x ← eval C e
      let vs ← evals C args
      match x with
      | .lv t p => dotCall C.E t p n vs
      | .rv t v => dotCallV t v n vs
      | .lst _ => M.stuck
    | .arrow e n => do
      let (t, v) ← eval C e >>= load
      let vs ← evals C args
      arrowCall C.E t v n vs
    | _ => M.stuck
  | .index a i => do
    let x ← eval C a
    let y ← eval C i
    indexE C x y
  | .cast p e => do
    let (t, v) ← eval C e >>= load
    let w ← M.opt (castV C.E.T p t v)
    pure (.rv (.prim p) w)
  | .braces es => do
    let vs ← evals C es
    pure (.lst vs)
/-- The values of arguments, from left to right.  C++ leaves the order open; the arguments in the generated code do not depend
on it, [expr.call]/8. -/
def evals (C : Ctx) : List Expr → M (List EV)
  | [] => pure []
  | e :: es => do
    let v ← eval C e
    let vs ← evals C es
    pure (v :: vs)
end

/-- A declaration: the variable is in scope in its own initialiser.  C++ [basic.scope.pdecl]. -/
def declE (C : Ctx) (t : Ty) (n : Str) (arr init : Option Expr) : M Unit := do
  let vars ← getVars
  match t, arr, init with
  | .auto, none, some e => do
    let l ← alloc (.val .undef)
    declare n ⟨.void, ⟨l, []⟩⟩
    let (u, v) ← eval C e >>= load
    fun s => .ok () { s with vars := (n, ⟨u, ⟨l, []⟩⟩) :: vars, mem := s.mem.set l v }
  | t, none, none => do
    let u ← M.opt (tyOf C.E C.cls (vars ++ C.self) t)
    let l ← alloc (initV C.E.T u)
    declare n ⟨u, ⟨l, []⟩⟩
  | t, none, some e => do
    let u ← M.opt (tyOf C.E C.cls (vars ++ C.self) t)
    let l ← alloc (.val .undef)
    declare n ⟨u, ⟨l, []⟩⟩
    let v ← eval C e >>= initFrom u
    poke ⟨l, []⟩ v
  | .prim .char, some e, none => do
    match ← eval C e >>= load with
    | (.prim .int, .val (.num i)) =>
      if 0 < i then do
        let l ← alloc (.val .undef)
        declare n ⟨.buf i.toNat, ⟨l, []⟩⟩
      else M.stuck
    | _ => M.stuck
  | _, _, _ => M.stuck

/-- `case x:` and `default:`  C++ [stmt.switch]. -/
def Stmt.isLabel : Stmt → Bool
  | .case _ | .default => true
  | _ => false

/-- `case x:` where `x` is a character.  C++ [stmt.switch]. -/
def Stmt.isCase (x : Str) : Stmt → Bool
  | .case (.chr s) => s = x
  | _ => false

/-- `default:`  C++ [stmt.switch]. -/
def Stmt.isDefault : Stmt → Bool
  | .default => true
  | _ => false

/-- A part of the body of `switch` that is not modelled: labels other than characters, declarations, which may be jumped over. 
C++ [stmt.switch], [stmt.dcl]/3. -/
def Stmt.isOdd : Stmt → Bool
  | .case (.chr _) => false
  | .case _ | .decl _ _ _ _ => true
  | _ => false

/-- Which label is jumped to.  C++ [stmt.switch]/5. -/
def jumpTo (x : Str) (ss : List Stmt) : Stmt → Bool := if ss.any (Stmt.isCase x) then Stmt.isCase x else Stmt.isDefault

mutual
/-- Execute a statement.  C++ [stmt]. -/
def exec (C : Ctx) : Stmt → M Flow
  | .expr e => do
    let _ ← eval C e
    pure .next
  | .decl t n arr init => do
    declE C t n arr init
    pure .next
  | .block ss => scope (execs C ss)
  | .when c s => do
    if ← eval C c >>= asBool then scope (exec C s) else pure .next
  | .ite c s t => do
    if ← eval C c >>= asBool then scope (exec C s) else scope (exec C t)
  | .while c s => loop (eval C c >>= asBool) (scope (exec C s)) C.fuel
  | .forEach t n e s => do
    let xs ← eval C e >>= rangeOf
    forL (fun x => scope (do
      let vars ← getVars
      let u ← match t with
        | .auto => pure x.1
        | t => M.opt (tyOf C.E C.cls (vars ++ C.self) t)
      let v ← M.opt (coerce x.1 x.2 u)
      let l ← alloc v
      declare n ⟨u, ⟨l, []⟩⟩
      exec C s)) xs
  | .ret e => do
    let v ← eval C e
    pure (.ret v)
  | .brk => pure .brk
  | .cont => pure .cont
  | .try ss _ hs => catching (scope (execs C ss)) (scope (execs C hs))
  | .switch e ss => do
    match ← eval C e >>= load with
    | (.prim .char, .val (.str x)) =>
      if ss.any Stmt.isOdd then M.stuck
      else do
        match ← scope (execSw C (jumpTo x ss) ss false) with
        | .brk => pure .next
        | f => pure f
    | _ => M.stuck
  | .case _ => M.stuck
  | .default => M.stuck
/-- Execute statements.  C++ [stmt.block]. -/
def execs (C : Ctx) : List Stmt → M Flow
  | [] => pure .next
  | s :: ss => do
    match ← exec C s with
    | .next => execs C ss
    | f => pure f
/-- Execute the body of `switch`, from the label that `p` says on.  C++ [stmt.switch]. -/
def execSw (C : Ctx) (p : Stmt → Bool) : List Stmt → Bool → M Flow
  | [], _ => pure .next
  | s :: ss, on =>
    if s.isLabel then execSw C p ss (on || p s)
    else if on then do
      match ← exec C s with
      | .next => execSw C p ss true
      | f => pure f
    else execSw C p ss false
end

/-- Run a function: its parameters are the only variables in scope besides the members of the object.  C++ [expr.call]. -/
def invoke (C : Ctx) (f : Fun) (args : List EV) : M EV := fun s =>
  match scope (do
    bindParams C.E C.cls C.self f.params args
    let r ← execs C f.body
    match f.ret with
    | some t => do
      let u ← M.opt (tyOf C.E none [] t)
      retVal u r
    | none => M.stuck) { s with vars := [] } with
  | .ok a s' => .ok a { s' with vars := s.vars }
  | .thr s' => .thr { s' with vars := s.vars }
  | r => r

/-- Run a function of the program; functions of a namespace have no object.  C++ [expr.call]. -/
def run (E : Env) (self : List (Str × Var)) : Nat → Fun → List EV → M EV
  | 0, _, _ => fun _ => .more
  | n + 1, f, args =>
    match f.name with
    | [c, _] =>
      if c = c!"stfx" then invoke ⟨E, none, [], run E self n, n⟩ f args
      else invoke ⟨E, some c, self, run E self n, n⟩ f args
    | _ => M.stuck

/-- Call a member function of a class on an object.  C++ [expr.call]. -/
def callMethod (E : Env) (self : List (Str × Var)) (fuel : Nat) (cls n : Str) (args : List EV) : M EV :=
  callOne ⟨E, some cls, self, run E self fuel, fuel⟩ (some cls) self (methods E (some cls) n) args

end Stfx.Cpp
