import Verif.Items.Map
import Verif.Parser.Driver
/-
The name tables: /repo/src/items.h, /repo/src/items.cpp.
-/
namespace Stfx.Items
open Stfx.Parser Stfx.Lexer

/-- `enum_line_S`, items.h:10-15. -/
structure EnumLine where
  name : Str
  init : Bool
  value : Str
deriving DecidableEq, Repr

/-- `enum_S`, items.h:17-22. -/
structure EnumS where
  name : Str
  isClass : Bool
  enums : List EnumLine
deriving DecidableEq, Repr

/-- `struct_line_simple_S`, items.h:38-43. -/
structure SimpleLine where
  ty : SimpleTy
  name : Str
  dflt : Str
deriving DecidableEq, Repr

/-- `struct_line_complex_S`, items.h:55-60. -/
structure ComplexLine where
  ty : ComplexTy
  tyName : Str
  name : Str
deriving DecidableEq, Repr

/-- `struct_S`, items.h:62-68.  Simplification: `incoming_count` is an unbounded counter instead of
an `int`. -/
structure StructS where
  name : Str
  simple : List SimpleLine
  complex : List ComplexLine
  incoming : Nat
deriving DecidableEq, Repr

/-- A `struct_S *` or `enum_S *` into the map of the object `obj`: map nodes never move and are
never erased, so the node is identified by its key, `m_current_struct` and `m_current_enum`, items.h:88-96. -/
structure Ptr where
  obj : Nat
  key : Str
deriving DecidableEq, Repr

/-- The data of an `info_items_C` object, items.h:88-96. -/
structure Info where
  structs : SMap StructS
  enums : SMap EnumS
  curStruct : Option Ptr
  curEnum : Option Ptr
  parseRv : Nat
deriving DecidableEq, Repr

/-- A default-initialised `info_items_C`, items.h:88-96. -/
def Info.empty : Info := ⟨[], [], none, none, 0⟩

/-- All live `info_items_C` objects; an object is identified by its position, the locals of main.cpp:71, 118, 179. -/
abbrev Heap := List Info

/-- `info_items_C::get_item_type`, items.cpp:29-44. -/
def getItemType (i : Info) (name : Str) : ComplexTy :=
  match i.structs.find? name with
  | some _ => .struct
  | none => match i.enums.find? name with
    | some _ => .enum
    | none => .unknown

/-- `process_enum`, items.cpp:72-91. -/
def processEnum (self : Nat) (name : Str) (isClass : Bool) (h : Heap) : Option Heap := do
  let i ← h[self]?
  if getItemType i name ≠ .unknown then some h
  else some (h.set self { i with
    enums := i.enums.insert name ⟨name, isClass, []⟩
    curEnum := some ⟨self, name⟩
    curStruct := none })

/-- `process_enum_line`, items.cpp:93-107.  A dangling pointer is undefined behaviour (`none`). -/
def processEnumLine (self : Nat) (l : EnumLine) (h : Heap) : Option Heap := do
  let i ← h[self]?
  match i.curEnum with
  | none => some h
  | some p => do
    let o ← h[p.obj]?
    let _ ← o.enums.find? p.key
    some (h.set p.obj { o with enums := o.enums.modify p.key fun e => { e with enums := e.enums ++ [l] } })

/-- `process_struct`, items.cpp:109-127. -/
def processStruct (self : Nat) (name : Str) (h : Heap) : Option Heap := do
  let i ← h[self]?
  if getItemType i name ≠ .unknown then some h
  else some (h.set self { i with
    structs := i.structs.insert name ⟨name, [], [], 0⟩
    curStruct := some ⟨self, name⟩
    curEnum := none })

/-- `process_struct_line_simple`, items.cpp:129-143. -/
def processSimple (self : Nat) (l : SimpleLine) (h : Heap) : Option Heap := do
  let i ← h[self]?
  match i.curStruct with
  | none => some h
  | some p => do
    let o ← h[p.obj]?
    let _ ← o.structs.find? p.key
    some (h.set p.obj { o with structs := o.structs.modify p.key fun s => { s with simple := s.simple ++ [l] } })

/-- `process_struct_line_complex`, items.cpp:145-159. -/
def processComplex (self : Nat) (l : ComplexLine) (h : Heap) : Option Heap := do
  let i ← h[self]?
  match i.curStruct with
  | none => some h
  | some p => do
    let o ← h[p.obj]?
    let _ ← o.structs.find? p.key
    some (h.set p.obj { o with structs := o.structs.modify p.key fun s => { s with complex := s.complex ++ [l] } })

/-- One call made by a semantic action (the return values are ignored there), Parser.cpp:771-975. -/
def applyCall (self : Nat) (h : Heap) : Call → Option Heap
  | .enum name isClass => processEnum self name isClass h
  | .enumLine name init value => processEnumLine self ⟨name, init, value⟩ h
  | .struct name => processStruct self name h
  | .simple ty name dflt => processSimple self ⟨ty, name, dflt⟩ h
  | .complex ty tyName name => processComplex self ⟨ty, tyName, name⟩ h

/-- The calls made during a parse, in order, Parser.cpp:771-975. -/
def applyCalls (self : Nat) : List Call → Heap → Option Heap
  | [], h => some h
  | c :: cs, h => (applyCall self h c).bind (applyCalls self cs)

/-- `m_parse_rv = ...`, items.cpp:65. -/
def setRv (self : Nat) (rv : Nat) (h : Heap) : Heap :=
  match h[self]? with
  | some i => h.set self { i with parseRv := rv }
  | none => h

/-- `process_input_file`, items.cpp:48-68, on a file with the given content (`none`: it can not be
opened).  The semantic actions never read the tables back into the parser, so the calls are applied
after the parse.  Result: the heap and the return value. -/
def processInputFile (self : Nat) (content : Option Str) (h : Heap) : Option (Heap × Bool) :=
  match content with
  | none => some (h, false)
  | some w => do
    let toks ← toksFile w
    match parse toks with
    | .accepted log => do
      let h' ← applyCalls self log h
      some (setRv self 0 h', true)
    | .rejected log _ _ => do
      let h' ← applyCalls self log h
      some (setRv self 1 h', false)
    | _ => none

/-- The loops reading several input files into one object, main.cpp:120-135 and main.cpp:181-196: the
files are read one after the other, failures are only reported on the console. -/
def processFiles (self : Nat) : List (Option Str) → Heap → Option Heap
  | [], h => some h
  | c :: cs, h => (processInputFile self c h).bind fun r => processFiles self cs r.1

/-- The implicit copy constructor of `info_items_C` (main.cpp:181): a new object at the end of the
heap, with the same current pointers. -/
def copyInfo (src : Nat) (h : Heap) : Option Heap := do
  let i ← h[src]?
  some (h ++ [i])

end Stfx.Items
