import Verif.Run.Dom
import Verif.Gen.Contents
/-
Meaning of the generated XML readers and writers: the statements of `Gen/Code.lean`, run on documents and objects.
-/
set_option autoImplicit false
namespace Stfx.Run
open Stfx.Items Stfx.Parser Stfx.Gen

/-! ### Library contracts -/

/-- What of the libraries is left open: the texts of floating point numbers (tinyxml2 prints with `%.8g` and `%.17g`
and scans with `%f` and `%lf`; `none`: no conversion) and the nesting limit of the parser, called from the code of
process_items_xml.cpp:231-320, 427-496. -/
structure Lib where
  fmtF : Nat → Str
  fmtD : Nat → Str
  scanF : Str → Option Nat
  scanD : Str → Option Nat
  maxDepth : Nat

/-- IEEE not-a-number, from exponent and mantissa width, for the `!=` of process_items_xml.cpp:445. -/
def isNaN (e m : Nat) (b : Nat) : Bool := (b / 2 ^ m) % 2 ^ e = 2 ^ e - 1 && b % 2 ^ m ≠ 0
/-- IEEE zero, for the `!=` of process_items_xml.cpp:445. -/
def isZero (e m : Nat) (b : Nat) : Bool := b % 2 ^ (e + m) = 0
/-- `==` of floating point numbers, for the `!=` of process_items_xml.cpp:445. -/
def ieeeEq (e m : Nat) (a b : Nat) : Bool :=
  !isNaN e m a && !isNaN e m b && (a = b || (isZero e m a && isZero e m b))

/-- `data->n != default_data.n`, process_items_xml.cpp:445, 464, 483, 531, process_items_xml_attrib.cpp:173-258,
process_items_ini.cpp:490, 515, 563. -/
def neq : Val → Val → R Bool
  | .undef, _ => .ub
  | _, .undef => .ub
  | .bool a, .bool b => .ok (a ≠ b)
  | .num a, .num b => .ok (a ≠ b)
  | .flt a, .flt b => .ok !ieeeEq 8 23 a b
  | .dbl a, .dbl b => .ok !ieeeEq 11 52 a b
  | .str a, .str b => .ok (a ≠ b)
  | _, _ => .stuck

/-! ### Conversions of simple members -/

/-- `XMLUtil::ToBool` of tinyxml2, behind `QueryBoolText`, process_items_xml.cpp:231-237, and `QueryAttribute`,
process_items_xml_attrib.cpp:32-38. -/
def toBool (s : Str) : R (Option Bool) :=
  match toInt s with
  | .val i => .ok (some (i ≠ 0))
  | .ub => .ub
  | .fail =>
    if s = c!"true" ∨ s = c!"True" ∨ s = c!"TRUE" then .ok (some true)
    else if s = c!"false" ∨ s = c!"False" ∨ s = c!"FALSE" then .ok (some false)
    else .ok none

/-- Result of `sscanf` as an object, behind the `Query...Text` and `Query...Attribute` calls of
process_items_xml.cpp:238-320 and process_items_xml_attrib.cpp:32-58. -/
def scanVal (f : Int → Int) : ScanRes → R (Option Val)
  | .val i => .ok (some (.num (f i)))
  | .fail => .ok none
  | .ub => .ub

/-- The conversion the reader of a member applies to its text, including the cast; `none`: it fails,
process_items_xml.cpp:231-320, process_items_xml_attrib.cpp:32-58. -/
def conv (L : Lib) : SimpleTy → Str → R (Option Val)
  | .bool, s => toBool s >>= fun o => .ok (o.map .bool)
  | .int, s => scanVal id (toInt s)
  | .unsignedInt, s => scanVal id (toUnsigned s)
  | .short, s => scanVal (wrapSigned 16) (toInt s)
  | .unsignedShort, s => scanVal (wrapUnsigned 16) (toUnsigned s)
  | .long, s => scanVal id (toInt s)
  | .unsignedLong, s => scanVal id (toUnsigned s)
  | .float, s => .ok ((L.scanF s).map .flt)
  | .double, s => .ok ((L.scanD s).map .dbl)
  | .stdString, s => .ok (some (.str s))

/-- Does the reader convert into an uninitialised local variable and assign that in any case?  `int i;` and `unsigned
int ui;`, process_items_xml.cpp:277-320, process_items_xml_attrib.cpp:47-58. -/
def viaLocal : SimpleTy → Bool
  | .short | .unsignedShort | .long | .unsignedLong => true
  | _ => false

/-- Assign what was converted, if anything, process_items_xml.cpp:231-320, process_items_xml_attrib.cpp:32-58. -/
def assign (ty : SimpleTy) (old : Val) : Option Val → R Val
  | some v => .ok v
  | none => if viaLocal ty then .ub else .ok old

/-- The member is read from a text, or from a missing one, process_items_xml.cpp:231-320,
process_items_xml_attrib.cpp:32-58. -/
def readSimple (L : Lib) (ty : SimpleTy) (old : Val) : Option Str → R Val
  | some s => conv L ty s >>= assign ty old
  | none => assign ty old none

/-- `stfx::s_to_e(pt, data->n)` on the member type, process_items_xml.cpp:350-359,
process_items_xml_attrib.cpp:91-98. -/
def readEnum (T : CTable) (ty : Option MTy) (old : Val) : Option Str → R Val
  | none => .ok old
  | some s =>
    match ty with
    | some (.enum n) =>
      match T.enm n with
      | some (e, val) =>
        match sToE e val s with
        | .ok _ (some x) => .ok (.num x)
        | .ok _ none => .ok old
        | .ub => .ub
      | none => .stuck
    | _ => .stuck

/-- The text of a simple member.  `k`: `.xml` uses `SetText`, else `SetAttribute` with its casts,
process_items_xml.cpp:427-490, process_items_xml_attrib.cpp:160-217. -/
def simpleText (L : Lib) (k : Kind) : SimpleTy → Val → R Str
  | _, .undef => .ub
  | .bool, .bool b => .ok (if b then c!"true" else c!"false")
  | .int, .num i | .unsignedInt, .num i | .short, .num i | .unsignedShort, .num i => .ok (intText i)
  | .long, .num i => .ok (intText (if k = .xml then i else wrapSigned 32 i))
  | .unsignedLong, .num i => .ok (intText (wrapUnsigned 32 i))
  | .float, .flt b => .ok (L.fmtF b)
  | .double, .dbl b => .ok (L.fmtD b)
  | .stdString, .str s => .ok (cStr s)
  | _, _ => .stuck

/-- `stfx::s_from_e(data->n).c_str()` on the member type, process_items_xml.cpp:520-538,
process_items_xml_attrib.cpp:249-261. -/
def enumText (T : CTable) : Option MTy → Val → R Str
  | _, .undef => .ub
  | some (.enum n), .num i =>
    match T.enm n with
    | some (e, val) => .ok (cStr (sFromE e val i))
    | none => .stuck
  | _, _ => .stuck

/-- The declared type of a member, which decides the overload of `s_to_e` and `s_from_e` called by
process_items_xml.cpp:357, 534. -/
def memberTy (T : CTable) (c n : Str) : Option MTy :=
  match T.cls c with
  | some ms => (ms.find? fun m => m.name = n).map CMember.ty
  | none => none

/-! ### Readers -/

/-- The body of `do_n` in the generated file, the function of process_items_xml.cpp:219-398 or
process_items_xml_attrib.cpp:22-136. -/
def rdBody (items : List Item) (n : Str) : Option (List Rd) :=
  items.findSome? fun
    | .defRd _ _ n' _ ss cs => if n' = n then some (ss ++ cs) else none
    | _ => none

/-- The member a statement writes; comments write none, process_items_xml.cpp:227-395,
process_items_xml_attrib.cpp:28-133. -/
def _root_.Stfx.Gen.Rd.member : Rd → Option Str
  | .elem _ n | .elemEnum n | .attr _ n | .attrEnum n | .child n _ | .vector n _ => some n
  | .fixme _ | .warn _ => none

/-- A child of the element being read, with the effect of the reader functions on it, `ch_el` and `item` of
process_items_xml.cpp:363-382. -/
structure Kid where
  node : Node
  /-- `do_ty(el, data)` -/
  rd : Str → Val → R Val
  /-- the same for each child element -/
  items : List (Str → Val → R Val)

/-- The first child with a name, `find_element` and `FirstChildElement`, process_items_xml.cpp:233, 363, 371,
process_items_xml_attrib.cpp:101, 109. -/
def firstKid (ks : List Kid) (n : Str) : Option Kid := ks.find? fun k => k.node.named n

/-- Effect of a reader statement of struct `c` on its member, process_items_xml.cpp:227-395,
process_items_xml_attrib.cpp:28-133. -/
def rdAct (T : CTable) (L : Lib) (c : Str) (attrs : List (Str × Str)) (kids : List Kid) : Rd → Val → R Val
  | .elem ty n, old =>
    match firstKid kids n with
    | none => .ok old
    | some k => readSimple L ty old (if ty = .stdString then getText k.node.kids else queryText k.node.kids)
  | .elemEnum n, old =>
    match firstKid kids n with
    | none => .ok old
    | some k => readEnum T (memberTy T c n) old (getText k.node.kids)
  | .attr ty n, old => readSimple L ty old (attrs.lookup n)
  | .attrEnum n, old => readEnum T (memberTy T c n) old (attrs.lookup n)
  | .child n ty, old =>
    match firstKid kids n with
    | none => .ok old
    | some k => k.rd ty old
  | .vector n ty, old =>
    match firstKid kids n with
    | none => .ok old
    | some k =>
      match old with
      | .vec vs => k.items.mapM (fun rd => rd ty (T.dflt ty)) >>= fun ws => .ok (.vec (vs ++ ws))
      | _ => .stuck
  | .fixme _, old => .ok old
  | .warn _, old => .ok old

/-- One statement, process_items_xml.cpp:227-395, process_items_xml_attrib.cpp:28-133. -/
def rdStep (T : CTable) (L : Lib) (c : Str) (attrs : List (Str × Str)) (kids : List Kid) (fs : List (Str × Val)) (r : Rd) :
    R (List (Str × Val)) :=
  match r.member with
  | none => .ok fs
  | some n => modifyField n (rdAct T L c attrs kids r) fs

/-- `do_c(el, data)`, process_items_xml.cpp:231-320.  It always returns true.  Copying an object with indeterminate members
(`push_back(s)`) is taken to copy the indeterminate values. -/
def runRd (T : CTable) (L : Lib) (prog : List Item) (attrs : List (Str × Str)) (kids : List Kid) (c : Str) : Val → R Val
  | .struct fs =>
    match rdBody prog c with
    | some body => body.foldlM (rdStep T L c attrs kids) fs >>= fun fs' => .ok (.struct fs')
    | none => .stuck
  | _ => .stuck

mutual
/-- The effect of the reader functions on a node, `do_n(ch_el, ...)` and `for (auto item : ch_el)`,
process_items_xml.cpp:360-383, process_items_xml_attrib.cpp:99-121. -/
def rdNode (T : CTable) (L : Lib) (prog : List Item) : Node → Kid
  | .elem n as ks =>
    let kids := rdKids T L prog ks
    { node := .elem n as ks
      rd := runRd T L prog as kids
      items := (kids.filter fun k => k.node.isElem).map Kid.rd }
  | .text s => ⟨.text s, fun _ _ => .stuck, []⟩
  | .comment => ⟨.comment, fun _ _ => .stuck, []⟩
  | .misc => ⟨.misc, fun _ _ => .stuck, []⟩
/-- The same for a list of nodes, process_items_xml.cpp:374, process_items_xml_attrib.cpp:112. -/
def rdKids (T : CTable) (L : Lib) (prog : List Item) : List Node → List Kid
  | [] => []
  | k :: ks => rdNode T L prog k :: rdKids T L prog ks
end

/-! ### Writers -/

/-- The body of `do_wr_n` in the generated file, and whether it has a `default_data`, the function of
process_items_xml.cpp:412-575 or process_items_xml_attrib.cpp:147-296. -/
def wrBody (items : List Item) (n : Str) : Option (Bool × List Wr) :=
  items.findSome? fun
    | .defWr _ _ n' dd _ ss cs => if n' = n then some (dd, ss ++ cs) else none
    | _ => none

/-- Attributes and children of an element under construction, `el` of process_items_xml.cpp:413,
process_items_xml_attrib.cpp:148. -/
structure El where
  attrs : List (Str × Str)
  kids : List Node
deriving DecidableEq

/-- What a statement adds, process_items_xml.cpp:438, 541, 550, process_items_xml_attrib.cpp:168-275. -/
inductive Emit where
  | none
  | attr (n s : Str)
  | kid (k : Node)
deriving DecidableEq

/-- Add it: `SetAttribute` or `InsertNewChildElement`, process_items_xml.cpp:438, process_items_xml_attrib.cpp:168. -/
def El.add (el : El) : Emit → El
  | .none => el
  | .attr n s => { el with attrs := setAttr n s el.attrs }
  | .kid k => { el with kids := el.kids ++ [k] }

/-- An object with the effect of the writer functions on it, `itr` and `data->n` of process_items_xml.cpp:539-560. -/
structure WVal where
  val : Val
  /-- `do_wr_ty` into a new element -/
  wr : Str → R El
  /-- the same for each element of a vector -/
  items : List (Str → R El)

/-- The delta test of a statement on a member and its default (`none`: no `default_data`), `m_delta_only == false ||
...`, process_items_xml.cpp:445, process_items_xml_attrib.cpp:173. -/
def guard (g delta : Bool) (d : Option Val) (v : Val) : R Bool :=
  if g && delta then
    match d with
    | some d => neq v d
    | none => .stuck
  else .ok true

/-- Look up a member, `data->n`, process_items_xml.cpp:439. -/
def field {α : Type} (ws : List (Str × α)) (n : Str) : R α :=
  match ws.lookup n with
  | some w => .ok w
  | none => .stuck

/-- Effect of a writer statement of struct `c`, process_items_xml.cpp:423-572, process_items_xml_attrib.cpp:156-293. -/
def wrAct (T : CTable) (L : Lib) (delta : Bool) (c : Str) (dd : List (Str × Val)) (ws : List (Str × WVal)) : Wr → R Emit
  | .elem g ty n => do
    let w ← field ws n
    if ← guard g delta (dd.lookup n) w.val then
      let s ← simpleText L .xml ty w.val
      return .kid (.elem n [] [.text s])
    else return .none
  | .elemEnum g n => do
    let w ← field ws n
    if ← guard g delta (dd.lookup n) w.val then
      let s ← enumText T (memberTy T c n) w.val
      return .kid (.elem n [] [.text s])
    else return .none
  | .attr g ty n => do
    let w ← field ws n
    if ← guard g delta (dd.lookup n) w.val then
      let s ← simpleText L .attrib ty w.val
      return .attr n s
    else return .none
  | .attrEnum g n => do
    let w ← field ws n
    if ← guard g delta (dd.lookup n) w.val then
      let s ← enumText T (memberTy T c n) w.val
      return .attr n s
    else return .none
  | .child n ty => do
    let w ← field ws n
    let el ← w.wr ty
    return .kid (.elem n el.attrs el.kids)
  | .vector n ty => do
    let w ← field ws n
    let els ← w.items.mapM fun wr => wr ty
    return .kid (.elem n [] (els.map fun el => .elem ty el.attrs el.kids))
  | .fixme _ => return .none
  | .warn _ => return .none

/-- The members of an object, for `default_data`, process_items_xml.cpp:420. -/
def Val.fields : Val → List (Str × Val)
  | .struct fs => fs
  | _ => []

/-- `do_wr_c(el, data)` on a new element, process_items_xml.cpp:412-575, process_items_xml_attrib.cpp:147-296. -/
def runWr (T : CTable) (L : Lib) (prog : List Item) (delta : Bool) (ws : List (Str × WVal)) (c : Str) : R El :=
  match wrBody prog c with
  | some (dd, body) => do
    let es ← body.mapM (wrAct T L delta c (if dd then (T.dflt c).fields else []) ws)
    return es.foldl El.add ⟨[], []⟩
  | none => .stuck

mutual
/-- The effect of the writer functions on an object, process_items_xml.cpp:539-560,
process_items_xml_attrib.cpp:262-281. -/
def wrVal (T : CTable) (L : Lib) (prog : List Item) (delta : Bool) : Val → WVal
  | .struct fs => ⟨.struct fs, runWr T L prog delta (wrFields T L prog delta fs), []⟩
  | .vec vs => ⟨.vec vs, fun _ => .stuck, (wrVals T L prog delta vs).map WVal.wr⟩
  | .undef => ⟨.undef, fun _ => .stuck, []⟩
  | .bool b => ⟨.bool b, fun _ => .stuck, []⟩
  | .num i => ⟨.num i, fun _ => .stuck, []⟩
  | .flt b => ⟨.flt b, fun _ => .stuck, []⟩
  | .dbl b => ⟨.dbl b, fun _ => .stuck, []⟩
  | .str s => ⟨.str s, fun _ => .stuck, []⟩
/-- The same for the members of an object, process_items_xml.cpp:544. -/
def wrFields (T : CTable) (L : Lib) (prog : List Item) (delta : Bool) : List (Str × Val) → List (Str × WVal)
  | [] => []
  | (n, v) :: fs => (n, wrVal T L prog delta v) :: wrFields T L prog delta fs
/-- The same for the elements of a vector, process_items_xml.cpp:553-557. -/
def wrVals (T : CTable) (L : Lib) (prog : List Item) (delta : Bool) : List Val → List WVal
  | [] => []
  | v :: vs => wrVal T L prog delta v :: wrVals T L prog delta vs
end

/-! ### File entry points -/

/-- Does the generated file have the reading entry point?  process_items_xml.cpp:99-122,
process_items_ini.cpp:113-196. -/
def hasReadFile (prog : List Item) (n : Str) : Bool := ((prog.filterMap Item.readFileDef).map Prod.snd).contains n
/-- Does it have the writing entry point?  process_items_xml.cpp:157-179, process_items_ini.cpp:232-252. -/
def hasWriteFile (prog : List Item) (n : Str) : Bool := ((prog.filterMap Item.writeFileDef).map Prod.snd).contains n

/-- What `doc.LoadFile` finds, process_items_xml.cpp:113. -/
inductive Doc where
  /-- not `XML_SUCCESS` -/
  | error
  /-- the children of the document -/
  | ok (ks : List Node)

/-- `read_from_file`, process_items_xml.cpp:106-120: the return value and the object.  A document without a root element
makes `el` null: undefined behaviour unless the struct has no members. -/
def readFile (T : CTable) (L : Lib) (prog : List Item) (n : Str) (d : Doc) (obj : Val) : R (Bool × Val) :=
  if hasReadFile prog n then
    match d with
    | .error => .ok (false, obj)
    | .ok ks =>
      match ks.find? Node.isElem with
      | some root => (rdNode T L prog root).rd n obj >>= fun v => .ok (true, v)
      | none =>
        match rdBody prog n with
        | some body => if body.all fun r => r.member = none then .ok (true, obj) else .ub
        | none => .stuck
  else .stuck

/-- `write_to_file`, process_items_xml.cpp:164-178: the document that is saved. -/
def writeFile (T : CTable) (L : Lib) (prog : List Item) (delta : Bool) (n : Str) (v : Val) : R Node :=
  if hasWriteFile prog n then
    (wrVal T L prog delta v).wr n >>= fun el => .ok (.elem n el.attrs el.kids)
  else .stuck

/-- What `LoadFile` finds in a file written by `SaveFile`, `SaveFile` of process_items_xml.cpp:174 followed by
`LoadFile` of 113. -/
def loadSaved (L : Lib) (root : Node) : Doc :=
  if depth root ≤ L.maxDepth then .ok [reload root] else .error

end Stfx.Run
