import Verif.Run.XmlLeaf
/-
Meaning of the generated n_ini readers and writers: the statements of `Gen/Code.lean`, and the line loop of
`read_from_file` (process_items_ini.cpp:120-194), run on the text of a file and on objects.
-/
set_option autoImplicit false
namespace Stfx.Run
open Stfx.Items Stfx.Parser Stfx.Gen

/-! ### Lines of a file -/

/-- The pieces `std::fgets(buf, n + 1, file)` delivers one after the other: each ends after a newline or after `n`
characters.  `b` characters may still go into the current piece, which is `acc` so far, process_items_ini.cpp:131. -/
def pieces (n : Nat) : Nat → Str → Str → List Str
  | _, acc, [] => if acc = [] then [] else [acc]
  | b, acc, c :: s =>
    if c = '\n' then (acc ++ [c]) :: pieces n n [] s
    else if b ≤ 1 then (acc ++ [c]) :: pieces n n [] s
    else pieces n (b - 1) (acc ++ [c]) s

/-- `fgets(buf, buflen, file)` with `buflen` 80, process_items_ini.cpp:129-131: at most 79 characters. -/
def filePieces (text : Str) : List Str := pieces 79 79 [] text

/-! ### Regular expressions

`std::regex` with ECMAScript syntax; `.` matches everything but `\n` and `\r`, `\w` letters, digits and `_` (`isWord`).
`std::regex_search` finds the leftmost match. -/

/-- `.`, of the expressions in process_items_ini.cpp:153, 169. -/
def isDot (c : Char) : Bool := c ≠ '\n' && c ≠ '\r'

/-- Try a match at each position, `regex_search`, process_items_ini.cpp:154, 170, 180. -/
def search {α : Type} (m : Str → Option α) : Str → Option α
  | [] => m []
  | c :: s =>
    match m (c :: s) with
    | some a => some a
    | none => search m s

/-- The part of a text before its last `c`, for the `(.+)` of process_items_ini.cpp:153. -/
def beforeLast (c : Char) : Str → Option Str
  | [] => none
  | d :: s =>
    match beforeLast c s with
    | some p => some (d :: p)
    | none => if d = c then some [] else none

/-- `\[(.+)\]` at the start of the text: `.+` takes as much as it can, so the match ends at the last `]` before the
end of the line.  The result is group 1, process_items_ini.cpp:153. -/
def matchSection : Str → Option Str
  | '[' :: s =>
    match beforeLast ']' (s.takeWhile isDot) with
    | some [] => none
    | r => r
  | _ => none

/-- `(\w+) (.+)` at the start of the text: the word is followed by a blank, so it takes all word characters.  The
result is groups 1 and 2, process_items_ini.cpp:169. -/
def matchItem (s : Str) : Option (Str × Str) :=
  match s.takeWhile isWord, s.dropWhile isWord with
  | [], _ => none
  | w, ' ' :: r => if r.takeWhile isDot = [] then none else some (w, r.takeWhile isDot)
  | _, _ => none

/-- `(\w+)` at the start of the text, process_items_ini.cpp:179. -/
def matchWord (s : Str) : Option Str := if s.takeWhile isWord = [] then none else some (s.takeWhile isWord)

/-! ### The reader object -/

/-- Items of a section, `std::map<std::string, std::string>`, process_items_ini.cpp:98. -/
abbrev Items := List (Str × Str)

/-- `map[k] = a`, process_items_ini.cpp:143, 158, 174. -/
def put {α : Type} (k : Str) (a : α) (m : List (Str × α)) : List (Str × α) := (k, a) :: m.filter fun p => p.1 ≠ k

/-- The members of the generated reader class, process_items_ini.cpp:96-103, and `current_lookup` (`none`: `&m_lookup`,
else the section it points to).  The `under` maps of sections stay empty and are left out. -/
structure IniSt where
  /-- `m_lookup.items` -/
  items : Items
  /-- `m_lookup.under` -/
  under : List (Str × Items)
  cur : Option Str
  /-- `m_multiline_string_key` -/
  key : Str
  /-- `m_multiline_string_value` -/
  value : Str
deriving DecidableEq, Repr

/-- A new reader, process_items_ini.cpp:101-111. -/
def IniSt.init : IniSt := ⟨[], [], none, [], []⟩

/-- `current_lookup->items[k] = v`, process_items_ini.cpp:143, 174. -/
def IniSt.store (st : IniSt) (k v : Str) : IniSt :=
  match st.cur with
  | none => { st with items := put k v st.items }
  | some s => { st with under := put s (put k v ((st.under.lookup s).getD [])) st.under }

/-- Lines 141-146: a pending multi-line value is stored when a line does not continue it,
process_items_ini.cpp:141-146. -/
def IniSt.flush (st : IniSt) (c : Char) : IniSt :=
  if st.key ≠ [] ∧ c ≠ ' ' then { st.store st.key st.value with key := [], value := [] } else st

/-- Lines 150-186: the `switch` on the first character, process_items_ini.cpp:150-187. -/
def IniSt.line (st : IniSt) (line : Str) : IniSt :=
  match line with
  | [] => st
  | c :: _ =>
    if c = '[' then
      match search matchSection line with
      | some k => { st with under := put k [] st.under, cur := some k }
      | none => st
    else if c = ' ' then { st with value := st.value ++ line }
    else
      match search matchItem line with
      | some (k, v) => st.store k v
      | none =>
        match search matchWord line with
        | some k => { st with key := k, value := c!"\n" }
        | none => st

/-- The body of the loop, lines 132-187, on one piece of the file: the text up to the first NUL, without comments,
process_items_ini.cpp:132-188. -/
def IniSt.piece (st : IniSt) (buf : Str) : IniSt :=
  match (cStr buf).takeWhile (· ≠ '%') with
  | [] => st
  | c :: s => (st.flush c).line (c :: s)

/-- The loop of `read_from_file`, lines 128-187, process_items_ini.cpp:128-188. -/
def IniSt.load (st : IniSt) (text : Str) : IniSt :=
  (filePieces text).foldl IniSt.piece { st with cur := none }

/-! ### Readers -/

/-- What of the libraries is left open: the texts of floating point numbers (fmt `{}`) and `std::stof`, `std::stod`
(`none`: an exception), called from the code of process_items_ini.cpp:328-333, 483-517. -/
structure IniLib where
  fmtF : Nat → Str
  fmtD : Nat → Str
  stof : Str → Option Nat
  stod : Str → Option Nat

/-- Outcome of a conversion: a value to assign (if any), or an exception, process_items_ini.cpp:316-376. -/
inductive Conv where
  | val (v : Val)
  /-- nothing is assigned -/
  | keep
  | throws
  | ub
  | stuck
deriving DecidableEq

/-- The result of `std::stoi` and relatives as an object, process_items_ini.cpp:319-347. -/
def StoRes.conv (f : Int → Val) : StoRes → Conv
  | .val i => .val (f i)
  | .throws => .throws

/-- The conversions of process_items_ini.cpp:316-347 (`iniConvert`). -/
def iniConv (T : CTable) (L : IniLib) : SimpleTy → Str → Conv
  | .bool, s => (stoSigned 32 s).conv fun i => .bool (i ≠ 0)
  | .int, s => (stoSigned 32 s).conv .num
  | .unsignedInt, s => (stoUnsigned T.longBits s).conv fun i => .num (wrapUnsigned 32 i)
  | .float, s => match L.stof s with
    | some b => .val (.flt b)
    | none => .throws
  | .double, s => match L.stod s with
    | some b => .val (.dbl b)
    | none => .throws
  | .long, s => (stoSigned T.longBits s).conv .num
  | .short, s => (stoSigned 32 s).conv fun i => .num (wrapSigned 16 i)
  | .unsignedShort, s => (stoUnsigned T.longBits s).conv fun i => .num (wrapUnsigned 16 i)
  | .stdString, s => .val (.str s)
  | .unsignedLong, s => (stoUnsigned T.longBits s).conv .num

/-- `stfx::s_to_e(n->second, data.n)`, process_items_ini.cpp:369-375, on the declared type of the member. -/
def iniEnum (T : CTable) (ty : Option MTy) (s : Str) : Conv :=
  match ty with
  | some (.enum n) =>
    match T.enm n with
    | some (e, val) =>
      match sToE e val s with
      | .ok _ (some x) => .val (.num x)
      | .ok _ none => .keep
      | .ub => .ub
    | none => .stuck
  | _ => .stuck

/-- The member a look-up is for, process_items_ini.cpp:354-360, 369-375. -/
def _root_.Stfx.Gen.Look.member : Look → Str
  | .simple _ n | .enum n => n

/-- The conversion of a look-up in struct `c`, process_items_ini.cpp:354-360, 369-375. -/
def lookConv (T : CTable) (L : IniLib) (c : Str) : Look → Str → Conv
  | .simple ty _, s => iniConv T L ty s
  | .enum n, s => iniEnum T (memberTy T c n) s

/-- The look-ups one after the other, process_items_ini.cpp:314-380.  `false`: an exception ended them. -/
def runLooks (T : CTable) (L : IniLib) (c : Str) (items : Items) :
    List Look → List (Str × Val) → R (Bool × List (Str × Val))
  | [], fs => .ok (true, fs)
  | l :: ls, fs =>
    match items.lookup l.member with
    | none => runLooks T L c items ls fs
    | some s =>
      match lookConv T L c l s with
      | .val v => modifyField l.member (fun _ => .ok v) fs >>= runLooks T L c items ls
      | .keep => runLooks T L c items ls fs
      | .throws => .ok (false, fs)
      | .ub => .ub
      | .stuck => .stuck

/-- A look-up declares a variable named like the member (`auto n = items.find("n")`, then `data.n = ...`): with a
member named `items` or `data` the generated code does not compile, process_items_ini.cpp:313, 355-358, 370-373. -/
def clash (l : Look) : Bool := l.member = c!"items" || l.member = c!"data"

/-- The reader function of struct `n` in the generated file, the function of process_items_ini.cpp:301-448. -/
def nrdBody (prog : List Item) (n : Str) : Option (Option (List Look) × Bool × List NRd) :=
  prog.findSome? fun
    | .defNRd _ n' looks dot body => if n' = n then some (looks, dot, body) else none
    | _ => none

/-- The statements after the look-ups, process_items_ini.cpp:402-438: `rv = do_rd_ty(path + "sp", data.n)`.  `subs`: the
reader functions on the members of the object. -/
def runKids (subs : List (Str × (Str → Str → R (Bool × Val)))) (path : Str) :
    List NRd → Bool → List (Str × Val) → R (Bool × List (Str × Val))
  | [], rv, fs => .ok (rv, fs)
  | .child n ty sp :: b, _, fs => do
    let f ← field subs n
    let (rv, v) ← f ty (path ++ sp)
    let fs' ← modifyField n (fun _ => .ok v) fs
    runKids subs path b rv fs'
  | .vector _ :: b, rv, fs => runKids subs path b rv fs
  | .fixme _ :: b, rv, fs => runKids subs path b rv fs
  | .warn _ :: b, rv, fs => runKids subs path b rv fs

/-- The `try` block of `do_rd_c(path, data)` up to the look-ups, process_items_ini.cpp:308-382. -/
def runSection (T : CTable) (L : IniLib) (under : List (Str × Items)) (c path : Str) (looks : Option (List Look))
    (fs : List (Str × Val)) : R (Bool × List (Str × Val)) :=
  match looks with
  | none => .ok (true, fs)
  | some ls =>
    if ls.any clash then .stuck
    else
      match under.lookup path with
      | none => .ok (true, fs)
      | some items => runLooks T L c items ls fs

/-- `do_rd_c(path, data)`, process_items_ini.cpp:301-446: the return value and the object.  An exception leaves the
members assigned so far and makes the function return false. -/
def runNRd (T : CTable) (L : IniLib) (prog : List Item) (under : List (Str × Items)) (fs : List (Str × Val))
    (subs : List (Str × (Str → Str → R (Bool × Val)))) (c path : Str) : R (Bool × Val) :=
  match nrdBody prog c with
  | none => .stuck
  | some (looks, dot, body) => do
    let (done, fs1) ← runSection T L under c path looks fs
    if done then
      let (rv, fs2) ← runKids subs (if dot && path ≠ [] then path ++ c!"." else path) body true fs1
      return (rv, .struct fs2)
    else return (false, .struct fs1)

mutual
/-- The reader functions on an object, process_items_ini.cpp:295-450. -/
def nrdVal (T : CTable) (L : IniLib) (prog : List Item) (under : List (Str × Items)) :
    Val → Str → Str → R (Bool × Val)
  | .struct fs => runNRd T L prog under fs (nrdFields T L prog under fs)
  | .vec _ => fun _ _ => .stuck
  | .undef => fun _ _ => .stuck
  | .bool _ => fun _ _ => .stuck
  | .num _ => fun _ _ => .stuck
  | .flt _ => fun _ _ => .stuck
  | .dbl _ => fun _ _ => .stuck
  | .str _ => fun _ _ => .stuck
/-- The same for the members of an object, process_items_ini.cpp:418. -/
def nrdFields (T : CTable) (L : IniLib) (prog : List Item) (under : List (Str × Items)) :
    List (Str × Val) → List (Str × (Str → Str → R (Bool × Val)))
  | [] => []
  | (n, v) :: fs => (n, nrdVal T L prog under v) :: nrdFields T L prog under fs
end

/-! ### Writers -/

/-- The text of a simple member, process_items_ini.cpp:483 and 508. -/
def iniText (L : IniLib) : SimpleTy → Val → R Str
  | _, .undef => .ub
  | .bool, .bool b => .ok (intText (if b then 1 else 0))
  | .int, .num i | .unsignedInt, .num i | .short, .num i | .unsignedShort, .num i | .long, .num i
  | .unsignedLong, .num i => .ok (intText i)
  | .float, .flt b => .ok (L.fmtF b)
  | .double, .dbl b => .ok (L.fmtD b)
  | .stdString, .str s => .ok s
  | _, _ => .stuck

/-- The text of an enum member: the formatter of process_items.cpp:212-223 on the declared type. -/
def iniEnumText (T : CTable) : Option MTy → Val → R Str
  | _, .undef => .ub
  | some (.enum n), .num i =>
    match T.enm n with
    | some (e, val) => .ok (sFromE e val i)
    | none => .stuck
  | _, _ => .stuck

/-- The writer function of struct `n` in the generated file, the function of process_items_ini.cpp:458-600. -/
def nwrBody (prog : List Item) (n : Str) : Option (Bool × List NWr) :=
  prog.findSome? fun
    | .defNWr _ n' dd body => if n' = n then some (dd, body) else none
    | _ => none

/-- A member line: `println("n {}", ...)`, process_items_ini.cpp:484, 509, 556. -/
def itemLine (n s : Str) : Str := n ++ ' ' :: s

/-- `lower_path`, process_items_ini.cpp:571-577. -/
def lowerPath (path sp : Str) : Str := (if path = [] then [] else path ++ c!".") ++ sp

/-- An object with the effect of the writer functions on it: the lines `do_wr_ty(path, data)` prints,
process_items_ini.cpp:578. -/
structure NVal where
  val : Val
  wr : Str → Str → R (List Str)

/-- Effect of a statement of the writer function of struct `c`, process_items_ini.cpp:476-597. -/
def nwrAct (T : CTable) (L : IniLib) (delta : Bool) (c path : Str) (dd : List (Str × Val)) (ws : List (Str × NVal)) :
    NWr → R (List Str)
  | .line g ty n => do
    let w ← field ws n
    if ← guard g delta (dd.lookup n) w.val then
      let s ← iniText L ty w.val
      return [itemLine n s]
    else return []
  | .lineEnum g n => do
    let w ← field ws n
    if ← guard g delta (dd.lookup n) w.val then
      let s ← iniEnumText T (memberTy T c n) w.val
      return [itemLine n s]
    else return []
  | .child n ty sp => do
    let w ← field ws n
    w.wr ty (lowerPath path sp)
  | .vector _ => return []
  | .fixme _ => return []
  | .warn _ => return []

/-- The heading of a section, process_items_ini.cpp:468-473. -/
def heading (path : Str) : List Str := if path = [] then [] else [[], '[' :: (path ++ [']'])]

/-- `do_wr_c(path, data)`, process_items_ini.cpp:458-602: the lines it prints. -/
def runNWr (T : CTable) (L : IniLib) (prog : List Item) (delta : Bool) (ws : List (Str × NVal)) (c path : Str) :
    R (List Str) :=
  match nwrBody prog c with
  | none => .stuck
  | some (dd, body) => do
    let ls ← body.mapM (nwrAct T L delta c path (if dd then (T.dflt c).fields else []) ws)
    return heading path ++ ls.flatten

mutual
/-- The writer functions on an object, process_items_ini.cpp:452-603. -/
def nwrVal (T : CTable) (L : IniLib) (prog : List Item) (delta : Bool) : Val → NVal
  | .struct fs => ⟨.struct fs, runNWr T L prog delta (nwrFields T L prog delta fs)⟩
  | .vec vs => ⟨.vec vs, fun _ _ => .stuck⟩
  | .undef => ⟨.undef, fun _ _ => .stuck⟩
  | .bool b => ⟨.bool b, fun _ _ => .stuck⟩
  | .num i => ⟨.num i, fun _ _ => .stuck⟩
  | .flt b => ⟨.flt b, fun _ _ => .stuck⟩
  | .dbl b => ⟨.dbl b, fun _ _ => .stuck⟩
  | .str s => ⟨.str s, fun _ _ => .stuck⟩
/-- The same for the members of an object, process_items_ini.cpp:578. -/
def nwrFields (T : CTable) (L : IniLib) (prog : List Item) (delta : Bool) : List (Str × Val) → List (Str × NVal)
  | [] => []
  | (n, v) :: fs => (n, nwrVal T L prog delta v) :: nwrFields T L prog delta fs
end

/-! ### File entry points -/

/-- The text of lines, each printed by `fmt::println(m_file, ...)`, process_items_ini.cpp:471-565. -/
def fileText (ls : List Str) : Str := ls.flatMap fun l => l ++ c!"\n"

/-- `read_from_file`, process_items_ini.cpp:120-194, of a reader in state `st`: the return value, the object and the new
state of the reader.  `file`: the text of the file, `none` if it can not be opened. -/
def iniRead (T : CTable) (L : IniLib) (prog : List Item) (n : Str) (st : IniSt) (file : Option Str) (obj : Val) :
    R ((Bool × Val) × IniSt) :=
  if hasReadFile prog n then
    match file with
    | none => .ok ((false, obj), st)
    | some text => nrdVal T L prog (st.load text).under obj n [] >>= fun r => .ok (r, st.load text)
  else .stuck

/-- `write_to_file`, process_items_ini.cpp:239-250: the text of the file.  Simplification: the file can be written. -/
def iniWrite (T : CTable) (L : IniLib) (prog : List Item) (delta : Bool) (n : Str) (v : Val) : R Str :=
  if hasWriteFile prog n then (nwrVal T L prog delta v).wr n [] >>= fun ls => .ok (fileText ls)
  else .stuck

end Stfx.Run
