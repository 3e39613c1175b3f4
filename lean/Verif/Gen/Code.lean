import Verif.Items.Items
import Verif.Gen.Templates
/-
The code stfx generates, as a small abstract syntax with its exact text.

Every statement form below is the text of one `fmt::println` of the generators (`Templates.lean`).  The
generators build these statements, the files are their rendering, and the semantics of the generated code
is given to the statements.
-/
set_option autoImplicit false
namespace Stfx.Gen
open Stfx.Parser Stfx.Items

/-! ### XML readers -/

/-- A statement of a generated XML reader function, process_items_xml.cpp:227-395,
process_items_xml_attrib.cpp:28-133. -/
inductive Rd where
  /-- simple member stored as a child element (process_items_xml.cpp:229-320) -/
  | elem (ty : SimpleTy) (n : Str)
  /-- enum member stored as a child element (process_items_xml.cpp:350-359) -/
  | elemEnum (n : Str)
  /-- simple member stored as an attribute (process_items_xml_attrib.cpp:30-58) -/
  | attr (ty : SimpleTy) (n : Str)
  /-- enum member stored as an attribute (process_items_xml_attrib.cpp:91-98) -/
  | attrEnum (n : Str)
  /-- struct member (process_items_xml.cpp:360-368, process_items_xml_attrib.cpp:99-106) -/
  | child (n ty : Str)
  /-- vector member (process_items_xml.cpp:369-383, process_items_xml_attrib.cpp:107-121) -/
  | vector (n ty : Str)
  /-- the comment written for an unresolved line (process_items_xml.cpp:384-388) -/
  | fixme (n : Str)
  /-- the comment written for a line of unknown type (process_items_xml.cpp:389-393) -/
  | warn (n : Str)
deriving DecidableEq, Repr

/-- Text of a reader statement, process_items_xml.cpp:227-395, process_items_xml_attrib.cpp:28-133. -/
def Rd.text : Rd → Str
  | .elem .bool n => T.xml232 n
  | .elem .int n => T.xml239 n
  | .elem .unsignedInt n => T.xml246 n
  | .elem .float n => T.xml253 n
  | .elem .double n => T.xml260 n
  | .elem .stdString n => T.xml267 n
  | .elem .short n => T.xml278 n
  | .elem .unsignedShort n => T.xml289 n
  | .elem .long n => T.xml300 n
  | .elem .unsignedLong n => T.xml311 n
  | .elemEnum n => T.xml351 n
  | .attr .bool n | .attr .int n | .attr .unsignedInt n | .attr .float n | .attr .double n => T.attrib37 n
  | .attr .stdString n => T.attrib40 n
  | .attr .short n => T.attrib48 n
  | .attr .unsignedShort n => T.attrib51 n
  | .attr .long n => T.attrib54 n
  | .attr .unsignedLong n => T.attrib57 n
  | .attrEnum n => T.attrib92 n
  | .child n ty => T.xml361 n ty
  | .vector n ty => T.xml370 n ty
  | .fixme n => T.xml385 n
  | .warn n => T.xml390 n

/-! ### XML writers -/

/-- A statement of a generated XML writer function.  `g`: guarded by the delta test (`no_special_delta`
was false), process_items_xml.cpp:423-572, process_items_xml_attrib.cpp:156-293. -/
inductive Wr where
  /-- process_items_xml.cpp:425-490 -/
  | elem (g : Bool) (ty : SimpleTy) (n : Str)
  /-- process_items_xml.cpp:520-538 -/
  | elemEnum (g : Bool) (n : Str)
  /-- process_items_xml_attrib.cpp:158-217 -/
  | attr (g : Bool) (ty : SimpleTy) (n : Str)
  /-- process_items_xml_attrib.cpp:249-261 -/
  | attrEnum (g : Bool) (n : Str)
  /-- process_items_xml.cpp:539-547, process_items_xml_attrib.cpp:262-269 -/
  | child (n ty : Str)
  /-- process_items_xml.cpp:548-560, process_items_xml_attrib.cpp:270-281 -/
  | vector (n ty : Str)
  | fixme (n : Str)
  | warn (n : Str)
deriving DecidableEq, Repr

/-- Text of a writer statement, process_items_xml.cpp:423-572, process_items_xml_attrib.cpp:156-293. -/
def Wr.text : Wr → Str
  | .elem false .stdString n => T.xml456 n
  | .elem true .stdString n => T.xml463 n
  | .elem false .unsignedLong n => T.xml475 n
  | .elem true .unsignedLong n => T.xml482 n
  | .elem false _ n => T.xml437 n
  | .elem true _ n => T.xml444 n
  | .elemEnum false n => T.xml523 n
  | .elemEnum true n => T.xml530 n
  | .attr false .stdString n => T.attrib180 n
  | .attr true .stdString n => T.attrib185 n
  | .attr false .long n | .attr false .short n => T.attrib194 n
  | .attr true .long n | .attr true .short n => T.attrib199 n
  | .attr false .unsignedLong n | .attr false .unsignedShort n => T.attrib208 n
  | .attr true .unsignedLong n | .attr true .unsignedShort n => T.attrib213 n
  | .attr false _ n => T.attrib167 n
  | .attr true _ n => T.attrib172 n
  | .attrEnum false n => T.attrib252 n
  | .attrEnum true n => T.attrib257 n
  | .child n ty => T.xml540 n ty
  | .vector n ty => T.xml549 n ty
  | .fixme n => T.xml562 n
  | .warn n => T.xml567 n

/-- The statements shared by the two XML generators have the same text in both
(process_items_xml.cpp and process_items_xml_attrib.cpp). -/
theorem shared_texts :
    T.attrib100 = T.xml361 ∧ T.attrib108 = T.xml370 ∧ T.attrib123 = T.xml385 ∧ T.attrib128 = T.xml390 ∧
    T.attrib263 = T.xml540 ∧ T.attrib271 = T.xml549 ∧ T.attrib283 = T.xml562 ∧ T.attrib288 = T.xml567 ∧
    T.attrib134 = T.xml396 ∧ T.attrib294 = T.xml573 :=
  ⟨rfl, rfl, rfl, rfl, rfl, rfl, rfl, rfl, rfl, rfl⟩

/-! ### n_ini readers and writers -/

/-- Text of the conversion applied to a value read from an n_ini file, process_items_ini.cpp:316-347. -/
def iniConvert : SimpleTy → Str
  | .bool => c!"(bool)std::stoi"
  | .int => c!"std::stoi"
  | .unsignedInt => c!"(unsigned int)std::stoul"
  | .float => c!"std::stof"
  | .double => c!"std::stod"
  | .long => c!"std::stol"
  | .short => c!"(short)std::stoi"
  | .unsignedShort => c!"(unsigned short)std::stoul"
  | .stdString => []
  | .unsignedLong => c!"std::stoul"

/-- A look-up in the section of an n_ini reader function, process_items_ini.cpp:314-380. -/
inductive Look where
  /-- process_items_ini.cpp:314-361 -/
  | simple (ty : SimpleTy) (n : Str)
  /-- process_items_ini.cpp:368-376 -/
  | enum (n : Str)
deriving DecidableEq, Repr

/-- Text of a look-up, process_items_ini.cpp:354-360, 369-375. -/
def Look.text : Look → Str
  | .simple ty n => T.ini354 n (iniConvert ty)
  | .enum n => T.ini369 n

/-- A statement of an n_ini reader function after the look-ups, process_items_ini.cpp:406-437. -/
inductive NRd where
  /-- process_items_ini.cpp:416-420; `sp` is the name with underscores turned into blanks -/
  | child (n ty sp : Str)
  /-- process_items_ini.cpp:421-425 -/
  | vector (n : Str)
  | fixme (n : Str)
  | warn (n : Str)
deriving DecidableEq, Repr

/-- Text of such a statement, process_items_ini.cpp:406-437. -/
def NRd.text : NRd → Str
  | .child n ty sp => T.ini417 n ty sp
  | .vector n => T.ini422 n
  | .fixme n => T.ini427 n
  | .warn n => T.ini432 n

/-- A statement of an n_ini writer function, process_items_ini.cpp:476-597. -/
inductive NWr where
  /-- process_items_ini.cpp:478-521 -/
  | line (g : Bool) (ty : SimpleTy) (n : Str)
  /-- process_items_ini.cpp:552-569 -/
  | lineEnum (g : Bool) (n : Str)
  /-- process_items_ini.cpp:570-580 -/
  | child (n ty sp : Str)
  | vector (n : Str)
  | fixme (n : Str)
  | warn (n : Str)
deriving DecidableEq, Repr

/-- Text of such a statement, process_items_ini.cpp:476-597. -/
def NWr.text : NWr → Str
  | .line false .bool n => T.ini483 n
  | .line true .bool n => T.ini489 n
  | .line false _ n => T.ini508 n
  | .line true _ n => T.ini514 n
  | .lineEnum false n => T.ini555 n
  | .lineEnum true n => T.ini562 n
  | .child n ty sp => T.ini571 n ty sp
  | .vector n => T.ini582 n
  | .fixme n => T.ini587 n
  | .warn n => T.ini592 n

/-! ### Functions and files -/

/-- The generator classes: `process_items_xml_C`, `process_items_xml_attrib_C`, `process_items_ini_C`,
`process_items_n_ini_C`, process_items_xml.h, process_items_ini.h. -/
inductive Kind where
  | xml | attrib | ini | nIni
deriving DecidableEq, Repr

/-- Is the shared part of the file that of process_items_xml.cpp (else process_items_ini.cpp)? -/
def Kind.isXml : Kind → Bool
  | .xml | .attrib => true
  | .ini | .nIni => false

/-- A piece of a generated file, process_items.cpp:87-223, process_items_xml.cpp:50-193,
process_items_ini.cpp:50-266. -/
inductive Item where
  /-- fixed text: comments, includes, class heads and tails -/
  | raw (s : Str)
  /-- enums .h: declaration of `s_from_e` / `s_to_e` -/
  | declSFromE (n : Str) | declSToE (n : Str)
  /-- enums .h: formatter specialisation -/
  | formatter (n : Str)
  /-- enums .cpp: definition of `s_from_e` / `s_to_e` -/
  | defSFromE (e : EnumS) | defSToE (e : EnumS)
  /-- structs .h: start of the reader class / writer class -/
  | readerClass (k : Kind) (rc : Str) | writerClass (k : Kind) (wc rc : Str)
  /-- structs .h: member function declarations -/
  | declReadFile (k : Kind) (n : Str) | declWriteFile (k : Kind) (n : Str)
  | declRd (k : Kind) (n : Str) | declWr (k : Kind) (n : Str)
  /-- structs .cpp: constructors -/
  | readerCtor (k : Kind) (rc : Str) | writerCtor (k : Kind) (wc rc : Str)
  /-- structs .cpp: file entry points -/
  | defReadFile (k : Kind) (rc n : Str) | defWriteFile (k : Kind) (wc n : Str)
  /-- structs .cpp: XML reader and writer functions; `ch`: a `ch_el` variable is declared after the simple
  members (attribute XML only), `dd`: a `default_data` variable is declared -/
  | defRd (k : Kind) (cls n : Str) (ch : Bool) (simple complex : List Rd)
  | defWr (k : Kind) (cls n : Str) (dd ch : Bool) (simple complex : List Wr)
  /-- structs .cpp: n_ini reader and writer functions; `looks` is `none` if the section is not looked up -/
  | defNRd (cls n : Str) (looks : Option (List Look)) (dot : Bool) (body : List NRd)
  | defNWr (cls n : Str) (dd : Bool) (body : List NWr)
deriving DecidableEq, Repr

/-- Text of the enumerator lines of `s_from_e`, process_items.cpp:150-160. -/
def fromLine (e : EnumS) (l : EnumLine) : Str :=
  if e.isClass then T.base154 e.name l.name else T.base158 l.name

/-- Text of the enumerator lines of `s_to_e`, process_items.cpp:174-184. -/
def toLine (e : EnumS) (l : EnumLine) : Str :=
  if e.isClass then T.base178 e.name l.name else T.base182 l.name

/-- The text of a piece, process_items.cpp:87-223, process_items_xml.cpp:50-193, process_items_ini.cpp:50-266. -/
def Item.text : Item → Str
  | .raw s => s
  | .declSFromE n => T.base144 n
  | .declSToE n => T.base167 n
  | .formatter n => T.base212 n
  | .defSFromE e => T.base146 e.name ++ T.base148 e.name ++ e.enums.flatMap (fromLine e) ++ T.base161 ++
      T.base162 e.name ++ T.base163
  | .defSToE e => T.base169 e.name ++ T.base170 ++ T.base172 e.name ++ e.enums.flatMap (toLine e) ++ T.base185 ++
      T.base186 e.name ++ T.base206
  | .readerClass k rc => if k.isXml then T.xml87 rc else T.ini92 rc
  | .writerClass k wc rc => if k.isXml then T.xml140 wc rc else T.ini214 wc rc
  | .declReadFile k n => if k.isXml then T.xml104 n else T.ini118 n
  | .declWriteFile k n => if k.isXml then T.xml162 n else T.ini237 n
  | .declRd k n => match k with
    | .xml => T.xml217 n
    | .attrib => T.attrib20 n
    | .ini | .nIni => T.ini299 n
  | .declWr k n => match k with
    | .xml => T.xml410 n
    | .attrib => T.attrib145 n
    | .ini | .nIni => T.ini456 n
  | .readerCtor k rc => if k.isXml then T.xml93 rc else T.ini107 rc
  | .writerCtor k wc rc => if k.isXml then T.xml149 wc rc else T.ini224 wc rc
  | .defReadFile k rc n => if k.isXml then T.xml106 rc n else T.ini120 rc n
  | .defWriteFile k wc n => if k.isXml then T.xml164 wc n else T.ini239 wc n
  | .defRd k cls n ch ss cs => match k with
    | .xml => T.xml219 cls n ++ T.xml225 ++ ss.flatMap Rd.text ++ cs.flatMap Rd.text ++ T.xml396
    | _ => T.attrib22 cls n ++ T.attrib26 ++ ss.flatMap Rd.text ++ (if ch then T.attrib83 else []) ++
        cs.flatMap Rd.text ++ T.attrib134
  | .defWr k cls n dd ch ss cs => match k with
    | .xml => T.xml412 cls n ++ T.xml417 ++ (if dd then T.xml420 n else []) ++ ss.flatMap Wr.text ++
        cs.flatMap Wr.text ++ T.xml573
    | _ => T.attrib147 cls n ++ T.attrib150 ++ (if dd then T.attrib153 n else []) ++ ss.flatMap Wr.text ++
        (if ch then T.attrib241 else []) ++ cs.flatMap Wr.text ++ T.attrib294
  | .defNRd cls n looks dot body => T.ini301 cls n ++ T.ini305 ++ T.ini306 ++ T.ini307 ++
      (match looks with
       | none => []
       | some ls => T.ini310 ++ T.ini311 ++ T.ini312 ++ T.ini313 ++ ls.flatMap Look.text ++ T.ini381) ++
      (if dot then T.ini400 else []) ++ body.flatMap NRd.text ++ T.ini440 ++ T.ini442 ++ T.ini443 ++ T.ini444 ++
      T.ini445 ++ T.ini446
  | .defNWr cls n dd body => T.ini458 cls n ++ T.ini462 ++ T.ini463 ++ (if dd then T.ini466 n else []) ++
      T.ini468 ++ body.flatMap NWr.text ++ T.ini598

/-- Text of a file, everything printed to `f_cpp` or `f_h`, process_items.cpp:75-136, process_items_xml.cpp:39-206,
process_items_ini.cpp:39-279. -/
def fileText (items : List Item) : Str := items.flatMap Item.text

end Stfx.Gen
