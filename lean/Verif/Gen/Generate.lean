import Verif.Gen.Code
import Verif.Items.Resolve
/-
The generators: /repo/src/creation/.
-/
set_option autoImplicit false
namespace Stfx.Gen
open Stfx.Parser Stfx.Items

/-- `output_spec`, configuration/config_data.h:19-29.  The file type is kept as the integer value of
`serialization_type_E` because a configuration file can hold any integer. -/
structure OutSpec where
  dir : Str
  enumFile : Str
  structsFile : Str
  readerClass : Str
  writerClass : Str
  fileType : Int
  onlyRead : Bool
  noDelta : Bool
deriving DecidableEq, Repr

/-- The `empty() || == "-"` tests, process_items.cpp:36 and 44. -/
def disabled (f : Str) : Bool := f = [] || f = c!"-"

/-- The comment at the start of each file, process_items.cpp:19-25. -/
def stfxInfo (stamp : Str) : Str :=
  c!"//\n// Automatically generated using stfx\n// Do not directly edit this file, " ++
  c!"use stfx to re-create this file.\n//\n// License : MIT License\n//\n// " ++ stamp ++ c!"\n"

/-! ### Enum files -/

/-- Content of the enums .cpp file, process_items.cpp:87-95 and 109-113 (`process_enum`: 140-208). -/
def enumsCpp (stamp nameCpp nameH : Str) (inputs : List Str) (enums : SMap EnumS) : List Item :=
  [.raw (T.base87 nameCpp), .raw (T.base88 (stfxInfo stamp)), .raw (T.base89 nameH), .raw T.base90] ++
  inputs.map (fun f => .raw (T.base93 f)) ++ [.raw T.base95] ++
  enums.flatMap (fun p => [.defSFromE p.2, .defSToE p.2])

/-- Content of the enums .h file, process_items.cpp:97-107, 109-122. -/
def enumsH (stamp nameH : Str) (inputs : List Str) (enums : SMap EnumS) : List Item :=
  [.raw (T.base97 nameH), .raw (T.base98 (stfxInfo stamp)), .raw T.base99, .raw T.base100, .raw T.base101] ++
  inputs.map (fun f => .raw (T.base104 f)) ++ [.raw T.base106, .raw T.base107] ++
  enums.flatMap (fun p => [.declSFromE p.2.name, .declSToE p.2.name]) ++
  [.raw T.base115] ++
  enums.map (fun p => .formatter p.2.name)

/-! ### Struct functions -/

/-- `has_children`, process_items_xml_attrib.cpp:66-80. -/
def hasChildren (s : StructS) : Bool :=
  s.complex.any fun co => co.ty = .struct || co.ty = .vector

/-- One complex line in an XML reader: process_items_xml.cpp:344-395, process_items_xml_attrib.cpp:85-132. -/
def rdComplex (k : Kind) (co : ComplexLine) : Rd :=
  match co.ty with
  | .enum => if k = .xml then .elemEnum co.name else .attrEnum co.name
  | .struct => .child co.name co.tyName
  | .vector => .vector co.name co.tyName
  | .enumOrStruct => .fixme co.name
  | .unknown => .warn co.name

/-- One complex line in an XML writer: process_items_xml.cpp:514-572, process_items_xml_attrib.cpp:243-292. -/
def wrComplex (k : Kind) (g : Bool) (co : ComplexLine) : Wr :=
  match co.ty with
  | .enum => if k = .xml then .elemEnum g co.name else .attrEnum g co.name
  | .struct => .child co.name co.tyName
  | .vector => .vector co.name co.tyName
  | .enumOrStruct => .fixme co.name
  | .unknown => .warn co.name

/-- `replace_underline_with_space`, process_items_ini.h:38-41. -/
def spaced (n : Str) : Str := n.map fun c => if c = '_' then ' ' else c

/-- One complex line in an n_ini reader after the look-ups, process_items_ini.cpp:406-437. -/
def nrdComplex (co : ComplexLine) : Option NRd :=
  match co.ty with
  | .enum => none
  | .struct => some (.child co.name co.tyName (spaced co.name))
  | .vector => some (.vector co.name)
  | .enumOrStruct => some (.fixme co.name)
  | .unknown => some (.warn co.name)

/-- One complex line in an n_ini writer, process_items_ini.cpp:544-597. -/
def nwrComplex (g : Bool) (co : ComplexLine) : NWr :=
  match co.ty with
  | .enum => .lineEnum g co.name
  | .struct => .child co.name co.tyName (spaced co.name)
  | .vector => .vector co.name
  | .enumOrStruct => .fixme co.name
  | .unknown => .warn co.name

/-- The enum look-ups of an n_ini reader, process_items_ini.cpp:362-380. -/
def enumLook (co : ComplexLine) : Option Look :=
  match co.ty with
  | .enum => some (.enum co.name)
  | _ => none

/-- The function generated by `process_struct_reader` (nothing for the ini generator,
process_items_ini.cpp:285-288).  The `default:` branch for simple lines is unreachable because all values
of `simple_item_type_E` have a branch. -/
def readerDef (k : Kind) (cls : Str) (s : StructS) : List Item :=
  match k with
  | .xml => [.defRd .xml cls s.name false (s.simple.map fun l => .elem l.ty l.name) (s.complex.map (rdComplex .xml))]
  | .attrib => [.defRd .attrib cls s.name (hasChildren s) (s.simple.map fun l => .attr l.ty l.name)
      (s.complex.map (rdComplex .attrib))]
  | .ini => []
  | .nIni => [.defNRd cls s.name
      (if s.simple = [] then none
       else some (s.simple.map (fun l => .simple l.ty l.name) ++ s.complex.filterMap enumLook))
      (hasChildren s) (s.complex.filterMap nrdComplex)]

/-- Its declaration, process_items_xml.cpp:217, process_items_xml_attrib.cpp:20, process_items_ini.cpp:299. -/
def readerDecl (k : Kind) (s : StructS) : List Item :=
  match k with
  | .ini => []
  | _ => [.declRd k s.name]

/-- Its return value: was every line processed?  process_items_xml.cpp:215, 387, 392,
process_items_xml_attrib.cpp:125, 130, process_items_ini.cpp:287, 424, 429, 434. -/
def readerOk (k : Kind) (s : StructS) : Bool :=
  match k with
  | .xml | .attrib => s.complex.all fun co => co.ty = .enum || co.ty = .struct || co.ty = .vector
  | .ini => false
  | .nIni => s.complex.all fun co => co.ty = .enum || co.ty = .struct

/-- The function generated by `process_struct_writer`, process_items_xml.cpp:406-578,
process_items_xml_attrib.cpp:141-299, process_items_ini.cpp:290-293, 452-603. -/
def writerDef (k : Kind) (cls : Str) (noDelta : Bool) (s : StructS) : List Item :=
  match k with
  | .xml => [.defWr .xml cls s.name (!noDelta) false (s.simple.map fun l => .elem (!noDelta) l.ty l.name)
      (s.complex.map (wrComplex .xml (!noDelta)))]
  | .attrib => [.defWr .attrib cls s.name (!noDelta) (hasChildren s) (s.simple.map fun l => .attr (!noDelta) l.ty l.name)
      (s.complex.map (wrComplex .attrib (!noDelta)))]
  | .ini => []
  | .nIni => [.defNWr cls s.name (!noDelta)
      (s.simple.map (fun l => .line (!noDelta) l.ty l.name) ++ s.complex.map (nwrComplex (!noDelta)))]

/-- Its declaration, process_items_xml.cpp:410, process_items_xml_attrib.cpp:145, process_items_ini.cpp:456. -/
def writerDecl (k : Kind) (s : StructS) : List Item :=
  match k with
  | .ini => []
  | _ => [.declWr k s.name]

/-- The return value of `process_struct_writer`; the same test as for the reader, process_items_xml.cpp:408, 564,
569, process_items_xml_attrib.cpp:285, 290, process_items_ini.cpp:292, 584, 589, 594. -/
def writerOk (k : Kind) (s : StructS) : Bool := readerOk k s

/-! ### Struct files -/

/-- The includes of the structs .cpp file, process_items_xml.cpp:50-69, process_items_ini.cpp:50-74. -/
def structsCppHead (k : Kind) (stamp nameCpp nameH : Str) (inputs : List Str) (out : OutSpec) : List Item :=
  if k.isXml then
    [.raw (T.xml50 nameCpp), .raw (T.xml51 (stfxInfo stamp)), .raw (T.xml52 nameH), .raw T.xml53, .raw T.xml56,
     .raw (if disabled out.enumFile then T.xml60 else T.xml64 (out.enumFile ++ c!".h"))] ++
    inputs.map (fun f => .raw (T.xml68 f))
  else
    [.raw (T.ini50 nameCpp), .raw (T.ini51 (stfxInfo stamp)), .raw (T.ini52 nameH), .raw T.ini53] ++
    (if out.onlyRead then [] else [.raw T.ini59]) ++ [.raw T.ini61] ++
    [.raw (if disabled out.enumFile then T.ini65 else T.ini69 (out.enumFile ++ c!".h"))] ++
    inputs.map (fun f => .raw (T.ini73 f))

/-- Structs without incoming references get file entry points, process_items_xml.cpp:102, 160,
process_items_ini.cpp:116, 235. -/
def isTop (s : StructS) : Bool := s.incoming = 0

/-- Content of the structs .cpp file, process_items_xml.cpp:50-193, process_items_ini.cpp:50-266. -/
def structsCpp (k : Kind) (stamp nameCpp nameH : Str) (inputs : List Str) (out : OutSpec) (structs : SMap StructS) :
    List Item :=
  let ss := structs.map Prod.snd
  structsCppHead k stamp nameCpp nameH inputs out ++
  [.readerCtor k out.readerClass] ++
  (ss.filter isTop).map (fun s => .defReadFile k out.readerClass s.name) ++
  ss.flatMap (readerDef k out.readerClass) ++
  [.raw (if k.isXml then T.xml134 else T.ini208)] ++
  (if out.onlyRead then []
   else
    [.writerCtor k out.writerClass out.readerClass] ++
    (ss.filter isTop).map (fun s => .defWriteFile k out.writerClass s.name) ++
    ss.flatMap (writerDef k out.writerClass out.noDelta) ++
    [.raw (if k.isXml then T.xml191 else T.ini264)])

/-- Content of the structs .h file, process_items_xml.cpp:71-193, process_items_ini.cpp:76-266. -/
def structsH (k : Kind) (stamp nameH : Str) (inputs : List Str) (out : OutSpec) (structs : SMap StructS) :
    List Item :=
  let ss := structs.map Prod.snd
  (if k.isXml then [.raw (T.xml71 nameH), .raw (T.xml72 (stfxInfo stamp)), .raw T.xml74]
   else [.raw (T.ini76 nameH), .raw (T.ini77 (stfxInfo stamp)), .raw T.ini79]) ++
  inputs.map (fun f => .raw (if k.isXml then T.xml81 f else T.ini87 f)) ++
  [.raw (if k.isXml then T.xml83 else T.ini89), .readerClass k out.readerClass] ++
  (ss.filter isTop).map (fun s => .declReadFile k s.name) ++
  [.raw (if k.isXml then T.xml124 else T.ini198)] ++
  ss.flatMap (readerDecl k) ++
  [.raw (if k.isXml then T.xml132 else T.ini206)] ++
  (if out.onlyRead then []
   else
    [.writerClass k out.writerClass out.readerClass] ++
    (ss.filter isTop).map (fun s => .declWriteFile k s.name) ++
    [.raw (if k.isXml then T.xml181 else T.ini254)] ++
    ss.flatMap (writerDecl k) ++
    [.raw (if k.isXml then T.xml189 else T.ini262)])

/-- The return value of `process_all_structs` once both files are open, process_items_xml.cpp:48, 129, 186. -/
def structsOk (k : Kind) (out : OutSpec) (structs : SMap StructS) : Bool :=
  (structs.all fun p => readerOk k p.2) && (out.onlyRead || structs.all fun p => writerOk k p.2)

end Stfx.Gen
