import Verif.Cpp.InputMeans
import Verif.Props.C68_EndToEnd
/-
Property C70: stfx and the compiler of the generated code see the same declarations in a header.

stfx reads headers with its own scanner and grammar (struct_lex.l, struct_yacc.y), the compiler with the rules of C++; the generated code
is for what stfx has read and is compiled against what the compiler reads.  The full property is refuted: the scanner skips characters it
does not know, does not look at conditional directives and line splices, and takes everything between the first and the last quote of a
line for one string.  It holds for texts in which none of this happens, and then what the headers mean in C++ is what C60 to C68 assume.
-/
set_option autoImplicit false
namespace Stfx.Cpp
open Stfx.Lexer Stfx.Run Stfx.Parser Stfx.Items Stfx.Gen

/-! ### The full property -/

/-- C70, full statement: if stfx accepts a header and it is C++, both see the same declarations.  (Specification notion, models no
code.) -/
def SameReading (w : Str) : Prop := ∀ hd : Header, toksFile w = some hd.toks → ∀ ds, parseInput w = some ds → ds = hd.decls.map declCpp

/-- Data members of type `int`.  (Example, models no code.) -/
def ints (n : Str) (m : Str) (ms : List Str) : Header := ⟨.struct n (.simple .int m .absent) (ms.map fun m => .simple .int m .absent), []⟩

/-- A pointer is read as an object of the type it points to.  (Example, models no code.) -/
def ptrText : Str := c!"struct A { int *p; };"

theorem C70_pointer : toksFile ptrText = some (ints c!"A" c!"p" []).toks ∧
    parseInput ptrText = some [.struct c!"A" [.field (.ptr (.prim .int)) c!"p" none none]] := ⟨by decide +kernel, by rfl⟩

/-- A member function is read as a data member.  (Example, models no code.) -/
def fnText : Str := c!"struct A { int f(); };"

theorem C70_function : toksFile fnText = some (ints c!"A" c!"f" []).toks ∧
    parseInput fnText = some [.struct c!"A" [.fn (.prim .int) c!"f" []]] := ⟨by decide +kernel, by rfl⟩

/-- Members in a skipped group are read.  (Example, models no code.) -/
def skipText : Str := c!"struct A {\n#if 0\nint a;\n#endif\nint b;\n};\n"

theorem C70_skipped : toksFile skipText = some (ints c!"A" c!"a" [c!"b"]).toks ∧
    parseInput skipText = some [.struct c!"A" [.field (.prim .int) c!"b" none none]] := ⟨by decide +kernel, by rfl⟩

/-- A backslash does not continue a comment.  (Example, models no code.) -/
def spliceText : Str := c!"struct A { // one \\\nint a;\nint b;\n};\n"

theorem C70_splice : toksFile spliceText = some (ints c!"A" c!"a" [c!"b"]).toks ∧
    parseInput spliceText = some [.struct c!"A" [.field (.prim .int) c!"b" none none]] := ⟨by decide +kernel, by rfl⟩

/-- Of two strings on a line one is made.  (Example, models no code.) -/
def quoteText : Str := c!"struct A { std::string a{\"x\"}; std::string b{\"y\"}; };"

theorem C70_quotes : toksFile quoteText =
      some (Header.mk (.struct c!"A" (.simple .stdString c!"a" (.val (.string c!"\"x\"}; std::string b{\"y\""))) []) []).toks ∧
    parseInput quoteText = some [.struct c!"A" [.field (.name [c!"std", c!"string"]) c!"a" none (some (.braces [.str c!"x"])),
      .field (.name [c!"std", c!"string"]) c!"b" none (some (.braces [.str c!"y"]))]] := ⟨by decide +kernel, by rfl⟩

/-- C70 refuted: there are headers, one for each of these reasons, that stfx accepts and that are C++, in which both see different
declarations. -/
theorem C70_refuted : ∀ w ∈ [ptrText, fnText, skipText, spliceText, quoteText], ¬SameReading w := by
  intro w hw h
  simp only [List.mem_cons, List.not_mem_nil, or_false] at hw
  rcases hw with rfl | rfl | rfl | rfl | rfl
  · have := h _ C70_pointer.1 _ C70_pointer.2
    simp [ints, Header.decls, declCpp, memberCpp, simpleCpp] at this
  · have := h _ C70_function.1 _ C70_function.2
    simp [ints, Header.decls, declCpp, memberCpp] at this
  · have := h _ C70_skipped.1 _ C70_skipped.2
    simp [ints, Header.decls, declCpp] at this
  · have := h _ C70_splice.1 _ C70_splice.2
    simp [ints, Header.decls, declCpp] at this
  · have := h _ C70_quotes.1 _ C70_quotes.2
    simp [Header.decls, declCpp] at this

/-! ### Where it holds -/

/-- C70, partial: a header in which every character is matched by a rule of struct_lex.l, names are no keywords of C++, literals are
single literals of C++, no line ends with a backslash, no comment is left open and directives take no tokens away (`plainText`).  If stfx
accepts it, it is C++, and C++ sees the declarations stfx sees.  Missing are headers that are C++ though they are not plain. -/
theorem C70_partial {w : Str} {hd : Header} (hp : plainText w = true) (ht : toksFile w = some hd.toks) :
    parseInput w = some (hd.decls.map declCpp) := parse_plain hp ht

/-- The same as in the full statement. -/
theorem C70_same_partial {w : Str} (hp : plainText w = true) : SameReading w := by
  intro hd ht ds hds
  rw [C70_partial hp ht] at hds
  exact (Option.some.inj hds).symm

/-- A header with an include guard, comments, all kinds of types and default values.  (Example, models no code.) -/
def guardText : Str :=
  c!"#ifndef A_H // guard\n#define A_H\n#include <string>\n#include <vector>\n/* colours:\n * three **/\nenum class Colour {red, green = 0x10, blue = 'b',};\n\n#pragma once\nstruct P\n{\n  float x{1.5f}; double y; // both\n  unsigned short z{7};bool ok{true};\n};\nstruct A\r\n{\n  Colour c{Colour::green};\n  std::vector<P>ps;\n  std::string s{\"a\\tb\"};\n  P p{};\n};\n#endif\n"

/-- (Example, models no code.) -/
def guardDecls : Header :=
  ⟨.enum true c!"Colour" ⟨c!"red", none⟩ [⟨c!"green", some (.hex c!"0x10")⟩, ⟨c!"blue", some (.chr c!"'b'")⟩] true,
   [.struct c!"P" (.simple .float c!"x" (.val (.float c!"1.5f"))) [.simple .double c!"y" .absent, .simple .unsignedShort c!"z" (.val (.int c!"7")),
      .simple .bool c!"ok" (.val .true_)],
    .struct c!"A" (.named c!"Colour" c!"c" (.val (.enumerator c!"Colour::green"))) [.vector c!"P" c!"ps",
      .simple .stdString c!"s" (.val (.string c!"\"a\\tb\"")), .named c!"P" c!"p" .empty]]⟩

example : plainText guardText = true ∧ toksFile guardText = some guardDecls.toks := ⟨by decide +kernel, by decide +kernel⟩

example : parseInput guardText = some [
    .enum true c!"Colour" none [(c!"red", none), (c!"green", some (.num c!"0x10")), (c!"blue", some (.chr c!"b"))],
    .struct c!"P" [.field (.prim .float) c!"x" none (some (.braces [.num c!"1.5f"])), .field (.prim .double) c!"y" none none,
      .field (.prim .ushort) c!"z" none (some (.braces [.num c!"7"])), .field (.prim .bool) c!"ok" none (some (.braces [.bool true]))],
    .struct c!"A" [.field (.name [c!"Colour"]) c!"c" none (some (.braces [.id [c!"Colour", c!"green"]])),
      .field (.tmpl [c!"std", c!"vector"] (.name [c!"P"])) c!"ps" none none,
      .field (.name [c!"std", c!"string"]) c!"s" none (some (.braces [.str c!"a\tb"])), .field (.name [c!"P"]) c!"p" none (some (.braces []))]] :=
  C70_partial (hd := guardDecls) (by decide +kernel) (by decide +kernel)

/-! ### What the headers mean -/

/-- C70, meaning: for plain headers which stfx accepts and which are well-formed C++ together, a class table is what they mean in C++ iff
it is what the theorems about the generated code assume; their names are distinct and no keywords, and all types are declared. -/
theorem C70_means {fs : List (Str × Header)} (hp : ∀ f ∈ fs, plainText f.1 = true) (ht : ∀ f ∈ fs, toksFile f.1 = some f.2.toks) :
    ∃ ds, inputDecls (fs.map Prod.fst) = some ds ∧
      (wellFormed ds = true → (∀ T, Means ds T ↔ Compiled (declsOf fs) T) ∧ ((declsOf fs).map Decl.name).Nodup ∧ MembersDeclared (declsOf fs) ∧
        NoKeywords (declsOf fs)) := by
  have hd := inputDecls_plain hp ht
  refine ⟨_, hd, fun hw => ⟨fun T => ⟨fun hm => compiled_of_text hp ht hd hw hm, fun hc => means_of_compiled hp ht hd hw hc⟩, ?_⟩⟩
  have := declared_of_text hp ht hd hw
  exact ⟨this.1, this.2, plain_noKeywords hp ht⟩

example : plainText shapeText = true ∧ (inputDecls [shapeText]).any wellFormed = true := ⟨by decide +kernel, by decide +kernel⟩
example : (inputDecls [guardText]).any wellFormed = true := by decide +kernel

/-! ### Programs -/

/-- A program built from the files of the world `w`, like `BuiltFrom`, with what the headers mean given by their C++ declarations `ds`.
(An assumption about a program, models no code.) -/
structure BuiltAs (env : Main.Env) (w : Main.World) (dir : Str) (out : OutSpec) (ds : List IDecl) (ext : Bool) (E : Env) (cs : List Class) : Prop where
  structs : ∃ text gs pre post, w.read env (Main.cppPath dir out.structsFile) = some text ∧ parse ext text = some gs ∧ E.prog = pre ++ gs ++ post ∧
    ∀ f ∈ pre ++ post, f.name.head? ≠ some out.readerClass ∧ (out.onlyRead = false → f.name.head? ≠ some out.writerClass)
  header : ∃ text, w.read env (Main.hPath dir out.structsFile) = some text ∧ parseH ext text = some (cs.map .cls)
  enums : disabled out.enumFile = false → ∃ text gs pre post, w.read env (Main.cppPath dir out.enumFile) = some text ∧ parse false text = some gs ∧
    E.prog = pre ++ gs ++ post ∧ ∀ f ∈ pre ++ post, f.name.head? ≠ some c!"stfx"
  noEnums : disabled out.enumFile = true → (∀ f ∈ E.prog, f.name.head? ≠ some c!"stfx") ∧ ∀ c n u es, IDecl.enum c n u es ∉ ds
  described : Described cs E
  means : Means ds E.T
  enumerators : ∀ n e val, E.T.enm n = some (e, val) → EnumDecl E e val

/-- C70, programs: a program built from the files of a run with headers that C++ reads itself is one of those C68 is about. -/
theorem C70_built {env : Main.Env} {w : Main.World} {dir : Str} {out : OutSpec} {fs : List (Str × Header)} {ds : List IDecl} {ext : Bool} {E : Env}
    {cs : List Class} (hp : ∀ f ∈ fs, plainText f.1 = true) (ht : ∀ f ∈ fs, toksFile f.1 = some f.2.toks)
    (hd : inputDecls (fs.map Prod.fst) = some ds) (hw : wellFormed ds = true) (hb : BuiltAs env w dir out ds ext E cs) :
    BuiltFrom env w dir out (declsOf fs) ext E cs := by
  refine ⟨hb.structs, hb.header, hb.enums, fun h => ⟨(hb.noEnums h).1, fun c n e es t hm => ?_⟩, hb.described, compiled_of_text hp ht hd hw hb.means,
    hb.enumerators⟩
  rw [inputDecls_plain hp ht] at hd
  injection hd with hd
  subst hd
  exact (hb.noEnums h).2 c n none _ (List.mem_map.2 ⟨_, hm, rfl⟩)

/-- C70, from the text of a header to a program: stfx is run on a plain header that is well-formed C++.  Then the run succeeds, and
in every program which is built from the files it has written and includes the header, what the writer writes is read back by the reader.
The assumptions about the declarations are about what C++ sees in the text, except that no member of struct type has a default member
initialiser and the conditions on local names of the generated functions. -/
theorem C70_header_partial {env : Main.Env} {a p : Str} {locate : Str → Main.Located} {load : Str → Main.LoadRes} {w : Main.World} {text : Str}
    {hd : Header} (ha : locate a = .canonical p) (he : Main.extension p ≠ c!".stfx") (hr : w.read env p = some text)
    (ht : toksFile text = some hd.toks) (hpl : plainText text = true) {ds : List IDecl} (hds : parseInput text = some ds) (hwf : wellFormed ds = true)
    (hst : Plain env.stamp) (hp : Plain (Main.filename p)) (hkept : Kept env (Main.parentPath p) Main.headerSpec []) {ext : Bool}
    (hx : ext = true ∨ NoShortMembers hd.decls) :
    ∃ w', Main.main env (some a) locate load w = .ok 0 w' ∧
      ∀ E cs, BuiltAs env w' (Main.parentPath p) Main.headerSpec ds ext E cs → ReaderClear hd.decls Main.headerSpec →
        WriterClear hd.decls Main.headerSpec → NoStructInits hd.decls → XmlTrips E cs hd.decls .attrib Main.headerSpec := by
  have hp1 : ∀ f ∈ [(text, hd)], plainText f.1 = true := by intro f hf; cases List.mem_singleton.1 hf; exact hpl
  have ht1 : ∀ f ∈ [(text, hd)], toksFile f.1 = some f.2.toks := by intro f hf; cases List.mem_singleton.1 hf; exact ht
  have hd1 : inputDecls ([(text, hd)].map Prod.fst) = some ds := by
    rw [List.map_cons, List.map_nil, inputDecls, hds, inputDecls]
    simp
  have hdecls : declsOf [(text, hd)] = hd.decls := by simp [declsOf]
  have h1 := declared_of_text hp1 ht1 hd1 hwf
  have h2 := plain_noKeywords hp1 ht1
  rw [hdecls] at h1 h2
  obtain ⟨w', hm, hu⟩ := C68_header (load := load) ha he hr ht h1.1 h1.2 h2 hst hp hkept hx
  refine ⟨w', hm, fun E cs hb hrc hwc hni => ?_⟩
  have hb' := C70_built hp1 ht1 hd1 hwf hb
  have := C68_xml_partial hu hb' (.inr rfl) rfl (by rw [hdecls]; exact hrc) (by rw [hdecls]; exact hwc) (.inl rfl) (by rw [hdecls]; exact hni)
  rwa [hdecls] at this

/-- `stfx shape.h` with the text of `shape.h` read as C++ by the compiler. -/
example (load : Str → Main.LoadRes) (docs : Str → Doc) : ∃ ds w' prog cs, parseInput shapeText = some ds ∧
    Main.main tripEnv (some c!"shape.h") (fun _ => .canonical c!"/d/shape.h") load tripWorld = .ok 0 w' ∧
    BuiltAs tripEnv w' c!"/d" Main.headerSpec ds false { xmlEnv shapeFiles .attrib Main.headerSpec shapeData docs with prog := prog } cs ∧
    XmlTrips { xmlEnv shapeFiles .attrib Main.headerSpec shapeData docs with prog := prog } cs shapeDecls.decls .attrib Main.headerSpec := by
  have ht : toksFile shapeText = some shapeDecls.toks := by decide +kernel
  have hp : plainText shapeText = true := by decide +kernel
  have hds := C70_partial hp ht
  have hwf : wellFormed (shapeDecls.decls.map declCpp) = true := by decide +kernel
  have hkept : Kept tripEnv c!"/d" Main.headerSpec [] :=
    ⟨⟨by decide, rfl, rfl, by decide⟩, by simp, fun _ => ⟨by decide, rfl, rfl, by decide⟩, fun _ => by decide⟩
  obtain ⟨w', h1, h2⟩ := C70_header_partial (env := tripEnv) (a := c!"shape.h") (p := c!"/d/shape.h") (locate := fun _ => .canonical c!"/d/shape.h")
    (load := load) (w := tripWorld) (text := shapeText) (hd := shapeDecls) rfl (by decide) rfl ht hp hds hwf (plain_of (by decide)) (plain_of (by decide))
    hkept (ext := false) (.inr (noShortMembers_of (by decide)))
  obtain ⟨w'', h1', hu⟩ := C68_header (env := tripEnv) (a := c!"shape.h") (p := c!"/d/shape.h") (locate := fun _ => .canonical c!"/d/shape.h") (load := load)
    (w := tripWorld) (text := shapeText) (hd := shapeDecls) rfl (by decide) rfl ht (by decide) (membersDeclared_of (by decide))
    (noKeywords_of (by decide +kernel)) (plain_of (by decide)) (plain_of (by decide)) hkept (ext := false) (.inr (noShortMembers_of (by decide)))
  obtain rfl : w' = w'' := by
    rw [h1] at h1'
    injection h1'
  have hb := built_of (fs := shapeFiles) (out := Main.headerSpec) (D := shapeData) (load := docs) (k := .attrib) (.inr rfl) (by decide +kernel)
  obtain ⟨prog, cs, h3⟩ := hu.builds (xmlEnv shapeFiles .attrib Main.headerSpec shapeData docs)
    ⟨by decide, fun _ => by decide, fun _ => rfl, rfl, (fun h => by cases h), hb.compiled, hb.enumerators⟩
  have hmeans : Means (shapeDecls.decls.map declCpp) shapeData.table := means_of_compiled (fs := shapeFiles)
    (by intro f hf; cases List.mem_singleton.1 hf; exact hp) (by intro f hf; cases List.mem_singleton.1 hf; exact ht)
    (inputDecls_plain (by intro f hf; cases List.mem_singleton.1 hf; exact hp) (by intro f hf; cases List.mem_singleton.1 hf; exact ht)) hwf hb.compiled
  have h4 : BuiltAs tripEnv w' c!"/d" Main.headerSpec (shapeDecls.decls.map declCpp) false
      { xmlEnv shapeFiles .attrib Main.headerSpec shapeData docs with prog := prog } cs :=
    ⟨h3.structs, h3.header, h3.enums, fun h => absurd h (by decide), h3.described, hmeans, h3.enumerators⟩
  exact ⟨_, w', prog, cs, hds, h1, h4, h2 _ _ h4 (readerClear_of (by decide +kernel)) (writerClear_of (by decide +kernel)) shape_noInits⟩

end Stfx.Cpp
