# Formal model of stfx

stfx reads C++ headers (enums and structs only) and generates C++ code that saves and loads the
declared structs.  This directory holds a Lean 4 model of the program and of the code it
generates, and machine-checked proofs of the properties in `properties.jsonl`.

Layout: `lean/Verif/...` model and proofs; `lean/Verif/Props/*.lean` the property theorems;
`MANIFEST.json` property -> theorem names; `seeded/LOG.jsonl` deliberate bugs and what caught them.

## Trusted base

* Lean 4.33.0 kernel.  No axioms of our own, no `sorry`, no `native_decide`, no `bv_decide`.
  Every property theorem depends on at most `propext`, `Classical.choice`, `Quot.sound`.
* The reading of the source: each definition cites the file and lines it models.  The code is
  not run.  Two mechanical ties reduce the risk of misreading: the scanner and parser tables are
  copied verbatim from tokenize.cpp and Parser.cpp, and the model of the generators is run (in
  Lean) on configuration/config_data.h and compared with the checked-in configuration/*.cpp, *.h.
* External libraries are absent from /repo (empty submodules) and enter as modelled contracts:
  tinyxml2 (DOM construction, Query*/Set*, file load/save), tinyxml2-ex (`find_element`, child
  iteration), fmt (`{}`/`{0}` substitution and brace escapes), the C++ library (`std::map`,
  `std::stoi`, `std::to_string`, `fgets`, `std::regex` for three fixed patterns).  The contracts
  are spelled out where they are defined and summarised below.

## What is modelled, what is not

| code | model |
|---|---|
| tokenize.cpp tables, scan loop, actions | modelled exactly on byte lists; the buffer (`yy_get_next_buffer`, end-of-buffer action, `yyrestart`) is modelled cell by cell in Lexer/Buffer.lean and proved invisible (C58); `yyunput`, `yyinput` and the buffer stack are not used by the program and not modelled |
| struct_lex.l rules | used as the specification of the scanner |
| Parser.cpp tables, `parse()` driver, semantic actions | modelled exactly, error recovery included (the grammar has no `error` token); bison's variant storage is a tagged value, wrong-tag access is an explicit failure; Parser/Lifetime.lean adds the storage itself (C80) |
| struct_yacc.y grammar | used as the specification of the parser |
| Location.hpp | lines and columns modelled |
| items.cpp | modelled exactly, the `m_current_*` raw pointers as (object, key) references |
| process_items.cpp, process_items_xml*.cpp, process_items_ini.cpp | modelled; every `fmt::println` as a text template |
| main.cpp | modelled over an abstract file system (which opens succeed); what it prints on standard output in Main/Console.lean (C73) |
| generated code (enum conversions, readers, writers) | semantics given by an interpreter for the statement forms the generators emit |
| report of a syntax error (Parser.cpp:1149-1292, `Parser::error`) | modelled exactly in Parser/Message.lean (C74) |
| what the scanner prints | modelled in Parser/Echo.lean (C76); Parser/Stream.lean, Main/Stream.lean and Main/StreamRun.lean interleave it with the texts of C73 (C84) |
| timestamps | the build time is a parameter (`Env.stamp`) |

## Properties: what will be modelled and how it is proved

(Statements in `properties.jsonl`; refutations are recorded under "Disagreements".)

* C01 regular-expression semantics of the 36 rules + default rule; residual languages (partial
  derivatives) of all 134 automaton states checked against the tables in the kernel, lifted by
  induction over the input.
* C02 token loop by well-founded recursion on the remaining input; losslessness by induction.
* C03-C06 from C01 by analysing the rule languages; C05 by induction over token lists.
* C07 invariant of the location counter over the token loop.
* C08-C11 LALR driver as a step function; soundness by an invariant (stack spells a derivation of
  the consumed tokens), completeness by simulating every grammar tree, termination by a measure.
* C12-C15 items.cpp as a state machine; refinement to a declarative "tables of a declaration list".
* C16-C19 process_items.cpp; C19 by a finite-graph argument.
* C20-C22, C44 main.cpp over an abstract file system with an arbitrary open-failure oracle.
* C23-C25, C42, C43 generators as functions to statement lists and text; order independence from
  sorted maps.
* C26-C29 interpreter of the generated enum conversions; decimal printing/parsing proved inverse.
* C30-C38, C45, C46, C48, C49 interpreter of the generated XML readers/writers over a DOM model, by
  induction over objects and documents; indeterminate values are an explicit value, and reading or
  converting one is the outcome `ub`.
* C39-C41, C51-C57 interpreter for n_ini files, including the 80-byte line buffer, comment stripping
  and the state of the reader object; files by induction over their entries, objects by a relation
  `NReads` that says what a reader makes of an object, proved equivalent to the interpreter.
* C50 invariant over the run of main: which paths were written, and that every table the generators
  see agrees with the tables of the declarations read so far.
* C58 the buffer as an array of cells that may be uninitialised, indices for the pointers; simulation of
  the whole-text matcher, one `goto` at a time, with the reader and the buffer size as parameters.
* C59 lexer and grammar of the part of C++ that is generated (`Cpp/Lex.lean`, `Cpp/Parse.lean`), written without
  looking at the generators; every template is lexed once with holes for its arguments and the result is proved
  to hold for all identifiers in the holes (`scan_fill`); the files follow by induction over structs and members.
* C60 interpreter for the syntax trees (`Cpp/Eval.lean`), written from the C++ standard: name lookup and hiding, overload
  resolution, implicit conversions, objects with addresses and paths to their members, scopes, exceptions.  The
  functions of the text are simulated by the models of `Run/`, statement by statement (`Cpp/RunEnum.lean`).
* C61 the same for the XML readers: every statement form is simulated by `rdAct` (`Cpp/RunXml.lean`), bodies by induction over
  their statements, calls by induction over the depth of the document (`Cpp/RunXmlFun.lean`), then `read_from_file`
  (`Cpp/RunReadFile.lean`); `Cpp/XmlProgram.lean` derives from the headers which functions the names in the text mean.
* C62 the same for the XML writers (`Cpp/RunXmlWr.lean`, `Cpp/RunXmlWrFun.lean`, `Cpp/RunWriteFile.lean`, `Cpp/XmlWrProgram.lean`), by
  induction over the object written; the model is proved not to be stuck, and C61 gives the trip through a file.
* C63 the same for the n_ini readers: the loop over the pieces of the file with its regular expressions and switch
  (`Cpp/RunIniLoop.lean`, an invariant ties the maps of the reader object in memory to the model's `IniSt`), the reader functions
  by induction over the object (`Cpp/RunIniRd.lean`), `read_from_file` (`Cpp/RunIniFile.lean`), the names (`Cpp/IniProgram.lean`).
* C64 the same for the n_ini writers (`Cpp/RunIniWr.lean`, `Cpp/IniWrProgram.lean`), by induction over the object written; files are
  texts that grow with every `fmt::println`.  The model is proved not to be stuck, and C63 gives the trip through a file.
* C65 grammar of class definitions, namespaces and template specialisations as they occur in the .h files (`Cpp/Class.lean`); the trees of
  the .h files (`Cpp/HeaderText.lean`) by the same method as C59, and their functions compared with those of the .cpp files.
* C66 construction of objects by the rules of C++ (`construct` in `Cpp/Class.lean`: base class, default member initialisers, default
  arguments, body of the constructor); `Cpp/Objects.lean` runs it for the generated classes, which gives the state in which C61-C64
  start.  `Linked` replaces what C61-C64 assume about base and nested classes by what the text of the .h file says.
* C67 the checked-in files of src/configuration are texts in the model (`Main/SelfHost.lean`); `own_linked` proves that a program with
  these texts is `Linked`, so C66 runs them, and the result is the `LoadRes` which `Main/Process.lean` takes as given.
* `Cpp/SchemaNames.lean` derives from the scanner that all names in the tables are identifiers (assumed in C59 and C65); what remains
  is that no declared name is a keyword of C++.
* C68 composes C50 (what the files hold after a run of `main`), C59/C65 (what their text means), C66 (what a program with them does) and
  C30-C33, C41 (which objects survive): `BuiltFrom` says what it means that a program is built from files of the file system in which a
  run ends, and `Usable` that such programs exist and are `Linked`.
* C69 compares the functions which all .cpp files of a run define.  It is refuted: the tables of a group contain the common ones, so its enums
  file defines `stfx::s_from_e` and `stfx::s_to_e` of the common enums a second time.
* C70 `Cpp/Input.lean` reads an input header by the rules of C++ (line splices, preprocessing tokens, directives, grammar), independently of
  stfx.  `Cpp/InputLex.lean` simulates the two scanners side by side, lexeme by lexeme; `Cpp/InputDecl.lean` compares the grammars;
  `Cpp/InputMeans.lean` says which class table a list of C++ declarations means (`Means`) and proves that it is the one `Compiled` assumes.
* C71 `Cpp/Unit.lean` executes directives and replaces `#include` (`incl`), with include guards and `#pragma once`.  `Cpp/UnitLex.lean` proves
  that the lexer of C59 and the one of C70 agree on texts the first one accepts; `Cpp/UnitHash.lean` that behind the heads of generated files
  there is no `#`; `Cpp/UnitGen.lean` which directives the heads are; `Cpp/UnitHeaders.lean` that including a guarded header again gives nothing.
* C72 `Cpp/Library.lean` collects the qualified names in the syntax trees of C59 and C65 (`funNames`, `hdeclNames`) and compares them with what
  the included library headers have to declare (`provides`, from the synopses of the C++ standard) and with the declarations of the enums header.
* C73 `Main/Console.lean` lists, for every function of the program, the texts it prints, along the control flow of `Main/Process.lean` and using
  it for the states in between.  `Main/ConsoleFacts.lean` proves for every function when none of these texts begins like an error or a warning.
* C74 `Parser/Message.lean` models the search for expected tokens and the texts.  `Parser/Viable.lean` proves the correct prefix property from
  the invariant `Chain` of the soundness proof: every state on the stack can be completed (a table of shortest completions, checked per state),
  and a token for which the tables say error can not continue any header, because the parser would accept it otherwise.
* C75 the column counter is followed over the lexemes (`colAfter`) and compared with the text since the last newline (`lineOf`).
* C76 `Parser/Echo.lean` lists what the actions of the scanner print; the proofs use the rule languages of C01.
* C77 two runs side by side: the invariant `Alike` says that the tables are equal and every file has the same content in both or was touched by neither.
* C78 two class tables and two programs (Run/XmlEvolve.lean): what is written is described member by member with the old table (`Wrote`), what is read
  with the new one (`rd_iff`), by induction over objects; the wanted object is a relation (`Carried`) that determines it (`Carried.unique`).
* C79 the same for n_ini (Run/IniEvolve.lean): what the old program files is described section by section, including the items and sections that are
  not there (`Filed`); reading with the new table asks nothing of added members except that enums have a simple member beside them.
* C80 `Parser/Lifetime.lean` runs the parser with raw buffers and counts the objects alive.  The invariant (`Typed`): the buffer of a stack symbol holds an
  object of the type that `yystos` of its state announces; that every goto and every shift leads to such a state is checked on the tables.
* C81 `Lexer/LineEnds.lean` shows, rule by rule of the scanner, that a carriage return before a newline either belongs to the same lexeme or is
  skipped; `Run/IniLineEnds.lean` does the same for the lines of n_ini files.  The run-level statement is C77 for headers with the same tokens (`C77_tokens`).
* C82 For XML by induction on the document; for n_ini the relation `NReads` (C54) is shown to hold once more from the object read, and reading to be defined or
  not depending on the structs in the object only (`nrd_sameKind`), so that the second reading, of which `NReads` determines the result, succeeds.
  For the text of the generated files (`Props/C82_Text.lean`) with C61 and C63.
* C83 membership of the function definitions in the generated file, expressed in the declarations (`mem_functions`, `tables_all`), for two runs side by side.
* C84 `Parser/Stream.lean` lists the calls of `yylex` and of `info_items_C` in the order the driver makes them.  Invariant (`Place`): how many tokens have
  been read, and a name on top of the stack is the last of them, with no lookahead fetched; the states concerned have default reductions only
  (`name_states`, checked over the tables).
* C85 `Lexer/Split.lean`: no rule of the scanner matches beyond a newline (block comments are matched piece by piece), so the longest matches before the
  seam stay the longest (`munch_split`).  The calls of two headers follow each other; for runs an invariant of two runs side by side (`Beside`).
* C86 by induction over the object: reading looks into the tables of the reader only with the names of members (`nrd_same`); what these tables are for files of
  sections comes from C56.
* C87 invariant of two runs side by side (`Stamped`), like C85.
* C88 from `nrd_same` of C86, C36 and C66: the outcomes of the two blocks are equal.
* C89 from C78, C79 and C66: two environments (`Env`), one for each program, with the same libraries.

## The generated code: what its meaning rests on

* The generators are functions from tables to lists of statements (`Gen/Code.lean`), and the files are
  the texts of these statements.  The text of each statement is a template copied from the source
  (`Gen/Templates.lean`).  The meaning (`Run/Xml.lean`, `Run/Ini.lean`) is given to the statements, not to
  the text.  `Cpp/` closes the gap step by step: C59 proves which syntax trees the text has by the rules of C++.
  `tools/trees.txt` prints the trees of the templates (`Cpp/TreesXml.lean`, `Cpp/TreesIni.lean`); it is not trusted,
  the kernel checks each tree against the grammar.
* `R`: running generated code ends normally (`ok`), has undefined behaviour (`ub`), or can not happen in code
  that compiles (`stuck`, for example a member that does not exist).  Theorems that claim a normal end
  exclude both others.
* `Generated fs k out prog`: `prog` is the content of the structs .cpp file that `processItems` makes of the
  headers `fs`.  `Compiled fs T`: `T` is what a C++ compiler makes of the same headers: members, types,
  defaults, enumerator values.  Both start from the text of the headers, so the theorems do not assume
  anything about tables.
* Contracts of libraries, written as definitions: `Run/Num.lean` (decimal texts, `sscanf`, `std::stoi` and
  relatives; `sscanf` of a number that does not fit is undefined behaviour, C standard 7.21.6.2),
  `Run/Dom.lean` (tinyxml2 documents; `reload` is `SaveFile` followed by `LoadFile`: newline normalisation,
  texts of white space dropped, nesting limit), `Run/Ini.lean` (`fgets`, `std::regex_search` for the three
  expressions used, `std::map::operator[]`), `Cpp/Eval.lean` (`fopen`, `fgets`, `fclose` on files with a state, so a closed file
  used again is undefined behaviour; `std::regex`, iterators into `std::map`, `fmt::println` with one `{}`; the tinyxml2 calls).
* Left open and quantified over: `Lib` and `IniLib` (texts of floating point numbers, the nesting limit),
  `CTable.longBits` (size of `long`), `Env` (which files can be opened, canonical paths, the time stamp).
* `parseInput` is the C++ reading of a header for C70.  Its grammar has enums (scoped or not, with underlying type), structs with data members
  (simple, named, pointer, reference, array and template types, `{}` and `=` initialisers) and member function declarations; directives `#include`
  and `#pragma` (ignored), `#define` of names without replacement, `#ifdef`, `#ifndef`, `#if 0`, `#if 1`, `#else`, `#endif`.  Texts outside of
  this are rejected (`none`), so no claim is made about them; included headers are not read.
* `unitToks` (C71) reads included files.  A file has one name (the directory part of paths is not looked at), `<...>` headers give no tokens,
  `#pragma once` is taken to work as in all common compilers.  `lex` (C59) rejects a backslash in a directive or `//` comment and the empty
  character literal, so that it needs no line splices.
* `provides` (C72) lists which library header declares which name.  Standard library: the synopses of C++17, with `<stdexcept>` taken to declare
  `std::exception`.  `fmt/format.h` and `tinyxml2.h` are not in /repo; their lines are assumptions.
* `LoadRes.ub`: reading a configuration with undefined behaviour is a possible outcome of `main`, which then
  is undefined behaviour itself.

## Disagreements between property and code

Each is proved as a `_refuted` theorem with a concrete witness; the `_partial` theorems next to it
say what does hold.

* C06 the string rule is greedy: two string constants on one line become one token.
* C11 after a syntax error, actions of one enumerator more than the longest correct prefix may have run.
* C14 a repeated declaration is reported, but its members are added to the type declared before it.
* C15 the copied `m_current_*` pointers of a group still point into the common tables.
* C16, C17, C18, C43 a member whose type is unknown when generation first runs is marked unknown for
  good: later runs (output groups) neither resolve it nor report it in `fixup_types_of_names`.
* C20 `process_single_header` tests an outer `ok` that the inner one shadows, so the exit status is 0
  whenever the header parses.
* C21 `create_directories` may throw, and nobody catches it.
* C24 the element type of a vector is never checked.
* C25 the ini generator writes no functions.
* C30 carriage returns in strings become newlines; documents can be nested too deeply for the parser.
* C31 in attribute XML a short or long member that is left out is assigned an uninitialised variable.
* C31, C33, C37 a member without initialiser is compared with an uninitialised one; the defaults of a struct
  member with an initialiser of its own are not those of its type.
* C32 a string of white space is lost in element XML.
* C34 see C31: the same for any file without the attribute.
* C40 the section of the top struct has no name, and no heading can have an empty name: the simple members of
  the top struct are never read.
* C41 enum members are looked up only if the struct has simple members; an enum member after a struct member is
  written into the section of that struct; a carriage return ends a value.
* C45 carriage returns, see C30.
* C49 numbers that do not fit, documents without root element, missing short and long attributes, empty
  elements for short and long members.
* C51 `rv = do_rd_...` overwrites the failure of the struct member before.
* C53 a number for an unscoped enum that can not hold it.
* C54 a value that can not be converted ends the reading of its struct; enum members see C41.
* C55 `(short)std::stoi`, `(unsigned int)std::stoul` change numbers that do not fit.
* C56 a multi-line value at the end of a file is never stored.
* C57 a reader object never forgets the sections of files it has read before.
* C59 attribute XML readers of `unsigned short` and `unsigned long` members contain `unsigned short(i)`, which is
  not C++: the generated file does not compile.
* C60 the parameter `e` of `s_from_e` and `s_to_e` hides an unscoped enumerator `e`: with `enum U { b, e, f };` the text of
  `f` is `"e"`, and `s_to_e("e", x)` assigns `x` to itself.  Likewise `s` and `rv` in `s_to_e`; enums named `e`, `s`,
  `rv` or `i` give code that does not compile.  C26-C29 speak about enums without these names.
* C61 structs named `el`, `data`, `ch_el`, `rv`, `item`, `itr`, `filename`, `read_from_file`, like the reader class, or `do_x` where
  `x` is a struct are hidden inside of the generated reader class by its variables and functions: it does not compile.
* C62 likewise in the writer class for `write_to_file`, `default_data`, `m_delta_only`, the names of both classes and `do_wr_x`.  Where
  `long` has 32 bits, `SetText(data->x)` of the element form is ambiguous for a `long` and does not compile.
* C63 in the n_ini reader class structs named `path`, `filename`, `data`, `rv`, `read_item_S`, `read_from_file`, like a data member
  or the class, or `do_rd_x` are hidden; a struct or enum `size_t` is found by the generated `size_t pos`.
* C64 likewise in the n_ini writer class for `lower_path`, `write_to_file`, the names of both classes and `do_wr_x`.
* C66 is refuted by the same names.
* C70 the scanner drops characters it does not know (`int *p;` becomes `int p;`, `int f();` becomes `int f;`), ignores all directives (members
  between `#if 0` and `#endif` are read), does not know line splices and takes two strings on a line for one.  The dropped
  characters are echoed and ignored directives give a warning (C76), but none of these cases is an error.
* C71 the generated .h files include the input headers, and the .cpp file includes these .h files and the input headers: a header without include
  guard (like src/test/test_extra1.h) is compiled three times, and its structs are defined three times.
* C72 the ini formats use `std::FILE`, `std::fopen`, `std::fgets` and `std::fclose` and never include `<cstdio>`; the enums .cpp file uses
  `std::exception` and includes no header that has to declare it; without enum files (name empty or `-`) the reader of an enum member calls
  `stfx::s_to_e`, which nothing declares.
* C73 the ini format generates no functions and reports nothing; neither is anything reported about types that are not declared if there are no
  struct files.  The message for a group with an unsupported output type names the type of the common output (main.cpp:230).  A header that can not
  be opened is reported with "code 0".
* C74 after a default reduction the list of expected tokens is too short: `enum E { A ;` is answered with "expecting }", though `,` and `=` could
  follow, and after a complete declaration only the end of the file is listed.
* C77 `stfx enums.h` and `stfx structs.h` overwrite the header they are given with their own output (main.cpp:84-85), and a configuration may name one
  of its input files as output; nothing checks for that.  The second run then fails, or generates files from which declarations have disappeared.
* C75 comment brackets and characters the scanner does not know are not counted: `int` in `/* a */ int` is reported in column 5 instead of 9.
* C78 if a member of type short, unsigned short, long or unsigned long is added, reading an old attribute XML file is undefined behaviour (the
  missing attribute leaves a local variable uninitialised); if a default is changed, old delta files are read with the new default, and so are
  strings of white space in full files of element XML.
* C79 if the simple members of a struct are removed, its enum members are no longer read from n_ini files; a changed default changes what
  old delta n_ini files mean.
* C81 multi-line strings of n_ini files with CR LF line ends are read with a carriage return at the end of every line (the other items are not affected).
* C82 reading an XML file again appends the elements of vectors again.
* C83 adding a struct to a header removes the file entry points (`read_from_file`, `write_to_file`) of the structs it uses.
