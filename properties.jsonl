{"id": "C01", "title": "Tokens are the longest match of the published lexical rules", "statement": "At every point of every header, the next lexeme stfx cuts off is the longest prefix that any of the lexical rules in the rule file matches there (honouring start conditions, line-start anchors and end-of-line contexts), and among rules matching that length the first one written wins.", "quantifier": "every byte string, every position in it, both scanner modes (normal, inside a block comment), at or not at a line start", "why_tests_cant": "The language is infinite and the compiled transition tables have 134 states; tests sample lexemes, they cannot show the tables agree with the rules on all of them.", "anchors": ["src/lex_parse/tokenize.cpp: yy::Lexer::lex, yy_accept, yy_ec, yy_meta, yy_base, yy_def, yy_nxt, yy_chk", "src/lex_parse/struct_lex.l: rules section"]}
{"id": "C02", "title": "Scanning any input terminates, stays inside its tables, and loses no character", "statement": "For every input, scanning reaches end of input after finitely many lexemes, never indexes a table out of range or selects a non-existent action, and the lexemes laid end to end are exactly the input.", "quantifier": "every byte string, of any length, including NUL bytes, non-ASCII bytes and unterminated constructs", "why_tests_cant": "Out-of-range table access and non-termination need one bad input among infinitely many.", "anchors": ["src/lex_parse/tokenize.cpp: yy::Lexer::lex"]}
{"id": "C03", "title": "A word is one token: a keyword exactly when it is spelled as one", "statement": "A maximal run of letters, digits and underscores that starts with a letter or underscore and is not followed by '::' is one token; it is a keyword token exactly if it is spelled exactly like that keyword, otherwise it is a name carrying precisely that spelling.", "quantifier": "every identifier of any length, any following text that does not extend it", "why_tests_cant": "There are infinitely many identifiers; keyword prefixes/extensions and the odd character class in the rule are only sampled by tests.", "anchors": ["src/lex_parse/struct_lex.l: ID, {ID}+, keyword rules", "src/lex_parse/tokenize.cpp: yy::Lexer::lex rules 16-30"]}
{"id": "C04", "title": "Comments and preprocessor lines are invisible", "statement": "A // comment or a preprocessor line that ends in a newline, and a closed /* */ comment, contribute no token to the program, whatever text they contain; scanning resumes right after them as if they were white space.", "quantifier": "every comment body and every following text", "why_tests_cant": "Comment bodies are arbitrary text (quotes, stars, slashes, directives inside comments).", "anchors": ["src/lex_parse/struct_lex.l: C_COMMENT rules, //.*$, ^{SEP_CHAR}*#.*$", "src/lex_parse/tokenize.cpp: rules 1-6"]}
{"id": "C05", "title": "Layout does not matter", "statement": "Writing a token sequence with any separators between tokens (any mixture of blanks, tabs, newlines, CRLF, and comments) yields exactly that token sequence, so two headers that differ only in layout produce the same tokens and hence the same tables and output.", "quantifier": "every token sequence, every choice of layout between tokens", "why_tests_cant": "Combinations of tokens and separators are unbounded.", "anchors": ["src/lex_parse/struct_lex.l: rules section", "src/lex_parse/tokenize.cpp: yy::Lexer::lex"]}
{"id": "C06", "title": "Each string constant is its own token", "statement": "Two string constants on the same line, separated by other text, are two tokens, each carrying its own text.", "quantifier": "every header line with several string constants", "why_tests_cant": "The defect only shows on particular lines with two constants; per-constant tests pass.", "anchors": ["src/lex_parse/struct_lex.l: \\\".*\\\" rule", "src/lex_parse/tokenize.cpp: rule 35"]}
{"id": "C07", "title": "Reported line numbers are exact", "statement": "The line number attached to every token (and hence printed in a syntax error message) is one plus the number of newline characters before the token in the file.", "quantifier": "every input, every token in it", "why_tests_cant": "Depends on the whole history of lexemes before the token.", "anchors": ["src/lex_parse/tokenize.cpp: loc->lines / loc->step actions", "src/lex_parse/Location.hpp: location::lines, location::columns", "src/lex_parse/struct_yacc.y: yy::Parser::error"]}
{"id": "C08", "title": "A header is accepted exactly when its token sequence is in the grammar", "statement": "Parsing succeeds if and only if the token sequence is a non-empty sequence of enum and struct declarations of the documented shape.", "quantifier": "every finite token sequence", "why_tests_cant": "Acceptance and rejection range over an infinite language; compiled LALR tables cannot be exhausted by samples.", "anchors": ["src/lex_parse/struct_yacc.y: grammar rules", "src/lex_parse/Parser.cpp: yy::Parser::parse, yypact_, yydefact_, yypgoto_, yydefgoto_, yytable_, yycheck_, yyr1_, yyr2_"]}
{"id": "C09", "title": "Parsing terminates and never misuses its stack", "statement": "For every token sequence the parser stops after finitely many steps with success or a syntax error; it never pops more than it pushed, never indexes a table out of range, and never reads a semantic value as the wrong type.", "quantifier": "every finite token sequence", "why_tests_cant": "Stack misuse and type confusion in generated parsers need specific input sequences.", "anchors": ["src/lex_parse/Parser.cpp: yy::Parser::parse, semantic actions"]}
{"id": "C10", "title": "Declarations take effect in source order, each exactly once", "statement": "When a header parses, the record-building operations performed are exactly those of its declarations and members, one each, in source order: a declaration's own record before its members, the members in the order written, with the spelling, type and default written in the header.", "quantifier": "every accepted token sequence", "why_tests_cant": "Order of LALR reductions under right recursion depends on nesting and length of lists.", "anchors": ["src/lex_parse/Parser.cpp: semantic actions (cases 28-68)", "src/lex_parse/struct_yacc.y: enum_start, enum_ent, struct_start, struct_block_ent, simple_type, simple_default_value, value"]}
{"id": "C11", "title": "What a rejected header leaves behind depends only on the text up to the error", "statement": "When parsing fails, exactly one syntax error is reported; the records made are exactly the ones determined by the tokens up to and including the offending token, so text after the error can not change them, and they are a prefix of the records of any accepted header that continues the text before the offending token.", "quantifier": "every rejected token sequence and every continuation", "why_tests_cant": "Requires comparing infinitely many pairs of inputs sharing a prefix.", "anchors": ["src/lex_parse/Parser.cpp: yy::Parser::parse yyerrlab path", "src/main.cpp: process_stfx_file (continues after a failed input file)"]}
{"id": "C12", "title": "Tables hold exactly what the header declares", "statement": "Reading any header written from a list of declarations with pairwise different type names, in any layout, into empty tables yields for each struct its simple members (type, name, default) and its other members (type name, member name) in written order, for each enum its class flag and enumerators with explicit values in written order, and nothing else.", "quantifier": "every list of well-formed declarations with distinct names, every layout", "why_tests_cant": "End-to-end over unbounded schemas and layouts.", "anchors": ["src/items.cpp: info_items_C::process_input_file, process_enum, process_enum_line, process_struct, process_struct_line_simple, process_struct_line_complex"]}
{"id": "C13", "title": "A type name denotes at most one thing", "statement": "After any sequence of input files, accepted or rejected, no name is both a struct and an enum, each table entry is filed under its own name, and looking a name up reports struct, enum or unknown accordingly.", "quantifier": "every history of input files", "why_tests_cant": "Invariant over unbounded histories including error paths.", "anchors": ["src/items.cpp: info_items_C::get_item_type, process_enum, process_struct"]}
{"id": "C14", "title": "A repeated type name does not disturb other types", "statement": "If a header declares a type name that is already in use, the repeated declaration has no effect on the record of any other type.", "quantifier": "every header containing a repeated type name", "why_tests_cant": "Depends on which declaration happened to precede the repeated one.", "anchors": ["src/items.cpp: process_enum, process_struct, process_enum_line, process_struct_line_simple"]}
{"id": "C15", "title": "Output groups are isolated from each other", "statement": "Reading the additional input files of one output group never changes the tables used for the common group or for any other group.", "quantifier": "every configuration with several groups and every content of their files", "why_tests_cant": "Aliasing between a copied table set and its original only shows for specific file contents.", "anchors": ["src/main.cpp: process_stfx_file (info_items_C plus_items(common_items))", "src/items.cpp: m_current_struct, m_current_enum uses"]}
{"id": "C16", "title": "Member types are resolved correctly or generation reports failure", "statement": "After generation every member whose type is a declared struct is treated as a struct, every member whose type is a declared enum as an enum, and generation reports failure if some non-vector member has an undeclared type.", "quantifier": "every table content", "why_tests_cant": "All combinations of declared and undeclared names.", "anchors": ["src/creation/process_items.cpp: process_items_C::fixup_types_of_names", "src/items.cpp: get_item_type"]}
{"id": "C17", "title": "A type declared in a group's own file resolves members of common structs", "statement": "If a common struct has a member whose type is only declared in the additional input of an output group, then in that group's output the member is resolved to that type.", "quantifier": "every configuration", "why_tests_cant": "Depends on the order in which groups are processed and on state left by an earlier run.", "anchors": ["src/creation/process_items.cpp: fixup_types_of_names", "src/main.cpp: process_stfx_file"]}
{"id": "C18", "title": "Exactly the unreferenced structs get file entry points", "statement": "The generated reader class has a read_from_file overload for a struct if and only if no struct (itself included) has a member of that struct type or a vector of it; the same for write_to_file in the writer class.", "quantifier": "every table content, however many times generation has been run on (copies of) it", "why_tests_cant": "Graph property over unbounded schemas and repeated runs.", "anchors": ["src/creation/process_items.cpp: find_top_struct", "src/creation/xml/process_items_xml.cpp: process_all_structs", "src/creation/ini/process_items_ini.cpp: process_all_structs"]}
{"id": "C19", "title": "Any non-recursive schema can be read and written", "statement": "If no struct contains itself through members (directly or through vectors), and there is at least one struct, then some struct has a read_from_file entry point, and every struct is reachable from one that has.", "quantifier": "every acyclic schema", "why_tests_cant": "Existence statement over all finite graphs.", "anchors": ["src/creation/process_items.cpp: find_top_struct", "src/creation/xml/process_items_xml.cpp: process_all_structs"]}
{"id": "C20", "title": "Exit status 0 in header mode means the output was generated", "statement": "When stfx is run on a header and exits with status 0, the header parsed, all member types resolved, and all four output files were written.", "quantifier": "every header, every file system state", "why_tests_cant": "Requires failing generation after a successful parse in every possible way.", "anchors": ["src/main.cpp: process_single_header"]}
{"id": "C21", "title": "Exit status in configuration mode", "statement": "When stfx is run on a .stfx file it exits with 0 if and only if the configuration file could be loaded, no matter what the input files contain or whether outputs could be written.", "quantifier": "every configuration, all input file contents, every file system state", "why_tests_cant": "Quantifies over arbitrary failures of later stages.", "anchors": ["src/main.cpp: process_stfx_file"]}
{"id": "C22", "title": "Exactly the requested files are written", "statement": "Generation for one output specification creates or overwrites only <dir>/<enum_file>.cpp/.h and <dir>/<structs_file>.cpp/.h; the enum pair is attempted if and only if enum_file is neither empty nor '-', the struct pair if and only if structs_file is neither empty nor '-'; no input file is opened for writing unless its path is one of these.", "quantifier": "every output specification, every table content, every pattern of failing opens", "why_tests_cant": "All combinations of flags, names and open failures.", "anchors": ["src/creation/process_items.cpp: process_items, process_all_enums", "src/creation/xml/process_items_xml.cpp: process_all_structs", "src/creation/ini/process_items_ini.cpp: process_all_structs"]}
{"id": "C23", "title": "Output does not depend on declaration order", "statement": "Permuting the top-level declarations of the headers (with distinct names) leaves every generated file byte for byte the same.", "quantifier": "every list of declarations and every permutation of it", "why_tests_cant": "n! permutations of unbounded lists.", "anchors": ["src/items.cpp: m_structs, m_enums (std::map)", "src/creation/process_items.cpp: process_all_enums", "src/creation/xml/process_items_xml.cpp: process_all_structs"]}
{"id": "C24", "title": "Generated code only calls functions it defines", "statement": "If generation reports success, every reader or writer function called in the generated struct code is declared and defined in the same generated class.", "quantifier": "every table content for which generation succeeds", "why_tests_cant": "All schemas; tests only compile a few.", "anchors": ["src/creation/xml/process_items_xml.cpp: process_struct_reader, process_struct_writer", "src/creation/xml/process_items_xml_attrib.cpp: process_struct_reader, process_struct_writer", "src/creation/ini/process_items_ini.cpp: process_items_n_ini_C"]}
{"id": "C25", "title": "One conversion pair per enum, one reader and one writer per struct", "statement": "The generated files declare and define exactly one s_from_e, one s_to_e and one formatter per declared enum, one reader function per declared struct and, unless read-only code is requested, one writer function per declared struct; with read-only code no writer class exists.", "quantifier": "every table content and output specification", "why_tests_cant": "All schemas and flags.", "anchors": ["src/creation/process_items.cpp: process_all_enums, process_enum, create_fmt_templates_for_enum", "src/creation/xml/process_items_xml.cpp: process_all_structs"]}
{"id": "C26", "title": "Enum text conversion round-trips declared values", "statement": "For every declared enumerator value v of an enum, s_to_e(s_from_e(v)) returns true and yields v, also when several enumerators share a value.", "quantifier": "every enum with distinct enumerator names, arbitrary (also repeated) values, every declared value", "why_tests_cant": "All enums, including aliases.", "anchors": ["src/creation/process_items.cpp: process_items_C::process_enum (generated s_from_e, s_to_e)"]}
{"id": "C27", "title": "Undeclared enum values survive a text round trip", "statement": "For every int value v that is not a declared enumerator, s_from_e gives its decimal text, and s_to_e of that text yields v (reporting false).", "quantifier": "every enum, every 32-bit value", "why_tests_cant": "2^32 values times all enums.", "anchors": ["src/creation/process_items.cpp: process_enum (std::to_string / std::stoi branches)"]}
{"id": "C28", "title": "s_to_e reports true exactly for declared names and never writes garbage", "statement": "s_to_e returns true if and only if its string is the name of a declared enumerator; if the string is neither such a name nor starts with an int in range (after white space), the target is left unchanged.", "quantifier": "every enum, every string, every previous target value", "why_tests_cant": "All strings.", "anchors": ["src/creation/process_items.cpp: process_enum (generated s_to_e)"]}
{"id": "C29", "title": "Distinct declared values have distinct texts", "statement": "If two int values have the same s_from_e text they are the same value.", "quantifier": "every enum with identifier enumerator names, all pairs of 32-bit values", "why_tests_cant": "All pairs of values.", "anchors": ["src/creation/process_items.cpp: process_enum (generated s_from_e)"]}
{"id": "C30", "title": "Attribute-XML full write then read restores the data", "statement": "For every schema and every value of its top struct, writing with delta_only=false and reading the result into a default object gives back the value, provided its longs fit in int/unsigned, its strings contain no NUL and its enum values are ints.", "quantifier": "every acyclic schema, every value, every nesting depth and vector length", "why_tests_cant": "Unbounded schemas and data.", "anchors": ["src/creation/xml/process_items_xml_attrib.cpp: process_struct_reader, process_struct_writer", "src/creation/xml/process_items_xml.cpp: process_all_structs (read_from_file, write_to_file)"]}
{"id": "C31", "title": "Attribute-XML delta write then read restores the data", "statement": "The same with delta_only=true: members equal to their defaults are left out and come back as the defaults.", "quantifier": "every acyclic schema, every value", "why_tests_cant": "Interaction of omitted members with per-type reading code.", "anchors": ["src/creation/xml/process_items_xml_attrib.cpp: process_struct_reader (int i; QueryIntAttribute ...), process_struct_writer"]}
{"id": "C32", "title": "Element-XML full write then read restores the data", "statement": "For every schema and value, writing element-style XML with delta_only=false and reading it into a default object gives back the value (same provisos as C30).", "quantifier": "every acyclic schema, every value", "why_tests_cant": "Unbounded schemas and data, empty strings.", "anchors": ["src/creation/xml/process_items_xml.cpp: process_struct_reader, process_struct_writer"]}
{"id": "C33", "title": "Element-XML delta write then read restores the data", "statement": "The same with delta_only=true.", "quantifier": "every acyclic schema, every value", "why_tests_cant": "Interaction of defaults, omitted members and empty text.", "anchors": ["src/creation/xml/process_items_xml.cpp: process_struct_reader, process_struct_writer"]}
{"id": "C34", "title": "Members missing from the file keep their value", "statement": "Reading a file in which a member does not occur leaves that member of the target object as it was.", "quantifier": "every schema, every file, every member, every previous value", "why_tests_cant": "All subsets of members missing.", "anchors": ["src/creation/xml/process_items_xml_attrib.cpp: process_struct_reader", "src/creation/xml/process_items_xml.cpp: process_struct_reader"]}
{"id": "C35", "title": "Reading appends to vectors", "statement": "Reading a file into an object appends the elements in the file, in order, to the vector members the object already has; reading the same file twice therefore doubles them.", "quantifier": "every schema, every file, every previous object", "why_tests_cant": "All contents.", "anchors": ["src/creation/xml/process_items_xml.cpp: process_struct_reader vector case", "src/creation/xml/process_items_xml_attrib.cpp: process_struct_reader vector case"]}
{"id": "C36", "title": "Unknown attributes and elements are ignored", "statement": "Attributes and child elements whose names are not members of the struct do not influence the result of reading; nor does the order of attributes.", "quantifier": "every schema, every file, every extra content", "why_tests_cant": "All possible extra content.", "anchors": ["src/creation/xml/process_items_xml_attrib.cpp: process_struct_reader", "src/creation/xml/process_items_xml.cpp: process_struct_reader"]}
{"id": "C37", "title": "Delta files contain exactly the differences", "statement": "With delta_only=true a simple or enum member is written if and only if it differs from the default; nested structs and vectors are always written.", "quantifier": "every schema and value", "why_tests_cant": "All values.", "anchors": ["src/creation/xml/process_items_xml_attrib.cpp: process_struct_writer", "src/creation/xml/process_items_xml.cpp: process_struct_writer"]}
{"id": "C38", "title": "Long members outside the int range", "statement": "A long (unsigned long) member comes back from an XML file unchanged if and only if it is representable as int (unsigned int).", "quantifier": "every 64-bit value", "why_tests_cant": "2^64 values.", "anchors": ["src/creation/xml/process_items_xml_attrib.cpp: long_E / unsigned_long_E cases", "src/creation/xml/process_items_xml.cpp: long_E / unsigned_long_E cases"]}
{"id": "C39", "title": "Sections of a no-separator ini file do not collide", "statement": "Two different nested struct members of one top struct are stored under different section names.", "quantifier": "every schema with identifier member names, every pair of member paths", "why_tests_cant": "All pairs of paths of any depth.", "anchors": ["src/creation/ini/process_items_ini.cpp: process_items_n_ini_C::process_struct_writer, replace_underline_with_space"]}
{"id": "C40", "title": "n_ini write then read restores top-level simple members", "statement": "Simple members directly in the top struct that are written to an n_ini file are restored by reading that file.", "quantifier": "every schema and value", "why_tests_cant": "Depends on where the reader looks items up.", "anchors": ["src/creation/ini/process_items_ini.cpp: process_all_structs read_from_file, process_items_n_ini_C::process_struct_reader"]}
{"id": "C41", "title": "n_ini write then read restores nested members", "statement": "For a top struct whose simple members are all in nested structs, writing and reading an n_ini file restores the value, for integer, bool and enum members and for non-empty strings without '%', newline, NUL and of limited length.", "quantifier": "every vector-free schema and value within these limits", "why_tests_cant": "Unbounded schemas and data, line splitting, comment characters.", "anchors": ["src/creation/ini/process_items_ini.cpp: process_all_structs, process_items_n_ini_C"]}
{"id": "C42", "title": "The ini generator never reports success for a header with structs", "statement": "With output type ini and at least one struct and a structs_file, generation reports failure and generates no per-struct code.", "quantifier": "every table content with a struct", "why_tests_cant": "All schemas.", "anchors": ["src/creation/ini/process_items_ini.cpp: process_items_ini_C::process_struct_reader, process_struct_writer"]}
{"id": "C43", "title": "n_ini generation fails exactly for unsupported schemas", "statement": "With output type n_ini and writable files, generation reports success if and only if no struct has a vector member and all member types are declared.", "quantifier": "every table content", "why_tests_cant": "All schemas.", "anchors": ["src/creation/ini/process_items_ini.cpp: process_items_n_ini_C::process_struct_reader, process_struct_writer"]}
{"id": "C44", "title": "Unsupported output types write nothing", "statement": "A group whose output type is json or not a declared output type writes no file and does not prevent the other groups from being processed.", "quantifier": "every configuration", "why_tests_cant": "All configurations and orders.", "anchors": ["src/main.cpp: process_stfx_file switch"]}
{"id": "C45", "title": "stfx's own configuration survives a write/read cycle", "statement": "Every configuration object can be written by the generated configuration writer (full or delta) and read back unchanged by the reader stfx uses for .stfx files.", "quantifier": "every config value: any number of groups and files, any strings", "why_tests_cant": "Unbounded data.", "anchors": ["src/configuration/structs.cpp: xml_reader_C, xml_writer_C", "src/configuration/enums.cpp: s_from_e, s_to_e", "src/configuration/config_data.h"]}
{"id": "C46", "title": "Written XML never has duplicate attributes", "statement": "For a struct with distinct member names, an element written by the attribute-XML writer has each attribute at most once, and its child elements have distinct names except inside vectors.", "quantifier": "every schema with distinct member names, every value", "why_tests_cant": "All schemas.", "anchors": ["src/creation/xml/process_items_xml_attrib.cpp: process_struct_writer"]}
{"id": "C47", "title": "XML generation fails exactly for undeclared member types", "statement": "On tables that were only read so far, the element-XML and attribute-XML generators report success if and only if both struct files can be opened and every member that is not a vector has a declared type (the element type of a vector is not checked).", "quantifier": "every sequence of input files, every output specification with struct files, every combination of files that can or can not be opened", "why_tests_cant": "All schemas and all open failures.", "anchors": ["src/creation/xml/process_items_xml.cpp: process_all_structs, process_struct_reader", "src/creation/process_items.cpp: process_items, fixup_types_of_names"]}
{"id": "C48", "title": "Reading any XML file gives an object of the declared type", "statement": "For every XML document and every target object, the generated read_..._from_file either has undefined behaviour, or reports the result of parsing the document; if the document could not be parsed the target is unchanged, otherwise the target afterwards is an object of its declared type: every member is there, each integer is in the range of its type, each enum member holds a value its type can hold.", "quantifier": "every schema, both kinds of XML, every document (written by stfx or not), every target", "why_tests_cant": "All documents and all schemas.", "anchors": ["src/creation/xml/process_items_xml.cpp: process_struct_reader, process_all_structs", "src/creation/xml/process_items_xml_attrib.cpp: process_struct_reader", "src/creation/process_items.cpp: enum conversions"]}
{"id": "C49", "title": "XML readers have defined behaviour on every file", "statement": "Reading a file with the generated XML reader is never undefined behaviour, whatever the file contains.", "quantifier": "every schema, both kinds of XML, every document, every target", "why_tests_cant": "All documents.", "anchors": ["src/creation/xml/process_items_xml.cpp: process_struct_reader, process_all_structs", "src/creation/xml/process_items_xml_attrib.cpp: process_struct_reader"]}
{"id": "C50", "title": "Every file written holds the code of the selected file type for its own headers", "statement": "After a run on well-formed headers with distinct names and declared member types, each struct file pair of the configuration (and of a single header) that could be opened holds the code that the generator named by its file_type gives for exactly the declarations of the common headers and the headers of its group, as if they had been read into a fresh object; each enum file pair holds the conversions of every enum of these headers. The files include these headers, their own header and the enum header. Files that a later output of the same run overwrites are excepted.", "quantifier": "every configuration, every set of header texts, every number of groups, every file system in which outputs do not overwrite inputs", "why_tests_cant": "All configurations and headers; the tables of the common part are resolved before they are copied for each group, so the effect depends on the interplay of all declarations.", "anchors": ["src/main.cpp: process_stfx_file, process_single_header", "src/creation/process_items.cpp: process_items, process_all_enums, fixup_types_of_names, find_top_items", "src/creation/xml/process_items_xml.cpp: process_all_structs", "src/creation/ini/process_items_ini.cpp: process_all_structs", "src/configuration/config_data.h: serialization_type_E"]}
{"id": "C51", "title": "n_ini readers report every value that can not be converted", "statement": "The generated n_ini read_from_file returns true only if the file could be opened and every value found in the sections of the object could be converted.", "quantifier": "every schema, every file text, every target, every state of the reader object", "why_tests_cant": "The schema and the file are arbitrary; the return value of nested readers is passed on through any depth.", "anchors": ["src/creation/ini/process_items_ini.cpp: process_all_structs (read_from_file), process_struct_reader, process_struct_reader_element"]}
{"id": "C52", "title": "n_ini readers give objects of the declared type", "statement": "Whatever the file contains and whatever files the reader object has read before, reading is undefined behaviour or ends with an object all whose members hold values of their declared types.", "quantifier": "every schema, every file text or none, every target, every state of the reader object", "why_tests_cant": "All files.", "anchors": ["src/creation/ini/process_items_ini.cpp: process_all_structs (read_from_file), process_struct_reader, process_struct_reader_element"]}
{"id": "C53", "title": "n_ini readers have defined behaviour on every file", "statement": "Reading a file with the generated n_ini reader is never undefined behaviour.", "quantifier": "every schema, every file text, every target, every state of the reader object", "why_tests_cant": "All files.", "anchors": ["src/creation/ini/process_items_ini.cpp: process_all_structs (read_from_file), process_struct_reader, process_struct_reader_element"]}
{"id": "C54", "title": "n_ini readers assign what the file says", "statement": "After reading, every simple or enum member, at any depth, whose item in the section of its object can be converted has the value of the item; members without item keep their values.", "quantifier": "every schema, every file text, every target, every state of the reader object", "why_tests_cant": "All schemas and files, any depth of nesting; one value influences whether others are read.", "anchors": ["src/creation/ini/process_items_ini.cpp: process_all_structs (read_from_file), process_struct_reader, process_struct_reader_element"]}
{"id": "C55", "title": "n_ini readers do not change numbers", "statement": "If reading reports success, every integer member, at any depth, with an item in the file that starts with a number has exactly this number.", "quantifier": "every schema, every file text, every number", "why_tests_cant": "All numbers and texts.", "anchors": ["src/creation/ini/process_items_ini.cpp: process_all_structs (read_from_file), process_struct_reader, process_struct_reader_element"]}
{"id": "C56", "title": "n_ini readers find every item of a file", "statement": "Of a file made of section headings, items, multi-line items, empty lines and comments (lines up to 78 characters) a new reader knows exactly the items of each section; the last heading of a name and the last item of a name count.", "quantifier": "every list of entries of any length", "why_tests_cant": "Files of any length and any order of entries; state is carried from line to line.", "anchors": ["src/creation/ini/process_items_ini.cpp: process_all_structs (read_from_file), process_struct_reader, process_struct_reader_element"]}
{"id": "C57", "title": "What an n_ini reader reads depends on the file only", "statement": "Reading a file gives the same object and the same result whether or not the reader object has read other files before.", "quantifier": "every schema, every sequence of files read before, every file, every target", "why_tests_cant": "All histories.", "anchors": ["src/creation/ini/process_items_ini.cpp: process_all_structs (read_from_file), process_struct_reader, process_struct_reader_element"]}
{"id": "C58", "title": "The scanner's input buffer is invisible", "statement": "Whatever the size of the scanner's buffer and however the stream delivers its characters (one at a time as here, or in pieces), the scanner finds exactly the lexemes of the whole file: no token is split or joined where the buffer is refilled, moved or grown, NUL characters of the file are told apart from the end of the buffer, no cell is read before it was stored, nothing outside of the buffer is accessed, and every call after the last lexeme answers end of file.", "quantifier": "every file, every initial buffer size, every way the reader splits the file, any number of calls", "why_tests_cant": "Buffer boundaries fall anywhere in any file; headers longer than 16384 characters in one token, NUL characters next to a boundary and backing up across one do not occur in test files.", "anchors": ["src/lex_parse/tokenize.cpp: yyFlexLexer::yylex (YY_END_OF_BUFFER action), yy_get_next_buffer, yy_get_previous_state, yy_try_NUL_trans, yyrestart, LexerInput"]}
{"id": "C59", "title": "The generated .cpp files are C++ and define exactly the announced functions", "statement": "Read by the lexical rules and the grammar of C++, every generated .cpp file consists of exactly the definitions of the functions of the reader class and the writer class (constructor, one read_from_file / write_to_file per top level struct, one do_... function per struct) with the right result and parameter types, and of the two conversion functions per enum; the bodies are the statements the generators mean.", "quantifier": "every set of structs and enums, every names, every output format", "why_tests_cant": "Any number of structs and members of all types in any order; the text depends on all of them.", "anchors": ["src/creation/xml/process_items_xml.cpp: all functions", "src/creation/xml/process_items_xml_attrib.cpp: all functions", "src/creation/ini/process_items_ini.cpp: all functions", "src/creation/process_items.cpp: process_enum"]}
{"id": "C60", "title": "Running the text of the generated enum functions converts enums as modelled", "statement": "When the text of the generated enums .cpp file is read as C++ and run by the rules of C++ (name lookup, overload resolution, object lifetimes, exceptions), a call stfx::s_from_e(x) selects the function of the enum of x and returns the name of the first enumerator with that value or the decimal digits, and stfx::s_to_e(s, x) selects the function of the enum of x, returns true and assigns the enumerator named s, or returns false and assigns the number at the start of s if there is one; nothing else is changed.", "quantifier": "every set of scoped and unscoped enums, every enumerators and values, every argument, every state of the program around the call", "why_tests_cant": "Enumerators can have any names, also those of the parameters and variables of the generated functions; tests use a few harmless ones.", "anchors": ["src/creation/process_items.cpp:140-208 process_enum"]}
{"id": "C61", "title": "Running the text of the generated XML readers reads files as modelled", "statement": "When the texts of the generated structs and enums .cpp files are read as C++ and run by the rules of C++ (name lookup, overload resolution, pointers, scopes, calls), a call read_from_file(filename, x) selects the function of the struct of x, loads the file, changes exactly the members of x as the document says (nested structs, vectors of structs and enums included) and nothing else in memory, and returns whether the file could be loaded.", "quantifier": "every set of headers stfx accepts, both XML forms, every class names, every document of any depth, every object, every state of the program around the call", "why_tests_cant": "Structs and members can have any names, also those of variables and functions of the generated class; documents have any shape and depth.", "anchors": ["src/creation/xml/process_items_xml.cpp:93-398", "src/creation/xml/process_items_xml_attrib.cpp:10-134"]}
{"id": "C62", "title": "Running the text of the generated XML writers writes files as modelled, and the readers read them back", "statement": "When the texts of the generated structs and enums .cpp files are read as C++ and run by the rules of C++, a call write_to_file(filename, x) selects the function of the struct of x, saves the document with exactly the members of x (all of them, or those that differ from a default object if m_delta_only is set; nested structs, vectors of structs and enums included), changes nothing in memory and returns whether the file could be saved; reading the saved document by read_from_file of the reader or of the writer that inherits it gives back what C30-C33 say.", "quantifier": "every set of headers stfx accepts, both XML forms, every class names, with and without delta, every object of any depth, every state of the program around the call", "why_tests_cant": "Structs and members can have any names and types in any order; objects have any size and depth; undefined behaviour for members without value is not visible to tests.", "anchors": ["src/creation/xml/process_items_xml.cpp:136-193", "src/creation/xml/process_items_xml.cpp:406-578", "src/creation/xml/process_items_xml_attrib.cpp:141-299"]}
{"id": "C63", "title": "Running the text of the generated n_ini readers reads files as modelled", "statement": "When the texts of the generated structs and enums .cpp files are read as C++ and run by the rules of C++ (name lookup, overload resolution, pointers into maps, scopes, exceptions, switch, loops), a call read_from_file(filename, x) of a reader object selects the function of the struct of x, opens the file, reads it in pieces by fgets, keeps the items found in the maps of the reader object, closes the file, changes exactly the members of x as these items say and nothing else in memory, and returns false if the file could not be opened or the last struct reported a bad value.", "quantifier": "every set of headers stfx accepts, every class names, every file text, every object of any depth, every earlier use of the reader object, every state of the program around the call", "why_tests_cant": "Structs and members can have any names and types in any order; files have any text, with lines longer than the buffer, NUL characters and multi-line values; the reader object keeps what it read before.", "anchors": ["src/creation/ini/process_items_ini.cpp:21-208", "src/creation/ini/process_items_ini.cpp:290-446"]}
{"id": "C64", "title": "Running the text of the generated n_ini writers writes files as modelled", "statement": "When the texts of the generated structs and enums .cpp files are read as C++ and run by the rules of C++, a call write_to_file(filename, x) of a writer object selects the function of the struct of x, opens the file, prints for every struct in x its heading and a line for each member that the mode of the writer asks for, closes the file, changes nothing in memory but the file pointer of the writer, and returns true; if the file can not be opened it prints nothing and returns false. A file written this way and found by read_from_file gives the object the model of both says.", "quantifier": "every set of headers stfx accepts, every class names, both modes, every object of any depth, every state of the program around the call, readers in every state", "why_tests_cant": "Structs and members can have any names and types in any order; objects are nested to any depth and hold any values, uninitialised ones too.", "anchors": ["src/creation/ini/process_items_ini.cpp:210-268", "src/creation/ini/process_items_ini.cpp:448-603"]}
{"id": "C65", "title": "The generated .h files declare exactly what the generated .cpp files define", "statement": "When the text of a generated structs .h file is read as C++, it is a sequence of class definitions: the reader class and, unless only_read is set, a writer class publicly derived from it; the member functions declared in the classes, with return types, names, parameter types and parameter names, are exactly those the .cpp file defines, in the same order, so that no function is declared without being defined or defined without being declared; the constructor and the read_from_file/write_to_file functions are public, the latter virtual, and all other functions and all data members are not accessible from outside. The enums .h file declares in namespace stfx exactly the functions the enums .cpp file defines, and specialises fmt::formatter once for each enum, through s_from_e.", "quantifier": "every table of structs and enums of any size with identifiers as names, every class names, all three kinds of files, only_read or not, every stamp, file and include names", "why_tests_cant": "Header and source are printed by separate statements of the generators, in separate loops over structs of any number and shape; the agreement of each pair of lines must hold for every table.", "anchors": ["src/creation/process_items.cpp:180-240", "src/creation/xml/process_items_xml.cpp:80-200", "src/creation/ini/process_items_ini.cpp:86-290"]}
{"id": "C66", "title": "A program that includes the generated .h file can make readers and writers and use them", "statement": "With the classes that the text of the generated .h file declares and the constructors that the text of the .cpp file defines, a block which makes a reader or writer object (a writer with or without the argument delta_only), calls read_from_file or write_to_file on it and leaves the block reads or writes the file as the model of the generated code says, starting from the state of a new reader and with delta_only true if it is not given; the object read has the new value, every other object of the program is as before, and every file opened is closed. What is written by a new writer is read back by a new reader as the models of both say.", "quantifier": "every set of headers stfx accepts, every class names, all kinds of files that have functions, both modes and the default, every object of any depth, every file, every state of the program around the block", "why_tests_cant": "The initial state of the objects is made by the data members, default member initialisers and default arguments in the .h file and by the constructors in the .cpp file, which are printed apart; whether they fit the functions must hold for every program, file and object.", "anchors": ["src/creation/xml/process_items_xml.cpp:86-160", "src/creation/ini/process_items_ini.cpp:90-240"]}
{"id": "C67", "title": "stfx reads its own configuration files as main assumes", "statement": "The four checked-in files of src/configuration are what stfx generates for config_data.h, and when their text is read and run as C++, the lines of process_stfx_file which make a reader and a config object and call read_from_file do exactly what the model of main takes as given: they return true and the config object has the content of the .stfx file, or return false, or have undefined behaviour, in the same cases and with the same content; no other outcome describes them, and main run with the outcome of these lines is main run with the model of them. A configuration written with the checked-in writer, with or without delta_only, is read back unchanged by the checked-in reader.", "quantifier": "every .stfx file (every XML document or none), every configuration with strings of any content and any number of groups and inputs, every program that contains the four files, every state of it, both modes of the writer", "why_tests_cant": "The configuration is an object with vectors of any length and strings of any content, and the claim relates two independent descriptions (the text of the C++ files and the model of main) on all of them.", "anchors": ["src/main.cpp:95-110", "src/configuration/structs.cpp", "src/configuration/structs.h", "src/configuration/enums.cpp", "src/configuration/config_data.h:10-44"]}
{"id": "C68", "title": "End to end: a program built from the files of a run writes and reads objects unchanged", "statement": "When stfx is called with a .stfx file or a header whose input headers are well-formed, it ends with exit status 0, and the text of the files then in the file system is C++ from which a program can be built; in every program built from the structs .cpp, structs .h and enums .cpp files of a part of the configuration, an object written by a new object of the generated writer class (full or delta) is read back unchanged by a new object of the generated reader class, and the rest of the program is as before.", "quantifier": "every configuration and every header stfx accepts, every file system, every part (common part or group), xml, xml_attrib and n_ini, every program that contains the files, every top struct and every object of any depth, both modes and the default, every state of the program", "why_tests_cant": "The claim goes from the text of the input headers to the behaviour of programs compiled from the text of the output, for all inputs, programs, objects and states; each test fixes one of each.", "anchors": ["src/main.cpp:20-238", "src/creation/process_items.cpp:28-240", "src/creation/xml/process_items_xml.cpp:17-470", "src/creation/ini/process_items_ini.cpp:17-600"]}
{"id": "C69", "title": "One definition: the files of one run define no function twice", "statement": "After a run for an accepted configuration the .cpp files written for its parts (structs and enums files of the common part and of the groups), if the classes of the parts have different names, define no function twice, so that all of them can be linked into one program.", "quantifier": "every configuration stfx accepts, every file system, every selection of parts of the configuration, every kind of files", "why_tests_cant": "The claim is about all configurations and all pairs of functions in all files; a test links the files of one configuration. (The configuration src/test/config.stfx has three parts with enums files and shared enums.)", "anchors": ["src/main.cpp:176-199", "src/creation/process_items.cpp:56-138", "src/creation/process_items.cpp:140-240", "src/test/config.stfx:1-23", "src/creation/xml/process_items_xml.cpp:17-100"]}
{"id": "C70", "title": "stfx and the compiler see the same declarations in a header", "statement": "If stfx accepts a header, and the header is C++ of the kind stfx is for (enums, structs with data members, function declarations, pointers, include guards and simple conditional directives), then the declarations stfx generates code for are the declarations a C++ compiler sees: same enums, enumerators and values, structs, members, types and default member initialisers. So the classes the generated code is compiled against are those it was generated for.", "quantifier": "every text of a header that stfx accepts and that is C++", "why_tests_cant": "The claim compares two readings of every text, one by the scanner and grammar of stfx and one by the phases of translation and the grammar of C++. The tests use headers in which no difference can show; where it shows, stfx reports no error.", "anchors": ["src/lex_parse/struct_lex.l:1-110", "src/lex_parse/struct_yacc.y:87-195", "src/items.cpp:1-120"]}
{"id": "C71", "title": "A generated .cpp file is compiled with the declarations of every input header, once", "statement": "When the files of a group are compiled together with the headers they were made from, the #include directives of the generated files bring into the translation unit of the structs .cpp file: every declaration of every input header exactly once and in the order the headers were given, then the classes of the generated structs .h file, then the declarations of the generated enums .h file (if there is one), then the functions; and likewise for the enums .cpp file. So each name is declared before the code that uses it, and nothing is defined twice.", "quantifier": "every list of input headers that preprocess on their own and include only headers given before them, every schema, format and output specification", "why_tests_cant": "Which tokens a compiler sees depends on include guards, #pragma once, macros and the order of all #include directives of at least four files; the tests compile a fixed set of headers and observe only that the compiler is content.", "anchors": ["src/creation/xml/process_items_xml.cpp:48-84", "src/creation/ini/process_items_ini.cpp:48-90", "src/creation/process_items.cpp:85-106"]}
{"id": "C72", "title": "Generated files include what declares the names they use", "statement": "Every name with std::, fmt::, tinyxml2:: or stfx:: in the functions and classes of a generated file is declared by a library header which this file, or a generated header it includes, includes by itself, or (stfx::) by the generated enums header. So a generated file compiles without relying on what library headers or the user's headers happen to include.", "quantifier": "every schema, format, output specification and list of input headers", "why_tests_cant": "A test compiles with one compiler, one standard library and one version of fmt, whose headers include one another; which names the standard guarantees can not be observed that way. The tests also never switch off the enum files of a schema with enums.", "anchors": ["src/creation/xml/process_items_xml.cpp:48-84", "src/creation/ini/process_items_ini.cpp:48-125", "src/creation/process_items.cpp:85-225"]}
{"id": "C73", "title": "What a run reports on the console is true and complete", "statement": "A run on an existing file announces its result in its last message iff it returns, and announces the exit status it returns. A run that prints no error or warning has had none: every input file could be opened, is a sentence of the grammar and declares names not in use, every output type is supported, every output file could be opened, and every call of process_items returned true; and if one of these fails, an error or warning is printed. The message about an output type that is not supported names this type.", "quantifier": "every environment, configuration or header, file contents", "why_tests_cant": "The tests never look at the console, and since the exit status of a run on a configuration is 0 whatever happens, the console is the only place where problems show; that no combination of failures is silent can not be observed from samples.", "anchors": ["src/main.cpp:20-238", "src/items.cpp:48-127", "src/creation/process_items.cpp:28-138", "src/creation/xml/process_items_xml.cpp:38-211", "src/creation/ini/process_items_ini.cpp:38-293"]}
{"id": "C74", "title": "Syntax errors are reported where they are, and with what could have stood there", "statement": "For every file that is not a header, exactly one line is written on standard error. It is about the first token that makes it impossible to complete what was read before to a header (or the end of the file), gives the line in which this token stands, names it, and lists exactly the tokens that could have followed what was read before, or none if there are more than four.", "quantifier": "every file", "why_tests_cant": "No test feeds a file with a syntax error to the program; that an LALR parser with default reductions, which decides late, still finds the first offending token for all infinitely many prefixes can not be seen from examples.", "anchors": ["src/lex_parse/Parser.cpp:998-1008", "src/lex_parse/Parser.cpp:1149-1292", "src/lex_parse/struct_yacc.y:199-208", "src/items.cpp:48-68"]}
{"id": "C75", "title": "Columns attached to tokens", "statement": "The column attached to a token is one plus the number of characters in front of it on its line.", "quantifier": "every file, every token", "why_tests_cant": "The tests never look at locations.", "anchors": ["src/lex_parse/struct_lex.l:31-226", "src/lex_parse/tokenize.cpp:725-1038", "src/lex_parse/Location.hpp:60-247"]}
{"id": "C76", "title": "Nothing in an input file is skipped silently", "statement": "Everything the scanner skips in an input file other than blanks, line ends and comments is printed on the console: for a line starting with # a warning with the number of the line and its text, for a character no rule matches this character. A file about which neither the scanner nor the parser prints anything is a header made of tokens, blanks, line ends and comments only.", "quantifier": "every file", "why_tests_cant": "The tests do not look at the console; whether some text falls between two rules of the scanner is a question about all texts.", "anchors": ["src/lex_parse/struct_lex.l:54-58", "src/lex_parse/tokenize.cpp:569", "src/lex_parse/tokenize.cpp:770-781", "src/lex_parse/tokenize.cpp:1035-1038"]}
{"id": "C77", "title": "Repeating a run changes nothing", "statement": "What a run does depends only on the files it reads: in two file systems in which the argument and the input files named by the configuration have the same contents, the runs end the same way and write the same contents. In particular, running the program a second time ends the same way as the first time and leaves every file as the first run left it.", "quantifier": "every argument, configuration and file system, whichever files can be opened", "why_tests_cant": "The tests run the program once on fixed inputs in a fixed directory; whether old output files or anything left over from an earlier run can influence the output is a question about pairs of runs.", "anchors": ["src/main.cpp:67-238", "src/creation/process_items.cpp:28-138", "src/creation/xml/process_items_xml.cpp:17-211", "src/creation/ini/process_items_ini.cpp:17-283"]}
{"id": "C78", "title": "Files survive changes of the headers", "statement": "If members, structs or enumerators are added to the headers, members are put in another order or removed, and members that keep their name keep their type, then the program generated from the new headers reads the XML files (attribute and element form, full and delta) that the program generated from the old headers wrote and could read back: it reports success, members both versions have get the values written, members that are new have their defaults, and what is no longer declared is passed over.", "quantifier": "every pair of header sets related by such a change, every struct with file functions in both, every object, every library limit", "why_tests_cant": "The tests read files with the program that wrote them; a statement about old files needs two generated programs and all pairs of headers.", "anchors": ["src/creation/xml/process_items_xml.cpp:213-578", "src/creation/xml/process_items_xml_attrib.cpp:17-299"]}
{"id": "C79", "title": "n_ini files survive changes of the headers", "statement": "If members, structs or enumerators are added to the headers, members are put in another order or removed, and members that keep their name keep their type, then a new reader of the program generated from the new headers reads the n_ini files (full and delta) that the program generated from the old headers wrote and could read back: it reports success, members both versions have get the values written, members that are new keep their values, and items and sections that are no longer declared are passed over.", "quantifier": "every pair of header sets related by such a change, every struct with file functions in both, every object, every target object", "why_tests_cant": "The tests read files with the program that wrote them; a statement about old files needs two generated programs and all pairs of headers.", "anchors": ["src/creation/ini/process_items_ini.cpp: process_all_structs, process_items_n_ini_C"]}
{"id": "C80", "title": "Semantic values of the parser are made once and destroyed once, at their own type", "statement": "The generated parser keeps the semantic value of every symbol in a raw buffer that does not record what it holds; the switch statements over symbol kinds in move, the move constructors, clear and yyreduce say which type to make, move or destroy. For every token sequence, and wherever the std::vector of the parser stack reallocates, no buffer is used or destroyed as a type of which it holds no object, no object is made in a buffer that still holds one, and when the parser is destroyed no object is left; parse returns 0 or 1.", "quantifier": "all token sequences; all choices of when the stack's vector gets a larger array; all turns of the driver, including the error exit with symbols on the stack", "why_tests_cant": "A leak or a destruction at the wrong type shows only with a sanitizer on an input that takes just that path (error exits with strings in the lookahead and on the stack, a reallocation between two pushes); the table-driven driver has about a hundred states and unboundedly long stacks.", "anchors": ["src/lex_parse/Parser.hpp: semantic_type, basic_symbol::clear, stack", "src/lex_parse/Parser.cpp: move, stack_symbol_type, yypush_, parse"]}
{"id": "C81", "title": "Line ends do not matter", "statement": "A header in which every newline is preceded by a carriage return has the same tokens as the header itself, so that runs on file systems in which the headers differ in line ends only end the same way and write the same files. An n_ini file with such line ends gives a reader the same object, return value and items as the same file with plain newlines.", "quantifier": "all header texts (also ones that do not parse or have stray carriage returns), all configurations and file systems, all n_ini files with lines that fit the line buffer, all generated readers, all reader states", "why_tests_cant": "The test files have one kind of line end; carriage returns meet every scanner rule that spans or ends at a line end (comments, preprocessor lines, unmatched characters) and every regular expression of the reader.", "anchors": ["src/lex_parse/struct_lex.l", "src/creation/ini/process_items_ini.cpp:115-190"]}
{"id": "C82", "title": "Reading a file again changes nothing", "statement": "Whoever reads a file into an object and then reads the same file into the same object again, with the same reader, gets the same return value and the same object as after the first time, and the reader knows the same items. (For XML files this is false for vectors: their elements are appended again; everything else stays.)", "quantifier": "all headers and generated readers (XML with elements, XML with attributes, n_ini), all objects of the declared type before the first reading, all documents and n_ini texts, all items read before", "why_tests_cant": "The tests read each file once into a fresh object; that a second reading is defined and leaves every member alone needs every combination of present, missing and malformed items, structs of any depth, and readers that have other files behind them.", "anchors": ["src/creation/xml/process_items_xml.cpp:196-300", "src/creation/ini/process_items_ini.cpp:115-236"]}
{"id": "C83", "title": "The code for a type depends on its own declaration only", "statement": "Two runs of stfx on whatever header files, with the same class names and options, that both declare a struct with the same members (initialisers apart; types of members that are structs in both or enums in both) generate the same reader and writer functions for it, and the same conversion functions for an enum with the same enumerators. In particular adding declarations to a header changes no function of the types that were there and takes none of their functions away, file entry points included.", "quantifier": "all pairs of lists of header files, all kinds of output, all settings that agree in the class names, only_read and no_delta", "why_tests_cant": "The tests compare the output for fixed headers; that nothing leaks from one type into the code of another (state of the tables, order of the map, resolution of names) concerns all pairs of headers.", "anchors": ["src/creation/process_items.cpp:29-208", "src/creation/xml/process_items_xml.cpp:96-193", "src/creation/ini/process_items_ini.cpp:110-266"]}
{"id": "C84", "title": "Standard output while a file is read follows the file", "statement": "While stfx reads a file, what the scanner prints about skipped text (C76) and the messages of the program (C73) appear on standard output completely and interleaved in the order of the file: a message about a name that is already in use is printed when the scanner has just delivered that name, behind everything reported about the text before the name and before anything reported about the text behind it, although the parser works with a lookahead token.", "quantifier": "all files, headers or not, all contents of the tables, every message", "why_tests_cant": "Whether a semantic action runs before or after the next token is fetched depends on the default reductions of the generated LALR tables, state by state; a test sees one path through them.", "anchors": ["src/lex_parse/Parser.cpp:630-992", "src/lex_parse/struct_lex.l:54-58", "src/items.cpp:48-116"]}
{"id": "C85", "title": "How the declarations are divided among the input files does not matter", "statement": "If a configuration names two headers one after the other, and another names in their place one header whose text is that of the two put together, then stfx run with the one or the other ends the same way, opens the same output files in the same order and writes the same text to them, except that the generated files include the two headers where the others include the one. The first header has to end with a newline and outside a comment, both have to be headers, and no output file may be an input file of a group.", "quantifier": "all texts of the two headers, all other input files before and after them, all contents of the tables, all output settings and groups", "why_tests_cant": "The scanner starts each file in a fresh state and the parser with an empty stack, while the tables persist; that nothing of this is visible at the seam needs longest-match scanning across the seam for every pair of texts, the grammar for every pair of headers, and the generators for all tables.", "anchors": ["src/items.cpp:48-116", "src/lex_parse/struct_lex.l:28-229", "src/main.cpp:99-238"]}
{"id": "C86", "title": "n_ini readers look at the items of members only, in any order", "statement": "What the generated n_ini read_from_file makes of a file (return value, object, or undefined behaviour) depends only on the items the reader knows afterwards for the simple and enum members of the object and its nested objects, each in its section. So files with the same sections in another order, the same items of different names in another order within a section, other comments and empty lines, sections that belong to no object, or items that belong to no member are read alike.", "quantifier": "all headers and settings, all structs with a file entry point, all objects before reading, all states of the reader, all files; for the order of lines: all files made of sections with one heading each and lines of up to 78 characters", "why_tests_cant": "The tests read files as they were written. All orders of sections and items, and all other content, of files of any length for objects of any depth can not be tried.", "anchors": ["src/creation/ini/process_items_ini.cpp:115-236", "src/creation/ini/process_items_ini.cpp:290-446"]}
{"id": "C87", "title": "Generated files depend on the build time of stfx in one comment line only", "statement": "Two builds of stfx, made at different times and otherwise the same, run on the same files with the same argument: they end the same way, open the same output files in the same order and write the same text to them, except for one comment line in each file, which holds the time stamp of the build. No output file may be an input file of a group.", "quantifier": "all time stamps, all arguments, configurations, file contents and file systems", "why_tests_cant": "The time is fixed in the program under test; that it goes nowhere else concerns all outputs.", "anchors": ["src/timestamp.cpp:12", "src/creation/process_items.cpp:19-25", "src/creation/process_items.cpp:87-107", "src/creation/xml/process_items_xml.cpp:50-74", "src/creation/ini/process_items_ini.cpp:50-79"]}
{"id": "C88", "title": "The text of a generated reader, run on files that say the same, does the same", "statement": "A block of a program that includes the generated .h file, makes a reader object, calls read_from_file on it and leaves the block has the same outcome when the text of the generated files is run as C++ for any two n_ini files from which a new reader gets the same items of the members of the object, and for any two XML documents whose root elements say the same of all members (they may differ in other attributes and elements, in the order of attributes, in comments and text between elements, and in what precedes the root element): the same return value, the same objects, the file closed, or undefined behaviour for both.", "quantifier": "every set of headers stfx accepts, every class names, every struct with a file entry point, every object of any depth, all pairs of files of any length that say the same, every state of the program around the block", "why_tests_cant": "C86 and C36 are about the model of the generated code. That the text, run as C++ with its regular expressions, loops and maps, does not depend on anything else in a file concerns all pairs of files and all programs.", "anchors": ["src/creation/ini/process_items_ini.cpp:90-240", "src/creation/ini/process_items_ini.cpp:290-446", "src/creation/xml/process_items_xml.cpp:86-160", "src/creation/xml/process_items_xml_attrib.cpp:40-125"]}
{"id": "C89", "title": "A program built from changed headers reads the files of the program built before", "statement": "An object is written by a program with the text of the files one run of stfx generated. A program with the text of the files another run generated, for changed headers, opens that file and reads it into an object: read_from_file returns true, the members both versions have get the values written, members that are new keep what they had, members that are gone are passed over; nothing else in the program is changed. (As for the model of the generated code in C78 and C79, but for the two programs run as C++.)", "quantifier": "every two sets of headers stfx accepts whose common members keep their types and whose enums only grow, every class names, XML with elements or attributes and n_ini, every object of any depth whose members survive a file, every object read into, every state of both programs", "why_tests_cant": "Two programs built from different headers would have to be generated, compiled and run for every change of every header and every object.", "anchors": ["src/creation/xml/process_items_xml.cpp:86-180", "src/creation/xml/process_items_xml_attrib.cpp:40-299", "src/creation/ini/process_items_ini.cpp:90-446"]}
