{
 "claims": [
  {
   "property": "C01",
   "status": "proved",
   "theorems": [
    "Stfx.Lexer.C01_longest_match",
    "Stfx.Lexer.C01_scan",
    "Stfx.Lexer.C01_unique"
   ],
   "note": ""
  },
  {
   "property": "C02",
   "status": "proved",
   "theorems": [
    "Stfx.Lexer.C02_total_lossless",
    "Stfx.Lexer.C02_rules_exist"
   ],
   "note": ""
  },
  {
   "property": "C03",
   "status": "proved",
   "theorems": [
    "Stfx.Lexer.C03_word",
    "Stfx.Lexer.C03_extended_keyword"
   ],
   "note": ""
  },
  {
   "property": "C04",
   "status": "proved",
   "theorems": [
    "Stfx.Lexer.C04_line_comment",
    "Stfx.Lexer.C04_preproc",
    "Stfx.Lexer.C04_block_comment",
    "Stfx.Lexer.C04_block_comment_blank"
   ],
   "note": ""
  },
  {
   "property": "C05",
   "status": "proved",
   "theorems": [
    "Stfx.Lexer.C05_layout",
    "Stfx.Lexer.C05_layout_independent"
   ],
   "note": ""
  },
  {
   "property": "C06",
   "status": "partial",
   "theorems": [
    "Stfx.Lexer.C06_string_partial",
    "Stfx.Lexer.C06_refuted",
    "Stfx.Lexer.C06_greedy"
   ],
   "note": "The full claim is false: C06_refuted is a counterexample. The partial theorem covers a string constant with no later quote on its line."
  },
  {
   "property": "C07",
   "status": "proved",
   "theorems": [
    "Stfx.Lexer.C07_line_numbers",
    "Stfx.Lexer.C07_token_single_line"
   ],
   "note": ""
  },
  {
   "property": "C08",
   "status": "proved",
   "theorems": [
    "Stfx.Parser.C08_accept_iff",
    "Stfx.Parser.C08_grammar_shape",
    "Stfx.Parser.C08_file"
   ],
   "note": ""
  },
  {
   "property": "C09",
   "status": "proved",
   "theorems": [
    "Stfx.Parser.C09_total",
    "Stfx.Parser.C09_steps"
   ],
   "note": ""
  },
  {
   "property": "C10",
   "status": "proved",
   "theorems": [
    "Stfx.Parser.C10_calls",
    "Stfx.Parser.C10_header"
   ],
   "note": ""
  },
  {
   "property": "C11",
   "status": "partial",
   "theorems": [
    "Stfx.Parser.C11_local",
    "Stfx.Parser.C11_prefix_partial",
    "Stfx.Parser.C11_prefix_eof_partial",
    "Stfx.Parser.C11_prefix_refuted"
   ],
   "note": "Locality (one error, nothing after the offending token matters) is proved in full. The prefix part is false as stated: C11_prefix_refuted; the partial theorems allow one trailing enumerator without value."
  },
  {
   "property": "C12",
   "status": "proved",
   "theorems": [
    "Stfx.Items.C12_tables",
    "Stfx.Items.C12_layout"
   ],
   "note": "any number of files, any layout"
  },
  {
   "property": "C13",
   "status": "proved",
   "theorems": [
    "Stfx.Items.C13_names",
    "Stfx.Items.C13_defined"
   ],
   "note": "invariant over histories of creating, copying, destroying, reading and generating"
  },
  {
   "property": "C14",
   "status": "partial",
   "theorems": [
    "Stfx.Items.C14_refuted",
    "Stfx.Items.C14_struct_partial",
    "Stfx.Items.C14_enum_partial"
   ],
   "note": "false as stated: members of a repeated declaration go to the type declared before it; the partial theorems give the exact effect"
  },
  {
   "property": "C15",
   "status": "partial",
   "theorems": [
    "Stfx.Items.C15_refuted",
    "Stfx.Items.C15_isolated_partial",
    "Stfx.Items.C15_empty_partial"
   ],
   "note": "false as stated: the copied current pointers still point into the common tables; isolation holds once the group has declared a new name"
  },
  {
   "property": "C16",
   "status": "partial",
   "theorems": [
    "Stfx.Gen.C16_refuted",
    "Stfx.Gen.C16_resolved_partial",
    "Stfx.Gen.C16_first_run",
    "Stfx.Main.C16_reported",
    "Stfx.Main.C16_unreported"
   ],
   "note": "false as stated in configuration mode: a member given up as unknown in the common run stays unknown in the groups (C16_refuted), and is not reported there if no struct files are wanted (C16_unreported). Holds in full for tables on which generation has not run (C16_first_run); reporting holds in every run that writes struct files (C16_reported)"
  },
  {
   "property": "C17",
   "status": "partial",
   "theorems": [
    "Stfx.Gen.C17_refuted",
    "Stfx.Gen.C17_unsupported_common_partial"
   ],
   "note": "false: the group's type is not used. It is used if no generation ran on the common tables"
  },
  {
   "property": "C18",
   "status": "partial",
   "theorems": [
    "Stfx.Gen.C18_refuted",
    "Stfx.Gen.C18_entry_points_partial",
    "Stfx.Gen.C18_first_run"
   ],
   "note": "false in second runs because unknown members do not count as references; holds in full for first runs; for every run the exact set is proved"
  },
  {
   "property": "C19",
   "status": "proved",
   "theorems": [
    "Stfx.Gen.C19_reachable"
   ],
   "note": ""
  },
  {
   "property": "C20",
   "status": "partial",
   "theorems": [
    "Stfx.Main.C20_refuted",
    "Stfx.Main.C20_types_refuted",
    "Stfx.Main.C20_exit_partial",
    "Stfx.Main.C20_written_partial"
   ],
   "note": "false: a shadowed variable makes the exit status ignore generation. The partial theorems give the exact exit status and what is written"
  },
  {
   "property": "C21",
   "status": "partial",
   "theorems": [
    "Stfx.Main.C21_refuted",
    "Stfx.Main.C21_exit_partial"
   ],
   "note": "false only because create_directories may throw (std::terminate) ; otherwise proved"
  },
  {
   "property": "C22",
   "status": "proved",
   "theorems": [
    "Stfx.Main.C22_files",
    "Stfx.Main.C22_paths"
   ],
   "note": ""
  },
  {
   "property": "C23",
   "status": "proved",
   "theorems": [
    "Stfx.Main.C23_config",
    "Stfx.Main.C23_header"
   ],
   "note": ""
  },
  {
   "property": "C24",
   "status": "partial",
   "theorems": [
    "Stfx.Gen.C24_refuted",
    "Stfx.Gen.C24_calls_partial",
    "Stfx.Gen.calls_text"
   ],
   "note": "false: vector element types are never checked. Holds if they are declared structs"
  },
  {
   "property": "C25",
   "status": "partial",
   "theorems": [
    "Stfx.Gen.C25_enums",
    "Stfx.Gen.C25_refuted",
    "Stfx.Gen.C25_structs_partial"
   ],
   "note": "false for the ini generator, which writes no functions; proved for all other generators"
  },
  {
   "property": "C42",
   "status": "proved",
   "theorems": [
    "Stfx.Main.C42_ini"
   ],
   "note": ""
  },
  {
   "property": "C43",
   "status": "partial",
   "theorems": [
    "Stfx.Main.C43_refuted",
    "Stfx.Main.C43_nIni_partial",
    "Stfx.Main.C43_first_run"
   ],
   "note": "false for members given up as unknown in an earlier run; as stated for first runs"
  },
  {
   "property": "C44",
   "status": "proved",
   "theorems": [
    "Stfx.Main.C44_run",
    "Stfx.Main.C44_group"
   ],
   "note": ""
  },
  {
   "property": "C47",
   "status": "proved",
   "theorems": [
    "Stfx.Main.C47_xml_result"
   ],
   "note": ""
  },
  {
   "property": "C26",
   "status": "proved",
   "theorems": [
    "Stfx.Run.C26_round_trip"
   ],
   "note": ""
  },
  {
   "property": "C27",
   "status": "proved",
   "theorems": [
    "Stfx.Run.C27_undeclared"
   ],
   "note": "for values the enum type can hold (an unscoped enum can not hold every int)"
  },
  {
   "property": "C28",
   "status": "proved",
   "theorems": [
    "Stfx.Run.C28_true_iff",
    "Stfx.Run.C28_unchanged",
    "Stfx.Run.C28_number"
   ],
   "note": "C28_number covers the remaining strings, which start with an int"
  },
  {
   "property": "C29",
   "status": "proved",
   "theorems": [
    "Stfx.Run.C29_injective"
   ],
   "note": ""
  },
  {
   "property": "C30",
   "status": "partial",
   "theorems": [
    "Stfx.Run.C30_refuted",
    "Stfx.Run.C30_attrib_full_partial",
    "Stfx.Run.C30_attrib_full_default_partial",
    "Stfx.Run.C30_exact_partial",
    "Stfx.Run.C30_too_deep"
   ],
   "note": "false as stated: carriage returns become newlines; floating point values and deep nesting depend on tinyxml2. Proved from the header text on, for strings without carriage return and floating point values that survive their text, any target with empty vectors"
  },
  {
   "property": "C31",
   "status": "partial",
   "theorems": [
    "Stfx.Run.C31_refuted",
    "Stfx.Run.C31_refuted_uninitialised",
    "Stfx.Run.C31_refuted_struct_initialiser",
    "Stfx.Run.C31_attrib_delta_partial",
    "Stfx.Run.C31_exact_partial"
   ],
   "note": "false as stated: short and long members equal to their default are read from an uninitialised variable; members without initialiser; struct members with initialiser. Proved without these"
  },
  {
   "property": "C32",
   "status": "partial",
   "theorems": [
    "Stfx.Run.C32_refuted",
    "Stfx.Run.C32_element_full_partial",
    "Stfx.Run.C32_element_full_default_partial",
    "Stfx.Run.C32_exact_partial"
   ],
   "note": "false as stated: strings of white space are lost. Proved for strings with another character or equal to the default"
  },
  {
   "property": "C33",
   "status": "partial",
   "theorems": [
    "Stfx.Run.C33_refuted",
    "Stfx.Run.C33_refuted_uninitialised",
    "Stfx.Run.C33_element_delta_partial",
    "Stfx.Run.C33_exact_partial"
   ],
   "note": "false as stated: struct members with initialiser, members without. Proved without these"
  },
  {
   "property": "C34",
   "status": "partial",
   "theorems": [
    "Stfx.Run.C34_refuted",
    "Stfx.Run.C34_missing_kept_partial",
    "Stfx.Run.C34_removed_partial",
    "Stfx.Run.C34_removed_element"
   ],
   "note": "false as stated: in attribute XML a missing short or long attribute makes the reader assign an uninitialised variable. Proved for element XML and for all other members of attribute XML, at every depth"
  },
  {
   "property": "C35",
   "status": "proved",
   "theorems": [
    "Stfx.Run.C35_appended",
    "Stfx.Run.C35_doubled"
   ],
   "note": ""
  },
  {
   "property": "C36",
   "status": "proved",
   "theorems": [
    "Stfx.Run.C36_same",
    "Stfx.Run.C36_members",
    "Stfx.Run.C36_unknown_attribute",
    "Stfx.Run.C36_unknown_child",
    "Stfx.Run.C36_attribute_order"
   ],
   "note": "C36_same: documents that agree on the members, at every depth, are read alike"
  },
  {
   "property": "C37",
   "status": "partial",
   "theorems": [
    "Stfx.Run.C37_refuted",
    "Stfx.Run.C37_delta_partial",
    "Stfx.Run.C37_written"
   ],
   "note": "false only where a default is not initialised, because comparing with it is undefined behaviour; every file that is written contains exactly the differences, and it is written if the defaults are initialised"
  },
  {
   "property": "C38",
   "status": "proved",
   "theorems": [
    "Stfx.Run.C38_long",
    "Stfx.Run.C38_element_long",
    "Stfx.Run.C38_attrib_file"
   ],
   "note": "both directions for every long in every object; C38_element_long: in element XML, reading a long outside the range is undefined behaviour, so nothing comes back"
  },
  {
   "property": "C46",
   "status": "proved",
   "theorems": [
    "Stfx.Run.C46_no_duplicates"
   ],
   "note": "both kinds of XML, full and delta"
  },
  {
   "property": "C39",
   "status": "proved",
   "theorems": [
    "Stfx.Run.C39_injective",
    "Stfx.Run.C39_headings"
   ],
   "note": "paths of any depth; C39_headings: the headings of every written file"
  },
  {
   "property": "C40",
   "status": "partial",
   "theorems": [
    "Stfx.Run.C40_refuted",
    "Stfx.Run.C40_never_read",
    "Stfx.Run.C40_kept_partial"
   ],
   "note": "false: the section of the top struct has an empty name, which no heading can have, so simple and enum members of the top object are never read, whatever the file contains"
  },
  {
   "property": "C41",
   "status": "partial",
   "theorems": [
    "Stfx.Run.C41_refuted",
    "Stfx.Run.C41_refuted_lone",
    "Stfx.Run.C41_refuted_return",
    "Stfx.Run.C41_full_partial",
    "Stfx.Run.C41_delta_partial",
    "Stfx.Run.C41_injection",
    "Stfx.Run.C41_long_line"
   ],
   "note": "false as stated: enum members after a struct member or without a simple member next to them are lost, strings are cut at carriage returns. Proved without these, for lines up to 78 characters, any target, any reader state, any depth"
  },
  {
   "property": "C45",
   "status": "partial",
   "theorems": [
    "Stfx.Run.C45_refuted",
    "Stfx.Run.C45_full_partial",
    "Stfx.Run.C45_delta_partial",
    "Stfx.Run.C45_exact_partial",
    "Stfx.Run.C45_load"
   ],
   "note": "false as stated: carriage returns (and NUL) in strings do not survive XML; C45_exact_partial: exactly these do not. C45_load: what any .stfx file gives"
  },
  {
   "property": "C48",
   "status": "proved",
   "theorems": [
    "Stfx.Run.C48_typed"
   ],
   "note": ""
  },
  {
   "property": "C49",
   "status": "partial",
   "theorems": [
    "Stfx.Run.C49_refuted_rootless",
    "Stfx.Run.C49_refuted_number",
    "Stfx.Run.C49_refuted_missing",
    "Stfx.Run.C49_refuted_empty",
    "Stfx.Run.C49_defined_partial"
   ],
   "note": "false: document without root element, numbers that do not fit, missing or empty values of short and long members. Defined for all other files of schemas without such members"
  },
  {
   "property": "C50",
   "status": "proved",
   "theorems": [
    "Stfx.Run.C50_config",
    "Stfx.Run.C50_header"
   ],
   "note": "both modes; files overwritten later in the same run are excepted"
  },
  {
   "property": "C51",
   "status": "partial",
   "theorems": [
    "Stfx.Run.C51_refuted",
    "Stfx.Run.C51_exact",
    "Stfx.Run.C51_partial"
   ],
   "note": "false: the result of the last struct member replaces the results of those before it. C51_exact: exactly which bad values are reported; C51_partial: for structs with at most one struct member each"
  },
  {
   "property": "C52",
   "status": "proved",
   "theorems": [
    "Stfx.Run.C52_typed"
   ],
   "note": ""
  },
  {
   "property": "C53",
   "status": "partial",
   "theorems": [
    "Stfx.Run.C53_refuted",
    "Stfx.Run.C53_partial",
    "Stfx.Run.C53_scoped_partial"
   ],
   "note": "false: a number for an unscoped enum that can not hold it. Defined for all other files, and for all files if all enums are scoped"
  },
  {
   "property": "C54",
   "status": "partial",
   "theorems": [
    "Stfx.Run.C54_refuted",
    "Stfx.Run.C54_refuted_enum",
    "Stfx.Run.C54_partial",
    "Stfx.Run.C54_kept",
    "Stfx.Run.C54_exact"
   ],
   "note": "false: a bad value keeps later members and nested structs from being read; enum members without a simple member next to them are never read. C54_exact: exactly what is read from any file"
  },
  {
   "property": "C55",
   "status": "partial",
   "theorems": [
    "Stfx.Run.C55_refuted_short",
    "Stfx.Run.C55_refuted_unsigned",
    "Stfx.Run.C55_partial",
    "Stfx.Run.C55_refused"
   ],
   "note": "false: 70000 for a short gives 4464, -1 for an unsigned int gives 4294967295. True for int and long; others are reduced to their range"
  },
  {
   "property": "C56",
   "status": "partial",
   "theorems": [
    "Stfx.Run.C56_refuted",
    "Stfx.Run.C56_partial",
    "Stfx.Run.C56_closed_partial"
   ],
   "note": "false: a multi-line item at the end of a file is lost. True for all other entries"
  },
  {
   "property": "C57",
   "status": "partial",
   "theorems": [
    "Stfx.Run.C57_refuted",
    "Stfx.Run.C57_sections",
    "Stfx.Run.C57_partial"
   ],
   "note": "false: sections of earlier files remain. C57_sections: exactly what the reader knows after a file"
  },
  {
   "property": "C58",
   "status": "proved",
   "theorems": [
    "Stfx.Lexer.C58_buffer",
    "Stfx.Lexer.C58_calls",
    "Stfx.Lexer.C58_code"
   ],
   "note": "for every reader which delivers at least one character if there is one; sizes do not overflow int"
  },
  {
   "property": "C59",
   "status": "partial",
   "theorems": [
    "Stfx.Cpp.C59_refuted",
    "Stfx.Cpp.C59_partial",
    "Stfx.Cpp.C59_lenient",
    "Stfx.Cpp.C59_rejected",
    "Stfx.Cpp.C59_enums"
   ],
   "note": "false for attribute XML readers with unsigned short or unsigned long members: `unsigned short(i)` is not C++ (C59_refuted, C59_rejected: exactly these files are rejected); all other files parse to the intended definitions; names are assumed to be identifiers and no keywords"
  },
  {
   "property": "C60",
   "status": "partial",
   "theorems": [
    "Stfx.Cpp.C60_refuted",
    "Stfx.Cpp.C60_wrong_name",
    "Stfx.Cpp.C60_to_itself",
    "Stfx.Cpp.C60_from_partial",
    "Stfx.Cpp.C60_to_partial",
    "Stfx.Cpp.C60_trip_partial"
   ],
   "note": "false: an unscoped enumerator named e is hidden by the parameter e, so s_from_e gives wrong names and s_to_e assigns the target its own value. Proved for all enums whose names and unscoped enumerators are not hidden by variables of the two functions"
  },
  {
   "property": "C61",
   "status": "partial",
   "theorems": [
    "Stfx.Cpp.C61_refuted",
    "Stfx.Cpp.C61_struct_el",
    "Stfx.Cpp.C61_struct_do",
    "Stfx.Cpp.C61_read_partial",
    "Stfx.Cpp.C61_typed_partial",
    "Stfx.Cpp.C61_unloaded_partial"
   ],
   "note": "false: a struct named el is hidden by the parameter el, a struct do_a by the function which reads the struct a; the generated class is no C++ then. Proved for all other names (ReaderClear)"
  },
  {
   "property": "C62",
   "status": "partial",
   "theorems": [
    "Stfx.Cpp.C62_refuted",
    "Stfx.Cpp.C62_struct_do_wr",
    "Stfx.Cpp.C62_refuted_long",
    "Stfx.Cpp.C62_long",
    "Stfx.Cpp.C62_write_partial",
    "Stfx.Cpp.C62_written_partial",
    "Stfx.Cpp.C62_trip_partial"
   ],
   "note": "false: structs a and do_wr_a hide each other in the generated class; a long of 32 bits has no overload of SetText. Proved for all other names (WriterClear), for long of 64 bits or the attribute form"
  },
  {
   "property": "C63",
   "status": "partial",
   "theorems": [
    "Stfx.Cpp.C63_refuted",
    "Stfx.Cpp.C63_struct_path",
    "Stfx.Cpp.C63_struct_item",
    "Stfx.Cpp.C63_read_partial",
    "Stfx.Cpp.C63_typed_partial",
    "Stfx.Cpp.C63_unopened_partial"
   ],
   "note": "false: a struct named path, data, rv, filename, read_item_S or like a member or function of the generated class is hidden in it. Proved for all other names (IniReaderClear), members not named items or data (NoClash)"
  },
  {
   "property": "C64",
   "status": "partial",
   "theorems": [
    "Stfx.Cpp.C64_refuted",
    "Stfx.Cpp.C64_struct_lower",
    "Stfx.Cpp.C64_write_partial",
    "Stfx.Cpp.C64_written_partial",
    "Stfx.Cpp.C64_trip_partial"
   ],
   "note": "false: a struct named lower_path, path, data, rv, filename, read_item_S or like a member or function of the generated classes is hidden in them. Proved for all other names (IniWriterClear)"
  },
  {
   "property": "C65",
   "status": "proved",
   "theorems": [
    "Stfx.Cpp.C65_structs",
    "Stfx.Cpp.C65_enums"
   ],
   "note": "for all names that are identifiers and no keywords; the .cpp file of C59 by the lenient grammar, or by the strict one where it is C++ (NoShort)"
  },
  {
   "property": "C66",
   "status": "partial",
   "theorems": [
    "Stfx.Cpp.C66_refuted",
    "Stfx.Cpp.C66_struct_el",
    "Stfx.Cpp.C66_xml_reader_partial",
    "Stfx.Cpp.C66_xml_writer_partial",
    "Stfx.Cpp.C66_ini_reader_partial",
    "Stfx.Cpp.C66_ini_writer_partial",
    "Stfx.Cpp.C66_xml_read_partial",
    "Stfx.Cpp.C66_xml_read_writer_partial",
    "Stfx.Cpp.C66_xml_write_partial",
    "Stfx.Cpp.C66_ini_read_partial",
    "Stfx.Cpp.C66_ini_read_writer_partial",
    "Stfx.Cpp.C66_ini_write_partial",
    "Stfx.Cpp.C66_xml_trip_partial",
    "Stfx.Cpp.C66_ini_trip_partial"
   ],
   "note": "false for hidden names, as C61-C64; proved for all other names. Nothing is assumed about the classes or the objects but that the program includes the .h file"
  },
  {
   "property": "C67",
   "status": "partial",
   "theorems": [
    "Stfx.Cpp.C67_load",
    "Stfx.Cpp.C67_only",
    "Stfx.Cpp.C67_main",
    "Stfx.Cpp.C67_trip_partial"
   ],
   "note": "C67_load, C67_only, C67_main: proved for every file. C67_trip_partial: without NUL and carriage return in strings, which XML files do not keep (C45_refuted)"
  },
  {
   "property": "C68",
   "status": "partial",
   "theorems": [
    "Stfx.Cpp.C68_config",
    "Stfx.Cpp.C68_header",
    "Stfx.Cpp.C68_xml_partial",
    "Stfx.Cpp.C68_ini_partial"
   ],
   "note": "C68_config, C68_header: the run, and that programs can be built and are linked with the code of C50. C68_xml_partial, C68_ini_partial: for names not hidden in the generated classes (C61-C64) and objects whose members survive the file (C30-C33, C41); assumed of the names in the headers: no keywords of C++; of the file names: no quotes or backslashes. Refuted as stated by C30-C33, C41, C61-C64"
  },
  {
   "property": "C69",
   "status": "partial",
   "theorems": [
    "Stfx.Cpp.C69_partial",
    "Stfx.Cpp.C69_twice",
    "Stfx.Cpp.C69_refuted"
   ],
   "note": "Refuted as stated (C69_refuted): an enum of the common headers has its functions defined in the enums file of every part that has one (C69_twice). C69_partial: no function is defined twice by parts whose classes have different names and which share no enum, or of which at most one has an enums file"
  },
  {
   "property": "C70",
   "status": "partial",
   "theorems": [
    "Stfx.Cpp.C70_refuted",
    "Stfx.Cpp.C70_pointer",
    "Stfx.Cpp.C70_function",
    "Stfx.Cpp.C70_skipped",
    "Stfx.Cpp.C70_splice",
    "Stfx.Cpp.C70_quotes",
    "Stfx.Cpp.C70_partial",
    "Stfx.Cpp.C70_same_partial",
    "Stfx.Cpp.C70_means",
    "Stfx.Cpp.C70_built",
    "Stfx.Cpp.C70_header_partial"
   ],
   "note": "false: pointers, function declarations, skipped groups, line splices and two strings on a line are read differently, without an error (C70_refuted). C70_partial: the same declarations for all texts in which none of this occurs (plainText); C70_means, C70_built, C70_header_partial: such headers mean in C++ what C30-C68 assume"
  },
  {
   "property": "C71",
   "status": "partial",
   "theorems": [
    "Stfx.Cpp.C71_refuted",
    "Stfx.Cpp.C71_unguarded",
    "Stfx.Cpp.C71_structs_partial",
    "Stfx.Cpp.C71_enums_partial"
   ],
   "note": "false for headers without include guard: C71_unguarded gives the translation unit, in which they occur three times. C71_structs_partial, C71_enums_partial: holds if each header is guarded by #pragma once or #ifndef and its macros are not names used in generated code"
  },
  {
   "property": "C72",
   "status": "partial",
   "theorems": [
    "Stfx.Cpp.C72_refuted",
    "Stfx.Cpp.C72_cstdio",
    "Stfx.Cpp.C72_disabled",
    "Stfx.Cpp.C72_exception",
    "Stfx.Cpp.C72_structs_partial",
    "Stfx.Cpp.C72_xml_partial",
    "Stfx.Cpp.C72_header_partial",
    "Stfx.Cpp.C72_enums_header",
    "Stfx.Cpp.C72_enums_partial"
   ],
   "note": "false: the ini formats use names of <cstdio> without including it (C72_cstdio), the enums .cpp file uses std::exception (C72_exception), and without enum files stfx::s_to_e is not declared (C72_disabled). The other theorems: everything else is declared, in all generated files of all formats"
  },
  {
   "property": "C73",
   "status": "partial",
   "theorems": [
    "Stfx.Main.C73_verdict",
    "Stfx.Main.C73_header",
    "Stfx.Main.C73_config",
    "Stfx.Main.C73_quiet_partial",
    "Stfx.Main.C73_type_name",
    "Stfx.Main.C73_type_partial",
    "Stfx.Main.C73_refuted",
    "Stfx.Main.C73_type_refuted",
    "Stfx.Main.C73_status_refuted"
   ],
   "note": "Texts of all println calls to standard output. C73_verdict: the last message announces the exit status, and only a run that returns announces one. C73_header, C73_config: no message begins like an error or warning iff everything went well (iff in both directions). Refuted as stated: the ini format fails silently, the message about an unsupported type in a group names the type of the common output, and errors are reported in runs with exit status 0. Standard error is the subject of C74, what the scanner prints of C76."
  },
  {
   "property": "C74",
   "status": "partial",
   "theorems": [
    "Stfx.Parser.C74_position",
    "Stfx.Parser.C74_message",
    "Stfx.Parser.C74_expected_partial",
    "Stfx.Parser.C74_expected_refuted",
    "Stfx.Parser.C74_file"
   ],
   "note": "C74_position: the error is reported at the first token that can not continue any header (correct prefix property, in spite of default reductions). C74_message: it names the token and at most four others, each of which can follow. C74_file: the line written for a file, with line number and columns. Refuted: that all tokens that can follow are listed (enum E { A ; lists only }); C74_expected_partial says in which two situations tokens are missing from the list."
  },
  {
   "property": "C75",
   "status": "partial",
   "theorems": [
    "Stfx.Lexer.C75_exact",
    "Stfx.Lexer.C75_iff",
    "Stfx.Lexer.C75_at_most",
    "Stfx.Lexer.C75_column_partial",
    "Stfx.Lexer.C75_refuted"
   ],
   "note": "C75_exact: what the column is (comment brackets and unmatched characters are not counted); C75_iff: exactly when it is right. Refuted as stated by a comment in front of the token; C75_column_partial: it is right if only letters, digits, underscores, blanks, tabs and {}=,;<> stand before the token on the line."
  },
  {
   "property": "C76",
   "status": "proved",
   "theorems": [
    "Stfx.Parser.C76_file",
    "Stfx.Parser.C76_directive",
    "Stfx.Parser.C76_character",
    "Stfx.Parser.C76_silent",
    "Stfx.Parser.C76_quiet"
   ],
   "note": "What the scanner prints (printf of rule 6, ECHO of the default rule) during the parse of a file; the text of a directive is printed up to its first null character. The relative order of these texts and those of C73 is not modelled."
  },
  {
   "property": "C77",
   "status": "partial",
   "theorems": [
    "Stfx.Main.C77_inputs",
    "Stfx.Main.C77_tokens",
    "Stfx.Main.C77_again",
    "Stfx.Main.C77_repeat_partial",
    "Stfx.Main.C77_refuted",
    "Stfx.Main.C77_config_refuted"
   ],
   "note": "C77_inputs is proved as stated (two runs on file systems that agree on the files to be read), C77_tokens more generally for headers with the same tokens. Running again is refuted as stated: stfx enums.h overwrites its own input, and so can a configuration; C77_again and C77_repeat_partial: it holds if the run leaves its inputs as they were, in particular if no output file is an input file. The answers of the operating system and the build time stamp are the same in both runs."
  },
  {
   "property": "C78",
   "status": "partial",
   "theorems": [
    "Stfx.Run.Carried.unique",
    "Stfx.Run.C78_full_partial",
    "Stfx.Run.C78_element_partial",
    "Stfx.Run.C78_default_partial",
    "Stfx.Run.C78_attrib_refuted",
    "Stfx.Run.C78_delta_refuted",
    "Stfx.Run.C78_element_refuted"
   ],
   "note": "Refuted as stated: an added short or long member makes reading an old attribute XML file undefined behaviour (C78_attrib_refuted); a changed default changes what old delta files (C78_delta_refuted) and white-space strings in full element files (C78_element_refuted) mean. Proved for full files and any target object (C78_full_partial; C78_element_partial without conditions on added members) for objects of values that survive C30/C32, and for full and delta files read into a default object if the defaults of common members are kept (C78_default_partial). Carried.unique: the object asked for is determined."
  },
  {
   "property": "C79",
   "status": "partial",
   "theorems": [
    "Stfx.Run.C79_full_partial",
    "Stfx.Run.C79_delta_partial",
    "Stfx.Run.C79_enum_refuted",
    "Stfx.Run.C79_delta_refuted"
   ],
   "note": "Refuted as stated: an enum member whose struct has lost its simple members is not read from old files (C79_enum_refuted); a changed default changes what old delta files mean (C79_delta_refuted). Proved for full files and any target object if in the new headers every struct with enum members has a simple member (C79_full_partial), and for delta files read into a default object if the defaults of common members are kept (C79_delta_partial); the objects are those C41 covers, long may get wider."
  },
  {
   "property": "C80",
   "status": "proved",
   "theorems": [
    "Stfx.Parser.C80_lifetime"
   ],
   "note": "The parser once more with raw buffers and a count of the objects alive. An object made in a buffer that still holds one would be left at the end, so that the count would not be 0 again. Exceptions (allocation failure) are not modelled."
  },
  {
   "property": "C81",
   "status": "partial",
   "theorems": [
    "Stfx.Main.C81_tokens",
    "Stfx.Main.C81_run",
    "Stfx.Main.C81_ini_partial",
    "Stfx.Main.C81_ini_exact",
    "Stfx.Main.C81_ini_refuted"
   ],
   "note": "Headers and runs as stated, without conditions. n_ini files: proved if no line begins with a blank and the lines have at most 77 characters; refuted for multi-line strings, which get a carriage return at the end of each line (C81_ini_exact says exactly what the items are then). Files are read without translation of line ends, as on POSIX."
  },
  {
   "property": "C82",
   "status": "partial",
   "theorems": [
    "Stfx.Run.C82_ini",
    "Stfx.Run.C82_xml",
    "Stfx.Run.C82_xml_partial",
    "Stfx.Run.C82_xml_refuted",
    "Stfx.Cpp.C82_ini_text_partial",
    "Stfx.Cpp.C82_xml_text_partial"
   ],
   "note": "n_ini: as stated, also when the file has bad items (C82_ini). XML: refuted for vectors (C82_xml_refuted); C82_xml: the second reading succeeds too and gives the same object but for the vectors, which have the new elements twice; C82_xml_partial: as stated if no struct has a vector. C82_ini_text_partial, C82_xml_text_partial: the same for the text of the generated files, run as C++ (C61, C63)."
  },
  {
   "property": "C83",
   "status": "partial",
   "theorems": [
    "Stfx.Run.C83_local",
    "Stfx.Run.C83_add",
    "Stfx.Run.C83_enum",
    "Stfx.Run.C83_entry_partial",
    "Stfx.Run.C83_entry_refuted"
   ],
   "note": "Reader, writer and conversion functions as stated (C83_local, C83_add, C83_enum). File entry points: refuted, a struct loses them if an added struct uses it; C83_entry_partial: exactly then."
  },
  {
   "property": "C84",
   "status": "proved",
   "theorems": [
    "Stfx.Main.C84_parts",
    "Stfx.Main.C84_order",
    "Stfx.Main.C84_run",
    "Stfx.Main.C84_reads",
    "Stfx.Main.C84_header",
    "Stfx.Main.C84_config"
   ],
   "note": "C84_parts, C84_order: one call of process_input_file. C84_run, C84_reads, C84_header, C84_config: whole runs. The scanner prints with printf and std::cout, the program with fmt::println; std::cout and stdout are taken to be synchronised (the default). Standard error is not part of the statement."
  },
  {
   "property": "C85",
   "status": "proved",
   "theorems": [
    "Stfx.Main.C85_tokens",
    "Stfx.Main.C85_files",
    "Stfx.Main.C85_run"
   ],
   "note": "C85_tokens: the tokens; C85_files: the tables; C85_run: a run for a configuration. Examples show that the hypotheses about the seam (newline, closed comments, both texts headers) are needed. Standard output is not part of the statement."
  },
  {
   "property": "C86",
   "status": "proved",
   "theorems": [
    "Stfx.Run.C86_same",
    "Stfx.Run.C86_order",
    "Stfx.Run.C86_unknown_section",
    "Stfx.Run.C86_unknown_item"
   ],
   "note": "C86_same: all files. C86_order, C86_unknown_section, C86_unknown_item: files of sections (Sections); multi-line items may not be the last of the file, where they get lost (C56_refuted)."
  },
  {
   "property": "C87",
   "status": "proved",
   "theorems": [
    "Stfx.Main.C87_run"
   ],
   "note": "All runs, header and configuration mode. Standard output, which starts with the time stamp (C73), is not part of the statement."
  },
  {
   "property": "C88",
   "status": "partial",
   "theorems": [
    "Stfx.Cpp.C88_ini_partial",
    "Stfx.Cpp.C88_xml_partial"
   ],
   "note": "For names not hidden in the generated classes (C61, C63, C66), and std::stof, std::stod, tinyxml2 that give bit patterns of floating point numbers; for n_ini no simple or enum member named items or data (else the generated code does not compile)."
  },
  {
   "property": "C89",
   "status": "partial",
   "theorems": [
    "Stfx.Cpp.C89_xml_partial",
    "Stfx.Cpp.C89_xml_default_partial",
    "Stfx.Cpp.C89_ini_partial",
    "Stfx.Cpp.C89_ini_default_partial"
   ],
   "note": "For names not hidden in the generated classes (C61-C64) and the changes and objects of C78 and C79; refuted as stated by C78_attrib_refuted, C78_delta_refuted and the others there. C89_xml_partial, C89_ini_partial: files with all members, read into any object; C89_xml_default_partial, C89_ini_default_partial: files without the defaults, read into a new object."
  }
 ]
}