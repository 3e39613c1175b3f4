import Verif.Text
/-
Generated by tools/templates.py from the fmt::println calls of the generators in /repo/src/creation.
Every call that writes to an output file is one definition: the text written (with the newline that
println adds) as a function of the fmt arguments.
-/
namespace Stfx.Gen.T

/-- process_items.cpp:87, to f_cpp, arguments `out_filename_cpp`. -/
def base87 (a0 : Str) : Str :=
  c!"// " ++
  a0 ++
  c!"\n"

/-- process_items.cpp:88, to f_cpp, arguments `m_stfx_info`. -/
def base88 (a0 : Str) : Str :=
  a0 ++
  c!"\n"

/-- process_items.cpp:89, to f_cpp, arguments `out_filename_h`. -/
def base89 (a0 : Str) : Str :=
  c!"#include \"" ++
  a0 ++
  c!"\"\n\n"

/-- process_items.cpp:90, to f_cpp. -/
def base90 : Str :=
  c!"#include <string>\n#include <map>\n\n"

/-- process_items.cpp:93, to f_cpp, arguments `in_filename`. -/
def base93 (a0 : Str) : Str :=
  c!"#include \"" ++
  a0 ++
  c!"\"\n"

/-- process_items.cpp:95, to f_cpp. -/
def base95 : Str :=
  c!"\n"

/-- process_items.cpp:97, to f_h, arguments `out_filename_h`. -/
def base97 (a0 : Str) : Str :=
  c!"// " ++
  a0 ++
  c!"\n"

/-- process_items.cpp:98, to f_h, arguments `m_stfx_info`. -/
def base98 (a0 : Str) : Str :=
  a0 ++
  c!"\n"

/-- process_items.cpp:99, to f_h. -/
def base99 : Str :=
  c!"#pragma once\n\n"

/-- process_items.cpp:100, to f_h. -/
def base100 : Str :=
  c!"#include <string>\n"

/-- process_items.cpp:101, to f_h. -/
def base101 : Str :=
  c!"#include <fmt/format.h>\n\n"

/-- process_items.cpp:104, to f_h, arguments `in_filename`. -/
def base104 (a0 : Str) : Str :=
  c!"#include \"" ++
  a0 ++
  c!"\"\n"

/-- process_items.cpp:106, to f_h. -/
def base106 : Str :=
  c!"\n"

/-- process_items.cpp:107, to f_h. -/
def base107 : Str :=
  c!"namespace stfx\n\t{\n"

/-- process_items.cpp:115, to f_h. -/
def base115 : Str :=
  c!"\t};\n"

/-- process_items.cpp:144, to out_file_h, arguments `the_enum.name`. -/
def base144 (a0 : Str) : Str :=
  c!"\tconst std::string s_from_e(" ++
  a0 ++
  c!" e);\n"

/-- process_items.cpp:146, to out_file_cpp, arguments `the_enum.name`. -/
def base146 (a0 : Str) : Str :=
  c!"const std::string stfx::s_from_e(" ++
  a0 ++
  c!" e)\n\t{\n"

/-- process_items.cpp:148, to out_file_cpp, arguments `the_enum.name`. -/
def base148 (a0 : Str) : Str :=
  c!"\tstd::map < " ++
  a0 ++
  c!", std::string > " ++
  a0 ++
  c!"_to_string =\n\t\t{\n"

/-- process_items.cpp:154, to out_file_cpp, arguments `the_enum.name`, `ent.name`. -/
def base154 (a0 a1 : Str) : Str :=
  c!"\t\t\t{ " ++
  a0 ++
  c!"::" ++
  a1 ++
  c!", \"" ++
  a1 ++
  c!"\" },\n"

/-- process_items.cpp:158, to out_file_cpp, arguments `ent.name`. -/
def base158 (a0 : Str) : Str :=
  c!"\t\t\t{ " ++
  a0 ++
  c!", \"" ++
  a0 ++
  c!"\" },\n"

/-- process_items.cpp:161, to out_file_cpp. -/
def base161 : Str :=
  c!"\t\t};\n"

/-- process_items.cpp:162, to out_file_cpp, arguments `the_enum.name`. -/
def base162 (a0 : Str) : Str :=
  c!"\tstd::string rv = (" ++
  a0 ++
  c!"_to_string.find(e) != " ++
  a0 ++
  c!"_to_string.end()) ? " ++
  a0 ++
  c!"_to_string[e] : std::to_string(int(e));\n"

/-- process_items.cpp:163, to out_file_cpp. -/
def base163 : Str :=
  c!"\treturn rv;\n\t};\n\n"

/-- process_items.cpp:167, to out_file_h, arguments `the_enum.name`. -/
def base167 (a0 : Str) : Str :=
  c!"\tbool s_to_e(std::string s, " ++
  a0 ++
  c!" &e);\n"

/-- process_items.cpp:169, to out_file_cpp, arguments `the_enum.name`. -/
def base169 (a0 : Str) : Str :=
  c!"bool stfx::s_to_e(std::string s, " ++
  a0 ++
  c!" &e)\n\t{\n"

/-- process_items.cpp:170, to out_file_cpp. -/
def base170 : Str :=
  c!"\tbool rv {false};\n\n"

/-- process_items.cpp:172, to out_file_cpp, arguments `the_enum.name`. -/
def base172 (a0 : Str) : Str :=
  c!"\tstd::map < std::string, " ++
  a0 ++
  c!" > string_to_" ++
  a0 ++
  c!" =\n\t\t{\n"

/-- process_items.cpp:178, to out_file_cpp, arguments `the_enum.name`, `ent.name`. -/
def base178 (a0 a1 : Str) : Str :=
  c!"\t\t\t{ \"" ++
  a1 ++
  c!"\", " ++
  a0 ++
  c!"::" ++
  a1 ++
  c!" },\n"

/-- process_items.cpp:182, to out_file_cpp, arguments `ent.name`. -/
def base182 (a0 : Str) : Str :=
  c!"\t\t\t{ \"" ++
  a0 ++
  c!"\", " ++
  a0 ++
  c!" },\n"

/-- process_items.cpp:185, to out_file_cpp. -/
def base185 : Str :=
  c!"\t\t};\n"

/-- process_items.cpp:186-204, to out_file_cpp, arguments `the_enum.name`. -/
def base186 (a0 : Str) : Str :=
  c!"\tif(string_to_" ++
  a0 ++
  c!".find(s) != string_to_" ++
  a0 ++
  c!".end())\n\t\t{\n\t\te = string_to_" ++
  a0 ++
  c!"[s];\n\t\trv = true;\n\t\t}\n\telse\n\t\t{\n\t\ttry\n\t\t\t{\n\t\t\tint " ++
  c!"i = std::stoi(s);\t\t// just in case the value of en" ++
  c!"um has been given\n\t\t\te = " ++
  a0 ++
  c!"(i);\n\t\t\t}\n\t\tcatch (std::exception &)\n\t\t\t{\n\t\t\t// un" ++
  c!"expected string, will just be ignored (for now!).." ++
  c!". This *COULD* throw an exception .. \n\t\t\t}\n\t\t// no" ++
  c!"te rv NOT set to true ! \n\t\t}\n"

/-- process_items.cpp:206, to out_file_cpp. -/
def base206 : Str :=
  c!"\treturn rv;\n\t};\n\n"

/-- process_items.cpp:212-224, to out_file_h, arguments `the_enum.name`. -/
def base212 (a0 : Str) : Str :=
  c!"\ntemplate <> struct fmt::formatter < " ++
  a0 ++
  c!" > : formatter<string_view>\n\t{\n\ttemplate <typename" ++
  c!" FormatContext>\n\tauto format(" ++
  a0 ++
  c!" c, FormatContext& ctx) const\n\t\t{\n\t\tstd::string st" ++
  c!"r = stfx::s_from_e(c);\n\t\tstring_view name = str;\n\t" ++
  c!"\treturn formatter<string_view>::format(name, ctx);" ++
  c!"\n\t\t}\n\t};\n"

/-- xml/process_items_xml.cpp:50, to f_cpp, arguments `out_filename_cpp`. -/
def xml50 (a0 : Str) : Str :=
  c!"// " ++
  a0 ++
  c!"\n"

/-- xml/process_items_xml.cpp:51, to f_cpp, arguments `m_stfx_info`. -/
def xml51 (a0 : Str) : Str :=
  a0 ++
  c!"\n"

/-- xml/process_items_xml.cpp:52, to f_cpp, arguments `out_filename_h`. -/
def xml52 (a0 : Str) : Str :=
  c!"#include \"" ++
  a0 ++
  c!"\"\n\n"

/-- xml/process_items_xml.cpp:53-55, to f_cpp. -/
def xml53 : Str :=
  c!"#include <string>\n#include <map>\n#include <stdexce" ++
  c!"pt>\n"

/-- xml/process_items_xml.cpp:56-57, to f_cpp. -/
def xml56 : Str :=
  c!"#include <tinyxml2.h>\n#include <tixml2ex.h>\n\n"

/-- xml/process_items_xml.cpp:60, to f_cpp. -/
def xml60 : Str :=
  c!"// not including blank enum file\n"

/-- xml/process_items_xml.cpp:64, to f_cpp, arguments `enums_filename_h`. -/
def xml64 (a0 : Str) : Str :=
  c!"#include \"" ++
  a0 ++
  c!"\"\n"

/-- xml/process_items_xml.cpp:68, to f_cpp, arguments `in_filename`. -/
def xml68 (a0 : Str) : Str :=
  c!"#include \"" ++
  a0 ++
  c!"\"\n"

/-- xml/process_items_xml.cpp:71, to f_h, arguments `out_filename_h`. -/
def xml71 (a0 : Str) : Str :=
  c!"// " ++
  a0 ++
  c!"\n"

/-- xml/process_items_xml.cpp:72, to f_h, arguments `m_stfx_info`. -/
def xml72 (a0 : Str) : Str :=
  a0 ++
  c!"\n"

/-- xml/process_items_xml.cpp:74-78, to f_h. -/
def xml74 : Str :=
  c!"#pragma once\n\n#include <string>\n#include <tinyxml2" ++
  c!".h>\n\n"

/-- xml/process_items_xml.cpp:81, to f_h, arguments `in_filename`. -/
def xml81 (a0 : Str) : Str :=
  c!"#include \"" ++
  a0 ++
  c!"\"\n"

/-- xml/process_items_xml.cpp:83, to f_h. -/
def xml83 : Str :=
  c!"\n"

/-- xml/process_items_xml.cpp:87-91, to f_h, arguments `reader_class_name`. -/
def xml87 (a0 : Str) : Str :=
  c!"class " ++
  a0 ++
  c!"\n\t{\n\tpublic:\n\t\t" ++
  a0 ++
  c!"();\n"

/-- xml/process_items_xml.cpp:93-97, to f_cpp, arguments `reader_class_name`. -/
def xml93 (a0 : Str) : Str :=
  c!"\n" ++
  a0 ++
  c!"::" ++
  a0 ++
  c!"()\n\t{\n\t}\n\n"

/-- xml/process_items_xml.cpp:104, to f_h, arguments `s.name`. -/
def xml104 (a0 : Str) : Str :=
  c!"\t\tvirtual bool read_from_file(std::string const &f" ++
  c!"ilename, " ++
  a0 ++
  c!" &struct_to_fill);\n"

/-- xml/process_items_xml.cpp:106-120, to f_cpp, arguments `reader_class_name`, `s.name`. -/
def xml106 (a0 a1 : Str) : Str :=
  c!"bool " ++
  a0 ++
  c!"::read_from_file(std::string const &filename, " ++
  a1 ++
  c!" &struct_to_fill)\n\t{\n\tbool rv{};\n\ttinyxml2::XMLErr" ++
  c!"or er;\n\ttinyxml2::XMLDocument doc;\n\n\ter = doc.Load" ++
  c!"File(filename.c_str());\n\tif (er == tinyxml2::XML_S" ++
  c!"UCCESS)\n\t\t{\n\t\ttinyxml2::XMLElement* el = doc.RootE" ++
  c!"lement();\n\t\trv = do_" ++
  a1 ++
  c!"(el, &struct_to_fill);\n\t\t}\n\treturn rv;\n\t}\n\n"

/-- xml/process_items_xml.cpp:124, to f_h. -/
def xml124 : Str :=
  c!"\tprotected:\n"

/-- xml/process_items_xml.cpp:132-133, to f_h. -/
def xml132 : Str :=
  c!"\t};\n\n"

/-- xml/process_items_xml.cpp:134-135, to f_cpp. -/
def xml134 : Str :=
  c!"\n\n"

/-- xml/process_items_xml.cpp:140-147, to f_h, arguments `writer_class_name`, `reader_class_name`. -/
def xml140 (a0 a1 : Str) : Str :=
  c!"class " ++
  a0 ++
  c!" : public " ++
  a1 ++
  c!"\n\t{\n\tprivate:\n\t\tbool m_delta_only {};\n\tpublic:\n\t\t" ++
  a0 ++
  c!"(bool delta_only = true);\n"

/-- xml/process_items_xml.cpp:149-155, to f_cpp, arguments `writer_class_name`, `reader_class_name`. -/
def xml149 (a0 a1 : Str) : Str :=
  c!"\n" ++
  a0 ++
  c!"::" ++
  a0 ++
  c!"(bool delta_only) : " ++
  a1 ++
  c!"()\n{\n\tm_delta_only = delta_only;\n}\n\n"

/-- xml/process_items_xml.cpp:162, to f_h, arguments `s.name`. -/
def xml162 (a0 : Str) : Str :=
  c!"\t\tvirtual bool write_to_file(std::string const &fi" ++
  c!"lename, " ++
  a0 ++
  c!" &struct_to_read);\n"

/-- xml/process_items_xml.cpp:164-177, to f_cpp, arguments `writer_class_name`, `s.name`. -/
def xml164 (a0 a1 : Str) : Str :=
  c!"bool " ++
  a0 ++
  c!"::write_to_file(std::string const &filename, " ++
  a1 ++
  c!" &struct_to_read)\n\t{\n\tbool rv{};\n\ttinyxml2::XMLErr" ++
  c!"or er;\n\ttinyxml2::XMLDocument doc_w;\n\tauto ch = do" ++
  c!"c_w.NewElement(\"" ++
  a1 ++
  c!"\");\n\tdoc_w.InsertFirstChild(ch);\n\ttinyxml2::XMLEle" ++
  c!"ment * el = doc_w.RootElement();\n\tdo_wr_" ++
  a1 ++
  c!"(el, &struct_to_read);\n\ter = doc_w.SaveFile(filena" ++
  c!"me.c_str());\n\trv = (er == tinyxml2::XML_SUCCESS);\n" ++
  c!"\treturn rv;\n\t}\n\n"

/-- xml/process_items_xml.cpp:181, to f_h. -/
def xml181 : Str :=
  c!"\tprotected:\n"

/-- xml/process_items_xml.cpp:189-190, to f_h. -/
def xml189 : Str :=
  c!"\t};\n"

/-- xml/process_items_xml.cpp:191-192, to f_cpp. -/
def xml191 : Str :=
  c!"\n\n"

/-- xml/process_items_xml.cpp:217, to out_file_h, arguments `s.name`. -/
def xml217 (a0 : Str) : Str :=
  c!"\t\tbool do_" ++
  a0 ++
  c!"(tinyxml2::XMLElement *el, " ++
  a0 ++
  c!" *data);\n"

/-- xml/process_items_xml.cpp:219-224, to out_file_cpp, arguments `class_name`, `s.name`. -/
def xml219 (a0 a1 : Str) : Str :=
  c!"bool " ++
  a0 ++
  c!"::do_" ++
  a1 ++
  c!"(tinyxml2::XMLElement *el, " ++
  a1 ++
  c!" *data)\n\t{\n\ttinyxml2::XMLElement *ch_el;\n\n"

/-- xml/process_items_xml.cpp:225, to out_file_cpp. -/
def xml225 : Str :=
  c!"\tbool rv = true;\n"

/-- xml/process_items_xml.cpp:232-236, to out_file_cpp, arguments `sim.name`. -/
def xml232 (a0 : Str) : Str :=
  c!"\tch_el = find_element(el, \"" ++
  a0 ++
  c!"\");\n\tif(ch_el != nullptr)\n\t\tch_el->QueryBoolText(&" ++
  c!"data->" ++
  a0 ++
  c!");\n"

/-- xml/process_items_xml.cpp:239-243, to out_file_cpp, arguments `sim.name`. -/
def xml239 (a0 : Str) : Str :=
  c!"\tch_el = find_element(el, \"" ++
  a0 ++
  c!"\");\n\tif(ch_el != nullptr)\n\t\tch_el->QueryIntText(&d" ++
  c!"ata->" ++
  a0 ++
  c!");\n"

/-- xml/process_items_xml.cpp:246-250, to out_file_cpp, arguments `sim.name`. -/
def xml246 (a0 : Str) : Str :=
  c!"\tch_el = find_element(el, \"" ++
  a0 ++
  c!"\");\n\tif(ch_el != nullptr)\n\t\tch_el->QueryUnsignedTe" ++
  c!"xt(&data->" ++
  a0 ++
  c!");\n"

/-- xml/process_items_xml.cpp:253-257, to out_file_cpp, arguments `sim.name`. -/
def xml253 (a0 : Str) : Str :=
  c!"\tch_el = find_element(el, \"" ++
  a0 ++
  c!"\");\n\tif(ch_el != nullptr)\n\t\tch_el->QueryFloatText(" ++
  c!"&data->" ++
  a0 ++
  c!");\n"

/-- xml/process_items_xml.cpp:260-264, to out_file_cpp, arguments `sim.name`. -/
def xml260 (a0 : Str) : Str :=
  c!"\tch_el = find_element(el, \"" ++
  a0 ++
  c!"\");\n\tif(ch_el != nullptr)\n\t\tch_el->QueryDoubleText" ++
  c!"(&data->" ++
  a0 ++
  c!");\n"

/-- xml/process_items_xml.cpp:267-275, to out_file_cpp, arguments `sim.name`. -/
def xml267 (a0 : Str) : Str :=
  c!"\tch_el = find_element(el, \"" ++
  a0 ++
  c!"\");\n\tif(ch_el != nullptr)\n\t\t{\n\t\tconst char *pt = c" ++
  c!"h_el->GetText();\n\t\tif(pt != nullptr)\n\t\t\tdata->" ++
  a0 ++
  c!" = pt;\n\t\t}\n"

/-- xml/process_items_xml.cpp:278-286, to out_file_cpp, arguments `sim.name`. -/
def xml278 (a0 : Str) : Str :=
  c!"\tch_el = find_element(el, \"" ++
  a0 ++
  c!"\");\n\tif(ch_el != nullptr)\n\t\t{\n\t\tint i;\n\t\tch_el->Qu" ++
  c!"eryIntText(&i);\n\t\tdata->" ++
  a0 ++
  c!" = (short)i;\n\t\t}\n"

/-- xml/process_items_xml.cpp:289-297, to out_file_cpp, arguments `sim.name`. -/
def xml289 (a0 : Str) : Str :=
  c!"\tch_el = find_element(el, \"" ++
  a0 ++
  c!"\");\n\tif(ch_el != nullptr)\n\t\t{\n\t\tunsigned int ui;\n\t" ++
  c!"\tch_el->QueryUnsignedText(&ui);\n\t\tdata->" ++
  a0 ++
  c!" = (unsigned short)ui;\n\t\t}\n"

/-- xml/process_items_xml.cpp:300-308, to out_file_cpp, arguments `sim.name`. -/
def xml300 (a0 : Str) : Str :=
  c!"\tch_el = find_element(el, \"" ++
  a0 ++
  c!"\");\n\tif(ch_el != nullptr)\n\t\t{\n\t\tint i;\n\t\tch_el->Qu" ++
  c!"eryIntText(&i);\n\t\tdata->" ++
  a0 ++
  c!" = (long)i;\n\t\t}\n"

/-- xml/process_items_xml.cpp:311-319, to out_file_cpp, arguments `sim.name`. -/
def xml311 (a0 : Str) : Str :=
  c!"\tch_el = find_element(el, \"" ++
  a0 ++
  c!"\");\n\tif(ch_el != nullptr)\n\t\t{\n\t\tunsigned int ui;\n\t" ++
  c!"\tch_el->QueryUnsignedText(&ui);\n\t\tdata->" ++
  a0 ++
  c!" = (unsigned long)ui;\n\t\t}\n"

/-- xml/process_items_xml.cpp:322, to out_file_cpp, arguments `sim.name`. -/
def xml322 (a0 : Str) : Str :=
  c!"\t// WARNING FAILED TO PROCESS " ++
  a0 ++
  c!"\n"

/-- xml/process_items_xml.cpp:351-358, to out_file_cpp, arguments `co.name`. -/
def xml351 (a0 : Str) : Str :=
  c!"\tch_el = find_element(el, \"" ++
  a0 ++
  c!"\");\n\tif(ch_el != nullptr)\n\t\t{\n\t\tconst char *pt = c" ++
  c!"h_el->GetText();\n\t\tif(pt != nullptr)\n\t\t\tstfx::s_to" ++
  c!"_e(pt, data->" ++
  a0 ++
  c!");\n\t\t}\n"

/-- xml/process_items_xml.cpp:361-367, to out_file_cpp, arguments `co.name`, `co.type_name`. -/
def xml361 (a0 a1 : Str) : Str :=
  c!"\tch_el = el->FirstChildElement(\"" ++
  a0 ++
  c!"\");\n\tif (ch_el != nullptr)\n\t\t{\n\t\tdo_" ++
  a1 ++
  c!"(ch_el, &data->" ++
  a0 ++
  c!");\n\t\t}\n"

/-- xml/process_items_xml.cpp:370-382, to out_file_cpp, arguments `co.name`, `co.type_name`. -/
def xml370 (a0 a1 : Str) : Str :=
  c!"\tch_el = el->FirstChildElement(\"" ++
  a0 ++
  c!"\");\n\tif (ch_el != nullptr)\n\t\t{\n\t\tfor (auto item : " ++
  c!"ch_el)\n\t\t\t{\n\t\t\t" ++
  a1 ++
  c!" s;\n\t\t\tif (do_" ++
  a1 ++
  c!"(item, &s) == true)\n\t\t\t\t{\n\t\t\t\tdata->" ++
  a0 ++
  c!".push_back(s);\n\t\t\t\t}\n\t\t\t}\n\t\t}\n"

/-- xml/process_items_xml.cpp:385, to out_file_cpp, arguments `co.name`. -/
def xml385 (a0 : Str) : Str :=
  c!"// enum_or_struct_E " ++
  a0 ++
  c!"\t NEEDS TO BE FIXED!!\n"

/-- xml/process_items_xml.cpp:390, to out_file_cpp, arguments `co.name`. -/
def xml390 (a0 : Str) : Str :=
  c!"\t// WARNING FAILED TO PROCESS " ++
  a0 ++
  c!"\n"

/-- xml/process_items_xml.cpp:396-398, to out_file_cpp. -/
def xml396 : Str :=
  c!"\treturn rv;\n\t};\n\n"

/-- xml/process_items_xml.cpp:410, to out_file_h, arguments `s.name`. -/
def xml410 (a0 : Str) : Str :=
  c!"\t\tbool do_wr_" ++
  a0 ++
  c!"(tinyxml2::XMLElement *el, " ++
  a0 ++
  c!" *data);\n"

/-- xml/process_items_xml.cpp:412-416, to out_file_cpp, arguments `class_name`, `s.name`. -/
def xml412 (a0 a1 : Str) : Str :=
  c!"bool " ++
  a0 ++
  c!"::do_wr_" ++
  a1 ++
  c!"(tinyxml2::XMLElement *el, " ++
  a1 ++
  c!" *data)\n\t{\n\ttinyxml2::XMLElement *ch_el;\n\n"

/-- xml/process_items_xml.cpp:417, to out_file_cpp. -/
def xml417 : Str :=
  c!"\tbool rv = true;\n"

/-- xml/process_items_xml.cpp:420, to out_file_cpp, arguments `s.name`. -/
def xml420 (a0 : Str) : Str :=
  c!"\t" ++
  a0 ++
  c!" default_data;\n"

/-- xml/process_items_xml.cpp:437-440, to out_file_cpp, arguments `sim.name`. -/
def xml437 (a0 : Str) : Str :=
  c!"\tch_el = el->InsertNewChildElement(\"" ++
  a0 ++
  c!"\");\n\tch_el->SetText(data->" ++
  a0 ++
  c!");\n"

/-- xml/process_items_xml.cpp:444-450, to out_file_cpp, arguments `sim.name`. -/
def xml444 (a0 : Str) : Str :=
  c!"\tif(m_delta_only == false || data->" ++
  a0 ++
  c!" != default_data." ++
  a0 ++
  c!")\n\t\t{\n\t\tch_el = el->InsertNewChildElement(\"" ++
  a0 ++
  c!"\");\n\t\tch_el->SetText(data->" ++
  a0 ++
  c!");\n\t\t}\n"

/-- xml/process_items_xml.cpp:456-459, to out_file_cpp, arguments `sim.name`. -/
def xml456 (a0 : Str) : Str :=
  c!"\tch_el = el->InsertNewChildElement(\"" ++
  a0 ++
  c!"\");\n\tch_el->SetText(data->" ++
  a0 ++
  c!".c_str());\n"

/-- xml/process_items_xml.cpp:463-469, to out_file_cpp, arguments `sim.name`. -/
def xml463 (a0 : Str) : Str :=
  c!"\tif(m_delta_only == false || data->" ++
  a0 ++
  c!" != default_data." ++
  a0 ++
  c!")\n\t\t{\n\t\tch_el = el->InsertNewChildElement(\"" ++
  a0 ++
  c!"\");\n\t\tch_el->SetText(data->" ++
  a0 ++
  c!".c_str());\n\t\t}\n"

/-- xml/process_items_xml.cpp:475-478, to out_file_cpp, arguments `sim.name`. -/
def xml475 (a0 : Str) : Str :=
  c!"\tch_el = el->InsertNewChildElement(\"" ++
  a0 ++
  c!"\");\n\tch_el->SetText((unsigned)data->" ++
  a0 ++
  c!");\n"

/-- xml/process_items_xml.cpp:482-488, to out_file_cpp, arguments `sim.name`. -/
def xml482 (a0 : Str) : Str :=
  c!"\tif(m_delta_only == false || data->" ++
  a0 ++
  c!" != default_data." ++
  a0 ++
  c!")\n\t\t{\n\t\tch_el = el->InsertNewChildElement(\"" ++
  a0 ++
  c!"\");\n\t\tch_el->SetText((unsigned)data->" ++
  a0 ++
  c!");\n\t\t}\n"

/-- xml/process_items_xml.cpp:493, to out_file_cpp, arguments `sim.name`. -/
def xml493 (a0 : Str) : Str :=
  c!"\t// WARNING FAILED TO PROCESS " ++
  a0 ++
  c!"\n\n"

/-- xml/process_items_xml.cpp:523-526, to out_file_cpp, arguments `co.name`. -/
def xml523 (a0 : Str) : Str :=
  c!"\tch_el = el->InsertNewChildElement(\"" ++
  a0 ++
  c!"\");\n\tch_el->SetText(stfx::s_from_e(data->" ++
  a0 ++
  c!").c_str());\n"

/-- xml/process_items_xml.cpp:530-536, to out_file_cpp, arguments `co.name`. -/
def xml530 (a0 : Str) : Str :=
  c!"\tif(m_delta_only == false || data->" ++
  a0 ++
  c!" != default_data." ++
  a0 ++
  c!")\n\t\t{\n\t\tch_el = el->InsertNewChildElement(\"" ++
  a0 ++
  c!"\");\n\t\tch_el->SetText(stfx::s_from_e(data->" ++
  a0 ++
  c!").c_str());\n\t\t}\n"

/-- xml/process_items_xml.cpp:540-546, to out_file_cpp, arguments `co.name`, `co.type_name`. -/
def xml540 (a0 a1 : Str) : Str :=
  c!"\tch_el = el->InsertNewChildElement(\"" ++
  a0 ++
  c!"\");\n\tif (ch_el != nullptr)\n\t\t{\n\t\tdo_wr_" ++
  a1 ++
  c!"(ch_el, &data->" ++
  a0 ++
  c!");\n\t\t}\n"

/-- xml/process_items_xml.cpp:549-559, to out_file_cpp, arguments `co.name`, `co.type_name`. -/
def xml549 (a0 a1 : Str) : Str :=
  c!"\tch_el = el->InsertNewChildElement(\"" ++
  a0 ++
  c!"\");\n\tif (ch_el != nullptr)\n\t\t{\n\t\tfor (" ++
  a1 ++
  c!" itr : data->" ++
  a0 ++
  c!")\n\t\t\t{\n\t\t\ttinyxml2::XMLElement *ch_ch_el = ch_el->" ++
  c!"InsertNewChildElement(\"" ++
  a1 ++
  c!"\");\n\t\t\tdo_wr_" ++
  a1 ++
  c!"(ch_ch_el, &itr);\n\t\t\t}\n\t\t}\n"

/-- xml/process_items_xml.cpp:562, to out_file_cpp, arguments `co.name`. -/
def xml562 (a0 : Str) : Str :=
  c!"// enum_or_struct_E " ++
  a0 ++
  c!"\t NEEDS TO BE FIXED!!\n"

/-- xml/process_items_xml.cpp:567, to out_file_cpp, arguments `co.name`. -/
def xml567 (a0 : Str) : Str :=
  c!"\t// WARNING FAILED TO PROCESS " ++
  a0 ++
  c!"\n"

/-- xml/process_items_xml.cpp:573-575, to out_file_cpp. -/
def xml573 : Str :=
  c!"\treturn rv;\n\t};\n\n"

/-- xml/process_items_xml_attrib.cpp:20, to out_file_h, arguments `s.name`. -/
def attrib20 (a0 : Str) : Str :=
  c!"\t\tbool do_" ++
  a0 ++
  c!"(tinyxml2::XMLElement *el, " ++
  a0 ++
  c!" *data);\n"

/-- xml/process_items_xml_attrib.cpp:22-25, to out_file_cpp, arguments `class_name`, `s.name`. -/
def attrib22 (a0 a1 : Str) : Str :=
  c!"bool " ++
  a0 ++
  c!"::do_" ++
  a1 ++
  c!"(tinyxml2::XMLElement *el, " ++
  a1 ++
  c!" *data)\n\t{\n"

/-- xml/process_items_xml_attrib.cpp:26, to out_file_cpp. -/
def attrib26 : Str :=
  c!"\tbool rv = true;\n"

/-- xml/process_items_xml_attrib.cpp:37, to out_file_cpp, arguments `sim.name`. -/
def attrib37 (a0 : Str) : Str :=
  c!"\tel->QueryAttribute(\"" ++
  a0 ++
  c!"\", &data->" ++
  a0 ++
  c!");\n"

/-- xml/process_items_xml_attrib.cpp:40-45, to out_file_cpp, arguments `sim.name`. -/
def attrib40 (a0 : Str) : Str :=
  c!"\t\t{\n\t\tconst char *pt;\n\t\tif (tinyxml2::XML_SUCCESS " ++
  c!"== el->QueryAttribute(\"" ++
  a0 ++
  c!"\", &pt))\n\t\t\tdata->" ++
  a0 ++
  c!" = pt;\n\t\t}\n"

/-- xml/process_items_xml_attrib.cpp:48, to out_file_cpp, arguments `sim.name`. -/
def attrib48 (a0 : Str) : Str :=
  c!"\t{ int i; el->QueryIntAttribute(\"" ++
  a0 ++
  c!"\", &i); data->" ++
  a0 ++
  c!" = short(i); }\n"

/-- xml/process_items_xml_attrib.cpp:51, to out_file_cpp, arguments `sim.name`. -/
def attrib51 (a0 : Str) : Str :=
  c!"\t{ unsigned int i; el->QueryUnsignedAttribute(\"" ++
  a0 ++
  c!"\", &i); data->" ++
  a0 ++
  c!" = unsigned short(i); }\n"

/-- xml/process_items_xml_attrib.cpp:54, to out_file_cpp, arguments `sim.name`. -/
def attrib54 (a0 : Str) : Str :=
  c!"\t{ int i; el->QueryIntAttribute(\"" ++
  a0 ++
  c!"\", &i); data->" ++
  a0 ++
  c!" = long(i); }\n"

/-- xml/process_items_xml_attrib.cpp:57, to out_file_cpp, arguments `sim.name`. -/
def attrib57 (a0 : Str) : Str :=
  c!"\t{ unsigned int i; el->QueryUnsignedAttribute(\"" ++
  a0 ++
  c!"\", &i); data->" ++
  a0 ++
  c!" = unsigned long(i); }\n"

/-- xml/process_items_xml_attrib.cpp:60, to out_file_cpp, arguments `sim.name`. -/
def attrib60 (a0 : Str) : Str :=
  c!"\t// WARNING FAILED TO PROCESS " ++
  a0 ++
  c!"\n"

/-- xml/process_items_xml_attrib.cpp:83, to out_file_cpp. -/
def attrib83 : Str :=
  c!"\ttinyxml2::XMLElement *ch_el;\n"

/-- xml/process_items_xml_attrib.cpp:92-97, to out_file_cpp, arguments `co.name`. -/
def attrib92 (a0 : Str) : Str :=
  c!"\t\t{\n\t\tconst char *pt;\n\t\tif (tinyxml2::XML_SUCCESS " ++
  c!"== el->QueryAttribute(\"" ++
  a0 ++
  c!"\", &pt))\n\t\t\tstfx::s_to_e(pt, data->" ++
  a0 ++
  c!");\n\t\t}\n"

/-- xml/process_items_xml_attrib.cpp:100-105, to out_file_cpp, arguments `co.name`, `co.type_name`. -/
def attrib100 (a0 a1 : Str) : Str :=
  c!"\tch_el = el->FirstChildElement(\"" ++
  a0 ++
  c!"\");\n\tif (ch_el != nullptr)\n\t\t{\n\t\tdo_" ++
  a1 ++
  c!"(ch_el, &data->" ++
  a0 ++
  c!");\n\t\t}\n"

/-- xml/process_items_xml_attrib.cpp:108-120, to out_file_cpp, arguments `co.name`, `co.type_name`. -/
def attrib108 (a0 a1 : Str) : Str :=
  c!"\tch_el = el->FirstChildElement(\"" ++
  a0 ++
  c!"\");\n\tif (ch_el != nullptr)\n\t\t{\n\t\tfor (auto item : " ++
  c!"ch_el)\n\t\t\t{\n\t\t\t" ++
  a1 ++
  c!" s;\n\t\t\tif (do_" ++
  a1 ++
  c!"(item, &s) == true)\n\t\t\t\t{\n\t\t\t\tdata->" ++
  a0 ++
  c!".push_back(s);\n\t\t\t\t}\n\t\t\t}\n\t\t}\n"

/-- xml/process_items_xml_attrib.cpp:123, to out_file_cpp, arguments `co.name`. -/
def attrib123 (a0 : Str) : Str :=
  c!"// enum_or_struct_E " ++
  a0 ++
  c!"\t NEEDS TO BE FIXED!!\n"

/-- xml/process_items_xml_attrib.cpp:128, to out_file_cpp, arguments `co.name`. -/
def attrib128 (a0 : Str) : Str :=
  c!"\t// WARNING FAILED TO PROCESS " ++
  a0 ++
  c!"\n"

/-- xml/process_items_xml_attrib.cpp:134-136, to out_file_cpp. -/
def attrib134 : Str :=
  c!"\treturn rv;\n\t};\n\n"

/-- xml/process_items_xml_attrib.cpp:145, to out_file_h, arguments `s.name`. -/
def attrib145 (a0 : Str) : Str :=
  c!"\t\tbool do_wr_" ++
  a0 ++
  c!"(tinyxml2::XMLElement *el, " ++
  a0 ++
  c!" *data);\n"

/-- xml/process_items_xml_attrib.cpp:147-149, to out_file_cpp, arguments `class_name`, `s.name`. -/
def attrib147 (a0 a1 : Str) : Str :=
  c!"bool " ++
  a0 ++
  c!"::do_wr_" ++
  a1 ++
  c!"(tinyxml2::XMLElement *el, " ++
  a1 ++
  c!" *data)\n\t{\n"

/-- xml/process_items_xml_attrib.cpp:150, to out_file_cpp. -/
def attrib150 : Str :=
  c!"\tbool rv = true;\n"

/-- xml/process_items_xml_attrib.cpp:153, to out_file_cpp, arguments `s.name`. -/
def attrib153 (a0 : Str) : Str :=
  c!"\t" ++
  a0 ++
  c!" default_data;\n"

/-- xml/process_items_xml_attrib.cpp:167-168, to out_file_cpp, arguments `sim.name`. -/
def attrib167 (a0 : Str) : Str :=
  c!"\tel->SetAttribute(\"" ++
  a0 ++
  c!"\", data->" ++
  a0 ++
  c!");\n"

/-- xml/process_items_xml_attrib.cpp:172-174, to out_file_cpp, arguments `sim.name`. -/
def attrib172 (a0 : Str) : Str :=
  c!"\tif(m_delta_only == false || data->" ++
  a0 ++
  c!" != default_data." ++
  a0 ++
  c!")\n\t\tel->SetAttribute(\"" ++
  a0 ++
  c!"\", data->" ++
  a0 ++
  c!");\n"

/-- xml/process_items_xml_attrib.cpp:180-181, to out_file_cpp, arguments `sim.name`. -/
def attrib180 (a0 : Str) : Str :=
  c!"\tel->SetAttribute(\"" ++
  a0 ++
  c!"\", data->" ++
  a0 ++
  c!".c_str());\n"

/-- xml/process_items_xml_attrib.cpp:185-187, to out_file_cpp, arguments `sim.name`. -/
def attrib185 (a0 : Str) : Str :=
  c!"\tif(m_delta_only == false || data->" ++
  a0 ++
  c!" != default_data." ++
  a0 ++
  c!")\n\t\tel->SetAttribute(\"" ++
  a0 ++
  c!"\", data->" ++
  a0 ++
  c!".c_str());\n"

/-- xml/process_items_xml_attrib.cpp:194-195, to out_file_cpp, arguments `sim.name`. -/
def attrib194 (a0 : Str) : Str :=
  c!"\tel->SetAttribute(\"" ++
  a0 ++
  c!"\", int(data->" ++
  a0 ++
  c!"));\n"

/-- xml/process_items_xml_attrib.cpp:199-201, to out_file_cpp, arguments `sim.name`. -/
def attrib199 (a0 : Str) : Str :=
  c!"\tif(m_delta_only == false || data->" ++
  a0 ++
  c!" != default_data." ++
  a0 ++
  c!")\n\t\tel->SetAttribute(\"" ++
  a0 ++
  c!"\", int(data->" ++
  a0 ++
  c!"));\n"

/-- xml/process_items_xml_attrib.cpp:208-209, to out_file_cpp, arguments `sim.name`. -/
def attrib208 (a0 : Str) : Str :=
  c!"\tel->SetAttribute(\"" ++
  a0 ++
  c!"\", unsigned(data->" ++
  a0 ++
  c!"));\n"

/-- xml/process_items_xml_attrib.cpp:213-215, to out_file_cpp, arguments `sim.name`. -/
def attrib213 (a0 : Str) : Str :=
  c!"\tif(m_delta_only == false || data->" ++
  a0 ++
  c!" != default_data." ++
  a0 ++
  c!")\n\t\tel->SetAttribute(\"" ++
  a0 ++
  c!"\", unsigned(data->" ++
  a0 ++
  c!"));\n"

/-- xml/process_items_xml_attrib.cpp:219, to out_file_cpp, arguments `sim.name`. -/
def attrib219 (a0 : Str) : Str :=
  c!"\t// WARNING FAILED TO PROCESS " ++
  a0 ++
  c!"\n\n"

/-- xml/process_items_xml_attrib.cpp:241, to out_file_cpp. -/
def attrib241 : Str :=
  c!"\ttinyxml2::XMLElement *ch_el;\n"

/-- xml/process_items_xml_attrib.cpp:252-253, to out_file_cpp, arguments `co.name`. -/
def attrib252 (a0 : Str) : Str :=
  c!"\tel->SetAttribute(\"" ++
  a0 ++
  c!"\", stfx::s_from_e(data->" ++
  a0 ++
  c!").c_str());\n"

/-- xml/process_items_xml_attrib.cpp:257-259, to out_file_cpp, arguments `co.name`. -/
def attrib257 (a0 : Str) : Str :=
  c!"\tif(m_delta_only == false || data->" ++
  a0 ++
  c!" != default_data." ++
  a0 ++
  c!")\n\t\tel->SetAttribute(\"" ++
  a0 ++
  c!"\", stfx::s_from_e(data->" ++
  a0 ++
  c!").c_str());\n"

/-- xml/process_items_xml_attrib.cpp:263-268, to out_file_cpp, arguments `co.name`, `co.type_name`. -/
def attrib263 (a0 a1 : Str) : Str :=
  c!"\tch_el = el->InsertNewChildElement(\"" ++
  a0 ++
  c!"\");\n\tif (ch_el != nullptr)\n\t\t{\n\t\tdo_wr_" ++
  a1 ++
  c!"(ch_el, &data->" ++
  a0 ++
  c!");\n\t\t}\n"

/-- xml/process_items_xml_attrib.cpp:271-280, to out_file_cpp, arguments `co.name`, `co.type_name`. -/
def attrib271 (a0 a1 : Str) : Str :=
  c!"\tch_el = el->InsertNewChildElement(\"" ++
  a0 ++
  c!"\");\n\tif (ch_el != nullptr)\n\t\t{\n\t\tfor (" ++
  a1 ++
  c!" itr : data->" ++
  a0 ++
  c!")\n\t\t\t{\n\t\t\ttinyxml2::XMLElement *ch_ch_el = ch_el->" ++
  c!"InsertNewChildElement(\"" ++
  a1 ++
  c!"\");\n\t\t\tdo_wr_" ++
  a1 ++
  c!"(ch_ch_el, &itr);\n\t\t\t}\n\t\t}\n"

/-- xml/process_items_xml_attrib.cpp:283, to out_file_cpp, arguments `co.name`. -/
def attrib283 (a0 : Str) : Str :=
  c!"// enum_or_struct_E " ++
  a0 ++
  c!"\t NEEDS TO BE FIXED!!\n"

/-- xml/process_items_xml_attrib.cpp:288, to out_file_cpp, arguments `co.name`. -/
def attrib288 (a0 : Str) : Str :=
  c!"\t// WARNING FAILED TO PROCESS " ++
  a0 ++
  c!"\n"

/-- xml/process_items_xml_attrib.cpp:294-296, to out_file_cpp. -/
def attrib294 : Str :=
  c!"\treturn rv;\n\t};\n\n"

/-- ini/process_items_ini.cpp:50, to f_cpp, arguments `out_filename_cpp`. -/
def ini50 (a0 : Str) : Str :=
  c!"// " ++
  a0 ++
  c!"\n"

/-- ini/process_items_ini.cpp:51, to f_cpp, arguments `m_stfx_info`. -/
def ini51 (a0 : Str) : Str :=
  a0 ++
  c!"\n"

/-- ini/process_items_ini.cpp:52, to f_cpp, arguments `out_filename_h`. -/
def ini52 (a0 : Str) : Str :=
  c!"#include \"" ++
  a0 ++
  c!"\"\n\n"

/-- ini/process_items_ini.cpp:53-56, to f_cpp. -/
def ini53 : Str :=
  c!"#include <string>\n#include <map>\n#include <regex>\n" ++
  c!"#include <stdexcept>\n"

/-- ini/process_items_ini.cpp:59, to f_cpp. -/
def ini59 : Str :=
  c!"#include <fmt/format.h>\n"

/-- ini/process_items_ini.cpp:61, to f_cpp. -/
def ini61 : Str :=
  c!"\n"

/-- ini/process_items_ini.cpp:65, to f_cpp. -/
def ini65 : Str :=
  c!"// not including blank enum file\n"

/-- ini/process_items_ini.cpp:69, to f_cpp, arguments `enums_filename_h`. -/
def ini69 (a0 : Str) : Str :=
  c!"#include \"" ++
  a0 ++
  c!"\"\n"

/-- ini/process_items_ini.cpp:73, to f_cpp, arguments `in_filename`. -/
def ini73 (a0 : Str) : Str :=
  c!"#include \"" ++
  a0 ++
  c!"\"\n"

/-- ini/process_items_ini.cpp:76, to f_h, arguments `out_filename_h`. -/
def ini76 (a0 : Str) : Str :=
  c!"// " ++
  a0 ++
  c!"\n\n"

/-- ini/process_items_ini.cpp:77, to f_h, arguments `m_stfx_info`. -/
def ini77 (a0 : Str) : Str :=
  a0 ++
  c!"\n"

/-- ini/process_items_ini.cpp:79-84, to f_h. -/
def ini79 : Str :=
  c!"#pragma once\n\n#include <string>\n#include <map>\n\n"

/-- ini/process_items_ini.cpp:87, to f_h, arguments `in_filename`. -/
def ini87 (a0 : Str) : Str :=
  c!"#include \"" ++
  a0 ++
  c!"\"\n"

/-- ini/process_items_ini.cpp:89, to f_h. -/
def ini89 : Str :=
  c!"\n"

/-- ini/process_items_ini.cpp:92-105, to f_h, arguments `reader_class_name`. -/
def ini92 (a0 : Str) : Str :=
  c!"class " ++
  a0 ++
  c!"\n\t{\n\tprivate:\n\t\tstruct read_item_S\n\t\t\t{\n\t\t\tstd::ma" ++
  c!"p<std::string, std::string>items;\n\t\t\tstd::map<std:" ++
  c!":string, read_item_S>under;\n\t\t\t};\n\t\tread_item_S m_" ++
  c!"lookup;\n\t\tstd::string m_multiline_string_key;\n\t\tst" ++
  c!"d::string m_multiline_string_value;\n\tpublic:\n\t\t" ++
  a0 ++
  c!"();\n"

/-- ini/process_items_ini.cpp:107-111, to f_cpp, arguments `reader_class_name`. -/
def ini107 (a0 : Str) : Str :=
  c!"\n" ++
  a0 ++
  c!"::" ++
  a0 ++
  c!"()\n\t{\n\t}\n\n"

/-- ini/process_items_ini.cpp:118, to f_h, arguments `s.name`. -/
def ini118 (a0 : Str) : Str :=
  c!"\t\tvirtual bool read_from_file(std::string const &f" ++
  c!"ilename, " ++
  a0 ++
  c!" &struct_to_fill);\n"

/-- ini/process_items_ini.cpp:120-194, to f_cpp, arguments `reader_class_name`, `s.name`. -/
def ini120 (a0 a1 : Str) : Str :=
  c!"bool " ++
  a0 ++
  c!"::read_from_file(std::string const &filename, " ++
  a1 ++
  c!" &struct_to_fill)\n\t{\n\tbool rv{};\n\tstd::FILE *file{" ++
  c!"};\n\tfile = std::fopen(filename.c_str(), \"r\");\n\tif " ++
  c!"(file != nullptr)\n\t\t{\n\t\tread_item_S *current_looku" ++
  c!"p = &m_lookup;\n\t\tconst int buflen = 80;\n\t\tchar buf" ++
  c!"[buflen + 1];\n\t\twhile(nullptr != std::fgets(buf, b" ++
  c!"uflen, file))\n\t\t\t{\n\t\t\tstd::string line{ buf };\n\t\t\t" ++
  c!"size_t pos = line.find('%');\t// remove remainder o" ++
  c!"f line after comment character... \n\t\t\tif (pos != s" ++
  c!"td::string::npos)\n\t\t\t\t{\n\t\t\t\tline = line.substr(0, " ++
  c!"pos);\n\t\t\t\t}\n\t\t\tif (line.length() == 0)\n\t\t\t\tcontinu" ++
  c!"e;\n\t\t\tif (m_multiline_string_key.length() != 0 && " ++
  c!"line[0] != ' ')\n\t\t\t\t{\n\t\t\t\tcurrent_lookup->items[m_" ++
  c!"multiline_string_key] = m_multiline_string_value;\n" ++
  c!"\t\t\t\tm_multiline_string_key = \"\";\n\t\t\t\tm_multiline_s" ++
  c!"tring_value = \"\";\n\t\t\t\t}\n\n\t\t\tstd::smatch res;\n\t\t\tst" ++
  c!"d::regex regex;\n\t\t\tswitch (line[0])\n\t\t\t\t{\n\t\t\t\tcase" ++
  c!" '[':\n\t\t\t\t\tregex = \"\\\\[(.+)\\\\]\";\n\t\t\t\t\tif (std::reg" ++
  c!"ex_search(line, res, regex) == true)\n\t\t\t\t\t\t{\n\t\t\t\t\t" ++
  c!"\tstd::string key = res[1].str();\n\t\t\t\t\t\tread_item_S" ++
  c!" new_item;\n\t\t\t\t\t\tm_lookup.under[key] = new_item;\n\t" ++
  c!"\t\t\t\t\tcurrent_lookup = &m_lookup.under[key];\n\t\t\t\t\t\t" ++
  c!"// fmt::println(\"[{}]\", key);\n\t\t\t\t\t\t}\n\n\t\t\t\t\tbreak;" ++
  c!"\n\t\t\t\tcase ' ':\n\t\t\t\t\t// space as first character is" ++
  c!" a \"continue previous line\" string...\n\t\t\t\t\tm_multi" ++
  c!"line_string_value += line;\n\t\t\t\t\tbreak;\n\t\t\t\tdefault" ++
  c!":\n\t\t\t\t\tregex = \"(\\\\w+) (.+)\";\n\t\t\t\t\tif (std::regex_" ++
  c!"search(line, res, regex) == true)\n\t\t\t\t\t\t{\n\t\t\t\t\t\tst" ++
  c!"d::string key = res[1].str();\n\t\t\t\t\t\tstd::string va" ++
  c!"lue = res[2].str();\n\t\t\t\t\t\tcurrent_lookup->items[ke" ++
  c!"y] = value;\n\t\t\t\t\t\t// fmt::println(\"{} = {}\", key, " ++
  c!"value);\n\t\t\t\t\t\t}\n\t\t\t\t\telse\n\t\t\t\t\t\t{\n\t\t\t\t\t\tregex = \"(" ++
  c!"\\\\w+)\";\n\t\t\t\t\t\tif (std::regex_search(line, res, reg" ++
  c!"ex) == true)\n\t\t\t\t\t\t\t{\n\t\t\t\t\t\t\tm_multiline_string_ke" ++
  c!"y = res[1].str();\n\t\t\t\t\t\t\tm_multiline_string_value " ++
  c!"= \"\\n\"; \n\t\t\t\t\t\t\t}\n\t\t\t\t\t\t}\n\t\t\t\t\tbreak;\n\t\t\t\t}\n\t\t\t}\n\t" ++
  c!"\tstd::fclose(file);\n\n\t\trv = do_rd_" ++
  a1 ++
  c!"(\"\", struct_to_fill);\n\t\t}\n\treturn rv;\n\t}\n\n"

/-- ini/process_items_ini.cpp:198, to f_h. -/
def ini198 : Str :=
  c!"\tprotected:\n"

/-- ini/process_items_ini.cpp:206-207, to f_h. -/
def ini206 : Str :=
  c!"\t};\n\n"

/-- ini/process_items_ini.cpp:208-209, to f_cpp. -/
def ini208 : Str :=
  c!"\n\n"

/-- ini/process_items_ini.cpp:214-222, to f_h, arguments `writer_class_name`, `reader_class_name`. -/
def ini214 (a0 a1 : Str) : Str :=
  c!"class " ++
  a0 ++
  c!" : public " ++
  a1 ++
  c!"\n\t{\n\tprivate:\n\t\tbool m_delta_only {};\n\t\tstd::FILE " ++
  c!"*m_file {nullptr};\n\tpublic:\n\t\t" ++
  a0 ++
  c!"(bool delta_only = true);\n"

/-- ini/process_items_ini.cpp:224-230, to f_cpp, arguments `writer_class_name`, `reader_class_name`. -/
def ini224 (a0 a1 : Str) : Str :=
  c!"\n" ++
  a0 ++
  c!"::" ++
  a0 ++
  c!"(bool delta_only) : " ++
  a1 ++
  c!"()\n{\n\tm_delta_only = delta_only;\n}\n\n"

/-- ini/process_items_ini.cpp:237, to f_h, arguments `s.name`. -/
def ini237 (a0 : Str) : Str :=
  c!"\t\tvirtual bool write_to_file(std::string const &fi" ++
  c!"lename, " ++
  a0 ++
  c!" &struct_to_read);\n"

/-- ini/process_items_ini.cpp:239-250, to f_cpp, arguments `writer_class_name`, `s.name`. -/
def ini239 (a0 a1 : Str) : Str :=
  c!"bool " ++
  a0 ++
  c!"::write_to_file(std::string const &filename, " ++
  a1 ++
  c!" &struct_to_read)\n\t{\n\tbool rv{};\n\tm_file = std::fo" ++
  c!"pen(filename.c_str(), \"w\");\n\tif (m_file != nullptr" ++
  c!")\n\t\t{\n\t\trv = do_wr_" ++
  a1 ++
  c!"(\"\", &struct_to_read);\n\t\tstd::fclose(m_file);\n\t\t}\n" ++
  c!"\treturn rv;\n\t}\n\n"

/-- ini/process_items_ini.cpp:254, to f_h. -/
def ini254 : Str :=
  c!"\tprotected:\n"

/-- ini/process_items_ini.cpp:262-263, to f_h. -/
def ini262 : Str :=
  c!"\t};\n"

/-- ini/process_items_ini.cpp:264-265, to f_cpp. -/
def ini264 : Str :=
  c!"\n\n"

/-- ini/process_items_ini.cpp:299, to out_file_h, arguments `s.name`. -/
def ini299 (a0 : Str) : Str :=
  c!"\t\tbool do_rd_" ++
  a0 ++
  c!"(std::string path, " ++
  a0 ++
  c!" &data);\n"

/-- ini/process_items_ini.cpp:301-304, to out_file_cpp, arguments `class_name`, `s.name`. -/
def ini301 (a0 a1 : Str) : Str :=
  c!"bool " ++
  a0 ++
  c!"::do_rd_" ++
  a1 ++
  c!"(std::string path, " ++
  a1 ++
  c!" &data)\n\t{\n\n"

/-- ini/process_items_ini.cpp:305, to out_file_cpp. -/
def ini305 : Str :=
  c!"\tbool rv = true;\n"

/-- ini/process_items_ini.cpp:306, to out_file_cpp. -/
def ini306 : Str :=
  c!"\ttry\n"

/-- ini/process_items_ini.cpp:307, to out_file_cpp. -/
def ini307 : Str :=
  c!"\t\t{\n"

/-- ini/process_items_ini.cpp:310, to out_file_cpp. -/
def ini310 : Str :=
  c!"\t\tauto found_items = m_lookup.under.find(path);\n"

/-- ini/process_items_ini.cpp:311, to out_file_cpp. -/
def ini311 : Str :=
  c!"\t\tif (found_items != m_lookup.under.cend())\n"

/-- ini/process_items_ini.cpp:312, to out_file_cpp. -/
def ini312 : Str :=
  c!"\t\t\t{\n"

/-- ini/process_items_ini.cpp:313, to out_file_cpp. -/
def ini313 : Str :=
  c!"\t\t\tauto items = found_items->second.items;\n"

/-- ini/process_items_ini.cpp:350, to out_file_cpp, arguments `sim.name`. -/
def ini350 (a0 : Str) : Str :=
  c!"\t// WARNING FAILED TO PROCESS " ++
  a0 ++
  c!"\n\n"

/-- ini/process_items_ini.cpp:354-360, to out_file_cpp, arguments `sim.name`, `convert`. -/
def ini354 (a0 a1 : Str) : Str :=
  c!"\t\t\tauto " ++
  a0 ++
  c!" = items.find(\"" ++
  a0 ++
  c!"\");\n\t\t\tif(" ++
  a0 ++
  c!" != items.cend())\n\t\t\t\t{\n\t\t\t\tdata." ++
  a0 ++
  c!" = " ++
  a1 ++
  c!"(" ++
  a0 ++
  c!"->second);\n\t\t\t\t}\n"

/-- ini/process_items_ini.cpp:369-375, to out_file_cpp, arguments `co.name`. -/
def ini369 (a0 : Str) : Str :=
  c!"\t\t\tauto " ++
  a0 ++
  c!" = items.find(\"" ++
  a0 ++
  c!"\");\n\t\t\tif(" ++
  a0 ++
  c!" != items.cend())\n\t\t\t\t{\n\t\t\t\tstfx::s_to_e(" ++
  a0 ++
  c!"->second, data." ++
  a0 ++
  c!");\n\t\t\t\t}\n"

/-- ini/process_items_ini.cpp:381, to out_file_cpp. -/
def ini381 : Str :=
  c!"\t\t\t}\n"

/-- ini/process_items_ini.cpp:400-402, to out_file_cpp. -/
def ini400 : Str :=
  c!"\t\tif (path.length() > 0)\n\t\t\tpath += \".\";\n"

/-- ini/process_items_ini.cpp:417-419, to out_file_cpp, arguments `co.name`, `co.type_name`, `space_name`. -/
def ini417 (a0 a1 a2 : Str) : Str :=
  c!"\t\trv = do_rd_" ++
  a1 ++
  c!"(path + \"" ++
  a2 ++
  c!"\", data." ++
  a0 ++
  c!");\n"

/-- ini/process_items_ini.cpp:422, to out_file_cpp, arguments `co.name`. -/
def ini422 (a0 : Str) : Str :=
  c!"// vector " ++
  a0 ++
  c!"\t within structure NOT SUPPORTED by n_ini\n"

/-- ini/process_items_ini.cpp:427, to out_file_cpp, arguments `co.name`. -/
def ini427 (a0 : Str) : Str :=
  c!"// enum_or_struct_E " ++
  a0 ++
  c!"\t NEEDS TO BE FIXED!!\n"

/-- ini/process_items_ini.cpp:432, to out_file_cpp, arguments `co.name`. -/
def ini432 (a0 : Str) : Str :=
  c!"\t// WARNING FAILED TO PROCESS " ++
  a0 ++
  c!"\n"

/-- ini/process_items_ini.cpp:440, to out_file_cpp. -/
def ini440 : Str :=
  c!"\t\t}\n"

/-- ini/process_items_ini.cpp:442, to out_file_cpp. -/
def ini442 : Str :=
  c!"\tcatch (std::exception &)\n"

/-- ini/process_items_ini.cpp:443, to out_file_cpp. -/
def ini443 : Str :=
  c!"\t\t{\n"

/-- ini/process_items_ini.cpp:444, to out_file_cpp. -/
def ini444 : Str :=
  c!"\t\trv = false;\n"

/-- ini/process_items_ini.cpp:445, to out_file_cpp. -/
def ini445 : Str :=
  c!"\t\t}\n"

/-- ini/process_items_ini.cpp:446-448, to out_file_cpp. -/
def ini446 : Str :=
  c!"\treturn rv;\n\t};\n\n"

/-- ini/process_items_ini.cpp:456, to out_file_h, arguments `s.name`. -/
def ini456 (a0 : Str) : Str :=
  c!"\t\tbool do_wr_" ++
  a0 ++
  c!"(std::string path, " ++
  a0 ++
  c!" *data);\n"

/-- ini/process_items_ini.cpp:458-461, to out_file_cpp, arguments `class_name`, `s.name`. -/
def ini458 (a0 a1 : Str) : Str :=
  c!"bool " ++
  a0 ++
  c!"::do_wr_" ++
  a1 ++
  c!"(std::string path, " ++
  a1 ++
  c!" *data)\n\t{\n\n"

/-- ini/process_items_ini.cpp:462, to out_file_cpp. -/
def ini462 : Str :=
  c!"\tbool rv = true;\n"

/-- ini/process_items_ini.cpp:463, to out_file_cpp. -/
def ini463 : Str :=
  c!"\tstd::string lower_path;\n"

/-- ini/process_items_ini.cpp:466, to out_file_cpp, arguments `s.name`. -/
def ini466 (a0 : Str) : Str :=
  c!"\t" ++
  a0 ++
  c!" default_data;\n"

/-- ini/process_items_ini.cpp:468-474, to out_file_cpp. -/
def ini468 : Str :=
  c!"\tif (path.length() > 0)\n\t\t{\n\t\tfmt::println(m_file," ++
  c!" \"\");\n\t\tfmt::println(m_file, \"[{}]\", path);\n\t\t}\n\n"

/-- ini/process_items_ini.cpp:483-485, to out_file_cpp, arguments `sim.name`. -/
def ini483 (a0 : Str) : Str :=
  c!"\tfmt::println(m_file, \"" ++
  a0 ++
  c!" {}\", (int)data->" ++
  a0 ++
  c!");\n"

/-- ini/process_items_ini.cpp:489-494, to out_file_cpp, arguments `sim.name`. -/
def ini489 (a0 : Str) : Str :=
  c!"\tif(m_delta_only == false || data->" ++
  a0 ++
  c!" != default_data." ++
  a0 ++
  c!")\n\t\t{\n\t\tfmt::println(m_file, \"" ++
  a0 ++
  c!" {}\", (int)data->" ++
  a0 ++
  c!");\n\t\t}\n"

/-- ini/process_items_ini.cpp:508-510, to out_file_cpp, arguments `sim.name`. -/
def ini508 (a0 : Str) : Str :=
  c!"\tfmt::println(m_file, \"" ++
  a0 ++
  c!" {}\", data->" ++
  a0 ++
  c!");\n"

/-- ini/process_items_ini.cpp:514-519, to out_file_cpp, arguments `sim.name`. -/
def ini514 (a0 : Str) : Str :=
  c!"\tif(m_delta_only == false || data->" ++
  a0 ++
  c!" != default_data." ++
  a0 ++
  c!")\n\t\t{\n\t\tfmt::println(m_file, \"" ++
  a0 ++
  c!" {}\", data->" ++
  a0 ++
  c!");\n\t\t}\n"

/-- ini/process_items_ini.cpp:524, to out_file_cpp, arguments `sim.name`. -/
def ini524 (a0 : Str) : Str :=
  c!"\t// WARNING FAILED TO PROCESS " ++
  a0 ++
  c!"\n\n"

/-- ini/process_items_ini.cpp:555-557, to out_file_cpp, arguments `co.name`. -/
def ini555 (a0 : Str) : Str :=
  c!"\tfmt::println(m_file, \"" ++
  a0 ++
  c!" {}\", data->" ++
  a0 ++
  c!");\n"

/-- ini/process_items_ini.cpp:562-567, to out_file_cpp, arguments `co.name`. -/
def ini562 (a0 : Str) : Str :=
  c!"\tif(m_delta_only == false || data->" ++
  a0 ++
  c!" != default_data." ++
  a0 ++
  c!")\n\t\t{\n\t\tfmt::println(m_file, \"" ++
  a0 ++
  c!" {}\", data->" ++
  a0 ++
  c!");\n\t\t}\n"

/-- ini/process_items_ini.cpp:571-579, to out_file_cpp, arguments `co.name`, `co.type_name`, `space_name`. -/
def ini571 (a0 a1 a2 : Str) : Str :=
  c!"\tlower_path = path;\n\tif(lower_path.length() > 0)\n\t" ++
  c!"{\n\t\tlower_path += \".\";\t\t//separator\n\t}\n\tlower_path" ++
  c!" += \"" ++
  a2 ++
  c!"\";\n\tdo_wr_" ++
  a1 ++
  c!"(lower_path, &data->" ++
  a0 ++
  c!");\n\n"

/-- ini/process_items_ini.cpp:582, to out_file_cpp, arguments `co.name`. -/
def ini582 (a0 : Str) : Str :=
  c!"// vector " ++
  a0 ++
  c!"\t within structure NOT SUPPORTED by n_ini\n"

/-- ini/process_items_ini.cpp:587, to out_file_cpp, arguments `co.name`. -/
def ini587 (a0 : Str) : Str :=
  c!"// enum_or_struct_E " ++
  a0 ++
  c!"\t NEEDS TO BE FIXED!!\n"

/-- ini/process_items_ini.cpp:592, to out_file_cpp, arguments `co.name`. -/
def ini592 (a0 : Str) : Str :=
  c!"\t// WARNING FAILED TO PROCESS " ++
  a0 ++
  c!"\n"

/-- ini/process_items_ini.cpp:598-600, to out_file_cpp. -/
def ini598 : Str :=
  c!"\treturn rv;\n\t};\n\n"

end Stfx.Gen.T
