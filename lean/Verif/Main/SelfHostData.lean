import Verif.Text
/- Generated by tools/selfhost.py from src/configuration/: do not edit. -/
namespace Stfx.Main.SelfHost
open Stfx

/-- src/configuration/config_data.h -/
def header : Str := List.flatten [
  c!"// config_data.h\n",
  c!"// items for stfx that can be configured (via xml ",
  c!"file)\n",
  c!"//\n",
  c!"\n",
  c!"#pragma once\n",
  c!"\n",
  c!"#include <string>\n",
  c!"#include <vector>\n",
  c!"\n",
  c!"enum class serialization_type_E\n",
  c!"\t{\n",
  c!"\txml_attrib,\t\t// xml file, with values saved as na",
  c!"med attributes\n",
  c!"\txml,\n",
  c!"\tini,\n",
  c!"\tn_ini,\t\t\t// ini file with no = separator (i.e. on",
  c!"ly a whitespace separator)\n",
  c!"\tjson\n",
  c!"\t};\n",
  c!"\n",
  c!"struct output_spec\n",
  c!"\t{\n",
  c!"\tstd::string relative_directory {};\t\t// path relat",
  c!"ive to input file\n",
  c!"\tstd::string enum_file {};\t\t\t\t// file root name of",
  c!" enums files (.cpp and .h)\n",
  c!"\tstd::string structs_file {};\t\t\t// file root name ",
  c!"of enums files (.cpp and .h)\n",
  c!"\tstd::string structs_reader_class{\"xml_reader_C\"};",
  c!"\t// within the generated structs module\t\n",
  c!"\tstd::string structs_writer_class{\"xml_writer_C\"};",
  c!"\t// ... \n",
  c!"\tserialization_type_E file_type{ serialization_typ",
  c!"e_E::xml_attrib };\t// file format of serialization",
  c!" file\n",
  c!"\tbool only_read_code{ false };\t\t\t// if true, ONLY ",
  c!"generate READ class (not writer class)\n",
  c!"\tbool no_special_delta{ false };\t\t\t// if true, do ",
  c!"NOT include code that tests for default values whe",
  c!"n writing\n",
  c!"};\n",
  c!"\n",
  c!"struct input_file\n",
  c!"{\n",
  c!"\tstd::string name;\n",
  c!"};\n",
  c!"\n",
  c!"struct input_spec\n",
  c!"{\n",
  c!"\tstd::vector<input_file> input;\n",
  c!"};\n",
  c!"\n",
  c!"\n",
  c!"struct uncommon_spec\n",
  c!"\t{\n",
  c!"\tstd::vector<input_file> input;\n",
  c!"\toutput_spec out;\n",
  c!"\t};\n",
  c!"\n",
  c!"\n",
  c!"struct config\n",
  c!"\t{\n",
  c!"\tinput_spec common_in_files;\n",
  c!"\toutput_spec common_out_files;\n",
  c!"\tstd::vector <uncommon_spec> non_common;\n",
  c!"\t};\n",
  c!"\n"]

/-- src/configuration/enums.cpp -/
def enumsCpp : Str := List.flatten [
  c!"// enums.cpp\n",
  c!"//\n",
  c!"// Automatically generated using stfx\n",
  c!"// Do not directly edit this file, use stfx to re-",
  c!"create this file.\n",
  c!"//\n",
  c!"// License : MIT License\n",
  c!"//\n",
  c!"// stfx built at : Jan 29 2025 01:45:46, Software ",
  c!"Version : 25.01\n",
  c!"\n",
  c!"#include \"enums.h\"\n",
  c!"\n",
  c!"#include <string>\n",
  c!"#include <map>\n",
  c!"\n",
  c!"#include \"config_data.h\"\n",
  c!"\n",
  c!"const std::string stfx::s_from_e(serialization_typ",
  c!"e_E e)\n",
  c!"\t{\n",
  c!"\tstd::map < serialization_type_E, std::string > se",
  c!"rialization_type_E_to_string =\n",
  c!"\t\t{\n",
  c!"\t\t\t{ serialization_type_E::xml_attrib, \"xml_attrib",
  c!"\" },\n",
  c!"\t\t\t{ serialization_type_E::xml, \"xml\" },\n",
  c!"\t\t\t{ serialization_type_E::ini, \"ini\" },\n",
  c!"\t\t\t{ serialization_type_E::n_ini, \"n_ini\" },\n",
  c!"\t\t\t{ serialization_type_E::json, \"json\" },\n",
  c!"\t\t};\n",
  c!"\tstd::string rv = (serialization_type_E_to_string.",
  c!"find(e) != serialization_type_E_to_string.end()) ?",
  c!" serialization_type_E_to_string[e] : std::to_strin",
  c!"g(int(e));\n",
  c!"\treturn rv;\n",
  c!"\t};\n",
  c!"\n",
  c!"bool stfx::s_to_e(std::string s, serialization_typ",
  c!"e_E &e)\n",
  c!"\t{\n",
  c!"\tbool rv {false};\n",
  c!"\n",
  c!"\tstd::map < std::string, serialization_type_E > st",
  c!"ring_to_serialization_type_E =\n",
  c!"\t\t{\n",
  c!"\t\t\t{ \"xml_attrib\", serialization_type_E::xml_attri",
  c!"b },\n",
  c!"\t\t\t{ \"xml\", serialization_type_E::xml },\n",
  c!"\t\t\t{ \"ini\", serialization_type_E::ini },\n",
  c!"\t\t\t{ \"n_ini\", serialization_type_E::n_ini },\n",
  c!"\t\t\t{ \"json\", serialization_type_E::json },\n",
  c!"\t\t};\n",
  c!"\tif(string_to_serialization_type_E.find(s) != stri",
  c!"ng_to_serialization_type_E.end())\n",
  c!"\t\t{\n",
  c!"\t\te = string_to_serialization_type_E[s];\n",
  c!"\t\trv = true;\n",
  c!"\t\t}\n",
  c!"\telse\n",
  c!"\t\t{\n",
  c!"\t\ttry\n",
  c!"\t\t\t{\n",
  c!"\t\t\tint i = std::stoi(s);\t\t// just in case the valu",
  c!"e of enum has been given\n",
  c!"\t\t\te = serialization_type_E(i);\n",
  c!"\t\t\t}\n",
  c!"\t\tcatch (std::exception &)\n",
  c!"\t\t\t{\n",
  c!"\t\t\t// unexpected string, will just be ignored (for",
  c!" now!)... This *COULD* throw an exception .. \n",
  c!"\t\t\t}\n",
  c!"\t\t// note rv NOT set to true ! \n",
  c!"\t\t}\n",
  c!"\treturn rv;\n",
  c!"\t};\n",
  c!"\n"]

/-- src/configuration/enums.h -/
def enumsH : Str := List.flatten [
  c!"// enums.h\n",
  c!"//\n",
  c!"// Automatically generated using stfx\n",
  c!"// Do not directly edit this file, use stfx to re-",
  c!"create this file.\n",
  c!"//\n",
  c!"// License : MIT License\n",
  c!"//\n",
  c!"// stfx built at : Jan 29 2025 01:45:46, Software ",
  c!"Version : 25.01\n",
  c!"\n",
  c!"#pragma once\n",
  c!"\n",
  c!"#include <string>\n",
  c!"#include <fmt/format.h>\n",
  c!"\n",
  c!"#include \"config_data.h\"\n",
  c!"\n",
  c!"namespace stfx\n",
  c!"\t{\n",
  c!"\tconst std::string s_from_e(serialization_type_E e",
  c!");\n",
  c!"\tbool s_to_e(std::string s, serialization_type_E &",
  c!"e);\n",
  c!"\t};\n",
  c!"\n",
  c!"template <> struct fmt::formatter < serialization_",
  c!"type_E > : formatter<string_view>\n",
  c!"\t{\n",
  c!"\ttemplate <typename FormatContext>\n",
  c!"\tauto format(serialization_type_E c, FormatContext",
  c!"& ctx) const\n",
  c!"\t\t{\n",
  c!"\t\tstd::string str = stfx::s_from_e(c);\n",
  c!"\t\tstring_view name = str;\n",
  c!"\t\treturn formatter<string_view>::format(name, ctx)",
  c!";\n",
  c!"\t\t}\n",
  c!"\t};\n"]

/-- src/configuration/structs.cpp -/
def structsCpp : Str := List.flatten [
  c!"// structs.cpp\n",
  c!"//\n",
  c!"// Automatically generated using stfx\n",
  c!"// Do not directly edit this file, use stfx to re-",
  c!"create this file.\n",
  c!"//\n",
  c!"// License : MIT License\n",
  c!"//\n",
  c!"// stfx built at : Jan 29 2025 01:45:46, Software ",
  c!"Version : 25.01\n",
  c!"\n",
  c!"#include \"structs.h\"\n",
  c!"\n",
  c!"#include <string>\n",
  c!"#include <map>\n",
  c!"#include <stdexcept>\n",
  c!"#include <tinyxml2.h>\n",
  c!"#include <tixml2ex.h>\n",
  c!"\n",
  c!"#include \"enums.h\"\n",
  c!"#include \"config_data.h\"\n",
  c!"\n",
  c!"xml_reader_C::xml_reader_C()\n",
  c!"\t{\n",
  c!"\t}\n",
  c!"\n",
  c!"bool xml_reader_C::read_from_file(std::string cons",
  c!"t &filename, config &struct_to_fill)\n",
  c!"\t{\n",
  c!"\tbool rv{};\n",
  c!"\ttinyxml2::XMLError er;\n",
  c!"\ttinyxml2::XMLDocument doc;\n",
  c!"\n",
  c!"\ter = doc.LoadFile(filename.c_str());\n",
  c!"\tif (er == tinyxml2::XML_SUCCESS)\n",
  c!"\t\t{\n",
  c!"\t\ttinyxml2::XMLElement* el = doc.RootElement();\n",
  c!"\t\trv = do_config(el, &struct_to_fill);\n",
  c!"\t\t}\n",
  c!"\treturn rv;\n",
  c!"\t}\n",
  c!"\n",
  c!"bool xml_reader_C::do_config(tinyxml2::XMLElement ",
  c!"*el, config *data)\n",
  c!"\t{\n",
  c!"\tbool rv = true;\n",
  c!"\ttinyxml2::XMLElement *ch_el;\n",
  c!"\tch_el = el->FirstChildElement(\"common_in_files\");",
  c!"\n",
  c!"\tif (ch_el != nullptr)\n",
  c!"\t\t{\n",
  c!"\t\tdo_input_spec(ch_el, &data->common_in_files);\n",
  c!"\t\t}\n",
  c!"\tch_el = el->FirstChildElement(\"common_out_files\")",
  c!";\n",
  c!"\tif (ch_el != nullptr)\n",
  c!"\t\t{\n",
  c!"\t\tdo_output_spec(ch_el, &data->common_out_files);\n",
  c!"\t\t}\n",
  c!"\tch_el = el->FirstChildElement(\"non_common\");\n",
  c!"\tif (ch_el != nullptr)\n",
  c!"\t\t{\n",
  c!"\t\tfor (auto item : ch_el)\n",
  c!"\t\t\t{\n",
  c!"\t\t\tuncommon_spec s;\n",
  c!"\t\t\tif (do_uncommon_spec(item, &s) == true)\n",
  c!"\t\t\t\t{\n",
  c!"\t\t\t\tdata->non_common.push_back(s);\n",
  c!"\t\t\t\t}\n",
  c!"\t\t\t}\n",
  c!"\t\t}\n",
  c!"\treturn rv;\n",
  c!"\t};\n",
  c!"\n",
  c!"bool xml_reader_C::do_input_file(tinyxml2::XMLElem",
  c!"ent *el, input_file *data)\n",
  c!"\t{\n",
  c!"\tbool rv = true;\n",
  c!"\t\t{\n",
  c!"\t\tconst char *pt;\n",
  c!"\t\tif (tinyxml2::XML_SUCCESS == el->QueryAttribute(",
  c!"\"name\", &pt))\n",
  c!"\t\t\tdata->name = pt;\n",
  c!"\t\t}\n",
  c!"\treturn rv;\n",
  c!"\t};\n",
  c!"\n",
  c!"bool xml_reader_C::do_input_spec(tinyxml2::XMLElem",
  c!"ent *el, input_spec *data)\n",
  c!"\t{\n",
  c!"\tbool rv = true;\n",
  c!"\ttinyxml2::XMLElement *ch_el;\n",
  c!"\tch_el = el->FirstChildElement(\"input\");\n",
  c!"\tif (ch_el != nullptr)\n",
  c!"\t\t{\n",
  c!"\t\tfor (auto item : ch_el)\n",
  c!"\t\t\t{\n",
  c!"\t\t\tinput_file s;\n",
  c!"\t\t\tif (do_input_file(item, &s) == true)\n",
  c!"\t\t\t\t{\n",
  c!"\t\t\t\tdata->input.push_back(s);\n",
  c!"\t\t\t\t}\n",
  c!"\t\t\t}\n",
  c!"\t\t}\n",
  c!"\treturn rv;\n",
  c!"\t};\n",
  c!"\n",
  c!"bool xml_reader_C::do_output_spec(tinyxml2::XMLEle",
  c!"ment *el, output_spec *data)\n",
  c!"\t{\n",
  c!"\tbool rv = true;\n",
  c!"\t\t{\n",
  c!"\t\tconst char *pt;\n",
  c!"\t\tif (tinyxml2::XML_SUCCESS == el->QueryAttribute(",
  c!"\"relative_directory\", &pt))\n",
  c!"\t\t\tdata->relative_directory = pt;\n",
  c!"\t\t}\n",
  c!"\t\t{\n",
  c!"\t\tconst char *pt;\n",
  c!"\t\tif (tinyxml2::XML_SUCCESS == el->QueryAttribute(",
  c!"\"enum_file\", &pt))\n",
  c!"\t\t\tdata->enum_file = pt;\n",
  c!"\t\t}\n",
  c!"\t\t{\n",
  c!"\t\tconst char *pt;\n",
  c!"\t\tif (tinyxml2::XML_SUCCESS == el->QueryAttribute(",
  c!"\"structs_file\", &pt))\n",
  c!"\t\t\tdata->structs_file = pt;\n",
  c!"\t\t}\n",
  c!"\t\t{\n",
  c!"\t\tconst char *pt;\n",
  c!"\t\tif (tinyxml2::XML_SUCCESS == el->QueryAttribute(",
  c!"\"structs_reader_class\", &pt))\n",
  c!"\t\t\tdata->structs_reader_class = pt;\n",
  c!"\t\t}\n",
  c!"\t\t{\n",
  c!"\t\tconst char *pt;\n",
  c!"\t\tif (tinyxml2::XML_SUCCESS == el->QueryAttribute(",
  c!"\"structs_writer_class\", &pt))\n",
  c!"\t\t\tdata->structs_writer_class = pt;\n",
  c!"\t\t}\n",
  c!"\tel->QueryAttribute(\"only_read_code\", &data->only_",
  c!"read_code);\n",
  c!"\tel->QueryAttribute(\"no_special_delta\", &data->no_",
  c!"special_delta);\n",
  c!"\t\t{\n",
  c!"\t\tconst char *pt;\n",
  c!"\t\tif (tinyxml2::XML_SUCCESS == el->QueryAttribute(",
  c!"\"file_type\", &pt))\n",
  c!"\t\t\tstfx::s_to_e(pt, data->file_type);\n",
  c!"\t\t}\n",
  c!"\treturn rv;\n",
  c!"\t};\n",
  c!"\n",
  c!"bool xml_reader_C::do_uncommon_spec(tinyxml2::XMLE",
  c!"lement *el, uncommon_spec *data)\n",
  c!"\t{\n",
  c!"\tbool rv = true;\n",
  c!"\ttinyxml2::XMLElement *ch_el;\n",
  c!"\tch_el = el->FirstChildElement(\"input\");\n",
  c!"\tif (ch_el != nullptr)\n",
  c!"\t\t{\n",
  c!"\t\tfor (auto item : ch_el)\n",
  c!"\t\t\t{\n",
  c!"\t\t\tinput_file s;\n",
  c!"\t\t\tif (do_input_file(item, &s) == true)\n",
  c!"\t\t\t\t{\n",
  c!"\t\t\t\tdata->input.push_back(s);\n",
  c!"\t\t\t\t}\n",
  c!"\t\t\t}\n",
  c!"\t\t}\n",
  c!"\tch_el = el->FirstChildElement(\"out\");\n",
  c!"\tif (ch_el != nullptr)\n",
  c!"\t\t{\n",
  c!"\t\tdo_output_spec(ch_el, &data->out);\n",
  c!"\t\t}\n",
  c!"\treturn rv;\n",
  c!"\t};\n",
  c!"\n",
  c!"\n",
  c!"\n",
  c!"\n",
  c!"xml_writer_C::xml_writer_C(bool delta_only) : xml_",
  c!"reader_C()\n",
  c!"{\n",
  c!"\tm_delta_only = delta_only;\n",
  c!"}\n",
  c!"\n",
  c!"bool xml_writer_C::write_to_file(std::string const",
  c!" &filename, config &struct_to_read)\n",
  c!"\t{\n",
  c!"\tbool rv{};\n",
  c!"\ttinyxml2::XMLError er;\n",
  c!"\ttinyxml2::XMLDocument doc_w;\n",
  c!"\tauto ch = doc_w.NewElement(\"config\");\n",
  c!"\tdoc_w.InsertFirstChild(ch);\n",
  c!"\ttinyxml2::XMLElement * el = doc_w.RootElement();\n",
  c!"\tdo_wr_config(el, &struct_to_read);\n",
  c!"\ter = doc_w.SaveFile(filename.c_str());\n",
  c!"\trv = (er == tinyxml2::XML_SUCCESS);\n",
  c!"\treturn rv;\n",
  c!"\t}\n",
  c!"\n",
  c!"bool xml_writer_C::do_wr_config(tinyxml2::XMLEleme",
  c!"nt *el, config *data)\n",
  c!"\t{\n",
  c!"\tbool rv = true;\n",
  c!"\tconfig default_data;\n",
  c!"\ttinyxml2::XMLElement *ch_el;\n",
  c!"\tch_el = el->InsertNewChildElement(\"common_in_file",
  c!"s\");\n",
  c!"\tif (ch_el != nullptr)\n",
  c!"\t\t{\n",
  c!"\t\tdo_wr_input_spec(ch_el, &data->common_in_files);",
  c!"\n",
  c!"\t\t}\n",
  c!"\tch_el = el->InsertNewChildElement(\"common_out_fil",
  c!"es\");\n",
  c!"\tif (ch_el != nullptr)\n",
  c!"\t\t{\n",
  c!"\t\tdo_wr_output_spec(ch_el, &data->common_out_files",
  c!");\n",
  c!"\t\t}\n",
  c!"\tch_el = el->InsertNewChildElement(\"non_common\");\n",
  c!"\tif (ch_el != nullptr)\n",
  c!"\t\t{\n",
  c!"\t\tfor (uncommon_spec itr : data->non_common)\n",
  c!"\t\t\t{\n",
  c!"\t\t\ttinyxml2::XMLElement *ch_ch_el = ch_el->InsertN",
  c!"ewChildElement(\"uncommon_spec\");\n",
  c!"\t\t\tdo_wr_uncommon_spec(ch_ch_el, &itr);\n",
  c!"\t\t\t}\n",
  c!"\t\t}\n",
  c!"\treturn rv;\n",
  c!"\t};\n",
  c!"\n",
  c!"bool xml_writer_C::do_wr_input_file(tinyxml2::XMLE",
  c!"lement *el, input_file *data)\n",
  c!"\t{\n",
  c!"\tbool rv = true;\n",
  c!"\tinput_file default_data;\n",
  c!"\tif(m_delta_only == false || data->name != default",
  c!"_data.name)\n",
  c!"\t\tel->SetAttribute(\"name\", data->name.c_str());\n",
  c!"\treturn rv;\n",
  c!"\t};\n",
  c!"\n",
  c!"bool xml_writer_C::do_wr_input_spec(tinyxml2::XMLE",
  c!"lement *el, input_spec *data)\n",
  c!"\t{\n",
  c!"\tbool rv = true;\n",
  c!"\tinput_spec default_data;\n",
  c!"\ttinyxml2::XMLElement *ch_el;\n",
  c!"\tch_el = el->InsertNewChildElement(\"input\");\n",
  c!"\tif (ch_el != nullptr)\n",
  c!"\t\t{\n",
  c!"\t\tfor (input_file itr : data->input)\n",
  c!"\t\t\t{\n",
  c!"\t\t\ttinyxml2::XMLElement *ch_ch_el = ch_el->InsertN",
  c!"ewChildElement(\"input_file\");\n",
  c!"\t\t\tdo_wr_input_file(ch_ch_el, &itr);\n",
  c!"\t\t\t}\n",
  c!"\t\t}\n",
  c!"\treturn rv;\n",
  c!"\t};\n",
  c!"\n",
  c!"bool xml_writer_C::do_wr_output_spec(tinyxml2::XML",
  c!"Element *el, output_spec *data)\n",
  c!"\t{\n",
  c!"\tbool rv = true;\n",
  c!"\toutput_spec default_data;\n",
  c!"\tif(m_delta_only == false || data->relative_direct",
  c!"ory != default_data.relative_directory)\n",
  c!"\t\tel->SetAttribute(\"relative_directory\", data->rel",
  c!"ative_directory.c_str());\n",
  c!"\tif(m_delta_only == false || data->enum_file != de",
  c!"fault_data.enum_file)\n",
  c!"\t\tel->SetAttribute(\"enum_file\", data->enum_file.c_",
  c!"str());\n",
  c!"\tif(m_delta_only == false || data->structs_file !=",
  c!" default_data.structs_file)\n",
  c!"\t\tel->SetAttribute(\"structs_file\", data->structs_f",
  c!"ile.c_str());\n",
  c!"\tif(m_delta_only == false || data->structs_reader_",
  c!"class != default_data.structs_reader_class)\n",
  c!"\t\tel->SetAttribute(\"structs_reader_class\", data->s",
  c!"tructs_reader_class.c_str());\n",
  c!"\tif(m_delta_only == false || data->structs_writer_",
  c!"class != default_data.structs_writer_class)\n",
  c!"\t\tel->SetAttribute(\"structs_writer_class\", data->s",
  c!"tructs_writer_class.c_str());\n",
  c!"\tif(m_delta_only == false || data->only_read_code ",
  c!"!= default_data.only_read_code)\n",
  c!"\t\tel->SetAttribute(\"only_read_code\", data->only_re",
  c!"ad_code);\n",
  c!"\tif(m_delta_only == false || data->no_special_delt",
  c!"a != default_data.no_special_delta)\n",
  c!"\t\tel->SetAttribute(\"no_special_delta\", data->no_sp",
  c!"ecial_delta);\n",
  c!"\tif(m_delta_only == false || data->file_type != de",
  c!"fault_data.file_type)\n",
  c!"\t\tel->SetAttribute(\"file_type\", stfx::s_from_e(dat",
  c!"a->file_type).c_str());\n",
  c!"\treturn rv;\n",
  c!"\t};\n",
  c!"\n",
  c!"bool xml_writer_C::do_wr_uncommon_spec(tinyxml2::X",
  c!"MLElement *el, uncommon_spec *data)\n",
  c!"\t{\n",
  c!"\tbool rv = true;\n",
  c!"\tuncommon_spec default_data;\n",
  c!"\ttinyxml2::XMLElement *ch_el;\n",
  c!"\tch_el = el->InsertNewChildElement(\"input\");\n",
  c!"\tif (ch_el != nullptr)\n",
  c!"\t\t{\n",
  c!"\t\tfor (input_file itr : data->input)\n",
  c!"\t\t\t{\n",
  c!"\t\t\ttinyxml2::XMLElement *ch_ch_el = ch_el->InsertN",
  c!"ewChildElement(\"input_file\");\n",
  c!"\t\t\tdo_wr_input_file(ch_ch_el, &itr);\n",
  c!"\t\t\t}\n",
  c!"\t\t}\n",
  c!"\tch_el = el->InsertNewChildElement(\"out\");\n",
  c!"\tif (ch_el != nullptr)\n",
  c!"\t\t{\n",
  c!"\t\tdo_wr_output_spec(ch_el, &data->out);\n",
  c!"\t\t}\n",
  c!"\treturn rv;\n",
  c!"\t};\n",
  c!"\n",
  c!"\n",
  c!"\n"]

/-- src/configuration/structs.h -/
def structsH : Str := List.flatten [
  c!"// structs.h\n",
  c!"//\n",
  c!"// Automatically generated using stfx\n",
  c!"// Do not directly edit this file, use stfx to re-",
  c!"create this file.\n",
  c!"//\n",
  c!"// License : MIT License\n",
  c!"//\n",
  c!"// stfx built at : Jan 29 2025 01:45:46, Software ",
  c!"Version : 25.01\n",
  c!"\n",
  c!"#pragma once\n",
  c!"\n",
  c!"#include <string>\n",
  c!"#include <tinyxml2.h>\n",
  c!"\n",
  c!"#include \"config_data.h\"\n",
  c!"\n",
  c!"class xml_reader_C\n",
  c!"\t{\n",
  c!"\tpublic:\n",
  c!"\t\txml_reader_C();\n",
  c!"\t\tvirtual bool read_from_file(std::string const &f",
  c!"ilename, config &struct_to_fill);\n",
  c!"\tprotected:\n",
  c!"\t\tbool do_config(tinyxml2::XMLElement *el, config ",
  c!"*data);\n",
  c!"\t\tbool do_input_file(tinyxml2::XMLElement *el, inp",
  c!"ut_file *data);\n",
  c!"\t\tbool do_input_spec(tinyxml2::XMLElement *el, inp",
  c!"ut_spec *data);\n",
  c!"\t\tbool do_output_spec(tinyxml2::XMLElement *el, ou",
  c!"tput_spec *data);\n",
  c!"\t\tbool do_uncommon_spec(tinyxml2::XMLElement *el, ",
  c!"uncommon_spec *data);\n",
  c!"\t};\n",
  c!"\n",
  c!"class xml_writer_C : public xml_reader_C\n",
  c!"\t{\n",
  c!"\tprivate:\n",
  c!"\t\tbool m_delta_only {};\n",
  c!"\tpublic:\n",
  c!"\t\txml_writer_C(bool delta_only = true);\n",
  c!"\t\tvirtual bool write_to_file(std::string const &fi",
  c!"lename, config &struct_to_read);\n",
  c!"\tprotected:\n",
  c!"\t\tbool do_wr_config(tinyxml2::XMLElement *el, conf",
  c!"ig *data);\n",
  c!"\t\tbool do_wr_input_file(tinyxml2::XMLElement *el, ",
  c!"input_file *data);\n",
  c!"\t\tbool do_wr_input_spec(tinyxml2::XMLElement *el, ",
  c!"input_spec *data);\n",
  c!"\t\tbool do_wr_output_spec(tinyxml2::XMLElement *el,",
  c!" output_spec *data);\n",
  c!"\t\tbool do_wr_uncommon_spec(tinyxml2::XMLElement *e",
  c!"l, uncommon_spec *data);\n",
  c!"\t};\n"]

end Stfx.Main.SelfHost
