import Verif.Props.C01_C07_Lexer
import Verif.Props.C08_C11_Parser
import Verif.Props.C12_C15_Items
import Verif.Props.C16_C19_Resolve
import Verif.Props.C20_C22_Main
import Verif.Props.C23_Order
import Verif.Props.C24_C25_Code
import Verif.Props.C42_C43_Result
import Verif.Props.C26_C29_Enum
import Verif.Props.C30_C33_Xml
import Verif.Props.C34_C36_Read
import Verif.Props.C37_C38_Write
import Verif.Props.C39_C41_Ini
import Verif.Props.C45_Config
import Verif.Props.C48_C49_Typed
import Verif.Props.C50_Written
import Verif.Props.C51_C57_IniRead
import Verif.Props.C58_Buffer
import Verif.Props.C59_Syntax
import Verif.Props.C60_EnumText
import Verif.Cpp.RunXml
import Verif.Cpp.RunXmlFun
import Verif.Cpp.RunIniLoop
import Verif.Cpp.RunIniRd
import Verif.Cpp.RunIniFile
import Verif.Cpp.IniProgram
import Verif.Cpp.RunIniWr
import Verif.Cpp.IniWrProgram
import Verif.Cpp.IniCheck
import Verif.Cpp.RunReadFile
import Verif.Cpp.XmlProgram
import Verif.Cpp.RunXmlWr
import Verif.Cpp.RunXmlWrFun
import Verif.Cpp.RunWriteFile
import Verif.Cpp.XmlWrProgram
import Verif.Cpp.Check
import Verif.Props.C61_XmlReadText
import Verif.Props.C62_XmlWriteText
import Verif.Props.C63_IniReadText
import Verif.Props.C64_IniWriteText
import Verif.Cpp.Class
import Verif.Cpp.HeaderText
import Verif.Props.C65_Header
import Verif.Cpp.Objects
import Verif.Props.C66_Objects
import Verif.Main.SelfHost
import Verif.Cpp.SchemaNames
import Verif.Props.C67_OwnConfig
import Verif.Props.C68_EndToEnd
import Verif.Props.C69_OneDefinition
import Verif.Cpp.Input
import Verif.Cpp.InputLex
import Verif.Cpp.InputDecl
import Verif.Cpp.InputMeans
import Verif.Props.C70_Headers
import Verif.Cpp.Unit
import Verif.Cpp.UnitLex
import Verif.Cpp.UnitHeaders
import Verif.Cpp.UnitHash
import Verif.Cpp.UnitGen
import Verif.Props.C71_Units
import Verif.Cpp.Library
import Verif.Props.C72_Library
import Verif.Main.Console
import Verif.Main.ConsoleFacts
import Verif.Props.C73_Console
import Verif.Parser.Message
import Verif.Parser.Viable
import Verif.Parser.Echo
import Verif.Props.C74_Messages
import Verif.Props.C75_Columns
import Verif.Props.C76_Skipped
import Verif.Props.C77_Repeat
import Verif.Props.C78_Evolve
import Verif.Props.C79_IniEvolve
import Verif.Parser.Lifetime
import Verif.Props.C80_Lifetime
import Verif.Lexer.LineEnds
import Verif.Run.IniLineEnds
import Verif.Props.C81_LineEnds
import Verif.Props.C82_Again
import Verif.Props.C83_Local
import Verif.Parser.Stream
import Verif.Parser.StreamFacts
import Verif.Main.Stream
import Verif.Props.C84_Stream
import Verif.Main.StreamRun
import Verif.Props.C84_Run
import Verif.Lexer.Split
import Verif.Props.C85_Split
import Verif.Props.C86_IniSame
import Verif.Props.C87_Stamp
import Verif.Props.C88_SameText
import Verif.Props.C82_Text
import Verif.Props.C89_NextText
