import Verif.Parser.Stream
import Verif.Main.Console
/-
Everything that is printed on standard output while one file is read, in order: the messages of `info_items_C` (Main/Console.lean)
and what the scanner prints (Parser/Echo.lean).
-/
set_option autoImplicit false
namespace Stfx.Main
open Stfx.Lexer Stfx.Parser Stfx.Items Stfx.Gen

/-- A text on standard output, by the scanner (`printf` and `ECHO`, tokenize.cpp:569, 775-780) or by `fmt::println`
(items.cpp:51-116).  They go through `stdout` and `std::cout`, which may be used together, C++ [ios.members.static]. -/
inductive Piece where
  | scanner (t : Str)
  | message (t : Str)
deriving DecidableEq, Repr

/-- What the events of the parser print: a call of `yylex` matches lexemes up to the next token, or the end of the file
(tokenize.cpp:669-1038), a call of `info_items_C` may report a name in use (items.cpp:76-79, 113-116). -/
def piecesOf (self : Nat) : List Event → List Lexeme → Heap → List Piece
  | [], _, _ => []
  | .read :: es, ls, h =>
    .scanner ((upTo 1 ls).flatMap lexemeSays) :: piecesOf self es (ls.drop (upTo 1 ls).length) h
  | .call c :: es, ls, h => (callSays self h c).map .message ++ (match applyCall self h c with
    | none => []
    | some h' => piecesOf self es ls h')

/-- Standard output during `process_input_file` for a file that can be opened, items.cpp:48-68.  `none`: undefined behaviour of
the scanner. -/
def fileStream (self : Nat) (path w : Str) (h : Heap) : Option (List Piece) :=
  match lexFile w with
  | none => none
  | some ls => some (.message (c!"\nFile opened for input:\t\t" ++ path) :: piecesOf self (parseEvents (tokensOf ls)) ls h)

/-- The characters of the pieces: `fmt::println` adds a line end, items.cpp:51-116. -/
def Piece.text : Piece → Str
  | .scanner t => t
  | .message t => t ++ c!"\n"

end Stfx.Main
