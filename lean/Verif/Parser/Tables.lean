/-
LALR(1) tables of the bison-generated parser, transcribed mechanically from
/repo/src/lex_parse/Parser.cpp and Parser.hpp.
-/
namespace Stfx.Parser

/-- `yypact_[96]`, src/lex_parse/Parser.cpp:1300-1312 (same entries, same order). -/
def yypact : List Int :=
  [25, -59, -59, 2, -59, 25, -1, -16, -59, 8, -59, 8, -59, -59, -59, -59, -16, -59, -59, -59,
   -16, -59, 41, -59, 14, 20, 30, -59, -59, -59, -59, -59, -59, -59, -59, -59, 19, -59, -59, -59,
   -59, 17, -59, -59, -59, -16, 20, 41, -16, -16, -59, -14, -59, 32, -59, -16, -59, -59, -59, -59,
   -16, 11, 32, -59, 11, 32, -59, -59, -59, -59, -59, -59, 35, 1, -59, 32, -59, -59, 32, -59,
   -59, -59, -59, -59, -59, -59, -59, -59, -59, -59, -59, -59, 20, -59, -59, -59]

/-- `yydefact_[96]`, src/lex_parse/Parser.cpp:1315-1327 (same entries, same order). -/
def yydefact : List Nat :=
  [0, 22, 24, 0, 2, 3, 0, 0, 5, 0, 6, 0, 1, 4, 23, 30, 0, 28, 41, 7,
   0, 29, 0, 31, 36, 0, 33, 17, 18, 19, 16, 25, 26, 27, 20, 21, 0, 50, 51, 52,
   58, 0, 56, 57, 49, 0, 0, 42, 0, 0, 11, 0, 8, 0, 9, 35, 53, 54, 55, 12,
   0, 0, 0, 43, 0, 0, 37, 38, 39, 10, 32, 34, 0, 0, 46, 0, 40, 44, 0, 48,
   13, 68, 14, 15, 65, 61, 62, 66, 67, 59, 63, 64, 0, 47, 45, 60]

/-- `yypgoto_[39]`, src/lex_parse/Parser.cpp:1330-1336 (same entries, same order). -/
def yypgoto : List Int :=
  [-59, -59, 43, -59, 34, -45, -59, -58, -59, -59, -59, -59, -59, -59, 10, 13, 15, -59, -59, -59,
   -59, -59, -59, -59, -59, -7, -59, -59, -59, -5, -59, -59, -59, 5, -59, -59, -3, -59, -59]

/-- `yydefgoto_[39]`, src/lex_parse/Parser.cpp:1339-1345 (same entries, same order). -/
def yydefgoto : List Int :=
  [-1, 3, 4, 5, 73, 53, 55, 70, 51, 60, 81, 90, 91, 36, 37, 38, 39, 40, 41, 6,
   16, 7, 42, 43, 44, 24, 8, 9, 21, 25, 26, 10, 11, 46, 47, 48, 75, 92, 49]

/-- `yytable_[66]`, src/lex_parse/Parser.cpp:1348-1357 (same entries, same order). -/
def yytable : List Nat :=
  [18, 62, 12, 74, 76, 52, 77, 79, 17, 23, 14, 19, 66, 67, 19, 45, 68, 93, 69, 50,
   94, 82, 83, 15, 52, 59, 84, 85, 89, 86, 87, 88, 27, 28, 29, 1, 54, 2, 61, 69,
   45, 64, 65, 20, 80, 22, 56, 95, 13, 57, 71, 58, 63, 72, 27, 28, 29, 30, 31, 32,
   33, 78, 0, 34, 35, 17]

/-- `yycheck_[66]`, src/lex_parse/Parser.cpp:1360-1369 (same entries, same order). -/
def yycheck : List Int :=
  [7, 46, 0, 61, 62, 4, 64, 65, 24, 16, 11, 3, 26, 27, 3, 22, 30, 75, 7, 5,
   78, 20, 21, 24, 4, 8, 25, 26, 73, 28, 29, 30, 13, 14, 15, 10, 6, 12, 45, 7,
   47, 48, 49, 9, 9, 11, 36, 92, 5, 36, 55, 36, 47, 60, 13, 14, 15, 16, 17, 18,
   19, 64, -1, 22, 23, 24]

/-- `yystos_[96]`, src/lex_parse/Parser.cpp:1372-1384 (same entries, same order). -/
def yystos : List Nat :=
  [0, 10, 12, 32, 33, 34, 50, 52, 57, 58, 62, 63, 0, 33, 11, 24, 51, 24, 56, 3,
   35, 59, 35, 56, 56, 60, 61, 13, 14, 15, 16, 17, 18, 19, 22, 23, 44, 45, 46, 47,
   48, 49, 53, 54, 55, 56, 64, 65, 66, 69, 5, 39, 4, 36, 6, 37, 45, 46, 47, 8,
   40, 56, 36, 64, 56, 56, 26, 27, 30, 7, 38, 60, 56, 35, 38, 67, 38, 38, 67, 38,
   9, 41, 20, 21, 25, 26, 28, 29, 30, 36, 42, 43, 68, 38, 38, 36]

/-- `yyr1_[69]`, src/lex_parse/Parser.cpp:1387-1396 (same entries, same order). -/
def yyr1 : List Nat :=
  [0, 31, 32, 33, 33, 34, 34, 35, 36, 37, 38, 39, 40, 41, 42, 43, 44, 45, 46, 47,
   48, 49, 50, 51, 52, 53, 54, 55, 56, 57, 58, 58, 59, 60, 60, 60, 61, 61, 61, 61,
   62, 63, 64, 64, 65, 65, 65, 65, 65, 66, 66, 66, 66, 66, 66, 66, 66, 66, 66, 67,
   67, 68, 68, 68, 68, 68, 68, 68, 69]

/-- `yyr2_[69]`, src/lex_parse/Parser.cpp:1399-1408 (same entries, same order). -/
def yyr2 : List Nat :=
  [0, 2, 1, 1, 2, 1, 1, 1, 1, 1, 1, 1, 1, 1, 1, 1, 1, 1, 1, 1,
   1, 1, 1, 1, 1, 1, 1, 1, 1, 2, 2, 3, 4, 1, 3, 2, 1, 3, 3, 3,
   5, 2, 1, 2, 3, 4, 3, 4, 3, 1, 1, 1, 1, 2, 2, 2, 1, 1, 1, 2,
   3, 1, 1, 1, 1, 1, 1, 1, 4]

end Stfx.Parser
