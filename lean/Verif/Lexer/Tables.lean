/-
Scanner tables of the flex-generated scanner, transcribed mechanically from
/repo/src/lex_parse/tokenize.cpp.
-/
namespace Stfx.Lexer

/-- `yy_accept[134]`, src/lex_parse/tokenize.cpp:326-343 (same entries, same order). -/
def yyAccept : List Nat :=
  [0, 0, 0, 0, 0, 38, 37, 8, 7, 37, 37, 37, 12, 37, 32, 32, 13, 14, 11, 15,
   30, 30, 30, 30, 30, 30, 30, 30, 30, 30, 30, 9, 10, 8, 37, 3, 2, 3, 8, 7,
   0, 35, 0, 1, 0, 0, 32, 0, 30, 0, 30, 30, 30, 30, 30, 30, 30, 30, 30, 30,
   30, 30, 30, 30, 8, 0, 0, 6, 4, 36, 0, 5, 34, 32, 33, 33, 0, 30, 30, 30,
   30, 30, 30, 19, 30, 30, 30, 30, 30, 30, 34, 34, 33, 31, 25, 30, 30, 16, 30, 30,
   21, 30, 0, 30, 26, 30, 31, 31, 17, 30, 27, 23, 20, 0, 30, 30, 24, 31, 31, 18,
   30, 31, 31, 30, 31, 31, 22, 31, 31, 31, 31, 28, 29, 0]

/-- `yy_ec[256]`, src/lex_parse/tokenize.cpp:345-375 (same entries, same order). -/
def yyEc : List Nat :=
  [0, 1, 1, 1, 1, 1, 1, 1, 1, 2, 3, 1, 1, 4, 1, 1, 1, 1, 1, 1,
   1, 1, 1, 1, 1, 1, 1, 1, 1, 1, 1, 1, 2, 1, 5, 6, 1, 1, 1, 7,
   1, 1, 8, 1, 9, 1, 1, 10, 11, 12, 12, 12, 12, 12, 12, 12, 12, 12, 13, 14,
   15, 16, 17, 1, 1, 18, 19, 19, 19, 19, 19, 20, 20, 20, 20, 20, 20, 20, 20, 20,
   20, 20, 20, 20, 20, 20, 20, 20, 20, 20, 21, 1, 1, 1, 1, 21, 1, 22, 23, 24,
   25, 26, 27, 28, 29, 30, 21, 21, 31, 32, 33, 34, 21, 21, 35, 36, 37, 38, 39, 21,
   40, 21, 21, 41, 1, 42, 1, 1, 1, 1, 1, 1, 1, 1, 1, 1, 1, 1, 1, 1,
   1, 1, 1, 1, 1, 1, 1, 1, 1, 1, 1, 1, 1, 1, 1, 1, 1, 1, 1, 1,
   1, 1, 1, 1, 1, 1, 1, 1, 1, 1, 1, 1, 1, 1, 1, 1, 1, 1, 1, 1,
   1, 1, 1, 1, 1, 1, 1, 1, 1, 1, 1, 1, 1, 1, 1, 1, 1, 1, 1, 1,
   1, 1, 1, 1, 1, 1, 1, 1, 1, 1, 1, 1, 1, 1, 1, 1, 1, 1, 1, 1,
   1, 1, 1, 1, 1, 1, 1, 1, 1, 1, 1, 1, 1, 1, 1, 1, 1, 1, 1, 1,
   1, 1, 1, 1, 1, 1, 1, 1, 1, 1, 1, 1, 1, 1, 1, 1]

/-- `yy_meta[43]`, src/lex_parse/tokenize.cpp:377-384 (same entries, same order). -/
def yyMeta : List Nat :=
  [0, 1, 1, 2, 1, 1, 1, 1, 1, 1, 1, 3, 3, 4, 1, 1, 1, 1, 5, 5,
   6, 6, 5, 5, 5, 5, 5, 5, 6, 6, 6, 6, 6, 6, 6, 6, 6, 6, 6, 6,
   6, 1, 1]

/-- `yy_base[144]`, src/lex_parse/tokenize.cpp:386-404 (same entries, same order). -/
def yyBase : List Nat :=
  [0, 0, 41, 41, 42, 288, 289, 285, 289, 283, 280, 0, 289, 38, 40, 42, 289, 289, 289, 289,
   44, 47, 31, 250, 35, 39, 38, 249, 45, 41, 44, 289, 289, 81, 279, 289, 289, 271, 278, 289,
   274, 273, 270, 289, 273, 73, 77, 79, 241, 261, 239, 238, 237, 64, 58, 59, 68, 236, 66, 61,
   235, 76, 70, 71, 107, 265, 264, 289, 289, 289, 263, 289, 103, 105, 107, 0, 0, 89, 88, 102,
   94, 93, 99, 231, 78, 103, 118, 101, 114, 111, 289, 131, 0, 135, 230, 115, 119, 229, 130, 123,
   228, 124, 248, 135, 224, 134, 154, 159, 219, 141, 197, 191, 185, 141, 147, 149, 176, 174, 150, 174,
   162, 154, 166, 138, 162, 170, 172, 164, 161, 172, 167, 168, 107, 289, 211, 217, 223, 229, 233, 239,
   245, 249, 250, 254]

/-- `yy_def[144]`, src/lex_parse/tokenize.cpp:406-424 (same entries, same order). -/
def yyDef : List Nat :=
  [0, 133, 1, 134, 134, 133, 133, 133, 133, 133, 135, 136, 133, 133, 137, 137, 133, 133, 133, 133,
   138, 138, 21, 21, 21, 21, 21, 21, 21, 21, 21, 133, 133, 133, 139, 133, 133, 133, 133, 133,
   135, 135, 133, 133, 140, 133, 137, 141, 21, 133, 21, 21, 21, 21, 21, 21, 21, 21, 21, 21,
   21, 21, 21, 21, 133, 139, 139, 133, 133, 133, 140, 133, 133, 137, 141, 141, 142, 21, 21, 21,
   21, 21, 21, 21, 21, 21, 21, 21, 21, 21, 133, 133, 141, 143, 21, 21, 21, 21, 21, 21,
   21, 21, 133, 21, 21, 21, 143, 143, 21, 21, 21, 21, 21, 142, 21, 21, 21, 143, 117, 21,
   21, 117, 117, 21, 117, 117, 21, 117, 117, 117, 117, 117, 117, 0, 133, 133, 133, 133, 133, 133,
   133, 133, 133, 133]

/-- `yy_nxt[332]`, src/lex_parse/tokenize.cpp:426-465 (same entries, same order). -/
def yyNxt : List Nat :=
  [0, 6, 7, 8, 9, 10, 6, 11, 6, 12, 13, 14, 15, 6, 16, 17, 18, 19, 20, 20,
   20, 20, 20, 21, 22, 23, 24, 25, 20, 20, 26, 27, 20, 20, 20, 20, 28, 29, 30, 20,
   20, 31, 32, 33, 36, 36, 43, 34, 44, 37, 37, 46, 46, 46, 46, 48, 48, 49, 48, 48,
   49, 56, 53, 51, 51, 50, 51, 51, 55, 50, 57, 58, 50, 50, 60, 50, 62, 63, 50, 50,
   47, 52, 61, 64, 72, 72, 78, 65, 73, 73, 74, 74, 50, 50, 84, 50, 79, 80, 50, 81,
   50, 86, 50, 83, 50, 50, 100, 89, 88, 64, 50, 87, 50, 65, 72, 72, 73, 73, 74, 74,
   94, 99, 50, 50, 95, 96, 97, 50, 50, 98, 90, 102, 91, 50, 92, 50, 50, 50, 101, 103,
   104, 105, 72, 72, 107, 50, 106, 106, 50, 50, 109, 108, 50, 50, 93, 93, 110, 50, 50, 114,
   111, 112, 115, 126, 50, 106, 106, 116, 50, 50, 106, 106, 50, 93, 93, 50, 122, 117, 93, 93,
   118, 50, 120, 50, 119, 106, 106, 107, 123, 124, 125, 107, 127, 93, 93, 130, 50, 129, 107, 107,
   131, 107, 132, 107, 107, 107, 50, 128, 50, 107, 50, 121, 35, 35, 35, 35, 35, 35, 40, 50,
   40, 40, 40, 40, 42, 50, 42, 42, 42, 42, 45, 50, 45, 45, 45, 45, 50, 50, 50, 50,
   66, 66, 66, 66, 66, 66, 70, 70, 70, 70, 70, 70, 75, 50, 75, 93, 93, 107, 50, 107,
   107, 113, 50, 50, 50, 50, 71, 67, 67, 85, 82, 77, 50, 50, 76, 50, 71, 69, 41, 41,
   38, 68, 67, 59, 54, 41, 39, 38, 133, 5, 133, 133, 133, 133, 133, 133, 133, 133, 133, 133,
   133, 133, 133, 133, 133, 133, 133, 133, 133, 133, 133, 133, 133, 133, 133, 133, 133, 133, 133, 133,
   133, 133, 133, 133, 133, 133, 133, 133, 133, 133, 133, 133]

/-- `yy_chk[332]`, src/lex_parse/tokenize.cpp:467-506 (same entries, same order). -/
def yyChk : List Nat :=
  [0, 1, 1, 1, 1, 1, 1, 1, 1, 1, 1, 1, 1, 1, 1, 1, 1, 1, 1, 1,
   1, 1, 1, 1, 1, 1, 1, 1, 1, 1, 1, 1, 1, 1, 1, 1, 1, 1, 1, 1,
   1, 1, 1, 2, 3, 4, 13, 2, 13, 3, 4, 14, 14, 15, 15, 20, 20, 20, 21, 21,
   21, 25, 22, 20, 20, 22, 21, 21, 24, 24, 25, 26, 26, 25, 28, 29, 29, 30, 30, 28,
   14, 21, 28, 33, 45, 45, 53, 33, 46, 46, 47, 47, 54, 55, 59, 59, 54, 55, 53, 56,
   58, 61, 56, 58, 62, 63, 84, 63, 62, 64, 61, 61, 84, 64, 72, 72, 73, 73, 74, 74,
   77, 82, 78, 77, 78, 79, 80, 81, 80, 81, 72, 86, 73, 82, 74, 87, 79, 85, 85, 87,
   88, 89, 91, 91, 132, 89, 93, 93, 88, 95, 96, 95, 86, 96, 93, 93, 98, 99, 101, 103,
   99, 101, 105, 123, 98, 106, 106, 109, 105, 103, 107, 107, 123, 106, 106, 109, 118, 113, 107, 107,
   113, 114, 115, 115, 114, 117, 117, 118, 120, 121, 122, 121, 124, 117, 117, 128, 120, 127, 128, 124,
   129, 127, 130, 122, 130, 131, 126, 125, 119, 129, 116, 117, 134, 134, 134, 134, 134, 134, 135, 112,
   135, 135, 135, 135, 136, 111, 136, 136, 136, 136, 137, 110, 137, 137, 137, 137, 138, 138, 138, 138,
   139, 139, 139, 139, 139, 139, 140, 140, 140, 140, 140, 140, 141, 108, 141, 142, 142, 143, 104, 143,
   143, 102, 100, 97, 94, 83, 70, 66, 65, 60, 57, 52, 51, 50, 49, 48, 44, 42, 41, 40,
   38, 37, 34, 27, 23, 10, 9, 7, 5, 133, 133, 133, 133, 133, 133, 133, 133, 133, 133, 133,
   133, 133, 133, 133, 133, 133, 133, 133, 133, 133, 133, 133, 133, 133, 133, 133, 133, 133, 133, 133,
   133, 133, 133, 133, 133, 133, 133, 133, 133, 133, 133, 133]

end Stfx.Lexer
