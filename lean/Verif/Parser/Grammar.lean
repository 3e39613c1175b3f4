import Verif.Lexer.Lex
/-
The grammar of headers, transcribed from /repo/src/lex_parse/struct_yacc.y:82-195 (specification).
-/
namespace Stfx.Parser

/-- Nonterminals, struct_yacc.y. -/
inductive NT where
  | accept | fileContent | parts | part | blockStart | blockEnd | comma | semicolon | equals
  | lessthan | greaterthan | true_ | false_ | unsigned | int | short | long | stdString
  | stdVector | enum | class_ | struct | float | double | bool | name | enumPart | enumStart
  | enumBlock | enumBlockEnts | enumEnt | structPart | structStart | structBlockEnts
  | structBlockEnt | simpleType | simpleDefaultValue | value | structBlockVector
deriving DecidableEq, Repr

/-- Grammar symbols, struct_yacc.y:20-195. -/
inductive Sym where
  | t (k : TokKind)
  | n (x : NT)
deriving DecidableEq, Repr

/-- A production, struct_yacc.y:87-195. -/
structure Prod where
  lhs : NT
  rhs : List Sym
deriving DecidableEq, Repr

/-- The productions in the order of struct_yacc.y (number 0 is unused, number 1 is bison's
`$accept: file_content $end`, the others are numbered as in Parser.cpp). -/
def prods : List Prod := [
  ⟨.accept, []⟩,
  ⟨.accept, [.n .fileContent, .t .eof]⟩,
  ⟨.fileContent, [.n .parts]⟩,
  ⟨.parts, [.n .part]⟩,
  ⟨.parts, [.n .part, .n .parts]⟩,
  ⟨.part, [.n .enumPart]⟩,
  ⟨.part, [.n .structPart]⟩,
  ⟨.blockStart, [.t .blockStart]⟩,
  ⟨.blockEnd, [.t .blockEnd]⟩,
  ⟨.comma, [.t .comma]⟩,
  ⟨.semicolon, [.t .semicolon]⟩,
  ⟨.equals, [.t .equals]⟩,
  ⟨.lessthan, [.t .lessthan]⟩,
  ⟨.greaterthan, [.t .greaterthan]⟩,
  ⟨.true_, [.t .true_]⟩,
  ⟨.false_, [.t .false_]⟩,
  ⟨.unsigned, [.t .unsigned]⟩,
  ⟨.int, [.t .int]⟩,
  ⟨.short, [.t .short]⟩,
  ⟨.long, [.t .long]⟩,
  ⟨.stdString, [.t .stdString]⟩,
  ⟨.stdVector, [.t .stdVector]⟩,
  ⟨.enum, [.t .enum]⟩,
  ⟨.class_, [.t .class_]⟩,
  ⟨.struct, [.t .struct]⟩,
  ⟨.float, [.t .float]⟩,
  ⟨.double, [.t .double]⟩,
  ⟨.bool, [.t .bool]⟩,
  ⟨.name, [.t .name]⟩,
  ⟨.enumPart, [.n .enumStart, .n .enumBlock]⟩,
  ⟨.enumStart, [.n .enum, .t .name]⟩,
  ⟨.enumStart, [.n .enum, .n .class_, .n .name]⟩,
  ⟨.enumBlock, [.n .blockStart, .n .enumBlockEnts, .n .blockEnd, .n .semicolon]⟩,
  ⟨.enumBlockEnts, [.n .enumEnt]⟩,
  ⟨.enumBlockEnts, [.n .enumEnt, .n .comma, .n .enumBlockEnts]⟩,
  ⟨.enumBlockEnts, [.n .enumEnt, .n .comma]⟩,
  ⟨.enumEnt, [.n .name]⟩,
  ⟨.enumEnt, [.n .name, .n .equals, .t .value]⟩,
  ⟨.enumEnt, [.n .name, .n .equals, .t .hexValue]⟩,
  ⟨.enumEnt, [.n .name, .n .equals, .t .charConstant]⟩,
  ⟨.structPart, [.n .structStart, .n .blockStart, .n .structBlockEnts, .n .blockEnd, .n .semicolon]⟩,
  ⟨.structStart, [.n .struct, .n .name]⟩,
  ⟨.structBlockEnts, [.n .structBlockEnt]⟩,
  ⟨.structBlockEnts, [.n .structBlockEnt, .n .structBlockEnts]⟩,
  ⟨.structBlockEnt, [.n .simpleType, .n .name, .n .semicolon]⟩,
  ⟨.structBlockEnt, [.n .simpleType, .n .name, .n .simpleDefaultValue, .n .semicolon]⟩,
  ⟨.structBlockEnt, [.n .name, .n .name, .n .semicolon]⟩,
  ⟨.structBlockEnt, [.n .name, .n .name, .n .simpleDefaultValue, .n .semicolon]⟩,
  ⟨.structBlockEnt, [.n .structBlockVector, .n .name, .n .semicolon]⟩,
  ⟨.simpleType, [.n .bool]⟩,
  ⟨.simpleType, [.n .int]⟩,
  ⟨.simpleType, [.n .short]⟩,
  ⟨.simpleType, [.n .long]⟩,
  ⟨.simpleType, [.n .unsigned, .n .int]⟩,
  ⟨.simpleType, [.n .unsigned, .n .short]⟩,
  ⟨.simpleType, [.n .unsigned, .n .long]⟩,
  ⟨.simpleType, [.n .float]⟩,
  ⟨.simpleType, [.n .double]⟩,
  ⟨.simpleType, [.n .stdString]⟩,
  ⟨.simpleDefaultValue, [.n .blockStart, .n .blockEnd]⟩,
  ⟨.simpleDefaultValue, [.n .blockStart, .n .value, .n .blockEnd]⟩,
  ⟨.value, [.t .value]⟩,
  ⟨.value, [.t .fValue]⟩,
  ⟨.value, [.n .true_]⟩,
  ⟨.value, [.n .false_]⟩,
  ⟨.value, [.t .enumValue]⟩,
  ⟨.value, [.t .stringConstant]⟩,
  ⟨.value, [.t .charConstant]⟩,
  ⟨.structBlockVector, [.n .stdVector, .n .lessthan, .n .name, .n .greaterthan]⟩]

mutual
/-- `Derives x w`: the token sequence `w` is derived from the symbol `x`.  (Specification notion, models no code.) -/
inductive Derives : Sym → List Token → Prop where
  | tok {t : Token} : Derives (.t t.kind) [t]
  | prod {p : Prod} {w : List Token} (hp : p ∈ prods.tail) (h : DerivesSeq p.rhs w) : Derives (.n p.lhs) w

/-- `DerivesSeq xs w`: `w` is derived from the symbol sequence `xs`.  (Specification notion, models no code.) -/
inductive DerivesSeq : List Sym → List Token → Prop where
  | nil : DerivesSeq [] []
  | cons {x : Sym} {xs : List Sym} {u w : List Token} (h : Derives x u) (hs : DerivesSeq xs w) :
      DerivesSeq (x :: xs) (u ++ w)
end

/-- The token sequences of headers.  (Specification notion, models no code.) -/
def InGrammar (w : List Token) : Prop := Derives (.n .fileContent) w

end Stfx.Parser
