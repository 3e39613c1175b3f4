import Verif.Parser.Grammar
import Verif.Parser.Driver
/-
Syntax trees of headers, the token sequences they are written as, and the record-building operations
they stand for (specification of what parsing a header means).
-/
namespace Stfx.Parser

/-- A value given to an enumerator, struct_yacc.y:156-158. -/
inductive EnumVal where
  | dec (s : Str) | hex (s : Str) | chr (s : Str)
deriving DecidableEq, Repr

/-- An enumerator, `enum_ent`, struct_yacc.y:155-158. -/
structure Enumerator where
  name : Str
  value : Option EnumVal
deriving DecidableEq, Repr

/-- A default value inside braces, `value`, struct_yacc.y:187-193. -/
inductive DefVal where
  | int (s : Str) | float (s : Str) | true_ | false_ | enumerator (s : Str) | string (s : Str) | chr (s : Str)
deriving DecidableEq, Repr

/-- A member default: absent, `{}` or `{value}`, `simple_default_value`, struct_yacc.y:184-185. -/
inductive Default where
  | absent | empty | val (v : DefVal)
deriving DecidableEq, Repr

/-- A struct member, `struct_block_ent`, struct_yacc.y:167-171. -/
inductive Member where
  | simple (ty : SimpleTy) (name : Str) (d : Default)
  | named (ty name : Str) (d : Default)
  | vector (elem name : Str)
deriving DecidableEq, Repr

/-- A declaration, `part`, struct_yacc.y:92-93, 143-165. -/
inductive Decl where
  | enum (isClass : Bool) (name : Str) (first : Enumerator) (more : List Enumerator) (trailingComma : Bool)
  | struct (name : Str) (first : Member) (more : List Member)
deriving DecidableEq, Repr

/-- A header: at least one declaration, `file_content`, struct_yacc.y:87-90. -/
structure Header where
  first : Decl
  more : List Decl
deriving DecidableEq, Repr

/-- All declarations of a header, struct_yacc.y:87-90. -/
def Header.decls (h : Header) : List Decl := h.first :: h.more

/-! ### Tokens -/

/-- A token without text, struct_yacc.y:96-137. -/
abbrev tk (k : TokKind) : Token := ⟨k, []⟩

/-- The token of a value of an enumerator, struct_yacc.y:156-158. -/
def EnumVal.tok : EnumVal → Token
  | .dec s => ⟨.value, s⟩
  | .hex s => ⟨.hexValue, s⟩
  | .chr s => ⟨.charConstant, s⟩

/-- The tokens of an enumerator, struct_yacc.y:155-158. -/
def Enumerator.toks (e : Enumerator) : List Token :=
  match e.value with
  | none => [⟨.name, e.name⟩]
  | some v => [⟨.name, e.name⟩, tk .equals, v.tok]

/-- Enumerators separated by commas, with an optional comma at the end, struct_yacc.y:150-152. -/
def enumeratorsToks (trailing : Bool) : Enumerator → List Enumerator → List Token
  | e, [] => e.toks ++ (if trailing then [tk .comma] else [])
  | e, e' :: es => e.toks ++ tk .comma :: enumeratorsToks trailing e' es

/-- The tokens of a simple type, struct_yacc.y:173-182. -/
def SimpleTy.toks : SimpleTy → List Token
  | .bool => [tk .bool]
  | .int => [tk .int]
  | .short => [tk .short]
  | .long => [tk .long]
  | .unsignedInt => [tk .unsigned, tk .int]
  | .unsignedShort => [tk .unsigned, tk .short]
  | .unsignedLong => [tk .unsigned, tk .long]
  | .float => [tk .float]
  | .double => [tk .double]
  | .stdString => [tk .stdString]

/-- The token of a default value, struct_yacc.y:187-193. -/
def DefVal.tok : DefVal → Token
  | .int s => ⟨.value, s⟩
  | .float s => ⟨.fValue, s⟩
  | .true_ => tk .true_
  | .false_ => tk .false_
  | .enumerator s => ⟨.enumValue, s⟩
  | .string s => ⟨.stringConstant, s⟩
  | .chr s => ⟨.charConstant, s⟩

/-- The tokens of a default, struct_yacc.y:184-185. -/
def Default.toks : Default → List Token
  | .absent => []
  | .empty => [tk .blockStart, tk .blockEnd]
  | .val v => [tk .blockStart, v.tok, tk .blockEnd]

/-- The tokens of a member, struct_yacc.y:167-171, 195. -/
def Member.toks : Member → List Token
  | .simple ty name d => ty.toks ++ ⟨.name, name⟩ :: d.toks ++ [tk .semicolon]
  | .named ty name d => ⟨.name, ty⟩ :: ⟨.name, name⟩ :: d.toks ++ [tk .semicolon]
  | .vector elem name =>
    [tk .stdVector, tk .lessthan, ⟨.name, elem⟩, tk .greaterthan, ⟨.name, name⟩, tk .semicolon]

/-- The tokens of a declaration, struct_yacc.y:143-165. -/
def Decl.toks : Decl → List Token
  | .enum isClass name e es trailing =>
    tk .enum :: (if isClass then [tk .class_] else []) ++ ⟨.name, name⟩ :: tk .blockStart ::
      enumeratorsToks trailing e es ++ [tk .blockEnd, tk .semicolon]
  | .struct name m ms =>
    tk .struct :: ⟨.name, name⟩ :: tk .blockStart :: (m :: ms).flatMap Member.toks ++
      [tk .blockEnd, tk .semicolon]

/-- The token sequence of a header, struct_yacc.y:87-90. -/
def Header.toks (h : Header) : List Token := h.decls.flatMap Decl.toks

/-! ### Meaning -/

/-- The text of a value of an enumerator, struct_yacc.y:156-158. -/
def EnumVal.text : EnumVal → Str
  | .dec s | .hex s | .chr s => s

/-- An enumerator becomes one operation, struct_yacc.y:155-158. -/
def Enumerator.call (e : Enumerator) : Call :=
  match e.value with
  | none => .enumLine e.name false c!"-"
  | some v => .enumLine e.name true v.text

/-- The text of a default value, struct_yacc.y:187-193. -/
def DefVal.text : DefVal → Str
  | .int s | .float s | .enumerator s | .string s | .chr s => s
  | .true_ => c!"true"
  | .false_ => c!"false"

/-- Default as recorded, `-` if there is none, struct_yacc.y:167-168, 184-185. -/
def Default.text : Default → Str
  | .absent => c!"-"
  | .empty => c!"{}"
  | .val v => c!"{" ++ v.text ++ c!"}"

/-- A member becomes one operation; the default of a member of a named type is not recorded, struct_yacc.y:167-171. -/
def Member.call : Member → Call
  | .simple ty name d => .simple ty name d.text
  | .named ty name _ => .complex .enumOrStruct ty name
  | .vector elem name => .complex .vector elem name

/-- The operations of a declaration, struct_yacc.y:145-163. -/
def Decl.calls : Decl → List Call
  | .enum isClass name e es _ => .enum name isClass :: (e :: es).map Enumerator.call
  | .struct name m ms => .struct name :: (m :: ms).map Member.call

/-- The operations a header stands for, struct_yacc.y:87-90. -/
def Header.calls (h : Header) : List Call := h.decls.flatMap Decl.calls

end Stfx.Parser
