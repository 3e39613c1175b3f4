import Verif.Cpp.UnitGen
import Verif.Cpp.HeaderText
import Verif.Props.C71_Units
/-
Which declarations of other files the generated code needs: the qualified names in its syntax trees, and the names that the headers it
includes declare.
-/
set_option autoImplicit false
set_option maxRecDepth 4000
namespace Stfx.Cpp
open Stfx.Gen Stfx.Parser Stfx.Items

/-! ### Names in syntax trees -/

/-- The names in a type.  C++ [dcl.type]. -/
def tyNames : Ty → List (List Str)
  | .prim _ | .auto => []
  | .name q => [q]
  | .map k v => [c!"std", c!"map"] :: (tyNames k ++ tyNames v)
  | .ptr t | .ref t => tyNames t

mutual
/-- The names in an expression; names of members after `.` and `->` are looked up in a class and left out.  C++ [expr.prim.id]. -/
def exprNames : Expr → List (List Str)
  | .id q => [q]
  | .num _ | .str _ | .chr _ | .bool _ | .null => []
  | .addr e | .mem e _ | .arrow e _ | .cast _ e => exprNames e
  | .bin _ a b | .assign a b | .plusAssign a b | .index a b => exprNames a ++ exprNames b
  | .cond c a b => exprNames c ++ exprNames a ++ exprNames b
  | .call f args => exprNames f ++ exprsNames args
  | .braces es => exprsNames es
/-- The names in expressions.  C++ [expr.prim.id]. -/
def exprsNames : List Expr → List (List Str)
  | [] => []
  | e :: es => exprNames e ++ exprsNames es
end

/-- The names in an initialiser, if there is one.  C++ [dcl.init]. -/
def optNames : Option Expr → List (List Str)
  | none => []
  | some e => exprNames e

mutual
/-- The names in a statement.  C++ [stmt]. -/
def stmtNames : Stmt → List (List Str)
  | .expr e | .case e | .ret e => exprNames e
  | .decl t _ a i => tyNames t ++ optNames a ++ optNames i
  | .block ss => stmtsNames ss
  | .when c s | .while c s => exprNames c ++ stmtNames s
  | .ite c s t => exprNames c ++ stmtNames s ++ stmtNames t
  | .forEach t _ e s => tyNames t ++ exprNames e ++ stmtNames s
  | .switch e ss => exprNames e ++ stmtsNames ss
  | .default | .brk | .cont => []
  | .try ss t hs => stmtsNames ss ++ tyNames t ++ stmtsNames hs
/-- The names in statements.  C++ [stmt]. -/
def stmtsNames : List Stmt → List (List Str)
  | [] => []
  | s :: ss => stmtNames s ++ stmtsNames ss
end

/-- The names in a function definition, besides the name it defines.  C++ [dcl.fct.def]. -/
def funNames (f : Fun) : List (List Str) :=
  (match f.ret with | some t => tyNames t | none => []) ++ f.params.flatMap (fun p => tyNames p.1) ++
    (match f.base with | some q => [q] | none => []) ++ stmtsNames f.body

/-- The names in the declaration of a function.  C++ [dcl.fct]. -/
def fdeclNames (f : FDecl) : List (List Str) :=
  (match f.ret with | some t => tyNames t | none => []) ++ f.params.flatMap fun p => tyNames p.1 ++ optNames p.2.2

/-- The names in the declaration of a data member.  C++ [class.mem]. -/
def fieldNames (f : Field) : List (List Str) := tyNames f.ty ++ optNames f.init

/-- The names in a member of a class.  C++ [class.mem]. -/
def memberDeclNames : Member → List (List Str)
  | .access _ => []
  | .field f => fieldNames f
  | .fn f => fdeclNames f
  | .nested _ fs => fs.flatMap fieldNames

/-- The names in a declaration of a header.  Those in the head of a specialisation that have no `::` are looked up in the namespace of
the template and left out.  C++ [dcl.pre], [temp.expl.spec]. -/
def hdeclNames : HDecl → List (List Str)
  | .cls c => (match c.base with | some b => [b.2] | none => []) ++ c.members.flatMap memberDeclNames
  | .ns _ fs => fs.flatMap fdeclNames
  | .special s => s.tmpl :: (s.params.flatMap (fun p => tyNames p.1) ++ stmtsNames s.body ++ exprsNames s.retArgs)

/-! ### Names of libraries -/

/-- Does the name belong to a library or to the enum functions?  C++ [namespace.std]. -/
def foreign : List Str → Bool
  | a :: _ :: _ => a = c!"std" || a = c!"fmt" || a = c!"tinyxml2" || a = c!"stfx"
  | _ => false

/-- Names that a header of the standard library, of fmt or of tinyxml2 has to declare; only names are listed that the generated code
uses.  `<stdexcept>` is counted as declaring `std::exception`, the base class of all its classes.  C++ [string.syn], [map.syn], [re.syn],
[stdexcept.syn], [exception.syn], [cstdio.syn]; fmt/format.h, tinyxml2.h (not in /repo). -/
def provides (h : Str) : List (List Str) :=
  if h = c!"string" then
    [c!"std", c!"string", c!"npos"] ::
      [c!"string", c!"stoi", c!"stol", c!"stoul", c!"stof", c!"stod", c!"to_string"].map fun n => [c!"std", n]
  else if h = c!"map" then [[c!"std", c!"map"]]
  else if h = c!"regex" then [c!"regex", c!"smatch", c!"regex_search"].map fun n => [c!"std", n]
  else if h = c!"stdexcept" ∨ h = c!"exception" then [[c!"std", c!"exception"]]
  else if h = c!"cstdio" then [c!"FILE", c!"fopen", c!"fclose", c!"fgets"].map fun n => [c!"std", n]
  else if h = c!"fmt/format.h" then [c!"formatter", c!"println"].map fun n => [c!"fmt", n]
  else if h = c!"tinyxml2.h" then [c!"XMLDocument", c!"XMLElement", c!"XMLError", c!"XML_SUCCESS"].map fun n => [c!"tinyxml2", n]
  else []

/-- The name between `<` and `>` after the name `include`.  C++ [cpp.include]. -/
def sysName : Str → Option Str
  | '<' :: s => match s.dropWhile (· ≠ '>') with
    | _ :: _ => some (s.takeWhile (· ≠ '>'))
    | [] => none
  | _ => none

/-- The library headers that a source file includes itself.  C++ [cpp.include]. -/
def sysIncludes (text : Str) : List Str :=
  ((pptoks text).getD []).filterMap fun
    | .dir u => if (dirName u).1 = c!"include" then sysName (dirName u).2 else none
    | _ => none

/-- The functions that a header declares in namespaces.  C++ [namespace.def]. -/
def nsNames (text : Str) : List (List Str) :=
  ((parseH true text).getD []).flatMap fun
    | .ns n fs => fs.map fun f => [n, f.name]
    | _ => []

/-- Is the name declared by the headers with the texts `hs`, or by a library header that one of them or the source file `text` includes?
(Specification notion, models no code.) -/
def DeclaredIn (text : Str) (hs : List Str) (q : List Str) : Prop :=
  (∃ t ∈ hs, q ∈ nsNames t) ∨ ∃ t ∈ text :: hs, ∃ h ∈ sysIncludes t, q ∈ provides h

/-! ### Includes of generated files -/

/-- The library header of a directive.  (Proof notion, models no code.) -/
def GDir.sys : GDir → Option Str
  | .system f => some f
  | _ => none

theorem sysName_system {f : Str} (h : (GDir.system f).ok = true) : sysName (c!"<" ++ f ++ c!">") = some f := by
  have hf : ∀ c ∈ f, (c ≠ '>' : Bool) = true := by
    intro c hc
    simp only [GDir.ok, Bool.not_eq_true', List.contains_eq_mem, decide_eq_false_iff_not] at h
    simp only [ne_eq, decide_not, Bool.not_eq_true', decide_eq_false_iff_not]
    exact fun e => h (e ▸ hc)
  have := takeWhile_upto (p := fun c => decide (c ≠ '>')) (f := f) (r := []) (d := '>') hf (by decide)
  show sysName ('<' :: (f ++ ['>'])) = _
  rw [sysName]
  simp only [this.1, this.2]

theorem gdir_sys {g : GDir} (h : g.ok = true) :
    (if (dirName g.text).1 = c!"include" then sysName (dirName g.text).2 else none) = g.sys := by
  cases g with
  | once => rfl
  | quoted f => rw [dirName_quoted]; rfl
  | system f =>
    have : dirName (GDir.system f).text = (c!"include", c!"<" ++ f ++ c!">") := rfl
    rw [this]
    simp only [if_true, sysName_system h]
    rfl

theorem gen_sysIncludes {head body : Str} {gs : List GDir} {ts : List Tok} (hh : HeadIs head gs) (hb : noHash body = true)
    (hl : lex (head ++ body) = some ts) (hg : ∀ g ∈ gs, g.ok = true) : sysIncludes (head ++ body) = gs.filterMap GDir.sys := by
  obtain ⟨pb, h1, h2, _⟩ := gen_pptoks hh hb hl
  rw [sysIncludes, h1, Option.getD_some, List.filterMap_append, List.filterMap_map]
  have e1 : pb.filterMap (fun
      | .dir u => if (dirName u).1 = c!"include" then sysName (dirName u).2 else none
      | _ => none) = [] := by
    rw [List.filterMap_eq_nil_iff]
    intro p hp
    cases p with
    | dir u => exact absurd rfl (h2 _ hp)
    | word w => rfl
    | tok t => rfl
  have e2 : ∀ l : List GDir, (∀ g ∈ l, g.ok = true) → l.filterMap ((fun
      | .dir u => if (dirName u).1 = c!"include" then sysName (dirName u).2 else none
      | _ => none) ∘ fun g => PTok.dir g.text) = l.filterMap GDir.sys := by
    intro l hl
    induction l with
    | nil => rfl
    | cons g l ih =>
      rw [List.filterMap_cons, List.filterMap_cons, ih fun g hg => hl g (List.mem_cons_of_mem _ hg)]
      have := gdir_sys (hl g List.mem_cons_self)
      simp only [Function.comp] at this ⊢
      rw [this]
  rw [e2 gs hg]
  have := e1
  simp only [List.append_eq, List.append_right_eq_self]
  exact this

theorem sys_quoted (l : List Str) : (l.map GDir.quoted).filterMap GDir.sys = [] := by
  induction l <;> simp_all [GDir.sys]

section
variable {k : Kind} {stamp nameCpp nameH e : Str} {inputs : List Str} {out : OutSpec} {E : SMap EnumS} {S : SMap StructS}

theorem structsH_includes (hf : FileNamed stamp nameCpp nameH inputs out.enumFile) (hr : Ident out.readerClass)
    (hw : out.onlyRead = true ∨ Ident out.writerClass) (hs : ∀ p ∈ S, StructNamed p.2) :
    sysIncludes (fileText (structsH k stamp nameH inputs out S)) = [c!"string", if k.isXml then c!"tinyxml2.h" else c!"map"] := by
  obtain ⟨ts, hl⟩ := lex_of_parseH (structsH_parse (ext := true) (k := k) hf hr hw hs)
  rw [structsH_split, fileText_app] at hl ⊢
  rw [gen_sysIncludes (structsH_headIs hf.oneLine)
    (nh_structsH hr.noHash (hw.elim .inl fun h => .inr h.noHash) fun p hp => (hs p hp).name.noHash) hl]
  · rw [structsHDirs, List.filterMap_append, sys_quoted]
    rfl
  · intro g hg
    simp only [structsHDirs, List.mem_append, List.mem_cons, List.not_mem_nil, or_false, List.mem_map] at hg
    rcases hg with (rfl | rfl | rfl) | ⟨f, hf', rfl⟩
    · rfl
    · rfl
    · cases k <;> rfl
    · exact (hf.inputs _ hf').quotedOk

theorem structsCpp_includes (hf : FileNamed stamp nameCpp nameH inputs out.enumFile) (hr : Ident out.readerClass)
    (hw : out.onlyRead = true ∨ Ident out.writerClass) (hs : ∀ p ∈ S, StructNamed p.2) :
    sysIncludes (fileText (structsCpp k stamp nameCpp nameH inputs out S)) =
      if k.isXml then [c!"string", c!"map", c!"stdexcept", c!"tinyxml2.h", c!"tixml2ex.h"]
      else [c!"string", c!"map", c!"regex", c!"stdexcept"] ++ if out.onlyRead then [] else [c!"fmt/format.h"] := by
  obtain ⟨ts, hl⟩ := lex_of_parse (structsCpp_parse (ext := true) (k := k) hf hr hw hs (.inl rfl))
  rw [structsCpp_split, fileText_app] at hl ⊢
  rw [gen_sysIncludes (structsCpp_head hf.oneLine) (nh_structsCpp hr.noHash (hw.elim .inl fun h => .inr h.noHash) fun p hp => (hs p hp).nh) hl
    (structsCpp_dirs_ok hf)]
  rw [structsCppDirs, List.filterMap_append, sys_quoted, List.append_nil, List.cons_append, List.filterMap_cons, List.filterMap_append]
  have : (if disabled out.enumFile then [] else [GDir.quoted (out.enumFile ++ c!".h")]).filterMap GDir.sys = [] := by
    split <;> rfl
  rw [this, List.append_nil]
  unfold libs
  cases k <;> cases out.onlyRead <;> rfl

theorem enumsH_includes (hf : FileNamed stamp nameCpp nameH inputs e) (he : ∀ p ∈ E, EnumNamed p.2) :
    sysIncludes (fileText (enumsH stamp nameH inputs E)) = [c!"string", c!"fmt/format.h"] := by
  obtain ⟨ts, hl⟩ := lex_of_parseH (enumsH_parse (ext := true) hf he)
  rw [enumsH_split, fileText_app] at hl ⊢
  rw [gen_sysIncludes (enumsH_headIs hf.oneLine) (nh_enumsH fun p hp => (he p hp).1.noHash) hl (enumsH_dirs_ok hf)]
  rw [enumsHDirs, List.filterMap_append, sys_quoted]
  rfl

theorem enumsCpp_includes (hf : FileNamed stamp nameCpp nameH inputs e) (he : ∀ p ∈ E, EnumNamed p.2) :
    sysIncludes (fileText (enumsCpp stamp nameCpp nameH inputs E)) = [c!"string", c!"map"] := by
  obtain ⟨ts, hl⟩ := lex_of_parse (enumsCpp_parse (ext := true) hf he)
  rw [enumsCpp_split, fileText_app] at hl ⊢
  rw [gen_sysIncludes (enumsCpp_headIs hf.oneLine) (nh_enumsCpp fun p hp => (he p hp).nh) hl (enumsCpp_dirs_ok hf)]
  rw [enumsCppDirs, List.filterMap_append, sys_quoted]
  rfl

end

/-! ### Names in generated functions -/

/-- The foreign names are among `A`.  (Proof notion, models no code.) -/
def within (A : List (List Str)) (ns : List (List Str)) : Bool := ns.all fun q => !foreign q || A.contains q

theorem within_append {A a b : List (List Str)} : within A (a ++ b) = (within A a && within A b) := List.all_append

theorem within_flatMap {α : Type} {A : List (List Str)} {l : List α} {f : α → List (List Str)} (h : ∀ x ∈ l, within A (f x) = true) :
    within A (l.flatMap f) = true := by
  induction l with
  | nil => rfl
  | cons x l ih =>
    rw [List.flatMap_cons, within_append, h x List.mem_cons_self, ih fun y hy => h y (List.mem_cons_of_mem _ hy)]
    rfl

theorem within_mem {A ns : List (List Str)} (h : within A ns = true) : ∀ q ∈ ns, foreign q = true → q ∈ A := by
  intro q hq hf
  have := List.all_eq_true.1 h q hq
  simpa [hf] using this

theorem within_mono {A B ns : List (List Str)} (hAB : ∀ q ∈ A, q ∈ B) (h : within A ns = true) : within B ns = true := by
  rw [within, List.all_eq_true] at h ⊢
  intro q hq
  have := h q hq
  simp only [Bool.or_eq_true, List.contains_eq_mem, decide_eq_true_eq] at this ⊢
  exact this.imp id (hAB q)

theorem stmtsNames_append (a b : List Stmt) : stmtsNames (a ++ b) = stmtsNames a ++ stmtsNames b := by
  induction a with
  | nil => rfl
  | cons s a ih => rw [List.cons_append, stmtsNames, stmtsNames, ih, List.append_assoc]

theorem stmtsNames_flatMap {α : Type} (l : List α) (f : α → List Stmt) : stmtsNames (l.flatMap f) = l.flatMap fun x => stmtsNames (f x) := by
  induction l with
  | nil => rfl
  | cons x l ih => rw [List.flatMap_cons, List.flatMap_cons, stmtsNames_append, ih]

/-- The library names in XML code.  (Proof notion, models no code.) -/
def xmlLib : List (List Str) :=
  [[c!"std", c!"string"], [c!"std", c!"exception"], [c!"tinyxml2", c!"XMLDocument"], [c!"tinyxml2", c!"XMLElement"],
   [c!"tinyxml2", c!"XMLError"], [c!"tinyxml2", c!"XML_SUCCESS"], [c!"std", c!"stoi"], [c!"std", c!"stoul"], [c!"std", c!"stol"]]

/-- The enum functions.  (Proof notion, models no code.) -/
def enumLib : List (List Str) := [[c!"stfx", c!"s_from_e"], [c!"stfx", c!"s_to_e"]]

/-- Is it a statement for an enum?  (Proof notion, models no code.) -/
def rdEnum : Rd → Bool
  | .elemEnum _ | .attrEnum _ => true
  | _ => false

/-- Is it a statement for an enum?  (Proof notion, models no code.) -/
def wrEnum : Wr → Bool
  | .elemEnum _ _ | .attrEnum _ _ => true
  | _ => false

theorem rdTree_within (r : Rd) : within (xmlLib ++ if rdEnum r then enumLib else []) (stmtsNames (rdTree r)) = true := by
  cases r with
  | elem ty n => cases ty <;> kernel_rfl
  | attr ty n => cases ty <;> kernel_rfl
  | elemEnum n => kernel_rfl
  | attrEnum n => kernel_rfl
  | child n ty => kernel_rfl
  | vector n ty => kernel_rfl
  | fixme n => kernel_rfl
  | warn n => kernel_rfl

theorem wrTree_within (r : Wr) : within (xmlLib ++ if wrEnum r then enumLib else []) (stmtsNames (wrTree r)) = true := by
  cases r with
  | elem b ty n => cases b <;> cases ty <;> kernel_rfl
  | attr b ty n => cases b <;> cases ty <;> kernel_rfl
  | elemEnum b n => cases b <;> kernel_rfl
  | attrEnum b n => cases b <;> kernel_rfl
  | child n ty => kernel_rfl
  | vector n ty => kernel_rfl
  | fixme n => kernel_rfl
  | warn n => kernel_rfl

/-- The library names in n_ini code, besides those of `<cstdio>`.  (Proof notion, models no code.) -/
def iniLib : List (List Str) :=
  [[c!"std", c!"string"], [c!"std", c!"string", c!"npos"], [c!"std", c!"exception"], [c!"std", c!"regex"], [c!"std", c!"smatch"],
   [c!"std", c!"regex_search"], [c!"std", c!"stoi"], [c!"std", c!"stoul"], [c!"std", c!"stol"], [c!"std", c!"stof"], [c!"std", c!"stod"]]

/-- The names of `<cstdio>`.  (Specification notion, models no code.) -/
def cstdio : List (List Str) := provides c!"cstdio"

theorem lookTree_within (r : Look) :
    within (iniLib ++ match r with | .enum _ => enumLib | .simple _ _ => []) (stmtsNames (lookTree r)) = true := by
  cases r with
  | simple ty n => cases ty <;> kernel_rfl
  | enum n => kernel_rfl

theorem nrdTree_within (r : NRd) : within iniLib (stmtsNames (nrdTree r)) = true := by
  cases r <;> kernel_rfl

theorem nwrTree_within (r : NWr) : within (iniLib ++ [[c!"fmt", c!"println"]]) (stmtsNames (nwrTree r)) = true := by
  cases r with
  | line b ty n => cases b <;> cases ty <;> kernel_rfl
  | lineEnum b n => cases b <;> kernel_rfl
  | child n ty sp => kernel_rfl
  | vector n => kernel_rfl
  | fixme n => kernel_rfl
  | warn n => kernel_rfl

theorem xml93_within (rc : Str) : within [] (funNames (xml93_fun rc)) = true := by kernel_rfl
theorem xml149_within (wc rc : Str) : within [] (funNames (xml149_fun wc rc)) = true := by kernel_rfl
theorem xml106_within (rc n : Str) : within xmlLib (funNames (xml106_fun rc n)) = true := by kernel_rfl
theorem xml164_within (wc n : Str) : within xmlLib (funNames (xml164_fun wc n)) = true := by kernel_rfl
theorem ini120_within (rc n : Str) : within (iniLib ++ cstdio) (funNames (ini120_fun rc n)) = true := by kernel_rfl
theorem ini239_within (wc n : Str) : within (iniLib ++ cstdio) (funNames (ini239_fun wc n)) = true := by kernel_rfl

theorem ite_mono {b c : Bool} {A : List (List Str)} (h : b = true → c = true) :
    ∀ q ∈ (if b then A else []), q ∈ (if c then A else []) := by
  intro q hq
  cases b with
  | false => cases hq
  | true => rw [h rfl]; exact hq

theorem funNames_noBase {ret : Option Ty} {name : List Str} {params : List (Ty × Str)} {body : List Stmt} {A : List (List Str)}
    (h1 : within A ((match ret with | some t => tyNames t | none => []) ++ params.flatMap (fun p => tyNames p.1)) = true)
    (h2 : within A (stmtsNames body) = true) : within A (funNames ⟨ret, name, params, none, body⟩) = true := by
  simp only [funNames, List.append_nil]
  rw [within_append, h2, h1]
  rfl

/-- A list of statements is within what each of its parts is. -/
theorem within_stmts {α : Type} {A : List (List Str)} {l : List α} {f : α → List Stmt} (h : ∀ x ∈ l, within A (stmtsNames (f x)) = true) :
    within A (stmtsNames (l.flatMap f)) = true := by
  rw [stmtsNames_flatMap]
  exact within_flatMap h

theorem sub_left {A B : List (List Str)} : ∀ q ∈ A, q ∈ A ++ B := fun _ h => List.mem_append_left _ h
theorem sub_right {A B : List (List Str)} : ∀ q ∈ B, q ∈ A ++ B := fun _ h => List.mem_append_right _ h

theorem sub_append {A B C : List (List Str)} (h : ∀ q ∈ B, q ∈ C) : ∀ q ∈ A ++ B, q ∈ A ++ C := by
  intro q hq
  rcases List.mem_append.1 hq with hq | hq
  · exact sub_left q hq
  · exact sub_right q (h q hq)

/-- What XML code may use; `b`: there is an enum member.  (Proof notion, models no code.) -/
def xmlUses (b : Bool) : List (List Str) := xmlLib ++ if b then enumLib else []

/-- What n_ini code may use; `b`: there is an enum member, `w`: it writes.  (Proof notion, models no code.) -/
def iniUses (b w : Bool) : List (List Str) :=
  (iniLib ++ cstdio) ++ ((if b then enumLib else []) ++ if w then [[c!"fmt", c!"println"]] else [])

theorem rdFun_within {k : Kind} {cls n : Str} {ch b : Bool} {ss cs : List Rd} (h : ∀ r ∈ ss ++ cs, rdEnum r = true → b = true) :
    within (xmlUses b) (funNames (rdFun cls n (rdBody k ch ss cs))) = true := by
  have hr : ∀ r ∈ ss ++ cs, within (xmlUses b) (stmtsNames (rdTree r)) = true :=
    fun r hm => within_mono (sub_append (ite_mono (h r hm))) (rdTree_within r)
  have h0 : ∀ c, within (xmlUses b) (stmtsNames (chDecl c)) = true := by
    intro c; cases b <;> cases c <;> kernel_rfl
  refine funNames_noBase (by cases b <;> kernel_rfl) ?_
  simp only [rdBody, stmtsNames_append, within_append, h0, within_stmts fun r hm => hr r (List.mem_append_left _ hm),
    within_stmts fun r hm => hr r (List.mem_append_right _ hm), Bool.true_and, Bool.and_true]
  cases b <;> kernel_rfl

theorem wrFun_within {k : Kind} {cls n : Str} {dd ch b : Bool} {ss cs : List Wr} (h : ∀ r ∈ ss ++ cs, wrEnum r = true → b = true) :
    within (xmlUses b) (funNames (wrFun cls n (wrBody k n dd ch ss cs))) = true := by
  have hr : ∀ r ∈ ss ++ cs, within (xmlUses b) (stmtsNames (wrTree r)) = true :=
    fun r hm => within_mono (sub_append (ite_mono (h r hm))) (wrTree_within r)
  have h0 : ∀ c, within (xmlUses b) (stmtsNames (chDecl c)) = true := by
    intro c; cases b <;> cases c <;> kernel_rfl
  have h1 : within (xmlUses b) (stmtsNames (ddDecl dd n)) = true := by cases b <;> cases dd <;> kernel_rfl
  refine funNames_noBase (by cases b <;> kernel_rfl) ?_
  simp only [wrBody, stmtsNames_append, within_append, h0, h1, within_stmts fun r hm => hr r (List.mem_append_left _ hm),
    within_stmts fun r hm => hr r (List.mem_append_right _ hm), Bool.true_and, Bool.and_true]
  cases b <;> kernel_rfl

theorem iniLib_sub {b w : Bool} : ∀ q ∈ iniLib, q ∈ iniUses b w := fun q h => sub_left q (sub_left q h)

theorem nrdFun_within {cls n : Str} {dot b w : Bool} {looks : Option (List Look)} {body : List NRd}
    (h : ∀ ls, looks = some ls → ∀ m, .enum m ∈ ls → b = true) :
    within (iniUses b w) (funNames (nrdFun cls n (nrdBody looks dot body))) = true := by
  have hl : within (iniUses b w) (stmtsNames (looksTree looks)) = true := by
    cases looks with
    | none => rfl
    | some ls =>
      have hls : within (iniUses b w) (stmtsNames (ls.flatMap lookTree)) = true := by
        refine within_stmts fun r hr => ?_
        refine within_mono ?_ (lookTree_within r)
        intro q hq
        rcases List.mem_append.1 hq with hq | hq
        · exact iniLib_sub q hq
        · cases r with
          | simple ty n => cases hq
          | enum m =>
            rw [h ls rfl m hr]
            exact sub_right q (List.mem_append_left _ hq)
      simp only [looksTree, stmtsNames_append, stmtsNames, stmtNames, within_append, hls, Bool.and_true]
      cases b <;> cases w <;> kernel_rfl
  have hb : within (iniUses b w) (stmtsNames (body.flatMap nrdTree)) = true :=
    within_stmts fun r _ => within_mono iniLib_sub (nrdTree_within r)
  refine funNames_noBase (by cases b <;> cases w <;> kernel_rfl) ?_
  simp only [nrdBody, stmtsNames_append, stmtsNames, stmtNames, within_append, hl, hb, Bool.true_and, Bool.and_true]
  cases b <;> cases w <;> cases dot <;> kernel_rfl

theorem nwrFun_within {cls n : Str} {dd b : Bool} {body : List NWr} :
    within (iniUses b true) (funNames (nwrFun cls n (nwrBody n dd body))) = true := by
  have hb : within (iniUses b true) (stmtsNames (body.flatMap nwrTree)) = true := by
    refine within_stmts fun r _ => within_mono ?_ (nwrTree_within r)
    intro q hq
    rcases List.mem_append.1 hq with hq | hq
    · exact iniLib_sub q hq
    · exact sub_right q (List.mem_append_right _ hq)
  refine funNames_noBase (by cases b <;> kernel_rfl) ?_
  simp only [nwrBody, stmtsNames_append, within_append, hb, Bool.and_true]
  cases b <;> cases dd <;> kernel_rfl

/-- Has a struct an enum member?  (Specification notion, models no code.) -/
def hasEnum (S : SMap StructS) : Bool := S.any fun p => p.2.complex.any fun co => co.ty = .enum

theorem hasEnum_of {S : SMap StructS} {p : Str × StructS} {co : ComplexLine} (hp : p ∈ S) (hco : co ∈ p.2.complex) (h : co.ty = .enum) :
    hasEnum S = true :=
  List.any_eq_true.2 ⟨p, hp, List.any_eq_true.2 ⟨co, hco, by simp [h]⟩⟩

/-- What the functions of a structs .cpp file may use.  (Proof notion, models no code.) -/
def structsUses (k : Kind) (b w : Bool) : List (List Str) := if k.isXml then xmlUses b else iniUses b w

theorem head_noFuns (k : Kind) (stamp nameCpp nameH : Str) (inputs : List Str) (out : OutSpec) :
    (structsCppHead k stamp nameCpp nameH inputs out).flatMap itemFuns = [] := by
  have hm : ∀ t : Str → Str, (inputs.map fun f => Item.raw (t f)).flatMap itemFuns = [] := by
    intro t
    rw [List.flatMap_eq_nil_iff]
    intro i hi
    obtain ⟨f, _, rfl⟩ := List.mem_map.1 hi
    rfl
  unfold structsCppHead
  split
  · rw [List.flatMap_append, hm]; rfl
  · rw [List.flatMap_append, hm]
    cases out.onlyRead <;> rfl

/-- The functions of the structs .cpp file without those that are not there.  (Proof notion, models no code.) -/
theorem structsCpp_funs (k : Kind) (stamp nameCpp nameH : Str) (inputs : List Str) (out : OutSpec) (S : SMap StructS) :
    (structsCpp k stamp nameCpp nameH inputs out S).flatMap itemFuns =
      xml93_fun out.readerClass ::
      (((S.map Prod.snd).filter isTop).map (fun s => if k.isXml then xml106_fun out.readerClass s.name else ini120_fun out.readerClass s.name) ++
      ((S.map Prod.snd).flatMap fun s => (readerDef k out.readerClass s).flatMap itemFuns) ++
      (if out.onlyRead then [] else
        xml149_fun out.writerClass out.readerClass ::
        (((S.map Prod.snd).filter isTop).map (fun s => if k.isXml then xml164_fun out.writerClass s.name else ini239_fun out.writerClass s.name) ++
        ((S.map Prod.snd).flatMap fun s => (writerDef k out.writerClass out.noDelta s).flatMap itemFuns)))) := by
  have hm : ∀ (l : List StructS) (g : StructS → Item) (f : StructS → Fun), (∀ s, itemFuns (g s) = [f s]) →
      (l.map g).flatMap itemFuns = l.map f := by
    intro l g f h
    induction l with
    | nil => rfl
    | cons x l ih => rw [List.map_cons, List.flatMap_cons, ih, h]; rfl
  unfold structsCpp
  simp only [List.flatMap_append, head_noFuns, List.nil_append, List.flatMap_assoc]
  rw [hm _ _ (fun s => if k.isXml then xml106_fun out.readerClass s.name else ini120_fun out.readerClass s.name) fun s => rfl]
  cases out.onlyRead
  · simp only [Bool.false_eq_true, if_false, List.flatMap_append, List.flatMap_assoc]
    rw [hm _ _ (fun s => if k.isXml then xml164_fun out.writerClass s.name else ini239_fun out.writerClass s.name) fun s => rfl]
    simp [itemFuns]
  · simp [itemFuns]

theorem rdComplex_enum {k : Kind} {co : ComplexLine} (h : rdEnum (rdComplex k co) = true) : co.ty = .enum := by
  unfold rdComplex at h
  cases hc : co.ty <;> rw [hc] at h <;> first | rfl | cases h

theorem wrComplex_enum {k : Kind} {g : Bool} {co : ComplexLine} (h : wrEnum (wrComplex k g co) = true) : co.ty = .enum := by
  unfold wrComplex at h
  cases hc : co.ty <;> rw [hc] at h <;> first | rfl | cases h

theorem readerDef_within {k : Kind} {cls : Str} {b w : Bool} {s : StructS} (h : ∀ co ∈ s.complex, co.ty = .enum → b = true) :
    ∀ f ∈ (readerDef k cls s).flatMap itemFuns, within (structsUses k b w) (funNames f) = true := by
  intro f hf
  cases k with
  | xml =>
    simp only [readerDef, List.flatMap_cons, List.flatMap_nil, List.append_nil, itemFuns, List.mem_cons, List.not_mem_nil, or_false] at hf
    subst hf
    refine rdFun_within fun r hr he => ?_
    rcases List.mem_append.1 hr with hr | hr <;> obtain ⟨co, hco, rfl⟩ := List.mem_map.1 hr
    · cases he
    · exact h co hco (rdComplex_enum he)
  | attrib =>
    simp only [readerDef, List.flatMap_cons, List.flatMap_nil, List.append_nil, itemFuns, List.mem_cons, List.not_mem_nil, or_false] at hf
    subst hf
    refine rdFun_within fun r hr he => ?_
    rcases List.mem_append.1 hr with hr | hr <;> obtain ⟨co, hco, rfl⟩ := List.mem_map.1 hr
    · cases he
    · exact h co hco (rdComplex_enum he)
  | ini => cases hf
  | nIni =>
    simp only [readerDef, List.flatMap_cons, List.flatMap_nil, List.append_nil, itemFuns, List.mem_cons, List.not_mem_nil, or_false] at hf
    subst hf
    refine nrdFun_within fun ls hls m hm => ?_
    split at hls
    · cases hls
    · cases hls
      rcases List.mem_append.1 hm with hm | hm
      · obtain ⟨l, _, hl⟩ := List.mem_map.1 hm
        cases hl
      · obtain ⟨co, hco, hl⟩ := List.mem_filterMap.1 hm
        refine h co hco ?_
        unfold enumLook at hl
        cases hc : co.ty <;> rw [hc] at hl <;> first | rfl | cases hl

theorem writerDef_within {k : Kind} {cls : Str} {nd b : Bool} {s : StructS} (h : ∀ co ∈ s.complex, co.ty = .enum → b = true) :
    ∀ f ∈ (writerDef k cls nd s).flatMap itemFuns, within (structsUses k b true) (funNames f) = true := by
  intro f hf
  cases k with
  | xml =>
    simp only [writerDef, List.flatMap_cons, List.flatMap_nil, List.append_nil, itemFuns, List.mem_cons, List.not_mem_nil, or_false] at hf
    subst hf
    refine wrFun_within fun r hr he => ?_
    rcases List.mem_append.1 hr with hr | hr <;> obtain ⟨co, hco, rfl⟩ := List.mem_map.1 hr
    · cases he
    · exact h co hco (wrComplex_enum he)
  | attrib =>
    simp only [writerDef, List.flatMap_cons, List.flatMap_nil, List.append_nil, itemFuns, List.mem_cons, List.not_mem_nil, or_false] at hf
    subst hf
    refine wrFun_within fun r hr he => ?_
    rcases List.mem_append.1 hr with hr | hr <;> obtain ⟨co, hco, rfl⟩ := List.mem_map.1 hr
    · cases he
    · exact h co hco (wrComplex_enum he)
  | ini => cases hf
  | nIni =>
    simp only [writerDef, List.flatMap_cons, List.flatMap_nil, List.append_nil, itemFuns, List.mem_cons, List.not_mem_nil, or_false] at hf
    subst hf
    exact nwrFun_within

theorem structsCpp_within {k : Kind} {stamp nameCpp nameH : Str} {inputs : List Str} {out : OutSpec} {S : SMap StructS} :
    ∀ f ∈ (structsCpp k stamp nameCpp nameH inputs out S).flatMap itemFuns,
      within (structsUses k (hasEnum S) (!out.onlyRead)) (funNames f) = true := by
  intro f hf
  have hS : ∀ s ∈ S.map Prod.snd, ∀ co ∈ s.complex, co.ty = .enum → hasEnum S = true := by
    intro s hs co hco h
    obtain ⟨p, hp, rfl⟩ := List.mem_map.1 hs
    exact hasEnum_of hp hco h
  have hnil : ∀ ns, within [] ns = true → within (structsUses k (hasEnum S) (!out.onlyRead)) ns = true :=
    fun ns h => within_mono (fun q hq => by cases hq) h
  have hx : ∀ ns, k.isXml = true → within xmlLib ns = true → within (structsUses k (hasEnum S) (!out.onlyRead)) ns = true := by
    intro ns hk h
    rw [structsUses, hk]
    exact within_mono sub_left h
  have hi : ∀ ns, k.isXml = false → within (iniLib ++ cstdio) ns = true →
      within (structsUses k (hasEnum S) (!out.onlyRead)) ns = true := by
    intro ns hk h
    rw [structsUses, hk]
    exact within_mono sub_left h
  rw [structsCpp_funs] at hf
  rcases List.mem_cons.1 hf with rfl | hf
  · exact hnil _ (xml93_within _)
  rcases List.mem_append.1 hf with hf | hf
  · rcases List.mem_append.1 hf with hf | hf
    · obtain ⟨s, _, rfl⟩ := List.mem_map.1 hf
      cases hk : k.isXml with
      | true => exact hx _ hk (xml106_within _ _)
      | false => exact hi _ hk (ini120_within _ _)
    · obtain ⟨s, hs, hf⟩ := List.mem_flatMap.1 hf
      exact readerDef_within (hS s hs) f hf
  · split at hf
    · cases hf
    · next ho =>
      rcases List.mem_cons.1 hf with rfl | hf
      · exact hnil _ (xml149_within _ _)
      rcases List.mem_append.1 hf with hf | hf
      · obtain ⟨s, _, rfl⟩ := List.mem_map.1 hf
        cases hk : k.isXml with
        | true => exact hx _ hk (xml164_within _ _)
        | false => exact hi _ hk (ini239_within _ _)
      · obtain ⟨s, hs, hf⟩ := List.mem_flatMap.1 hf
        simp only [Bool.not_eq_true] at ho
        rw [ho]
        exact writerDef_within (hS s hs) f hf

end Stfx.Cpp
