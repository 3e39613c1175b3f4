import Verif.Cpp.Class
import Verif.Cpp.FileText
/-
The generated structs .h files as declarations of classes, the enums .h files as declarations of functions and formatters.
-/
set_option autoImplicit false
set_option maxRecDepth 4000
namespace Stfx.Cpp
open Stfx.Gen Stfx.Parser Stfx.Items

/-! ### Sequences of members -/

/-- Put members before those that follow.  (Proof notion, models no code.) -/
def addMems {α : Type} (ms : List α) : Option (List α × List Tok) → Option (List α × List Tok)
  | some (ns, r) => some (ms ++ ns, r)
  | none => none

theorem addMems_nil {α : Type} (o : Option (List α × List Tok)) : addMems [] o = o := by cases o <;> rfl

theorem addMems_append {α : Type} (ms ns : List α) (o : Option (List α × List Tok)) : addMems ms (addMems ns o) = addMems (ms ++ ns) o := by
  cases o <;> simp [addMems]

/-- The tokens are the members `ms`, whatever follows; `p`: the parser of members for a given fuel.  (Proof notion, models no code.) -/
def IsMems {α : Type} (p : Nat → List Tok → Option (α × List Tok)) (ts : List Tok) (ms : List α) : Prop :=
  ms.length ≤ ts.length ∧ ∀ f n r, pUntil (p (f + 60)) (n + ms.length) (ts ++ r) = addMems ms (pUntil (p (f + 60)) n r)

namespace IsMems
variable {α : Type} {p : Nat → List Tok → Option (α × List Tok)}

theorem nil : IsMems p [] [] := ⟨Nat.le_refl _, fun _ _ _ => by rw [addMems_nil]; rfl⟩

theorem append {ts us : List Tok} {ms ns : List α} (h1 : IsMems p ts ms) (h2 : IsMems p us ns) : IsMems p (ts ++ us) (ms ++ ns) := by
  refine ⟨by have := h1.1; have := h2.1; simp; omega, fun f n r => ?_⟩
  rw [List.append_assoc, List.length_append, show n + (ms.length + ns.length) = n + ns.length + ms.length by omega, h1.2, h2.2, addMems_append]

theorem flatMap {β : Type} {l : List β} {ts : β → List Tok} {ms : β → List α} (h : ∀ x ∈ l, IsMems p (ts x) (ms x)) :
    IsMems p (l.flatMap ts) (l.flatMap ms) := by
  induction l with
  | nil => exact nil
  | cons x l ih =>
    rw [List.flatMap_cons, List.flatMap_cons]
    exact (h x List.mem_cons_self).append (ih fun y hy => h y (List.mem_cons_of_mem _ hy))

/-- One member. -/
theorem one {t : Tok} {ts : List Tok} {m : α} (hb : t ≠ .op .rbrace) (h : ∀ f r, p (f + 60) (t :: ts ++ r) = some (m, r)) :
    IsMems p (t :: ts) [m] := by
  refine ⟨by simp, fun f n r => ?_⟩
  have := h f r
  rw [List.cons_append] at this
  rw [List.cons_append, List.length_singleton, pUntil.eq_3 _ _ _ (by intro r' e; exact hb (List.cons.inj e).1), this]
  simp only
  generalize pUntil (p (f + 60)) n r = o
  cases o <;> rfl

/-- Members up to the end. -/
theorem upto {ts : List Tok} {ms : List α} (h : IsMems p ts ms) (f n : Nat) (hn : ms.length < n) (r : List Tok) :
    pUntil (p (f + 60)) n (ts ++ .op .rbrace :: r) = some (ms, r) := by
  have := h.2 f (n - ms.length) (.op .rbrace :: r)
  rw [show n - ms.length + ms.length = n by omega] at this
  rw [this, show n - ms.length = n - ms.length - 1 + 1 by omega]
  simp [pUntil, addMems]

end IsMems

/-! ### Sequences of declarations -/

/-- Put declarations before those of the rest of the header.  (Proof notion, models no code.) -/
def addDecls (ds : List HDecl) : Option (List HDecl) → Option (List HDecl)
  | some es => some (ds ++ es)
  | none => none

theorem addDecls_nil (o : Option (List HDecl)) : addDecls [] o = o := by cases o <;> rfl

theorem addDecls_append (fs gs : List HDecl) (o : Option (List HDecl)) : addDecls fs (addDecls gs o) = addDecls (fs ++ gs) o := by
  cases o <;> simp [addDecls]

/-- The tokens are the declarations `ds`, whatever follows.  (Proof notion, models no code.) -/
def IsHDecls (ext : Bool) (ts : List Tok) (ds : List HDecl) : Prop :=
  ∃ k, k ≤ ts.length ∧ ∀ fuel n r, ts.length + 60 ≤ fuel →
    pHFile ext fuel (n + k) (ts ++ r) = addDecls ds (pHFile ext fuel n r)

namespace IsHDecls
variable {ext : Bool}

theorem nil : IsHDecls ext [] [] := ⟨0, Nat.le_refl _, fun _ _ _ _ => by rw [addDecls_nil]; rfl⟩

theorem append {ts us : List Tok} {fs gs : List HDecl} (h1 : IsHDecls ext ts fs) (h2 : IsHDecls ext us gs) :
    IsHDecls ext (ts ++ us) (fs ++ gs) := by
  obtain ⟨k, hk, h1⟩ := h1
  obtain ⟨l, hl, h2⟩ := h2
  refine ⟨l + k, by simp; omega, fun fuel n r hf => ?_⟩
  simp only [List.length_append] at hf
  rw [← Nat.add_assoc, List.append_assoc, h1 _ _ _ (by omega), h2 _ _ _ (by omega), addDecls_append]

theorem flatMap {β : Type} {l : List β} {ts : β → List Tok} {ds : β → List HDecl} (h : ∀ x ∈ l, IsHDecls ext (ts x) (ds x)) :
    IsHDecls ext (l.flatMap ts) (l.flatMap ds) := by
  induction l with
  | nil => exact nil
  | cons x l ih =>
    rw [List.flatMap_cons, List.flatMap_cons]
    exact (h x List.mem_cons_self).append (ih fun y hy => h y (List.mem_cons_of_mem _ hy))

theorem dirs (n : Nat) : IsHDecls ext (List.replicate n .dir) [] := by
  induction n with
  | zero => exact nil
  | succ n ih =>
    have h : IsHDecls ext [.dir] [] := ⟨1, Nat.le_refl _, fun _ _ _ _ => by rw [addDecls_nil]; rfl⟩
    exact h.append ih

theorem semi : IsHDecls ext [.op .semi] [] := ⟨1, Nat.le_refl _, fun _ _ _ _ => by rw [addDecls_nil]; rfl⟩

/-- One declaration. -/
theorem one {t : Tok} {ts : List Tok} {d : HDecl} (h1 : t ≠ .dir) (h2 : t ≠ .op .semi)
    (h : ∀ f r, (t :: ts).length ≤ f → pHDecl ext (f + 60) (t :: ts ++ r) = some (d, r)) : IsHDecls ext (t :: ts) [d] := by
  refine ⟨1, by simp, fun fuel n r hf => ?_⟩
  have := h (fuel - 60) r (by omega)
  rw [show fuel - 60 + 60 = fuel by omega, List.cons_append] at this
  rw [List.cons_append, pHFile.eq_5 _ _ _ _ (by simp) (by simpa using h1) (by simpa using h2), this]
  simp only
  generalize pHFile ext fuel n r = o
  cases o <;> rfl

/-- The text has these declarations. -/
theorem parse {a : Str} {ts : List Tok} {ds : List HDecl} (hs : scan isLetter wordTok .start a = (ts, .start)) (h : IsHDecls ext ts ds) :
    parseH ext a = some ds := by
  obtain ⟨k, hk, h⟩ := h
  have hl : lex a = some ts := by rw [lex, hs]
  rw [parseH, hl]
  have := h (ts.length + 100) (ts.length + 1 - k) [] (by omega)
  rw [List.append_nil, show ts.length + 1 - k + k = ts.length + 1 by omega] at this
  simp only [this]
  cases ts.length + 1 - k <;> simp [pHFile, addDecls]

end IsHDecls

/-! ### The pieces of the structs .h files -/

/-- Parameters without default arguments.  (Proof notion, models no code.) -/
def plainParams (ps : List (Ty × Str)) : List (Ty × Str × Option Expr) := ps.map fun p => (p.1, p.2, none)

/-- `class rc {`  process_items_xml.cpp:87-88, process_items_ini.cpp:92-93. -/
def openToks (rc : Str) : List Tok := [.kw .class_, .id rc, .op .lbrace]
/-- `class wc : public rc {`  process_items_xml.cpp:140-141, process_items_ini.cpp:214-215. -/
def openToks2 (wc rc : Str) : List Tok := [.kw .class_, .id wc, .op .colon, .kw .public_, .id rc, .op .lbrace]
/-- `public: rc();`  process_items_xml.cpp:89-90. -/
def readerHeadToks (rc : Str) : List Tok := [.kw .public_, .op .colon, .id rc, .op .lpar, .op .rpar, .op .semi]
/-- The nested class and the data members of the n_ini readers, process_items_ini.cpp:94-102. -/
def itemToks : List Tok :=
  [.kw .private_, .op .colon, .kw .struct_, .id c!"read_item_S", .op .lbrace, .id c!"std", .op .scope, .id c!"map", .op .lt,
   .id c!"std", .op .scope, .id c!"string", .op .comma, .id c!"std", .op .scope, .id c!"string", .op .gt, .id c!"items", .op .semi,
   .id c!"std", .op .scope, .id c!"map", .op .lt, .id c!"std", .op .scope, .id c!"string", .op .comma, .id c!"read_item_S", .op .gt,
   .id c!"under", .op .semi, .op .rbrace, .op .semi, .id c!"read_item_S", .id c!"m_lookup", .op .semi, .id c!"std", .op .scope,
   .id c!"string", .id c!"m_multiline_string_key", .op .semi, .id c!"std", .op .scope, .id c!"string",
   .id c!"m_multiline_string_value", .op .semi]
/-- `private: bool m_delta_only {};`  process_items_xml.cpp:142-143, process_items_ini.cpp:216-217. -/
def deltaToks : List Tok := [.kw .private_, .op .colon, .kw .bool_, .id c!"m_delta_only", .op .lbrace, .op .rbrace, .op .semi]
/-- `std::FILE *m_file {nullptr};`  process_items_ini.cpp:218. -/
def fileToks : List Tok :=
  [.id c!"std", .op .scope, .id c!"FILE", .op .star, .id c!"m_file", .op .lbrace, .kw .nullptr_, .op .rbrace, .op .semi]
/-- `public: wc(bool delta_only = true);`  process_items_xml.cpp:144-145, process_items_ini.cpp:219-220. -/
def writerHeadToks (wc : Str) : List Tok :=
  [.kw .public_, .op .colon, .id wc, .op .lpar, .kw .bool_, .id c!"delta_only", .op .assign, .kw .true_, .op .rpar, .op .semi]
/-- The declaration of `read_from_file`, `write_to_file`, process_items_xml.cpp:104, 162, process_items_ini.cpp:118, 237. -/
def entryToks (f n x : Str) : List Tok :=
  [.kw .virtual_, .kw .bool_, .id f, .op .lpar, .id c!"std", .op .scope, .id c!"string", .kw .const_, .op .amp, .id c!"filename",
   .op .comma, .id n, .op .amp, .id x, .op .rpar, .op .semi]
/-- The declaration of `do_X`, process_items_xml.cpp:217, 410, process_items_xml_attrib.cpp:20, 145. -/
def xmlFnToks (f n : Str) : List Tok :=
  [.kw .bool_, .id f, .op .lpar, .id c!"tinyxml2", .op .scope, .id c!"XMLElement", .op .star, .id c!"el", .op .comma, .id n, .op .star,
   .id c!"data", .op .rpar, .op .semi]
/-- The declaration of `do_rd_X`, `do_wr_X`, process_items_ini.cpp:299, 456. -/
def iniFnToks (f n : Str) (o : Op) : List Tok :=
  [.kw .bool_, .id f, .op .lpar, .id c!"std", .op .scope, .id c!"string", .id c!"path", .op .comma, .id n, .op o,
   .id c!"data", .op .rpar, .op .semi]

theorem xml87_scan {a : Str} (h : Ident a) : scan isLetter wordTok .start (T.xml87 a) = (openToks a ++ readerHeadToks a, .start) :=
  IsTemplate.scanned (good1 h) (show IsTemplate [a] (T.xml87 [hole 0]) _ (openToks [hole 0] ++ readerHeadToks [hole 0]) _ by
    template T.xml87)

theorem ini92_scan {a : Str} (h : Ident a) :
    scan isLetter wordTok .start (T.ini92 a) = (openToks a ++ (itemToks ++ readerHeadToks a), .start) :=
  IsTemplate.scanned (good1 h) (show IsTemplate [a] (T.ini92 [hole 0]) _ (openToks [hole 0] ++ (itemToks ++ readerHeadToks [hole 0])) _ by
    template T.ini92)

theorem xml140_scan {a b : Str} (h : Ident a) (h' : Ident b) :
    scan isLetter wordTok .start (T.xml140 a b) = (openToks2 a b ++ (deltaToks ++ writerHeadToks a), .start) :=
  IsTemplate.scanned (good2 h h') (show IsTemplate [a, b] (T.xml140 [hole 0] [hole 1]) _
    (openToks2 [hole 0] [hole 1] ++ (deltaToks ++ writerHeadToks [hole 0])) _ by template T.xml140)

theorem ini214_scan {a b : Str} (h : Ident a) (h' : Ident b) :
    scan isLetter wordTok .start (T.ini214 a b) = (openToks2 a b ++ (deltaToks ++ fileToks ++ writerHeadToks a), .start) :=
  IsTemplate.scanned (good2 h h') (show IsTemplate [a, b] (T.ini214 [hole 0] [hole 1]) _
    (openToks2 [hole 0] [hole 1] ++ (deltaToks ++ fileToks ++ writerHeadToks [hole 0])) _ by template T.ini214)

theorem xml104_scan {a : Str} (h : Ident a) :
    scan isLetter wordTok .start (T.xml104 a) = (entryToks c!"read_from_file" a c!"struct_to_fill", .start) :=
  IsTemplate.scanned (good1 h) (show IsTemplate [a] (T.xml104 [hole 0]) _ (entryToks c!"read_from_file" [hole 0] c!"struct_to_fill") _ by
    template T.xml104)

theorem xml162_scan {a : Str} (h : Ident a) :
    scan isLetter wordTok .start (T.xml162 a) = (entryToks c!"write_to_file" a c!"struct_to_read", .start) :=
  IsTemplate.scanned (good1 h) (show IsTemplate [a] (T.xml162 [hole 0]) _ (entryToks c!"write_to_file" [hole 0] c!"struct_to_read") _ by
    template T.xml162)

theorem xml217_scan {a : Str} (h : Ident a) :
    scan isLetter wordTok .start (T.xml217 a) = (xmlFnToks (c!"do_" ++ a) a, .start) :=
  IsTemplate.scanned (good1 h) (show IsTemplate [a] (T.xml217 [hole 0]) _ (xmlFnToks (c!"do_" ++ [hole 0]) [hole 0]) _ by
    template T.xml217)

theorem xml410_scan {a : Str} (h : Ident a) :
    scan isLetter wordTok .start (T.xml410 a) = (xmlFnToks (c!"do_wr_" ++ a) a, .start) :=
  IsTemplate.scanned (good1 h) (show IsTemplate [a] (T.xml410 [hole 0]) _ (xmlFnToks (c!"do_wr_" ++ [hole 0]) [hole 0]) _ by
    template T.xml410)

theorem ini299_scan {a : Str} (h : Ident a) :
    scan isLetter wordTok .start (T.ini299 a) = (iniFnToks (c!"do_rd_" ++ a) a .amp, .start) :=
  IsTemplate.scanned (good1 h) (show IsTemplate [a] (T.ini299 [hole 0]) _ (iniFnToks (c!"do_rd_" ++ [hole 0]) [hole 0] .amp) _ by
    template T.ini299)

theorem ini456_scan {a : Str} (h : Ident a) :
    scan isLetter wordTok .start (T.ini456 a) = (iniFnToks (c!"do_wr_" ++ a) a .star, .start) :=
  IsTemplate.scanned (good1 h) (show IsTemplate [a] (T.ini456 [hole 0]) _ (iniFnToks (c!"do_wr_" ++ [hole 0]) [hole 0] .star) _ by
    template T.ini456)

/-- The nested class `read_item_S`, process_items_ini.cpp:95-99. -/
def itemMember : Member :=
  .nested c!"read_item_S" (itemFields.map fun p => ⟨p.1, p.2, none⟩)

/-- The members at the start of a reader class, process_items_xml.cpp:87-91, process_items_ini.cpp:92-105. -/
def readerHead (k : Kind) (rc : Str) : List Member :=
  (if k.isXml then []
   else [.access .priv, itemMember, .field ⟨.name [c!"read_item_S"], c!"m_lookup", none⟩,
     .field ⟨.name [c!"std", c!"string"], c!"m_multiline_string_key", none⟩,
     .field ⟨.name [c!"std", c!"string"], c!"m_multiline_string_value", none⟩]) ++
  [.access .pub, .fn ⟨false, none, rc, []⟩]

/-- The members at the start of a writer class, process_items_xml.cpp:140-147, process_items_ini.cpp:214-222. -/
def writerHead (k : Kind) (wc : Str) : List Member :=
  [.access .priv, .field ⟨.prim .bool, c!"m_delta_only", some (.braces [])⟩] ++
  (if k.isXml then [] else [.field ⟨.ptr (.name [c!"std", c!"FILE"]), c!"m_file", some (.braces [.null])⟩]) ++
  [.access .pub, .fn ⟨false, none, wc, [(.prim .bool, c!"delta_only", some (.bool true))]⟩]

/-- `read_from_file` or `write_to_file`, process_items_xml.cpp:104, 162, process_items_ini.cpp:118, 237. -/
def entryMember (f n x : Str) : Member :=
  .fn ⟨true, some (.prim .bool), f, plainParams [(.ref (.name [c!"std", c!"string"]), c!"filename"), (.ref (.name [n]), x)]⟩

/-- The declaration of a function for a struct, process_items_xml.cpp:217, 410, process_items_ini.cpp:299, 456. -/
def fnMem (f : Str) (ps : List (Ty × Str)) : Member := .fn ⟨false, some (.prim .bool), f, plainParams ps⟩

section
variable {ext : Bool} {cls : Str}

theorem access_mems : IsMems (fun f => pMember ext f cls) [.kw .public_, .op .colon] [.access .pub] :=
  .one (by simp) fun f r => by kernel_rfl

theorem prot_mems : IsMems (fun f => pMember ext f cls) [.kw .protected_, .op .colon] [.access .prot] :=
  .one (by simp) fun f r => by kernel_rfl

theorem ctor_mems {us : List Tok} {ps : List (Ty × Str × Option Expr)}
    (h : ∀ f r, pFDecl ext (f + 60) false none cls (us ++ r) = some (⟨false, none, cls, ps⟩, r)) :
    IsMems (fun f => pMember ext f cls) (.id cls :: .op .lpar :: us) [.fn ⟨false, none, cls, ps⟩] := by
  refine .one (by simp) fun f r => ?_
  rw [List.cons_append, List.cons_append, pMember, if_pos rfl, h]
  rfl

theorem readerHead_mems : IsMems (fun f => pMember ext f cls) (readerHeadToks cls) [.access .pub, .fn ⟨false, none, cls, []⟩] :=
  access_mems.append (ctor_mems (us := [.op .rpar, .op .semi]) fun f r => by kernel_rfl)

theorem writerHead_mems : IsMems (fun f => pMember ext f cls) (writerHeadToks cls)
    [.access .pub, .fn ⟨false, none, cls, [(.prim .bool, c!"delta_only", some (.bool true))]⟩] :=
  access_mems.append (ctor_mems (us := [.kw .bool_, .id c!"delta_only", .op .assign, .kw .true_, .op .rpar, .op .semi]) fun f r => by kernel_rfl)

theorem item_mems : IsMems (fun f => pMember ext f cls) itemToks
    [.access .priv, itemMember, .field ⟨.name [c!"read_item_S"], c!"m_lookup", none⟩,
     .field ⟨.name [c!"std", c!"string"], c!"m_multiline_string_key", none⟩,
     .field ⟨.name [c!"std", c!"string"], c!"m_multiline_string_value", none⟩] := by
  have h1 : IsMems (fun f => pMember ext f cls) [.kw .private_, .op .colon] [.access .priv] := .one (by simp) fun f r => by kernel_rfl
  have h2 : IsMems (fun f => pMember ext f cls) ((itemToks.drop 2).take 31) [itemMember] := by
    refine .one (t := .kw .struct_) (ts := (itemToks.drop 3).take 30) (by simp) fun f r => ?_
    kernel_rfl
  have h3 : IsMems (fun f => pMember ext f cls) [.id c!"read_item_S", .id c!"m_lookup", .op .semi]
    [.field ⟨.name [c!"read_item_S"], c!"m_lookup", none⟩] := .one (by simp) fun f r => by kernel_rfl
  have h4 : IsMems (fun f => pMember ext f cls) [.id c!"std", .op .scope, .id c!"string", .id c!"m_multiline_string_key", .op .semi]
    [.field ⟨.name [c!"std", c!"string"], c!"m_multiline_string_key", none⟩] := .one (by simp) fun f r => by kernel_rfl
  have h5 : IsMems (fun f => pMember ext f cls) [.id c!"std", .op .scope, .id c!"string", .id c!"m_multiline_string_value", .op .semi]
    [.field ⟨.name [c!"std", c!"string"], c!"m_multiline_string_value", none⟩] := .one (by simp) fun f r => by kernel_rfl
  exact h1.append (h2.append (h3.append (h4.append h5)))

theorem delta_mems : IsMems (fun f => pMember ext f cls) deltaToks
    [.access .priv, .field ⟨.prim .bool, c!"m_delta_only", some (.braces [])⟩] := by
  have h1 : IsMems (fun f => pMember ext f cls) [.kw .private_, .op .colon] [.access .priv] := .one (by simp) fun f r => by kernel_rfl
  have h2 : IsMems (fun f => pMember ext f cls) [.kw .bool_, .id c!"m_delta_only", .op .lbrace, .op .rbrace, .op .semi]
    [.field ⟨.prim .bool, c!"m_delta_only", some (.braces [])⟩] := .one (by simp) fun f r => by kernel_rfl
  exact h1.append h2

theorem file_mems : IsMems (fun f => pMember ext f cls) fileToks
    [.field ⟨.ptr (.name [c!"std", c!"FILE"]), c!"m_file", some (.braces [.null])⟩] := .one (by simp) fun f r => by kernel_rfl

theorem entry_mems (g n x : Str) : IsMems (fun f => pMember ext f cls) (entryToks g n x) [entryMember g n x] :=
  .one (by simp) fun f r => by kernel_rfl

theorem xmlFn_mems (g n : Str) : IsMems (fun f => pMember ext f cls) (xmlFnToks g n)
    [fnMem g [(.ptr (.name [c!"tinyxml2", c!"XMLElement"]), c!"el"), (.ptr (.name [n]), c!"data")]] :=
  .one (by simp) fun f r => by kernel_rfl

theorem iniRd_mems (g n : Str) : IsMems (fun f => pMember ext f cls) (iniFnToks g n .amp)
    [fnMem g [(.name [c!"std", c!"string"], c!"path"), (.ref (.name [n]), c!"data")]] :=
  .one (by simp) fun f r => by kernel_rfl

theorem iniWr_mems (g n : Str) : IsMems (fun f => pMember ext f cls) (iniFnToks g n .star)
    [fnMem g [(.name [c!"std", c!"string"], c!"path"), (.ptr (.name [n]), c!"data")]] :=
  .one (by simp) fun f r => by kernel_rfl

/-- A class without a base class. -/
theorem class_decls {ts : List Tok} {ms : List Member} (h : IsMems (fun f => pMember ext f cls) ts ms) :
    IsHDecls ext (openToks cls ++ ts ++ [.op .rbrace, .op .semi]) [.cls ⟨cls, none, ms⟩] := by
  refine .one (t := .kw .class_) (ts := .id cls :: .op .lbrace :: (ts ++ [.op .rbrace, .op .semi])) (by simp) (by simp) fun f r hf => ?_
  have hl := h.1
  simp only [List.length_cons, List.length_append] at hf
  have := h.upto f (f + 60) (by omega) (.op .semi :: r)
  show pClassRest ext (f + 60) cls none (ts ++ [.op .rbrace, .op .semi] ++ r) = _
  rw [List.append_assoc, show [Tok.op .rbrace, .op .semi] ++ r = .op .rbrace :: .op .semi :: r from rfl, pClassRest]
  simp only [this]

/-- A class with a base class. -/
theorem class_decls2 {b : Str} {ts : List Tok} {ms : List Member} (h : IsMems (fun f => pMember ext f cls) ts ms) :
    IsHDecls ext (openToks2 cls b ++ ts ++ [.op .rbrace, .op .semi]) [.cls ⟨cls, some (.pub, [b]), ms⟩] := by
  refine .one (t := .kw .class_) (ts := .id cls :: .op .colon :: .kw .public_ :: .id b :: .op .lbrace :: (ts ++ [.op .rbrace, .op .semi]))
    (by simp) (by simp) fun f r hf => ?_
  have hl := h.1
  simp only [List.length_cons, List.length_append] at hf
  have := h.upto f (f + 60) (by omega) (.op .semi :: r)
  show pClassRest ext (f + 60) cls (some (.pub, [b])) (ts ++ [.op .rbrace, .op .semi] ++ r) = _
  rw [List.append_assoc, show [Tok.op .rbrace, .op .semi] ++ r = .op .rbrace :: .op .semi :: r from rfl, pClassRest]
  simp only [this]

end

/-! ### The structs .h file -/

/-- The parameters of the function that reads or writes a struct, process_items_xml.cpp:217, 410, process_items_ini.cpp:299, 456. -/
def fnParams (k : Kind) (wr : Bool) (n : Str) : List (Ty × Str) :=
  if k.isXml then [(.ptr (.name [c!"tinyxml2", c!"XMLElement"]), c!"el"), (.ptr (.name [n]), c!"data")]
  else [(.name [c!"std", c!"string"], c!"path"), (if wr then .ptr (.name [n]) else .ref (.name [n]), c!"data")]

/-- The declaration of the function that reads a struct, process_items_xml.cpp:217, process_items_xml_attrib.cpp:20, process_items_ini.cpp:299. -/
def readerMember (k : Kind) (s : StructS) : List Member :=
  match k with
  | .ini => []
  | _ => [fnMem ((if k.isXml then c!"do_" else c!"do_rd_") ++ s.name) (fnParams k false s.name)]

/-- The declaration of the function that writes a struct, process_items_xml.cpp:410, process_items_xml_attrib.cpp:145, process_items_ini.cpp:456. -/
def writerMember (k : Kind) (s : StructS) : List Member :=
  match k with
  | .ini => []
  | _ => [fnMem (c!"do_wr_" ++ s.name) (fnParams k true s.name)]

/-- The reader class, process_items_xml.cpp:86-132, process_items_ini.cpp:91-206. -/
def readerClassOf (k : Kind) (rc : Str) (ss : List StructS) : Class :=
  ⟨rc, none, readerHead k rc ++ (ss.filter isTop).map (fun s => entryMember c!"read_from_file" s.name c!"struct_to_fill") ++
    [.access .prot] ++ ss.flatMap (readerMember k)⟩

/-- The writer class, process_items_xml.cpp:138-189, process_items_ini.cpp:212-262. -/
def writerClassOf (k : Kind) (wc rc : Str) (ss : List StructS) : Class :=
  ⟨wc, some (.pub, [rc]), writerHead k wc ++ (ss.filter isTop).map (fun s => entryMember c!"write_to_file" s.name c!"struct_to_read") ++
    [.access .prot] ++ ss.flatMap (writerMember k)⟩

theorem scan_map {α : Type} {l : List α} {it : α → Item} {toks : α → List Tok}
    (h : ∀ x ∈ l, scan isLetter wordTok .start (it x).text = (toks x, .start)) :
    scan isLetter wordTok .start (fileText (l.map it)) = (l.flatMap toks, .start) := by
  rw [fileText, List.flatMap_map]
  exact scans_flatMap h

theorem scan_fileText {a b : List Item} {ta tb : List Tok} (ha : scan isLetter wordTok .start (fileText a) = (ta, .start))
    (hb : scan isLetter wordTok .start (fileText b) = (tb, .start)) : scan isLetter wordTok .start (fileText (a ++ b)) = (ta ++ tb, .start) := by
  rw [fileText, List.flatMap_append]
  exact scans ha hb

theorem fileText_one (i : Item) : fileText [i] = i.text := by simp [fileText]

/-- The tokens of the declaration of a reader function, process_items_xml.cpp:217, process_items_xml_attrib.cpp:20, process_items_ini.cpp:299. -/
def readerDeclToks (k : Kind) (s : StructS) : List Tok :=
  match k with
  | .ini => []
  | .nIni => iniFnToks (c!"do_rd_" ++ s.name) s.name .amp
  | _ => xmlFnToks (c!"do_" ++ s.name) s.name

/-- The tokens of the declaration of a writer function, process_items_xml.cpp:410, process_items_xml_attrib.cpp:145, process_items_ini.cpp:456. -/
def writerDeclToks (k : Kind) (s : StructS) : List Tok :=
  match k with
  | .ini => []
  | .nIni => iniFnToks (c!"do_wr_" ++ s.name) s.name .star
  | _ => xmlFnToks (c!"do_wr_" ++ s.name) s.name

theorem scan_decls {l : List StructS} {it : StructS → List Item} {toks : StructS → List Tok}
    (h : ∀ x ∈ l, scan isLetter wordTok .start (fileText (it x)) = (toks x, .start)) :
    scan isLetter wordTok .start (fileText (l.flatMap it)) = (l.flatMap toks, .start) := by
  rw [fileText, List.flatMap_assoc]
  exact scans_flatMap h

theorem readerDecl_scan (k : Kind) {s : StructS} (h : Ident s.name) :
    scan isLetter wordTok .start (fileText (readerDecl k s)) = (readerDeclToks k s, .start) := by
  cases k
  · simp only [readerDecl, fileText_one]; exact xml217_scan h
  · simp only [readerDecl, fileText_one]; exact xml217_scan h
  · rfl
  · simp only [readerDecl, fileText_one]; exact ini299_scan h

theorem writerDecl_scan (k : Kind) {s : StructS} (h : Ident s.name) :
    scan isLetter wordTok .start (fileText (writerDecl k s)) = (writerDeclToks k s, .start) := by
  cases k
  · simp only [writerDecl, fileText_one]; exact xml410_scan h
  · simp only [writerDecl, fileText_one]; exact xml410_scan h
  · rfl
  · simp only [writerDecl, fileText_one]; exact ini456_scan h

theorem readerDecl_mems {ext : Bool} {cls : Str} (k : Kind) (s : StructS) :
    IsMems (fun f => pMember ext f cls) (readerDeclToks k s) (readerMember k s) := by
  cases k
  · exact xmlFn_mems _ _
  · exact xmlFn_mems _ _
  · exact .nil
  · exact iniRd_mems _ _

theorem writerDecl_mems {ext : Bool} {cls : Str} (k : Kind) (s : StructS) :
    IsMems (fun f => pMember ext f cls) (writerDeclToks k s) (writerMember k s) := by
  cases k
  · exact xmlFn_mems _ _
  · exact xmlFn_mems _ _
  · exact .nil
  · exact iniWr_mems _ _

theorem entries_mems {ext : Bool} {cls : Str} (g x : Str) (l : List StructS) :
    IsMems (fun f => pMember ext f cls) (l.flatMap fun s => entryToks g s.name x) (l.map fun s => entryMember g s.name x) := by
  have := IsMems.flatMap (p := fun f => pMember ext f cls) (l := l) (ts := fun s => entryToks g s.name x) (ms := fun s => [entryMember g s.name x])
    fun s _ => entry_mems g s.name x
  have e : l.flatMap (fun s => [entryMember g s.name x]) = l.map fun s => entryMember g s.name x := by
    clear this
    induction l with
    | nil => rfl
    | cons a l ih => rw [List.flatMap_cons, List.map_cons, ih]; rfl
  rwa [e] at this

/-- The text before the reader class. -/
theorem structsH_head {k : Kind} {stamp nameCpp nameH : Str} {inputs : List Str} {e : Str} (hf : FileNamed stamp nameCpp nameH inputs e) :
    Quiet (fileText ((if k.isXml then [.raw (T.xml71 nameH), .raw (T.xml72 (stfxInfo stamp)), .raw T.xml74]
      else [.raw (T.ini76 nameH), .raw (T.ini77 (stfxInfo stamp)), .raw T.ini79]) ++
      inputs.map (fun f => .raw (if k.isXml then T.xml81 f else T.ini87 f)) ++ [.raw (if k.isXml then T.xml83 else T.ini89)])) := by
  have hq : ∀ is : List Item, (∀ i ∈ is, Quiet i.text) → Quiet (fileText is) := by
    intro is
    induction is with
    | nil => intro _; exact quiet_nil
    | cons i is ih =>
      intro h
      exact quiet_append (h i List.mem_cons_self) (ih fun j hj => h j (List.mem_cons_of_mem _ hj))
  refine hq _ fun i hi => ?_
  have hin : ∀ f ∈ inputs, Quiet (if k.isXml then T.xml81 f else T.ini87 f) := by
    intro f hf'
    have := quiet_include (hf.inputs f hf')
    split <;> exact this
  have hb : Quiet c!"\n" := ⟨0, by kernel_rfl⟩
  simp only [List.mem_append, List.mem_map, List.mem_cons, List.not_mem_nil, or_false] at hi
  rcases hi with (hi | ⟨f, h, rfl⟩) | rfl
  · cases hk : k.isXml
    · rw [hk] at hi
      simp only [Bool.false_eq_true, if_false, List.mem_cons, List.not_mem_nil, or_false] at hi
      rcases hi with rfl | rfl | rfl
      · have := quiet_append (quiet_comment hf.h) hb
        have e : T.xml50 nameH ++ c!"\n" = T.ini76 nameH := by simp [T.xml50, T.ini76]
        rw [e] at this
        exact this
      · exact quiet_info hf.stamp
      · exact ⟨3, by kernel_rfl⟩
    · rw [hk] at hi
      simp only [if_true, List.mem_cons, List.not_mem_nil, or_false] at hi
      rcases hi with rfl | rfl | rfl
      · exact quiet_comment hf.h
      · exact quiet_info hf.stamp
      · exact ⟨3, by kernel_rfl⟩
  · exact hin f h
  · show Quiet (if k.isXml then T.xml83 else T.ini89)
    split <;> exact hb

/-- The structs .h file declares the two classes. -/
theorem structsH_parse {ext : Bool} {k : Kind} {stamp nameCpp nameH : Str} {inputs : List Str} {out : OutSpec}
    {S : SMap StructS} (hf : FileNamed stamp nameCpp nameH inputs out.enumFile) (hr : Ident out.readerClass)
    (hw : out.onlyRead = true ∨ Ident out.writerClass) (hs : ∀ p ∈ S, StructNamed p.2) :
    parseH ext (fileText (structsH k stamp nameH inputs out S)) =
      some (.cls (readerClassOf k out.readerClass (S.map Prod.snd)) ::
        if out.onlyRead then [] else [.cls (writerClassOf k out.writerClass out.readerClass (S.map Prod.snd))]) := by
  have hs' : ∀ s ∈ S.map Prod.snd, Ident s.name := by
    intro s h
    obtain ⟨p, hp, rfl⟩ := List.mem_map.1 h
    exact (hs p hp).name
  have htop : ∀ s ∈ (S.map Prod.snd).filter isTop, Ident s.name := fun s h => hs' s (List.mem_filter.1 h).1
  obtain ⟨n, hq⟩ := structsH_head (k := k) hf
  generalize hss : S.map Prod.snd = ss at hs' htop ⊢
  -- the reader class
  have hopen : scan isLetter wordTok .start (fileText [.readerClass k out.readerClass]) =
      (openToks out.readerClass ++ (if k.isXml then readerHeadToks out.readerClass else itemToks ++ readerHeadToks out.readerClass), .start) := by
    rw [fileText_one]
    cases k
    · exact xml87_scan hr
    · exact xml87_scan hr
    · exact ini92_scan hr
    · exact ini92_scan hr
  have hm : IsMems (fun f => pMember ext f out.readerClass)
      (if k.isXml then readerHeadToks out.readerClass else itemToks ++ readerHeadToks out.readerClass) (readerHead k out.readerClass) := by
    cases k
    · exact readerHead_mems
    · exact readerHead_mems
    · exact item_mems.append readerHead_mems
    · exact item_mems.append readerHead_mems
  have htops : scan isLetter wordTok .start (fileText ((ss.filter isTop).map fun s => .declReadFile k s.name)) =
      ((ss.filter isTop).flatMap fun s => entryToks c!"read_from_file" s.name c!"struct_to_fill", .start) := by
    refine scan_map fun s h => ?_
    have := xml104_scan (htop s h)
    cases k <;> exact this
  have hprot : scan isLetter wordTok .start (fileText [.raw (if k.isXml then T.xml124 else T.ini198)]) = ([.kw .protected_, .op .colon], .start) := by
    rw [fileText_one]
    cases k <;> kernel_rfl
  have hds := scan_decls (it := readerDecl k) fun s h => readerDecl_scan k (hs' s h)
  have hend : scan isLetter wordTok .start (fileText [.raw (if k.isXml then T.xml132 else T.ini206)]) = ([.op .rbrace, .op .semi], .start) := by
    rw [fileText_one]
    cases k <;> kernel_rfl
  have hR := scan_fileText (scan_fileText (scan_fileText (scan_fileText hopen htops) hprot) hds) hend
  have mR := class_decls (((hm.append (entries_mems c!"read_from_file" c!"struct_to_fill" (ss.filter isTop))).append prot_mems).append
    (IsMems.flatMap (l := ss) fun s _ => readerDecl_mems k s))
  have hhead := hq
  cases hro : out.onlyRead
  · -- the writer class
    have hw := hw.resolve_left (by rw [hro]; simp)
    have hopen2 : scan isLetter wordTok .start (fileText [.writerClass k out.writerClass out.readerClass]) =
        (openToks2 out.writerClass out.readerClass ++
          (if k.isXml then deltaToks ++ writerHeadToks out.writerClass else deltaToks ++ fileToks ++ writerHeadToks out.writerClass), .start) := by
      rw [fileText_one]
      cases k
      · exact xml140_scan hw hr
      · exact xml140_scan hw hr
      · exact ini214_scan hw hr
      · exact ini214_scan hw hr
    have hm2 : IsMems (fun f => pMember ext f out.writerClass)
        (if k.isXml then deltaToks ++ writerHeadToks out.writerClass else deltaToks ++ fileToks ++ writerHeadToks out.writerClass)
        (writerHead k out.writerClass) := by
      cases k
      · exact delta_mems.append writerHead_mems
      · exact delta_mems.append writerHead_mems
      · exact (delta_mems.append file_mems).append writerHead_mems
      · exact (delta_mems.append file_mems).append writerHead_mems
    have htops2 : scan isLetter wordTok .start (fileText ((ss.filter isTop).map fun s => .declWriteFile k s.name)) =
        ((ss.filter isTop).flatMap fun s => entryToks c!"write_to_file" s.name c!"struct_to_read", .start) := by
      refine scan_map fun s h => ?_
      have := xml162_scan (htop s h)
      cases k <;> exact this
    have hprot2 : scan isLetter wordTok .start (fileText [.raw (if k.isXml then T.xml181 else T.ini254)]) =
        ([.kw .protected_, .op .colon], .start) := by
      rw [fileText_one]
      cases k <;> kernel_rfl
    have hds2 := scan_decls (it := writerDecl k) fun s h => writerDecl_scan k (hs' s h)
    have hend2 : scan isLetter wordTok .start (fileText [.raw (if k.isXml then T.xml189 else T.ini262)]) = ([.op .rbrace, .op .semi], .start) := by
      rw [fileText_one]
      cases k <;> kernel_rfl
    have hW := scan_fileText (scan_fileText (scan_fileText (scan_fileText hopen2 htops2) hprot2) hds2) hend2
    have mW := class_decls2 (b := out.readerClass)
      (((hm2.append (entries_mems c!"write_to_file" c!"struct_to_read" (ss.filter isTop))).append prot_mems).append
        (IsMems.flatMap (l := ss) fun s _ => writerDecl_mems k s))
    have := IsHDecls.parse (scan_fileText (scan_fileText hhead hR) hW)
      (((IsHDecls.dirs n).append (by simpa only [List.append_assoc] using mR)).append (by simpa only [List.append_assoc] using mW))
    simp only [structsH, hro, hss, Bool.false_eq_true, if_false, readerClassOf, writerClassOf]
    simpa only [List.append_assoc, List.nil_append, List.cons_append] using this
  · have := IsHDecls.parse (scan_fileText hhead hR) ((IsHDecls.dirs n).append (by simpa only [List.append_assoc] using mR))
    simp only [structsH, hro, hss, if_true, readerClassOf]
    simpa only [List.append_assoc, List.append_nil, List.nil_append, List.cons_append] using this

/-! ### The enums .h file -/

/-- `const std::string s_from_e(X e);`  process_items.cpp:144. -/
def fromDeclToks (n : Str) : List Tok :=
  [.kw .const_, .id c!"std", .op .scope, .id c!"string", .id c!"s_from_e", .op .lpar, .id n, .id c!"e", .op .rpar, .op .semi]
/-- `bool s_to_e(std::string s, X &e);`  process_items.cpp:167. -/
def toDeclToks (n : Str) : List Tok :=
  [.kw .bool_, .id c!"s_to_e", .op .lpar, .id c!"std", .op .scope, .id c!"string", .id c!"s", .op .comma, .id n, .op .amp, .id c!"e",
   .op .rpar, .op .semi]
/-- The tokens of the formatter of an enum, process_items.cpp:212-223. -/
def formatterToks (n : Str) : List Tok :=
  [.kw .template_, .op .lt, .op .gt, .kw .struct_, .id c!"fmt", .op .scope, .id c!"formatter", .op .lt, .id n, .op .gt, .op .colon,
   .id c!"formatter", .op .lt, .id c!"string_view", .op .gt, .op .lbrace, .kw .template_, .op .lt, .kw .typename_,
   .id c!"FormatContext", .op .gt, .kw .auto_, .id c!"format", .op .lpar, .id n, .id c!"c", .op .comma, .id c!"FormatContext", .op .amp,
   .id c!"ctx", .op .rpar, .kw .const_, .op .lbrace, .id c!"std", .op .scope, .id c!"string", .id c!"str", .op .assign,
   .id c!"stfx", .op .scope, .id c!"s_from_e", .op .lpar, .id c!"c", .op .rpar, .op .semi, .id c!"string_view", .id c!"name",
   .op .assign, .id c!"str", .op .semi, .kw .return_, .id c!"formatter", .op .lt, .id c!"string_view", .op .gt, .op .scope,
   .id c!"format", .op .lpar, .id c!"name", .op .comma, .id c!"ctx", .op .rpar, .op .semi, .op .rbrace, .op .rbrace, .op .semi]

theorem base144_scan {a : Str} (h : Ident a) : scan isLetter wordTok .start (T.base144 a) = (fromDeclToks a, .start) :=
  IsTemplate.scanned (good1 h) (show IsTemplate [a] (T.base144 [hole 0]) _ (fromDeclToks [hole 0]) _ by template T.base144)

theorem base167_scan {a : Str} (h : Ident a) : scan isLetter wordTok .start (T.base167 a) = (toDeclToks a, .start) :=
  IsTemplate.scanned (good1 h) (show IsTemplate [a] (T.base167 [hole 0]) _ (toDeclToks [hole 0]) _ by template T.base167)

theorem base212_scan {a : Str} (h : Ident a) : scan isLetter wordTok .start (T.base212 a) = (formatterToks a, .start) :=
  IsTemplate.scanned (good1 h) (show IsTemplate [a] (T.base212 [hole 0]) _ (formatterToks [hole 0]) _ by template T.base212)

/-- The declarations of the functions of an enum, process_items.cpp:144, 167. -/
def enumFDecls (n : Str) : List FDecl :=
  [⟨false, some (.name [c!"std", c!"string"]), c!"s_from_e", [(.name [n], c!"e", none)]⟩,
   ⟨false, some (.prim .bool), c!"s_to_e", [(.name [c!"std", c!"string"], c!"s", none), (.ref (.name [n]), c!"e", none)]⟩]

/-- The formatter of an enum, process_items.cpp:212-223. -/
def formatterOf (n : Str) : Special where
  tmpl := [c!"fmt", c!"formatter"]
  arg := [n]
  base := [c!"formatter"]
  baseArg := [c!"string_view"]
  tparam := c!"FormatContext"
  fn := c!"format"
  params := [(.name [n], c!"c"), (.ref (.name [c!"FormatContext"]), c!"ctx")]
  body := [.decl (.name [c!"std", c!"string"]) c!"str" none (some (.call (.id [c!"stfx", c!"s_from_e"]) [.id [c!"c"]])),
    .decl (.name [c!"string_view"]) c!"name" none (some (.id [c!"str"]))]
  ret := ([c!"formatter"], [c!"string_view"], c!"format")
  retArgs := [.id [c!"name"], .id [c!"ctx"]]

theorem fromDecl_mems {ext : Bool} (n : Str) :
    IsMems (fun f => pFn ext f false) (fromDeclToks n)
      [⟨false, some (.name [c!"std", c!"string"]), c!"s_from_e", [(.name [n], c!"e", none)]⟩] :=
  .one (by simp) fun f r => by kernel_rfl

theorem toDecl_mems {ext : Bool} (n : Str) :
    IsMems (fun f => pFn ext f false) (toDeclToks n)
      [⟨false, some (.prim .bool), c!"s_to_e", [(.name [c!"std", c!"string"], c!"s", none), (.ref (.name [n]), c!"e", none)]⟩] :=
  .one (by simp) fun f r => by kernel_rfl

theorem formatter_decls {ext : Bool} (n : Str) : IsHDecls ext (formatterToks n) [.special (formatterOf n)] :=
  .one (by simp) (by simp) fun f r _ => by kernel_rfl

/-- A namespace and the semicolon after it. -/
theorem ns_decls {ext : Bool} {ns : Str} {ts : List Tok} {fs : List FDecl} (h : IsMems (fun f => pFn ext f false) ts fs) :
    IsHDecls ext ([.kw .namespace_, .id ns, .op .lbrace] ++ ts ++ [.op .rbrace]) [.ns ns fs] := by
  refine .one (t := .kw .namespace_) (ts := .id ns :: .op .lbrace :: (ts ++ [.op .rbrace])) (by simp) (by simp) fun f r hf => ?_
  have hl := h.1
  simp only [List.length_cons, List.length_append] at hf
  have := h.upto f (f + 60) (by omega) r
  show (match pUntil (pFn ext (f + 60) false) (f + 60) (ts ++ [.op .rbrace] ++ r) with
    | some (fs, r) => some (HDecl.ns ns fs, r)
    | none => none) = _
  rw [List.append_assoc, show [Tok.op .rbrace] ++ r = .op .rbrace :: r from rfl]
  simp only [this]

/-- The enums .h file declares the functions of the enums and specialises the formatter for each. -/
theorem enumsH_parse {ext : Bool} {stamp nameCpp nameH : Str} {inputs : List Str} {E : SMap EnumS} {e : Str}
    (hf : FileNamed stamp nameCpp nameH inputs e) (he : ∀ p ∈ E, EnumNamed p.2) :
    parseH ext (fileText (enumsH stamp nameH inputs E)) =
      some (.ns c!"stfx" (E.flatMap fun p => enumFDecls p.2.name) :: E.map fun p => .special (formatterOf p.2.name)) := by
  have hn : ∀ p ∈ E, Ident p.2.name := fun p hp => (he p hp).1
  have hq : ∀ is : List Item, (∀ i ∈ is, Quiet i.text) → Quiet (fileText is) := by
    intro is
    induction is with
    | nil => intro _; exact quiet_nil
    | cons i is ih =>
      intro h
      exact quiet_append (h i List.mem_cons_self) (ih fun j hj => h j (List.mem_cons_of_mem _ hj))
  obtain ⟨n, hhead⟩ := hq ([.raw (T.base97 nameH), .raw (T.base98 (stfxInfo stamp)), .raw T.base99, .raw T.base100, .raw T.base101] ++
      inputs.map (fun f => .raw (T.base104 f)) ++ [.raw T.base106]) (by
    intro i hi
    simp only [List.mem_append, List.mem_map, List.mem_cons, List.not_mem_nil, or_false] at hi
    rcases hi with ((rfl | rfl | rfl | rfl | rfl) | ⟨f, h, rfl⟩) | rfl
    · exact quiet_comment hf.h
    · exact quiet_info hf.stamp
    · exact ⟨1, by kernel_rfl⟩
    · exact ⟨1, by kernel_rfl⟩
    · exact ⟨1, by kernel_rfl⟩
    · exact quiet_include (hf.inputs f h)
    · exact ⟨0, by kernel_rfl⟩)
  have hopen : scan isLetter wordTok .start (fileText [.raw T.base107]) = ([.kw .namespace_, .id c!"stfx", .op .lbrace], .start) := by
    rw [fileText_one]; kernel_rfl
  have hend : scan isLetter wordTok .start (fileText [.raw T.base115]) = ([.op .rbrace, .op .semi], .start) := by
    rw [fileText_one]; kernel_rfl
  have hds : scan isLetter wordTok .start (fileText (E.flatMap fun p => [.declSFromE p.2.name, .declSToE p.2.name])) =
      (E.flatMap fun p => fromDeclToks p.2.name ++ toDeclToks p.2.name, .start) := by
    rw [fileText, List.flatMap_assoc]
    refine scans_flatMap fun p hp => ?_
    have := scans (base144_scan (hn p hp)) (base167_scan (hn p hp))
    simpa [Item.text] using this
  have hfs : scan isLetter wordTok .start (fileText (E.map fun p => .formatter p.2.name)) = (E.flatMap fun p => formatterToks p.2.name, .start) :=
    scan_map fun p hp => base212_scan (hn p hp)
  have mns := ns_decls (ext := ext) (ns := c!"stfx") (IsMems.flatMap (l := E) fun p _ => (fromDecl_mems p.2.name).append (toDecl_mems p.2.name))
  have mfs := IsHDecls.flatMap (ext := ext) (l := E) fun p _ => formatter_decls p.2.name
  have := IsHDecls.parse (scan_fileText hhead (scan_fileText (scan_fileText (scan_fileText hopen hds) hend) hfs))
    ((IsHDecls.dirs n).append (by
      have := (mns.append IsHDecls.semi).append mfs
      simpa only [List.append_assoc, List.cons_append, List.nil_append] using this))
  have e1 : ∀ E : SMap EnumS, E.flatMap (fun p => [HDecl.special (formatterOf p.2.name)]) = E.map fun p => .special (formatterOf p.2.name) := by
    intro E
    induction E with
    | nil => rfl
    | cons a l ih => rw [List.flatMap_cons, List.map_cons, ih]; rfl
  rw [e1] at this
  simp only [enumsH]
  simpa only [List.append_assoc, List.append_nil, List.nil_append, List.cons_append, enumFDecls] using this

end Stfx.Cpp
