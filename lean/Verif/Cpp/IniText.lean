import Verif.Cpp.TreesIni
import Verif.Cpp.Nest
import Verif.Cpp.XmlText
/-
The text of the generated n_ini readers and writers and of the enum functions as function definitions.
-/
set_option autoImplicit false
set_option maxRecDepth 4000
namespace Stfx.Cpp
open Stfx.Gen Stfx.Parser Stfx.Items

/-- The statements of `Look.text`, process_items_ini.cpp:354-360, 369-375. -/
def lookTree : Look → List Stmt
  | .simple .bool n => ini354_bool_tree n
  | .simple .int n => ini354_int_tree n
  | .simple .unsignedInt n => ini354_unsignedInt_tree n
  | .simple .float n => ini354_float_tree n
  | .simple .double n => ini354_double_tree n
  | .simple .long n => ini354_long_tree n
  | .simple .short n => ini354_short_tree n
  | .simple .unsignedShort n => ini354_unsignedShort_tree n
  | .simple .stdString n => ini354_stdString_tree n
  | .simple .unsignedLong n => ini354_unsignedLong_tree n
  | .enum n => ini369_tree n

/-- The statements of `NRd.text`, process_items_ini.cpp:406-437. -/
def nrdTree : NRd → List Stmt
  | .child n ty sp => ini417_tree n ty sp
  | .vector _ | .fixme _ | .warn _ => []

/-- The statements of `NWr.text`, process_items_ini.cpp:476-597. -/
def nwrTree : NWr → List Stmt
  | .line false .bool n => ini483_tree n
  | .line true .bool n => ini489_tree n
  | .line false _ n => ini508_tree n
  | .line true _ n => ini514_tree n
  | .lineEnum false n => ini555_tree n
  | .lineEnum true n => ini562_tree n
  | .child n ty sp => ini571_tree n ty sp
  | .vector _ | .fixme _ | .warn _ => []

/-- The name in a look-up is an identifier.  (Proof notion, models no code.) -/
def Look.Named : Look → Prop
  | .simple _ n | .enum n => Ident n

/-- The names in a statement of an n_ini reader.  (Proof notion, models no code.) -/
def NRd.Named : NRd → Prop
  | .child n ty sp => Ident n ∧ Ident ty ∧ Plain sp
  | .vector n | .fixme n | .warn n => Ident n

/-- The names in a statement of an n_ini writer.  (Proof notion, models no code.) -/
def NWr.Named : NWr → Prop
  | .child n ty sp => Ident n ∧ Ident ty ∧ Plain sp
  | .line _ _ n | .lineEnum _ n | .vector n | .fixme n | .warn n => Ident n

theorem look_chunk {ext : Bool} {l : Look} (h : Look.Named l) : Chunk 40 ext l.text (lookTree l) := by
  cases l with
  | simple ty n =>
    cases ty
    case bool => exact ini354_bool_chunk h
    case int => exact ini354_int_chunk h
    case unsignedInt => exact ini354_unsignedInt_chunk h
    case float => exact ini354_float_chunk h
    case double => exact ini354_double_chunk h
    case long => exact ini354_long_chunk h
    case short => exact ini354_short_chunk h
    case unsignedShort => exact ini354_unsignedShort_chunk h
    case stdString => exact ini354_stdString_chunk h
    case unsignedLong => exact ini354_unsignedLong_chunk h
  | enum n => exact ini369_chunk h

theorem nrd_chunk {ext : Bool} {r : NRd} (h : NRd.Named r) : Chunk 40 ext r.text (nrdTree r) := by
  cases r with
  | child n ty sp => exact ini417_chunk h.1 h.2.1 h.2.2
  | vector n => exact ini422_chunk h
  | fixme n => exact ini427_chunk h
  | warn n => exact ini432_chunk h

theorem nwr_chunk {ext : Bool} {w : NWr} (h : NWr.Named w) : Chunk 40 ext w.text (nwrTree w) := by
  cases w with
  | line g ty n =>
    cases g <;> cases ty
    case false.bool => exact ini483_chunk h
    case true.bool => exact ini489_chunk h
    case false.int => exact ini508_chunk h
    case false.short => exact ini508_chunk h
    case false.long => exact ini508_chunk h
    case false.unsignedInt => exact ini508_chunk h
    case false.unsignedShort => exact ini508_chunk h
    case false.unsignedLong => exact ini508_chunk h
    case false.float => exact ini508_chunk h
    case false.double => exact ini508_chunk h
    case false.stdString => exact ini508_chunk h
    case true.int => exact ini514_chunk h
    case true.short => exact ini514_chunk h
    case true.long => exact ini514_chunk h
    case true.unsignedInt => exact ini514_chunk h
    case true.unsignedShort => exact ini514_chunk h
    case true.unsignedLong => exact ini514_chunk h
    case true.float => exact ini514_chunk h
    case true.double => exact ini514_chunk h
    case true.stdString => exact ini514_chunk h
  | lineEnum g n =>
    cases g
    case false => exact ini555_chunk h
    case true => exact ini562_chunk h
  | child n ty sp => exact ini571_chunk h.1 h.2.1 h.2.2
  | vector n => exact ini582_chunk h
  | fixme n => exact ini587_chunk h
  | warn n => exact ini592_chunk h

/-! ### n_ini functions -/

/-- The condition before the look-ups, process_items_ini.cpp:311. -/
def foundCond : Expr :=
  .bin .ne (.id [c!"found_items"]) (.call (.mem (.mem (.id [c!"m_lookup"]) c!"under") c!"cend") [])

/-- The look-ups of a section, process_items_ini.cpp:310-381. -/
def looksTree : Option (List Look) → List Stmt
  | none => []
  | some ls => ini310_tree ++ [.when foundCond (.block (ini313_tree ++ ls.flatMap lookTree))]

/-- The body of an n_ini reader, process_items_ini.cpp:305-448. -/
def nrdBody (looks : Option (List Look)) (dot : Bool) (body : List NRd) : List Stmt :=
  ini305_tree ++ [.try (looksTree looks ++ (if dot then ini400_tree else []) ++ body.flatMap nrdTree)
    (.ref (.name [c!"std", c!"exception"])) ini444_tree] ++ retRv

/-- An n_ini reader, process_items_ini.cpp:301-448. -/
def nrdFun (cls n : Str) (body : List Stmt) : Fun where
  ret := some (.prim .bool)
  name := [cls, c!"do_rd_" ++ n]
  params := [(.name [c!"std", c!"string"], c!"path"), (.ref (.name [n]), c!"data")]
  base := none
  body := body

/-- The body of an n_ini writer, process_items_ini.cpp:462-600. -/
def nwrBody (n : Str) (dd : Bool) (body : List NWr) : List Stmt :=
  ini462_tree ++ ini463_tree ++ ddDecl dd n ++ ini468_tree ++ body.flatMap nwrTree ++ retRv

/-- An n_ini writer, process_items_ini.cpp:458-600. -/
def nwrFun (cls n : Str) (body : List Stmt) : Fun where
  ret := some (.prim .bool)
  name := [cls, c!"do_wr_" ++ n]
  params := [(.name [c!"std", c!"string"], c!"path"), (.ptr (.name [n]), c!"data")]
  base := none
  body := body

theorem foundCond_parse {ext : Bool} (f : Nat) (r : List Tok) :
    pExpr ext (f + 40 + 1) ([.id c!"found_items", .op .ne, .id c!"m_lookup", .op .dot, .id c!"under", .op .dot, .id c!"cend",
      .op .lpar, .op .rpar] ++ .op .rpar :: .op .lbrace :: r) = some (foundCond, .op .rpar :: .op .lbrace :: r) := by kernel_rfl

theorem exception_parse (f : Nat) (r : List Tok) :
    pTy (f + 42) ([.id c!"std", .op .scope, .id c!"exception", .op .amp] ++ .op .rpar :: r) =
      some (.ref (.name [c!"std", c!"exception"]), .op .rpar :: r) := by kernel_rfl

theorem Chunk.mono {d e : Nat} {ext : Bool} {a : Str} {ss : List Stmt} (h : Chunk d ext a ss) (he : d ≤ e) : Chunk e ext a ss := by
  obtain ⟨ts, h1, h2⟩ := h
  exact ⟨ts, h1, h2.mono he⟩

theorem ini301_head {ext : Bool} {cls n : Str} (f : Nat) (r : List Tok) :
    pFun ext (f + 60) (ini301_toks cls n ++ r) =
      mkFun (some (.prim .bool)) [cls, c!"do_rd_" ++ n]
        [(.name [c!"std", c!"string"], c!"path"), (.ref (.name [n]), c!"data")] none
        (pMany (pStmt ext (f + 60)) (f + 60) r) := by kernel_rfl

theorem ini458_head {ext : Bool} {cls n : Str} (f : Nat) (r : List Tok) :
    pFun ext (f + 60) (ini458_toks cls n ++ r) =
      mkFun (some (.prim .bool)) [cls, c!"do_wr_" ++ n]
        [(.name [c!"std", c!"string"], c!"path"), (.ptr (.name [n]), c!"data")] none
        (pMany (pStmt ext (f + 60)) (f + 60) r) := by kernel_rfl

theorem base146_head {ext : Bool} {n : Str} (f : Nat) (r : List Tok) :
    pFun ext (f + 60) (base146_toks n ++ r) =
      mkFun (some (.name [c!"std", c!"string"])) [c!"stfx", c!"s_from_e"] [(.name [n], c!"e")] none
        (pMany (pStmt ext (f + 60)) (f + 60) r) := by kernel_rfl

theorem base169_head {ext : Bool} {n : Str} (f : Nat) (r : List Tok) :
    pFun ext (f + 60) (base169_toks n ++ r) =
      mkFun (some (.prim .bool)) [c!"stfx", c!"s_to_e"] [(.name [c!"std", c!"string"], c!"s"), (.ref (.name [n]), c!"e")] none
        (pMany (pStmt ext (f + 60)) (f + 60) r) := by kernel_rfl

/-- Two texts one after the other. -/
theorem scans {a b : Str} {ts us : List Tok} (h1 : scan isLetter wordTok .start a = (ts, .start))
    (h2 : scan isLetter wordTok .start b = (us, .start)) : scan isLetter wordTok .start (a ++ b) = (ts ++ us, .start) := by
  rw [scan_append, h1]
  simp only [h2]

theorem looks_chunk {ext : Bool} {ls : List Look} (h : ∀ l ∈ ls, Look.Named l) :
    Chunk 42 ext (T.ini310 ++ T.ini311 ++ T.ini312 ++ T.ini313 ++ ls.flatMap Look.text ++ T.ini381) (looksTree (some ls)) := by
  obtain ⟨ts, h1, i1⟩ := ini313_chunk.append (Chunk.flatMap (ext := ext) fun l hl => look_chunk (h l hl))
  have hw := i1.when foundCond_parse
  have := (ini310_stmts (ext := ext)).mono (e := 42) (by decide)
  refine ⟨_, ?_, this.append hw⟩
  have h2 := scans ini310_scan (scans ini311_scan (scans ini312_scan (scans h1 ini381_scan)))
  simpa [ini311_toks, ini312_toks, ini381_toks] using h2

/-- The text of the look-ups, process_items_ini.cpp:310-381. -/
def looksText : Option (List Look) → Str
  | none => []
  | some ls => T.ini310 ++ T.ini311 ++ T.ini312 ++ T.ini313 ++ ls.flatMap Look.text ++ T.ini381

theorem defNRd_chunk {ext : Bool} {cls n : Str} {looks : Option (List Look)} {dot : Bool} {body : List NRd} (hc : Ident cls)
    (hn : Ident n) (hl : ∀ ls, looks = some ls → ∀ l ∈ ls, Look.Named l) (hb : ∀ r ∈ body, NRd.Named r) :
    DefChunk ext (Item.text (.defNRd cls n looks dot body)) [nrdFun cls n (nrdBody looks dot body)] := by
  have h1 : Chunk 42 ext (looksText looks) (looksTree looks) := by
    cases looks with
    | none => exact .nil
    | some ls => exact looks_chunk (hl ls rfl)
  have h2 : Chunk 42 ext (if dot then T.ini400 else []) (if dot then ini400_tree else []) := by
    cases dot
    · exact .nil
    · exact ini400_chunk.mono (by decide)
  have h3 : Chunk 42 ext (body.flatMap NRd.text) (body.flatMap nrdTree) := .flatMap fun r hr => (nrd_chunk (hb r hr)).mono (by decide)
  obtain ⟨ts, hs, ht⟩ := (h1.append h2).append h3
  have hh := (ini444_stmts (ext := ext)).mono (e := 42) (by decide)
  have htry := ht.try exception_parse hh
  have hbody : Chunk 43 ext (T.ini305 ++ (T.ini306 ++ (T.ini307 ++ (looksText looks ++
        (if dot then T.ini400 else []) ++ body.flatMap NRd.text ++ (T.ini440 ++ (T.ini442 ++ (T.ini443 ++ (T.ini444 ++ T.ini445))))))))
      (ini305_tree ++ [.try (looksTree looks ++ (if dot then ini400_tree else []) ++ body.flatMap nrdTree)
        (.ref (.name [c!"std", c!"exception"])) ini444_tree]) := by
    refine (ini305_chunk.mono (by decide)).append ⟨_, ?_, htry⟩
    have h2 := scans ini306_scan (scans ini307_scan (scans hs (scans ini440_scan (scans ini442_scan (scans ini443_scan
      (scans ini444_scan ini445_scan))))))
    simpa [ini306_toks, ini307_toks, ini440_toks, ini442_toks, ini443_toks, ini445_toks] using h2
  have := fun_chunk (ets := []) (hts := ini301_toks cls n) (by rw [List.append_nil]; exact ini301_scan hc hn)
      ⟨_, _, rfl, by simp, by simp⟩ ini301_head .nil hbody
  have he : Item.text (.defNRd cls n looks dot body) = T.ini301 cls n ++ ((T.ini305 ++ (T.ini306 ++ (T.ini307 ++ (looksText looks ++
        (if dot then T.ini400 else []) ++ body.flatMap NRd.text ++ (T.ini440 ++ (T.ini442 ++ (T.ini443 ++ (T.ini444 ++ T.ini445)))))))) ++
      T.ini446) := by
    simp only [← List.append_assoc]
    cases looks <;> rfl
  rw [he, show T.ini446 = T.xml396 from rfl, nrdFun, nrdBody]
  simpa using this

theorem defNWr_chunk {ext : Bool} {cls n : Str} {dd : Bool} {body : List NWr} (hc : Ident cls)
    (hn : Ident n) (hb : ∀ r ∈ body, NWr.Named r) :
    DefChunk ext (Item.text (.defNWr cls n dd body)) [nwrFun cls n (nwrBody n dd body)] := by
  have h3 : Chunk 40 ext (body.flatMap NWr.text) (body.flatMap nwrTree) := .flatMap fun r hr => nwr_chunk (hb r hr)
  have := fun_chunk (ets := []) (hts := ini458_toks cls n) (by rw [List.append_nil]; exact ini458_scan hc hn)
      ⟨_, _, rfl, by simp, by simp⟩ ini458_head .nil
      ((((ini462_chunk.append ini463_chunk).append (ddDecl_chunk dd hn)).append ini468_chunk).append h3)
  have he : Item.text (.defNWr cls n dd body) = T.ini458 cls n ++ ((T.ini462 ++ T.ini463 ++ (if dd then T.xml420 n else []) ++ T.ini468 ++
      body.flatMap NWr.text) ++ T.xml396) := by
    simp only [← List.append_assoc]
    rfl
  rw [he, nwrFun, nwrBody]
  simpa using this

/-! ### Enum functions -/

/-- The name of an enumerator in the code, process_items.cpp:152-159, 176-183. -/
def enumId (e : EnumS) (l : EnumLine) : Expr := if e.isClass then .id [e.name, l.name] else .id [l.name]

/-- The element of the table from values to texts, process_items.cpp:150-160. -/
def fromElem (e : EnumS) (l : EnumLine) : Expr := .braces [enumId e l, .str l.name]

/-- The element of the table from texts to values, process_items.cpp:174-184. -/
def toElem (e : EnumS) (l : EnumLine) : Expr := .braces [.str l.name, enumId e l]

/-- `s_from_e`, process_items.cpp:146-165. -/
def sFromFun (e : EnumS) : Fun where
  ret := some (.name [c!"std", c!"string"])
  name := [c!"stfx", c!"s_from_e"]
  params := [(.name [e.name], c!"e")]
  base := none
  body := [.decl (.map (.name [e.name]) (.name [c!"std", c!"string"])) (e.name ++ c!"_to_string") none
      (some (.braces (e.enums.map (fromElem e))))] ++ base162_tree e.name ++ retRv

/-- `s_to_e`, process_items.cpp:169-208. -/
def sToFun (e : EnumS) : Fun where
  ret := some (.prim .bool)
  name := [c!"stfx", c!"s_to_e"]
  params := [(.name [c!"std", c!"string"], c!"s"), (.ref (.name [e.name]), c!"e")]
  base := none
  body := base170_tree ++ [.decl (.map (.name [c!"std", c!"string"]) (.name [e.name])) (c!"string_to_" ++ e.name) none
      (some (.braces (e.enums.map (toElem e))))] ++ base186_tree e.name ++ retRv

/-- The names of an enum are identifiers.  (Proof notion, models no code.) -/
def EnumNamed (e : EnumS) : Prop := Ident e.name ∧ ∀ l ∈ e.enums, Ident l.name

/-- The tokens of an element without the comma.  process_items.cpp:154-161. -/
def fromToks (e : EnumS) (l : EnumLine) : List Tok :=
  if e.isClass then [.op .lbrace, .id e.name, .op .scope, .id l.name, .op .comma, .str l.name, .op .rbrace]
  else [.op .lbrace, .id l.name, .op .comma, .str l.name, .op .rbrace]

/-- The tokens of an element without the comma.  process_items.cpp:178-185. -/
def toToks (e : EnumS) (l : EnumLine) : List Tok :=
  if e.isClass then [.op .lbrace, .str l.name, .op .comma, .id e.name, .op .scope, .id l.name, .op .rbrace]
  else [.op .lbrace, .str l.name, .op .comma, .id l.name, .op .rbrace]

theorem fromLine_scan {e : EnumS} {l : EnumLine} (h1 : Ident e.name) (h2 : Ident l.name) :
    scan isLetter wordTok .start (fromLine e l) = (fromToks e l ++ [.op .comma], .start) := by
  unfold fromLine fromToks
  cases e.isClass
  · exact base158_scan h2
  · exact base154_scan h1 h2

theorem toLine_scan {e : EnumS} {l : EnumLine} (h1 : Ident e.name) (h2 : Ident l.name) :
    scan isLetter wordTok .start (toLine e l) = (toToks e l ++ [.op .comma], .start) := by
  unfold toLine toToks
  cases e.isClass
  · exact base182_scan h2
  · exact base178_scan h1 h2

theorem from_parse {ext : Bool} (e : EnumS) (l : EnumLine) (f : Nat) (r : List Tok) :
    pElem ext (f + 40) (fromToks e l ++ .op .comma :: r) = some (fromElem e l, .op .comma :: r) := by
  unfold fromToks fromElem enumId
  cases e.isClass
  · show pElem ext (f + 40) (([.op .lbrace, .id l.name, .op .comma, .str l.name, .op .rbrace] : List Tok) ++ .op .comma :: r) =
      some (.braces [.id [l.name], .str l.name], .op .comma :: r)
    kernel_rfl
  · show pElem ext (f + 40) (([.op .lbrace, .id e.name, .op .scope, .id l.name, .op .comma, .str l.name, .op .rbrace] : List Tok) ++ .op .comma :: r) =
      some (.braces [.id [e.name, l.name], .str l.name], .op .comma :: r)
    kernel_rfl

theorem to_parse {ext : Bool} (e : EnumS) (l : EnumLine) (f : Nat) (r : List Tok) :
    pElem ext (f + 40) (toToks e l ++ .op .comma :: r) = some (toElem e l, .op .comma :: r) := by
  unfold toToks toElem enumId
  cases e.isClass
  · show pElem ext (f + 40) (([.op .lbrace, .str l.name, .op .comma, .id l.name, .op .rbrace] : List Tok) ++ .op .comma :: r) =
      some (.braces [.str l.name, .id [l.name]], .op .comma :: r)
    kernel_rfl
  · show pElem ext (f + 40) (([.op .lbrace, .str l.name, .op .comma, .id e.name, .op .scope, .id l.name, .op .rbrace] : List Tok) ++ .op .comma :: r) =
      some (.braces [.str l.name, .id [e.name, l.name]], .op .comma :: r)
    kernel_rfl

theorem scans_flatMap {α : Type} {l : List α} {text : α → Str} {toks : α → List Tok}
    (h : ∀ x ∈ l, scan isLetter wordTok .start (text x) = (toks x, .start)) :
    scan isLetter wordTok .start (l.flatMap text) = (l.flatMap toks, .start) := by
  induction l with
  | nil => rfl
  | cons x l ih =>
    rw [List.flatMap_cons, List.flatMap_cons]
    exact scans (h x List.mem_cons_self) (ih fun y hy => h y (List.mem_cons_of_mem _ hy))

theorem fromTable_chunk {ext : Bool} {e : EnumS} (h : EnumNamed e) :
    Chunk 41 ext (T.base148 e.name ++ (e.enums.flatMap (fromLine e) ++ T.base161))
      [.decl (.map (.name [e.name]) (.name [c!"std", c!"string"])) (e.name ++ c!"_to_string") none
        (some (.braces (e.enums.map (fromElem e))))] := by
  have h1 := scans (base148_scan h.1) (scans (scans_flatMap fun l hl => fromLine_scan h.1 (h.2 l hl)) base161_scan)
  refine ⟨_, h1, ?_⟩
  have := IsStmts.mapDecl (ext := ext) (d := 40) (ty := .map (.name [e.name]) (.name [c!"std", c!"string"])) (n := e.name ++ c!"_to_string")
    (hts := (base148_toks e.name).dropLast) (fromToks e) (fromElem e) e.enums
    (fun l _ r r' => by unfold fromToks; cases e.isClass <;> simp) (fun l _ f r => from_parse e l f r)
    (fun l _ => by unfold fromToks; cases e.isClass <;> simp) (fun r => ⟨_, _, rfl⟩) (fun f r => by kernel_rfl)
  simpa [base148_toks, base161_toks] using this

theorem toTable_chunk {ext : Bool} {e : EnumS} (h : EnumNamed e) :
    Chunk 41 ext (T.base172 e.name ++ (e.enums.flatMap (toLine e) ++ T.base185))
      [.decl (.map (.name [c!"std", c!"string"]) (.name [e.name])) (c!"string_to_" ++ e.name) none
        (some (.braces (e.enums.map (toElem e))))] := by
  have h1 := scans (base172_scan h.1) (scans (scans_flatMap fun l hl => toLine_scan h.1 (h.2 l hl)) base161_scan)
  refine ⟨_, h1, ?_⟩
  have := IsStmts.mapDecl (ext := ext) (d := 40) (ty := .map (.name [c!"std", c!"string"]) (.name [e.name])) (n := c!"string_to_" ++ e.name)
    (hts := (base172_toks e.name).dropLast) (toToks e) (toElem e) e.enums
    (fun l _ r r' => by unfold toToks; cases e.isClass <;> simp) (fun l _ f r => to_parse e l f r)
    (fun l _ => by unfold toToks; cases e.isClass <;> simp) (fun r => ⟨_, _, rfl⟩) (fun f r => by kernel_rfl)
  simpa [base172_toks, base161_toks] using this

theorem defSFromE_chunk {ext : Bool} {e : EnumS} (h : EnumNamed e) : DefChunk ext (Item.text (.defSFromE e)) [sFromFun e] := by
  have := fun_chunk (ext := ext) (ets := []) (hts := base146_toks e.name) (by rw [List.append_nil]; exact base146_scan h.1)
      ⟨_, _, rfl, by simp, by simp⟩ base146_head .nil ((fromTable_chunk h).append ((base162_chunk h.1).mono (by decide)))
  have he : Item.text (.defSFromE e) = T.base146 e.name ++ ((T.base148 e.name ++ (e.enums.flatMap (fromLine e) ++ T.base161) ++
      T.base162 e.name) ++ T.xml396) := by
    simp only [← List.append_assoc]
    rfl
  rw [he, sFromFun]
  simpa using this

theorem defSToE_chunk {ext : Bool} {e : EnumS} (h : EnumNamed e) : DefChunk ext (Item.text (.defSToE e)) [sToFun e] := by
  have := fun_chunk (ext := ext) (ets := []) (hts := base169_toks e.name) (by rw [List.append_nil]; exact base169_scan h.1)
      ⟨_, _, rfl, by simp, by simp⟩ base169_head .nil
      (((base170_chunk.mono (by decide)).append (toTable_chunk h)).append ((base186_chunk h.1).mono (by decide)))
  have he : Item.text (.defSToE e) = T.base169 e.name ++ ((T.base170 ++ (T.base172 e.name ++ (e.enums.flatMap (toLine e) ++ T.base185)) ++
      T.base186 e.name) ++ T.xml396) := by
    simp only [← List.append_assoc]
    rfl
  rw [he, sToFun]
  simpa using this

end Stfx.Cpp
