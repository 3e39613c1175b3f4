import Verif.Cpp.RunXmlFun
import Verif.Run.XmlTrip
/-
The statements of the generated XML writers, run as C++ code.
-/
set_option autoImplicit false
set_option linter.unusedSimpArgs false
namespace Stfx.Cpp
open Stfx.Run Stfx.Parser Stfx.Items Stfx.Gen

/-! ### Documents under construction -/

/-- Replace the node at a path.  (Proof notion, models no code.) -/
def put (ks : List Node) (path : List Nat) (k : Node) : List Node := modNode (fun _ => k) ks path

theorem modify_congr {α : Type} {f g : α → α} {l : List α} {i : Nat} (h : ∀ a, l[i]? = some a → f a = g a) : l.modify i f = l.modify i g := by
  apply List.ext_getElem?
  intro j
  rw [List.getElem?_modify, List.getElem?_modify]
  cases hj : l[j]? with
  | none => rfl
  | some a =>
    by_cases hi : i = j
    · subst hi
      simp [h a hj]
    · simp [hi]

theorem nodeAt_nil {p : List Nat} : nodeAt [] p = none := by
  cases p with
  | nil => rfl
  | cons i p => cases p <;> simp [nodeAt]

theorem modNode_put {f : Node → Node} {ks : List Node} {path : List Nat} {k : Node} (h : nodeAt ks path = some k) :
    modNode f ks path = put ks path (f k) := by
  induction path generalizing ks with
  | nil => simp [nodeAt] at h
  | cons i path ih =>
    cases path with
    | nil =>
      rw [nodeAt] at h
      unfold put
      rw [modNode, modNode]
      exact modify_congr fun a ha => by rw [h] at ha; cases ha; rfl
    | cons j path =>
      rw [nodeAt] at h
      unfold put
      rw [modNode, modNode]
      refine modify_congr fun a ha => ?_
      rw [ha] at h
      cases a with
      | elem m as ks' => exact congrArg (Node.elem m as) (ih h)
      | _ => simp [Node.kids, nodeAt_nil] at h

theorem nodeAt_put {ks : List Node} {path : List Nat} {k k' : Node} (h : nodeAt ks path = some k) : nodeAt (put ks path k') path = some k' := by
  induction path generalizing ks with
  | nil => simp [nodeAt] at h
  | cons i path ih =>
    cases path with
    | nil =>
      rw [nodeAt] at h
      simp [put, modNode, nodeAt, List.getElem?_modify, h]
    | cons j path =>
      rw [nodeAt] at h
      cases ha : ks[i]? with
      | none => rw [ha] at h; cases h
      | some a =>
        rw [ha] at h
        cases a with
        | elem m as ks' =>
          have := ih h
          unfold put at this ⊢
          rw [modNode, nodeAt, List.getElem?_modify, ha]
          simpa [Node.kids] using this
        | _ => simp [Node.kids, nodeAt_nil] at h

theorem modify_modify {α : Type} {f g : α → α} {l : List α} {i : Nat} : (l.modify i f).modify i g = l.modify i (g ∘ f) := by
  apply List.ext_getElem?
  intro j
  rw [List.getElem?_modify, List.getElem?_modify, List.getElem?_modify]
  cases l[j]? with
  | none => rfl
  | some a => by_cases hi : i = j <;> simp [hi]

theorem put_put {ks : List Node} {path : List Nat} {k k' : Node} : put (put ks path k) path k' = put ks path k' := by
  induction path generalizing ks with
  | nil => rfl
  | cons i path ih =>
    cases path with
    | nil =>
      unfold put
      rw [modNode, modNode, modNode, modify_modify]
      rfl
    | cons j path =>
      unfold put at ih ⊢
      rw [modNode, modNode, modNode, modify_modify]
      refine modify_congr fun a _ => ?_
      cases a with
      | elem m as ks' => exact congrArg (Node.elem m as) ih
      | _ => rfl

theorem modify_self {α : Type} {f : α → α} {l : List α} {i : Nat} (h : ∀ a, l[i]? = some a → f a = a) : l.modify i f = l := by
  rw [modify_congr (g := id) h]
  apply List.ext_getElem?
  intro j
  rw [List.getElem?_modify]
  cases l[j]? with
  | none => rfl
  | some a => by_cases hi : i = j <;> simp [hi]

theorem put_self {ks : List Node} {path : List Nat} {k : Node} (h : nodeAt ks path = some k) : put ks path k = ks := by
  induction path generalizing ks with
  | nil => rfl
  | cons i path ih =>
    cases path with
    | nil =>
      rw [nodeAt] at h
      unfold put
      rw [modNode]
      exact modify_self fun a ha => by rw [h] at ha; cases ha; rfl
    | cons j path =>
      rw [nodeAt] at h
      unfold put at ih ⊢
      rw [modNode]
      refine modify_self fun a ha => ?_
      rw [ha] at h
      cases a with
      | elem m as ks' => exact congrArg (Node.elem m as) (ih h)
      | _ => rfl

/-- Replacing a child of an element. -/
theorem put_kid {ks : List Node} {path : List Nat} {nm : Str} {as : List (Str × Str)} {kids : List Node} {i : Nat} {k : Node}
    (h : nodeAt ks path = some (.elem nm as kids)) : put ks (path ++ [i]) k = put ks path (.elem nm as (kids.modify i fun _ => k)) := by
  induction path generalizing ks with
  | nil => simp [nodeAt] at h
  | cons j path ih =>
    cases path with
    | nil =>
      rw [nodeAt] at h
      unfold put
      rw [List.cons_append, List.nil_append, modNode, modNode]
      exact modify_congr fun a ha => by rw [h] at ha; cases ha; rfl
    | cons j' path =>
      rw [nodeAt] at h
      unfold put at ih ⊢
      rw [List.cons_append, List.cons_append, modNode, modNode]
      refine modify_congr fun a ha => ?_
      rw [ha] at h
      cases a with
      | elem m as' ks' => exact congrArg (Node.elem m as') (ih h)
      | _ => rfl

theorem modify_last {α : Type} {l : List α} {a b : α} : (l ++ [a]).modify l.length (fun _ => b) = l ++ [b] := by
  apply List.ext_getElem?
  intro j
  rw [List.getElem?_modify]
  by_cases hj : j < l.length
  · rw [List.getElem?_append_left hj, List.getElem?_append_left hj]
    have : l.length ≠ j := by omega
    simp [this]
  · by_cases he : j = l.length
    · subst he; simp
    · rw [List.getElem?_eq_none (by simp; omega), List.getElem?_eq_none (by simp; omega)]
      rfl

/-- Replacing a new last child of an element. -/
theorem put_last {ks : List Node} {path : List Nat} {nm : Str} {as : List (Str × Str)} {kids : List Node} {k k' k'' : Node}
    (h : nodeAt ks path = some k) : put (put ks path (.elem nm as (kids ++ [k']))) (path ++ [kids.length]) k'' =
      put ks path (.elem nm as (kids ++ [k''])) := by
  rw [put_kid (nodeAt_put h), put_put, modify_last]

theorem nodeAt_last {ks : List Node} {path : List Nat} {nm : Str} {as : List (Str × Str)} {kids : List Node} {k k' : Node}
    (h : nodeAt ks path = some k) : nodeAt (put ks path (.elem nm as (kids ++ [k']))) (path ++ [kids.length]) = some k' := by
  rw [nodeAt_kid (nodeAt_put h)]
  simp

theorem changeEl_ok {m : List V} {vars : List (Str × Var)} {files : List FileSt} {out : List (Str × Saved)} {d : Nat} {path : List Nat}
    {ks : List Node} {nm : Str} {as : List (Str × Str)} {kids : List Node} {f : List (Str × Str) → List Node → List (Str × Str) × List Node}
    (h1 : m[d]? = some (.doc ks)) (h2 : nodeAt ks path = some (.elem nm as kids)) :
    changeEl d path f ⟨m, vars, files, out⟩ = .ok () ⟨m.set d (.doc (put ks path (.elem nm (f as kids).1 (f as kids).2))), vars, files, out⟩ := by
  simp only [changeEl, h1, modNode_put h2]

/-! ### Memory -/

/-- `m'` is `m` where the document at `d` is `ks'`; the variable at `ac` may have another value.  (Proof notion, models no code.) -/
def WUpd (ac d : Nat) (ks' : List Node) (m m' : List V) : Prop :=
  m'.length = m.length ∧ ∀ b, b ≠ ac → m'[b]? = (m.set d (.doc ks'))[b]?

theorem WUpd.other {ac d : Nat} {ks' : List Node} {m m' : List V} (h : WUpd ac d ks' m m') {b : Nat} (hb : b ≠ ac) (hd : d ≠ b) :
    m'[b]? = m[b]? := by
  rw [h.2 b hb, List.getElem?_set_ne hd]

theorem WUpd.doc {ac d : Nat} {ks' : List Node} {m m' : List V} (h : WUpd ac d ks' m m') (hb : ac ≠ d) {v : V} (hd : m[d]? = some v) :
    m'[d]? = some (.doc ks') := by
  rw [h.2 d (Ne.symm hb), List.getElem?_set_self (List.getElem?_eq_some_iff.1 hd).1]

theorem WUpd.trans {ac d : Nat} {ks1 ks2 : List Node} {m m1 m2 : List V} (h : WUpd ac d ks1 m m1) (h' : WUpd ac d ks2 m1 m2) :
    WUpd ac d ks2 m m2 := by
  refine ⟨h'.1.trans h.1, fun b hb => ?_⟩
  rw [h'.2 b hb]
  by_cases hd : d = b
  · subst hd
    by_cases hl : d < m.length
    · rw [List.getElem?_set_self hl, List.getElem?_set_self (by rw [h.1]; exact hl)]
    · rw [List.getElem?_eq_none (by rw [List.length_set, h.1]; omega), List.getElem?_eq_none (by rw [List.length_set]; omega)]
  · rw [List.getElem?_set_ne hd, List.getElem?_set_ne hd, h.other hb hd]

theorem WUpd.set {ac d : Nat} {ks' : List Node} {m m' : List V} (h : WUpd ac d ks' m m') (x : V) : WUpd ac d ks' m (m'.set ac x) := by
  refine ⟨by simp [h.1], fun b hb => ?_⟩
  rw [List.getElem?_set_ne (Ne.symm hb), h.2 b hb]

theorem WUpd.rfl {ac d : Nat} {ks' : List Node} {m : List V} : WUpd ac d ks' m (m.set d (.doc ks')) := ⟨by simp, fun _ _ => Eq.refl _⟩

theorem WUpd.id {ac d : Nat} {ks : List Node} {m : List V} (h : m[d]? = some (.doc ks)) : WUpd ac d ks m m := by
  refine ⟨Eq.refl _, fun b _ => ?_⟩
  obtain ⟨hl, he⟩ := List.getElem?_eq_some_iff.1 h
  rw [← he, List.set_getElem_self]

/-! ### What a writer function sees -/

/-- What a writer function of struct `c` sees: the element `el`, the object `data`, its copy of the default object, and whether only
differences from the default are written.  (Proof notion, models no code.) -/
structure WrView (c : Str) (m : List V) (vs : List (Str × Var)) (ac : Nat) (p : Place) (fs : List (Str × Val)) (d : Nat)
    (ks : List Node) (path : List Nat) (nm : Str) (el : El) (ae ad am : Nat) (delta : Bool) (dd : List (Str × Val)) : Prop where
  vEl : vs.lookup c!"el" = some ⟨.ptr .xmlEl, ⟨ae, []⟩⟩
  vData : vs.lookup c!"data" = some ⟨.ptr (.struct c), ⟨ad, []⟩⟩
  mEl : m[ae]? = some (.el d path)
  mData : m[ad]? = some (.ptr p)
  mObj : getAt m p = some (.struct fs)
  mDoc : m[d]? = some (.doc ks)
  node : nodeAt ks path = some (.elem nm el.attrs el.kids)
  mDelta : m[am]? = some (.val (.bool delta))
  dflt : ∀ n v, dd.lookup n = some v → ∃ ax, vs.lookup c!"default_data" = some ⟨.struct c, ⟨ax, []⟩⟩ ∧ ac ≠ ax ∧ getAt m ⟨ax, [n]⟩ = some v
  neE : ac ≠ ae
  neA : ac ≠ ad
  neD : ac ≠ d
  neP : ac ≠ p.addr
  neM : ac ≠ am
  clear : ∀ n, n ∉ [c!"el", c!"data", c!"ch_el", c!"rv", c!"default_data"] → vs.lookup n = none

/-- Where the statements of a writer of the class `cls` are executed.  (Proof notion, models no code.) -/
structure WrCtx (E : Env) (cls : Str) (am : Nat) (C : Ctx) : Prop where
  env : C.E = E
  cls_ : C.cls = some cls
  self : ∀ n, n ≠ c!"m_delta_only" → C.self.lookup n = none
  delta : C.self.lookup c!"m_delta_only" = some ⟨.prim .bool, ⟨am, []⟩⟩

section
variable {c : Str} {m : List V} {vs : List (Str × Var)} {ac : Nat} {p : Place} {fs : List (Str × Val)} {d : Nat}
  {ks : List Node} {path : List Nat} {nm : Str} {el : El} {ae ad am : Nat} {delta : Bool} {dd : List (Str × Val)}
  {E : Env} {cls : Str} {C : Ctx} {files : List FileSt} {out : List (Str × Saved)}

theorem WrView.ne {a : Nat} {v : V} (h : WrView c m vs ac p fs d ks path nm el ae ad am delta dd) (ha : m[a]? = some v)
    (hv : ∀ ks, v ≠ .doc ks) : d ≠ a := by
  intro e
  rw [← e, h.mDoc] at ha
  cases ha
  exact hv _ rfl

theorem WrView.neAt {q : Place} {v : Val} (h : WrView c m vs ac p fs d ks path nm el ae ad am delta dd) (hq : getAt m q = some v) : d ≠ q.addr := by
  obtain ⟨w, h1, _⟩ := getAt_inv hq
  exact h.ne h1 (by simp)

theorem WrView.upd (h : WrView c m vs ac p fs d ks path nm el ae ad am delta dd) {el' : El} {m' : List V}
    (hu : WUpd ac d (put ks path (.elem nm el'.attrs el'.kids)) m m') :
    WrView c m' vs ac p fs d (put ks path (.elem nm el'.attrs el'.kids)) path nm el' ae ad am delta dd :=
  { h with
    mEl := by rw [hu.other (Ne.symm h.neE) (h.ne h.mEl (by simp)), h.mEl]
    mData := by rw [hu.other (Ne.symm h.neA) (h.ne h.mData (by simp)), h.mData]
    mObj := by rw [getAt_congr (hu.other (Ne.symm h.neP) (h.neAt h.mObj)), h.mObj]
    mDoc := hu.doc h.neD h.mDoc
    mDelta := by rw [hu.other (Ne.symm h.neM) (h.ne h.mDelta (by simp)), h.mDelta]
    node := nodeAt_put h.node
    dflt := fun n v hn => by
      obtain ⟨ax, h1, h2, h3⟩ := h.dflt n v hn
      exact ⟨ax, h1, h2, by rw [getAt_congr (hu.other (Ne.symm h2) (h.neAt h3)), h3]⟩ }

theorem WrView.member (hv : WrView c m vs ac p fs d ks path nm el ae ad am delta dd) {n : Str} {old : Val} (hl : fs.lookup n = some old) :
    getAt m ⟨p.addr, p.path ++ [n]⟩ = some old := by
  rw [getAt_member (a := p.addr) (p := p.path) hv.mObj, hl]

/-- `data->n` -/
theorem eval_member (hE : C.E = E) {n : Str} {t : MTy} (ht : memberTy E.T c n = some t) {m' : List V} {vs' : List (Str × Var)}
    (hm : m'[ad]? = some (.ptr p)) (hvs : vs'.lookup c!"data" = some ⟨.ptr (.struct c), ⟨ad, []⟩⟩) :
    eval C (.arrow (.id [c!"data"]) n) ⟨m', vs', files, out⟩ = .ok (.lv (ofMTy t) ⟨p.addr, p.path ++ [n]⟩) ⟨m', vs', files, out⟩ := by
  simp [eval, lookupId, hvs, arrowMem, load, peek_var hm, V.isUndef, memTy, hE, ht]

/-! ### The text of a member -/

/-- The argument `e` has the text `r`, or evaluating it is undefined behaviour.  (Proof notion, models no code.) -/
def ArgSim (r : R Str) (C : Ctx) (e : Expr) (s : St) : Prop :=
  match r with
  | .ok x => ∃ y t w, eval C e s = .ok y s ∧ load y s = .ok (t, w) s ∧ argText C.E.T C.E.L t w = some x
  | .ub => eval C e s = .ub ∨ ∃ y, eval C e s = .ok y s ∧ load y s = .ub
  | .stuck => True

/-- The argument of `SetText`, process_items_xml.cpp:437-475.  (Proof notion, models no code.) -/
def elemArg : SimpleTy → Str → Expr
  | .stdString, n => .call (.mem (.arrow (.id [c!"data"]) n) c!"c_str") []
  | .unsignedLong, n => .cast .uint (.arrow (.id [c!"data"]) n)
  | _, n => .arrow (.id [c!"data"]) n

/-- The argument of `SetAttribute`, process_items_xml_attrib.cpp:167-208.  (Proof notion, models no code.) -/
def attrArg : SimpleTy → Str → Expr
  | .stdString, n => .call (.mem (.arrow (.id [c!"data"]) n) c!"c_str") []
  | .long, n | .short, n => .cast .int (.arrow (.id [c!"data"]) n)
  | .unsignedLong, n | .unsignedShort, n => .cast .uint (.arrow (.id [c!"data"]) n)
  | _, n => .arrow (.id [c!"data"]) n

theorem load_undef {m : List V} {t : CTy} {q : Place} (h : getAt m q = some .undef) : load (.lv t q) ⟨m, vs, files, out⟩ = .ub := by
  simp [load, peek_at h, V.isUndef]

theorem load_val {m : List V} {t : CTy} {q : Place} {v : Val} (h : getAt m q = some v) (hv : v ≠ .undef) :
    load (.lv t q) ⟨m, vs, files, out⟩ = .ok (t, .val v) ⟨m, vs, files, out⟩ :=
  load_lv (peek_at h) (by cases v <;> first | rfl | exact absurd rfl hv)

/-- `data->n` as an argument. -/
theorem arg_plain (hE : C.E = E) {k : Kind} {n : Str} {t : MTy} {v : Val} {r : R Str} (ht : memberTy E.T c n = some t)
    (hvs : vs.lookup c!"data" = some ⟨.ptr (.struct c), ⟨ad, []⟩⟩) (hm : m[ad]? = some (.ptr p))
    (hq : getAt m ⟨p.addr, p.path ++ [n]⟩ = some v) (hu : r = .ub → v = .undef)
    (hr : ∀ x, r = .ok x → v ≠ .undef ∧ argText E.T E.L (ofMTy t) (.val v) = some x) :
    ArgSim r C (.arrow (.id [c!"data"]) n) ⟨m, vs, files, out⟩ := by
  have hev := eval_member (files := files) (out := out) hE ht hm hvs
  cases r with
  | ok x => exact ⟨_, _, _, hev, load_val hq (hr x rfl).1, by rw [hE]; exact (hr x rfl).2⟩
  | ub => cases hu rfl; exact .inr ⟨_, hev, load_undef hq⟩
  | stuck => trivial

/-- A member in the argument position, converted by a cast. -/
theorem arg_cast (hE : C.E = E) {n : Str} {t : MTy} {v : Val} {r : R Str} {pt : Prim} (ht : memberTy E.T c n = some t)
    (hvs : vs.lookup c!"data" = some ⟨.ptr (.struct c), ⟨ad, []⟩⟩) (hm : m[ad]? = some (.ptr p))
    (hq : getAt m ⟨p.addr, p.path ++ [n]⟩ = some v) (hu : r = .ub → v = .undef)
    (hr : ∀ x, r = .ok x → v ≠ .undef ∧ ∃ w, castV E.T pt (ofMTy t) (.val v) = some w ∧ argText E.T E.L (.prim pt) w = some x) :
    ArgSim r C (.cast pt (.arrow (.id [c!"data"]) n)) ⟨m, vs, files, out⟩ := by
  have hev := eval_member (files := files) (out := out) hE ht hm hvs
  cases r with
  | ok x =>
    obtain ⟨h1, w, h2, h3⟩ := hr x rfl
    refine ⟨.rv (.prim pt) w, .prim pt, w, ?_, rfl, by rw [hE]; exact h3⟩
    rw [eval]
    simp only [M.bind_run, hev, Res.ok_bind, load_val hq h1, hE, h2, M.opt_some, M.pure_run]
  | ub =>
    cases hu rfl
    refine .inl ?_
    rw [eval]
    simp only [M.bind_run, hev, Res.ok_bind, load_undef hq, Res.ub_bind]
  | stuck => trivial

/-- `data->n.c_str()` as an argument. -/
theorem arg_cstr (hE : C.E = E) {n : Str} {x : Str} (ht : memberTy E.T c n = some (.simple .stdString))
    (hvs : vs.lookup c!"data" = some ⟨.ptr (.struct c), ⟨ad, []⟩⟩) (hm : m[ad]? = some (.ptr p))
    (hq : getAt m ⟨p.addr, p.path ++ [n]⟩ = some (.str x)) :
    ArgSim (.ok (cStr x)) C (.call (.mem (.arrow (.id [c!"data"]) n) c!"c_str") []) ⟨m, vs, files, out⟩ := by
  have hev := eval_member (files := files) (out := out) hE ht hm hvs
  refine ⟨.rv (.ptr (.prim .char)) (.cstr (cStr x)), .ptr (.prim .char), .cstr (cStr x), ?_, rfl, rfl⟩
  rw [eval]
  simp only [M.bind_run, hev, Res.ok_bind, evals, M.pure_run, ofMTy, dotCall, peek_at hq, if_true]

/-- The call `stfx::s_from_e(x)` does what the model says.  (Proof notion, models no code.) -/
def FromCall (C : Ctx) (e : EnumS) (val : EnumVals) : Prop :=
  (∀ (s : St) (x : Int) (q : Place), getAt s.mem q = some (.num x) → inSigned 32 x →
    callId C [c!"stfx", c!"s_from_e"] [.lv (.enum e.name) q] s = .ok (.rv .str (.val (.str (sFromE e val x)))) s) ∧
  ∀ (s : St) (q : Place), getAt s.mem q = some .undef → callId C [c!"stfx", c!"s_from_e"] [.lv (.enum e.name) q] s = .ub

/-- The argument for an enum, process_items_xml.cpp:523, process_items_xml_attrib.cpp:252.  (Proof notion, models no code.) -/
def enumArg (n : Str) : Expr := .call (.mem (.call (.id [c!"stfx", c!"s_from_e"]) [.arrow (.id [c!"data"]) n]) c!"c_str") []

/-- `stfx::s_from_e(data->n).c_str()` as an argument. -/
theorem arg_enum (hE : C.E = E) {n : Str} {e : EnumS} {val : EnumVals} {v : Val} {u : Bool} (ht : memberTy E.T c n = some (.enum e.name))
    (he : E.T.enm e.name = some (e, val)) (hf : FromCall C e val) (hw : CTable.WT E.T u (.enum e.name) v)
    (hvs : vs.lookup c!"data" = some ⟨.ptr (.struct c), ⟨ad, []⟩⟩) (hm : m[ad]? = some (.ptr p))
    (hq : getAt m ⟨p.addr, p.path ++ [n]⟩ = some v) :
    ArgSim (enumText E.T (memberTy E.T c n) v) C (enumArg n) ⟨m, vs, files, out⟩ := by
  have hev := eval_member (files := files) (out := out) hE ht hm hvs
  have hcall : eval C (.call (.id [c!"stfx", c!"s_from_e"]) [.arrow (.id [c!"data"]) n]) ⟨m, vs, files, out⟩ =
      callId C [c!"stfx", c!"s_from_e"] [.lv (.enum e.name) ⟨p.addr, p.path ++ [n]⟩] ⟨m, vs, files, out⟩ := by
    rw [eval]
    simp only [M.bind_run, hev, Res.ok_bind, evals, M.pure_run, ofMTy]
  cases hw with
  | undef =>
    rw [ht]
    refine .inl ?_
    rw [enumArg, eval]
    simp only [M.bind_run, hcall, hf.2 ⟨m, vs, files, out⟩ _ hq, Res.ub_bind]
  | @enum _ e' val' i h1 h2 h3 =>
    rw [he] at h1
    cases h1
    have hx : enumText E.T (memberTy E.T c n) (.num i) = .ok (cStr (sFromE e val i)) := by simp [enumText, ht, he]
    rw [hx]
    refine ⟨.rv (.ptr (.prim .char)) (.cstr (cStr (sFromE e val i))), .ptr (.prim .char), .cstr (cStr (sFromE e val i)), ?_, rfl, rfl⟩
    rw [enumArg, eval]
    simp only [M.bind_run, hcall, hf.1 ⟨m, vs, files, out⟩ i _ hq h2, Res.ok_bind, evals, M.pure_run, dotCallV, if_true]

/-- The argument of `SetText` for a simple member. -/
theorem arg_elem (hE : C.E = E) {n : Str} {ty : SimpleTy} {v : Val} {u : Bool} (ht : memberTy E.T c n = some (.simple ty))
    (hl : ty = .long → E.T.longBits = 64) (hw : CTable.WT E.T u (.simple ty) v)
    (hvs : vs.lookup c!"data" = some ⟨.ptr (.struct c), ⟨ad, []⟩⟩) (hm : m[ad]? = some (.ptr p))
    (hq : getAt m ⟨p.addr, p.path ++ [n]⟩ = some v) :
    ArgSim (simpleText E.L .xml ty v) C (elemArg ty n) ⟨m, vs, files, out⟩ := by
  cases hw with
  | undef _ _ _ h4 =>
    cases ty
    case stdString => exact absurd rfl h4
    case unsignedLong => exact arg_cast hE ht hvs hm hq (fun _ => rfl) (by simp [simpleText])
    all_goals exact arg_plain (k := .xml) hE ht hvs hm hq (fun _ => rfl) (by simp [simpleText])
  | simple h =>
    cases ty <;> cases v <;> first | (cases h; done) | skip
    case stdString.str x => exact arg_cstr hE ht hvs hm hq
    case unsignedLong.num i =>
      exact arg_cast hE ht hvs hm hq (by simp [simpleText]) (by simp [simpleText, castV, ofMTy, argText])
    case long.num i => exact arg_plain (k := .xml) hE ht hvs hm hq (by simp [simpleText]) (by simp [simpleText, ofMTy, argText, hl])
    all_goals exact arg_plain (k := .xml) hE ht hvs hm hq (by simp [simpleText]) (by simp [simpleText, ofMTy, argText])

/-- The argument of `SetAttribute` for a simple member. -/
theorem arg_attr (hE : C.E = E) {n : Str} {ty : SimpleTy} {v : Val} {u : Bool} (ht : memberTy E.T c n = some (.simple ty))
    (hw : CTable.WT E.T u (.simple ty) v)
    (hvs : vs.lookup c!"data" = some ⟨.ptr (.struct c), ⟨ad, []⟩⟩) (hm : m[ad]? = some (.ptr p))
    (hq : getAt m ⟨p.addr, p.path ++ [n]⟩ = some v) :
    ArgSim (simpleText E.L .attrib ty v) C (attrArg ty n) ⟨m, vs, files, out⟩ := by
  cases hw with
  | undef _ _ _ h4 =>
    cases ty
    case stdString => exact absurd rfl h4
    case unsignedLong | unsignedShort | long | short => exact arg_cast hE ht hvs hm hq (fun _ => rfl) (by simp [simpleText])
    all_goals exact arg_plain (k := .xml) hE ht hvs hm hq (fun _ => rfl) (by simp [simpleText])
  | simple h =>
    cases ty <;> cases v <;> first | (cases h; done) | skip
    case stdString.str x => exact arg_cstr hE ht hvs hm hq
    case unsignedLong.num i | long.num i =>
      exact arg_cast hE ht hvs hm hq (by simp [simpleText]) (by simp [simpleText, castV, ofMTy, argText])
    case short.num i =>
      have hw : wrapSigned 32 i = i := wrapSigned_id (by decide) (inSigned_mono (show 16 ≤ 32 by decide) (by simpa [CTable.simpleVal] using h))
      exact arg_cast hE ht hvs hm hq (by simp [simpleText]) (by simp [simpleText, castV, ofMTy, argText, hw])
    case unsignedShort.num i =>
      have hi : inUnsigned 16 i := by simpa [CTable.simpleVal] using h
      have hw : wrapUnsigned 32 i = i := wrapUnsigned_id ⟨hi.1, Int.lt_trans hi.2 (by decide)⟩
      exact arg_cast hE ht hvs hm hq (by simp [simpleText]) (by simp [simpleText, castV, ofMTy, argText, hw])
    all_goals exact arg_plain (k := .xml) hE ht hvs hm hq (by simp [simpleText]) (by simp [simpleText, ofMTy, argText])

/-! ### Statements -/

/-- `ch_el->SetText(e);` -/
theorem exec_setText {r : R Str} {e : Expr} (ha : ArgSim r C e ⟨m, vs, files, out⟩) (hch : vs.lookup c!"ch_el" = some ⟨.ptr .xmlEl, ⟨ac, []⟩⟩)
    (hac : m[ac]? = some (.el d path)) (hd : m[d]? = some (.doc ks)) {as : List (Str × Str)} (hn : nodeAt ks path = some (.elem nm as [])) :
    Sim r (exec C (.expr (.call (.arrow (.id [c!"ch_el"]) c!"SetText") [e])) ⟨m, vs, files, out⟩)
      fun x y => y = .ok .next ⟨m.set d (.doc (put ks path (.elem nm as [.text x]))), vs, files, out⟩ := by
  have hel : eval C (.id [c!"ch_el"]) ⟨m, vs, files, out⟩ = .ok (.lv (.ptr .xmlEl) ⟨ac, []⟩) ⟨m, vs, files, out⟩ := by
    simp [eval, lookupId, hch]
  have hld : load (.lv (.ptr .xmlEl) ⟨ac, []⟩) ⟨m, vs, files, out⟩ = .ok (.ptr .xmlEl, .el d path) ⟨m, vs, files, out⟩ := load_lv (peek_var hac) rfl
  have hem := elemAt_ok (vars := vs) (files := files) (out := out) hd hn
  cases r with
  | ok x =>
    obtain ⟨y, t, w, h1, h2, h3⟩ := ha
    rw [Sim, exec, eval]
    simp [hel, hld, evals, h1, arrowCall, hem, h2, h3, changeEl_ok hd hn, setText]
  | ub =>
    rw [Sim, exec, eval]
    rcases ha with h1 | ⟨y, h1, h2⟩
    · simp [hel, hld, evals, h1]
    · simp [hel, hld, evals, h1, arrowCall, hem, h2]
  | stuck => trivial

/-- `el->SetAttribute("n", e);` -/
theorem exec_setAttr {r : R Str} {e : Expr} (ha : ArgSim r C e ⟨m, vs, files, out⟩) (hel : vs.lookup c!"el" = some ⟨.ptr .xmlEl, ⟨ae, []⟩⟩)
    (hae : m[ae]? = some (.el d path)) (hd : m[d]? = some (.doc ks)) {as : List (Str × Str)} {kids : List Node}
    (hn : nodeAt ks path = some (.elem nm as kids)) {n : Str} (hcn : cStr n = n) :
    Sim r (exec C (.expr (.call (.arrow (.id [c!"el"]) c!"SetAttribute") [.str n, e])) ⟨m, vs, files, out⟩)
      fun x y => y = .ok .next ⟨m.set d (.doc (put ks path (.elem nm (setAttr n x as) kids))), vs, files, out⟩ := by
  have hel : eval C (.id [c!"el"]) ⟨m, vs, files, out⟩ = .ok (.lv (.ptr .xmlEl) ⟨ae, []⟩) ⟨m, vs, files, out⟩ := by
    simp [eval, lookupId, hel]
  have hld : load (.lv (.ptr .xmlEl) ⟨ae, []⟩) ⟨m, vs, files, out⟩ = .ok (.ptr .xmlEl, .el d path) ⟨m, vs, files, out⟩ := load_lv (peek_var hae) rfl
  have hst : eval C (.str n) ⟨m, vs, files, out⟩ = .ok (.rv (.ptr (.prim .char)) (.cstr n)) ⟨m, vs, files, out⟩ := by
    rw [eval, hcn]; rfl
  have hem := elemAt_ok (vars := vs) (files := files) (out := out) hd hn
  cases r with
  | ok x =>
    obtain ⟨y, t, w, h1, h2, h3⟩ := ha
    rw [Sim, exec, eval]
    simp [hel, hld, hst, evals, h1, arrowCall, hem, h2, h3, changeEl_ok hd hn]
  | ub =>
    rw [Sim, exec, eval]
    rcases ha with h1 | ⟨y, h1, h2⟩
    · simp [hel, hld, hst, evals, h1]
    · simp [hel, hld, hst, evals, h1, arrowCall, hem, h2]
  | stuck => trivial

/-- `ch_el->InsertNewChildElement("n")` -/
theorem eval_insert {x : Str} {a : Nat} (hx : vs.lookup x = some ⟨.ptr .xmlEl, ⟨a, []⟩⟩) (ha : m[a]? = some (.el d path))
    (hd : m[d]? = some (.doc ks)) {as : List (Str × Str)} {kids : List Node} (hn : nodeAt ks path = some (.elem nm as kids)) {n : Str} (hcn : cStr n = n) :
    eval C (.call (.arrow (.id [x]) c!"InsertNewChildElement") [.str n]) ⟨m, vs, files, out⟩ =
      .ok (.rv (.ptr .xmlEl) (.el d (path ++ [kids.length])))
        ⟨m.set d (.doc (put ks path (.elem nm as (kids ++ [.elem n [] []])))), vs, files, out⟩ := by
  have hel : eval C (.id [x]) ⟨m, vs, files, out⟩ = .ok (.lv (.ptr .xmlEl) ⟨a, []⟩) ⟨m, vs, files, out⟩ := by
    simp [eval, lookupId, hx]
  have hld : load (.lv (.ptr .xmlEl) ⟨a, []⟩) ⟨m, vs, files, out⟩ = .ok (.ptr .xmlEl, .el d path) ⟨m, vs, files, out⟩ := load_lv (peek_var ha) rfl
  have hst : eval C (.str n) ⟨m, vs, files, out⟩ = .ok (.rv (.ptr (.prim .char)) (.cstr n)) ⟨m, vs, files, out⟩ := by
    rw [eval, hcn]; rfl
  have hem := elemAt_ok (vars := vs) (files := files) (out := out) hd hn
  rw [eval]
  simp [hel, hld, hst, evals, arrowCall, hem, changeEl_ok hd hn]

/-- `ch_el = el->InsertNewChildElement("n");`  (Proof notion, models no code.) -/
def insTree (n : Str) : Stmt := .expr (.assign (.id [c!"ch_el"]) (.call (.arrow (.id [c!"el"]) c!"InsertNewChildElement") [(.str n)]))

/-- The memory after it.  (Proof notion, models no code.) -/
def insMem (m : List V) (ac d : Nat) (ks : List Node) (path : List Nat) (nm : Str) (el : El) (n : Str) : List V :=
  (m.set d (.doc (put ks path (.elem nm el.attrs (el.kids ++ [.elem n [] []]))))).set ac (.el d (path ++ [el.kids.length]))

theorem exec_ins (hv : WrView c m vs ac p fs d ks path nm el ae ad am delta dd) (hch : vs.lookup c!"ch_el" = some ⟨.ptr .xmlEl, ⟨ac, []⟩⟩)
    (hac : ac < m.length) {n : Str} (hcn : cStr n = n) {r : List Stmt} :
    execs C (insTree n :: r) ⟨m, vs, files, out⟩ = execs C r ⟨insMem m ac d ks path nm el n, vs, files, out⟩ := by
  have hi := eval_insert (C := C) (files := files) (out := out) hv.vEl hv.mEl hv.mDoc hv.node hcn
  have hid : ∀ m', eval C (.id [c!"ch_el"]) ⟨m', vs, files, out⟩ = .ok (.lv (.ptr .xmlEl) ⟨ac, []⟩) ⟨m', vs, files, out⟩ := by
    intro m'; simp [eval, lookupId, hch]
  refine execs_cons ?_
  rw [insTree, exec, M.bind_run, eval]
  have hlt : ac < (m.set d (.doc (put ks path (.elem nm el.attrs (el.kids ++ [.elem n [] []]))))).length := by simpa using hac
  simp only [M.bind_run, hi, Res.ok_bind, hid, assignE, load_rv, coerce_self, M.opt_some, M.pure_run, poke_var hlt]
  rfl

theorem insUpd {n : Str} : WUpd ac d (put ks path (.elem nm el.attrs (el.kids ++ [.elem n [] []]))) m (insMem m ac d ks path nm el n) :=
  WUpd.rfl.set _

theorem insGet (hac : ac < m.length) {n : Str} : (insMem m ac d ks path nm el n)[ac]? = some (.el d (path ++ [el.kids.length])) :=
  List.getElem?_set_self (by simpa using hac)

/-- A statement has added what the model adds.  (Proof notion, models no code.) -/
def Added (m : List V) (vs : List (Str × Var)) (ac d : Nat) (ks : List Node) (path : List Nat) (nm : Str) (el : El) (files : List FileSt)
    (out : List (Str × Saved)) (e : Emit) (x : Res Flow) : Prop :=
  ∃ m', x = .ok .next ⟨m', vs, files, out⟩ ∧ WUpd ac d (put ks path (.elem nm (el.add e).attrs (el.add e).kids)) m m'

theorem added_none (hv : WrView c m vs ac p fs d ks path nm el ae ad am delta dd) :
    Added m vs ac d ks path nm el files out .none (.ok .next ⟨m, vs, files, out⟩) := by
  refine ⟨m, rfl, ?_⟩
  show WUpd ac d (put ks path (.elem nm el.attrs el.kids)) m m
  rw [put_self hv.node]
  exact WUpd.id hv.mDoc

theorem insGetAt (hv : WrView c m vs ac p fs d ks path nm el ae ad am delta dd) {n : Str} :
    (insMem m ac d ks path nm el n)[ad]? = some (.ptr p) ∧
    (∀ {n' : Str} {v : Val}, fs.lookup n' = some v → getAt (insMem m ac d ks path nm el n) ⟨p.addr, p.path ++ [n']⟩ = some v) ∧
    (insMem m ac d ks path nm el n)[d]? = some (.doc (put ks path (.elem nm el.attrs (el.kids ++ [.elem n [] []])))) ∧
    (insMem m ac d ks path nm el n)[am]? = some (.val (.bool delta)) := by
  have h := hv.upd (el' := ⟨el.attrs, el.kids ++ [.elem n [] []]⟩) (insUpd (el := el) (n := n))
  exact ⟨h.mData, fun hl => h.member hl, h.mDoc, h.mDelta⟩

/-- A new element with a text. -/
theorem wr_elem (hv : WrView c m vs ac p fs d ks path nm el ae ad am delta dd)
    (hch : vs.lookup c!"ch_el" = some ⟨.ptr .xmlEl, ⟨ac, []⟩⟩) (hac : ac < m.length) {n : Str} (hcn : cStr n = n) {v : Val}
    (hl : fs.lookup n = some v) {r : R Str} {e : Expr}
    (ha : ∀ m', m'[ad]? = some (.ptr p) → getAt m' ⟨p.addr, p.path ++ [n]⟩ = some v → ArgSim r C e ⟨m', vs, files, out⟩) :
    Sim (r >>= fun s => R.ok (.kid (.elem n [] [.text s])))
      (execs C [insTree n, .expr (.call (.arrow (.id [c!"ch_el"]) c!"SetText") [e])] ⟨m, vs, files, out⟩)
      (Added m vs ac d ks path nm el files out) := by
  rw [exec_ins hv hch hac hcn, execs_one]
  obtain ⟨h1, h2, h3, _⟩ := insGetAt hv (n := n)
  have h4 := exec_setText (ha _ h1 (h2 hl)) hch (insGet hac) h3 (nodeAt_last hv.node)
  refine h4.bind (fun x _ h => ?_) id
  refine ⟨_, h, ?_⟩
  show WUpd ac d (put ks path (.elem nm el.attrs (el.kids ++ [.elem n [] [.text x]]))) m _
  rw [put_last hv.node]
  exact insUpd.trans .rfl

/-- An attribute. -/
theorem wr_attr (hv : WrView c m vs ac p fs d ks path nm el ae ad am delta dd) {n : Str} (hcn : cStr n = n) {r : R Str} {e : Expr}
    (ha : ArgSim r C e ⟨m, vs, files, out⟩) :
    Sim (r >>= fun s => R.ok (.attr n s))
      (exec C (.expr (.call (.arrow (.id [c!"el"]) c!"SetAttribute") [.str n, e])) ⟨m, vs, files, out⟩)
      (Added m vs ac d ks path nm el files out) :=
  (exec_setAttr ha hv.vEl hv.mEl hv.mDoc hv.node hcn).bind (fun _ _ h => ⟨_, h, .rfl⟩) id

/-- The delta test, process_items_xml.cpp:445.  (Proof notion, models no code.) -/
def guardTree (n : Str) : Expr :=
  .bin .or (.bin .eq (.id [c!"m_delta_only"]) (.bool false)) (.bin .ne (.arrow (.id [c!"data"]) n) (.mem (.id [c!"default_data"]) n))

theorem eval_guard (hE : C.E = E) {n : Str} {t : MTy} (ht : memberTy E.T c n = some t) {v : Val} (hq : getAt m ⟨p.addr, p.path ++ [n]⟩ = some v)
    (hvs : vs.lookup c!"data" = some ⟨.ptr (.struct c), ⟨ad, []⟩⟩) (hm : m[ad]? = some (.ptr p))
    (hvd : vs.lookup c!"m_delta_only" = none) (hs : C.self.lookup c!"m_delta_only" = some ⟨.prim .bool, ⟨am, []⟩⟩)
    (hmd : m[am]? = some (.val (.bool delta)))
    (hdf : ∀ w, dd.lookup n = some w → ∃ ax, vs.lookup c!"default_data" = some ⟨.struct c, ⟨ax, []⟩⟩ ∧ getAt m ⟨ax, [n]⟩ = some w) :
    Sim (guard true delta (dd.lookup n) v) ((eval C (guardTree n) >>= asBool) ⟨m, vs, files, out⟩)
      fun b x => x = .ok b ⟨m, vs, files, out⟩ := by
  have hdl : eval C (.bin .eq (.id [c!"m_delta_only"]) (.bool false)) ⟨m, vs, files, out⟩ =
      .ok (.rv (.prim .bool) (.val (.bool !delta))) ⟨m, vs, files, out⟩ := by
    simp only [eval, lookupId, hvd, hs, M.bind_run, Res.ok_bind, load_lv (peek_var hmd) rfl, M.pure_run, load_rv, binV, if_true]
    cases delta <;> rfl
  cases delta with
  | false =>
    show ((eval C (guardTree n) >>= asBool) ⟨m, vs, files, out⟩) = _
    rw [guardTree, M.bind_run, eval]
    simp [hdl, asBool]
  | true =>
    have hg : guard true true (dd.lookup n) v = match dd.lookup n with | some d => neq v d | none => .stuck := rfl
    rw [hg]
    cases hd : dd.lookup n with
    | none => trivial
    | some w =>
      obtain ⟨ax, h1, h3⟩ := hdf w hd
      have hev := eval_member (files := files) (out := out) hE ht hm hvs
      have hed : eval C (.mem (.id [c!"default_data"]) n) ⟨m, vs, files, out⟩ = .ok (.lv (ofMTy t) ⟨ax, [n]⟩) ⟨m, vs, files, out⟩ := by
        simp [eval, lookupId, h1, dotMem, memTy, hE, ht]
      have hne : Sim (neq v w) (eval C (.bin .ne (.arrow (.id [c!"data"]) n) (.mem (.id [c!"default_data"]) n)) ⟨m, vs, files, out⟩)
          fun b x => x = .ok (.rv (.prim .bool) (.val (.bool b))) ⟨m, vs, files, out⟩ := by
        by_cases hv1 : v = .undef
        · subst hv1
          have : neq .undef w = .ub := by cases w <;> rfl
          rw [this, Sim, eval]
          · simp only [M.bind_run, hev, Res.ok_bind, load_undef hq, Res.ub_bind]
          all_goals simp
        · by_cases hw1 : w = .undef
          · subst hw1
            have : neq v .undef = .ub := by cases v <;> rfl
            rw [this, Sim, eval]
            · simp only [M.bind_run, hev, Res.ok_bind, load_val hq hv1, hed, load_undef h3, Res.ub_bind]
            all_goals simp
          · have : eval C (.bin .ne (.arrow (.id [c!"data"]) n) (.mem (.id [c!"default_data"]) n)) ⟨m, vs, files, out⟩ =
                Res.bind (M.lift (neq v w) ⟨m, vs, files, out⟩) fun b s => .ok (EV.rv (.prim .bool) (.val (.bool b))) s := by
              rw [eval]
              · simp only [M.bind_run, hev, Res.ok_bind, load_val hq hv1, hed, load_val h3 hw1, binV, if_true]
                rfl
              all_goals simp
            rw [this]
            cases neq v w with
            | ok b => rfl
            | ub => rfl
            | stuck => trivial
      simp only
      cases hn : neq v w with
      | stuck => trivial
      | ub =>
        rw [hn] at hne
        have hne : eval _ _ _ = _ := hne
        show ((eval C (guardTree n) >>= asBool) ⟨m, vs, files, out⟩) = _
        rw [guardTree, M.bind_run, eval]
        simp [hdl, asBool, hne]
      | ok b =>
        rw [hn] at hne
        have hne : eval _ _ _ = _ := hne
        show ((eval C (guardTree n) >>= asBool) ⟨m, vs, files, out⟩) = _
        rw [guardTree, M.bind_run, eval]
        simp [hdl, asBool, hne]

theorem wr_guard (hv : WrView c m vs ac p fs d ks path nm el ae ad am delta dd) (hC : WrCtx E cls am C) {n : Str} {t : MTy}
    (ht : memberTy E.T c n = some t) {v : Val} (hl : fs.lookup n = some v) :
    Sim (guard true delta (dd.lookup n) v) ((eval C (guardTree n) >>= asBool) ⟨m, vs, files, out⟩)
      fun b x => x = .ok b ⟨m, vs, files, out⟩ :=
  eval_guard hC.env ht (hv.member hl) hv.vData hv.mData (hv.clear _ (by decide)) hC.delta hv.mDelta fun w hd => by
    obtain ⟨ax, h1, _, h3⟩ := hv.dflt n w hd
    exact ⟨ax, h1, h3⟩

/-- A statement with a delta test. -/
theorem wr_when (hv : WrView c m vs ac p fs d ks path nm el ae ad am delta dd) (hC : WrCtx E cls am C) {n : Str} {t : MTy}
    (ht : memberTy E.T c n = some t) {v : Val} (hl : fs.lookup n = some v) {st : Stmt} {r : R Emit}
    (h : Sim r (exec C st ⟨m, vs, files, out⟩) (Added m vs ac d ks path nm el files out)) :
    Sim (guard true delta (dd.lookup n) v >>= fun b => if b = true then r else R.ok .none)
      (execs C [.when (guardTree n) st] ⟨m, vs, files, out⟩) (Added m vs ac d ks path nm el files out) := by
  rw [execs_one, exec]
  refine (wr_guard (files := files) (out := out) hv hC ht hl).bind (fun b _ hx => ?_) (fun hx => ?_)
  · rw [M.bind_run, hx, Res.ok_bind]
    cases b with
    | false => exact added_none hv
    | true =>
      simp only [if_true]
      cases r with
      | stuck => trivial
      | ub =>
        have h : exec _ _ _ = _ := h
        show scope _ _ = _
        simp [scope, h]
      | ok e =>
        obtain ⟨m', h1, h2⟩ := h
        exact ⟨m', scope_len h1 h2.1, h2⟩
  · rw [M.bind_run, hx]; rfl

theorem sim_block {r : R Emit} {ss : List Stmt} (h : Sim r (execs C ss ⟨m, vs, files, out⟩) (Added m vs ac d ks path nm el files out)) :
    Sim r (exec C (.block ss) ⟨m, vs, files, out⟩) (Added m vs ac d ks path nm el files out) := by
  rw [exec]
  cases r with
  | stuck => trivial
  | ub =>
    have h : execs _ _ _ = _ := h
    show scope _ _ = _
    simp [scope, h]
  | ok e =>
    obtain ⟨m', h1, h2⟩ := h
    exact ⟨m', scope_len h1 h2.1, h2⟩

/-- `do_wr_ty(el, &x)` on a new element writes the object as the model says.  (Proof notion, models no code.) -/
def WrCall (C : Ctx) (prog : List Item) (am : Nat) (delta : Bool) (ty : Str) (v : Val) : Prop :=
  ∀ (s : St) (a : EV) (d : Nat) (path : List Nat) (ks : List Node) (nm : Str) (q : Place), a.ty = some (.ptr .xmlEl) →
    (∀ vars, load a { s with vars := vars } = .ok (.ptr .xmlEl, .el d path) { s with vars := vars }) →
    s.mem[d]? = some (.doc ks) → nodeAt ks path = some (.elem nm [] []) →
    getAt s.mem q = some v → s.mem[am]? = some (.val (.bool delta)) → s.vars.lookup (c!"do_wr_" ++ ty) = none →
    Sim ((wrVal C.E.T C.E.L prog delta v).wr ty) (callId C [c!"do_wr_" ++ ty] [a, .rv (.ptr (.struct ty)) (.ptr q)] s)
      fun el x => x = .ok (.rv (.prim .bool) (.val (.bool true)))
        { s with mem := s.mem.set d (.doc (put ks path (.elem nm el.attrs el.kids))) }

theorem do_wr_ne {ty : Str} {n : Str} (h : n ∈ [c!"el", c!"data", c!"ch_el", c!"rv", c!"itr", c!"ch_ch_el", c!"m_delta_only", c!"default_data"]) :
    c!"do_wr_" ++ ty ≠ n := by
  intro he
  subst he
  simp at h

theorem WrView.doTy (hv : WrView c m vs ac p fs d ks path nm el ae ad am delta dd) (ty : Str) : vs.lookup (c!"do_wr_" ++ ty) = none := by
  refine hv.clear _ fun h => do_wr_ne (ty := ty) (n := c!"do_wr_" ++ ty) ?_ rfl
  simp only [List.mem_cons, List.not_mem_nil, or_false] at h ⊢
  rcases h with h | h | h | h | h <;> simp [h]

theorem scope_ub {α : Type} {x : M α} {s : St} (h : x s = .ub) : scope x s = .ub := by
  unfold scope
  rw [h]

/-- `if (ch_el != nullptr) ...` where it is an element. -/
theorem when_el {st : Stmt} {x : Str} {a : Nat} (hx : vs.lookup x = some ⟨.ptr .xmlEl, ⟨a, []⟩⟩) (ha : m[a]? = some (.el d path)) :
    exec C (.when (.bin .ne (.id [x]) .null) st) ⟨m, vs, files, out⟩ = scope (exec C st) ⟨m, vs, files, out⟩ := by
  have h1 : eval C (.id [x]) ⟨m, vs, files, out⟩ = .ok (.lv (.ptr .xmlEl) ⟨a, []⟩) ⟨m, vs, files, out⟩ := by simp [eval, lookupId, hx]
  have h2 : load (.lv (.ptr .xmlEl) ⟨a, []⟩) ⟨m, vs, files, out⟩ = .ok (.ptr .xmlEl, .el d path) ⟨m, vs, files, out⟩ := load_lv (peek_var ha) rfl
  have h3 : eval C (.bin .ne (.id [x]) .null) ⟨m, vs, files, out⟩ = .ok (.rv (.prim .bool) (.val (.bool true))) ⟨m, vs, files, out⟩ := by
    rw [eval]
    · simp only [M.bind_run, h1, Res.ok_bind, h2]
      rfl
    all_goals simp
  rw [exec]
  simp [h3, asBool]

/-- A member of class type is written. -/
theorem wr_child (hv : WrView c m vs ac p fs d ks path nm el ae ad am delta dd) (hC : WrCtx E cls am C)
    (hch : vs.lookup c!"ch_el" = some ⟨.ptr .xmlEl, ⟨ac, []⟩⟩) (hac : ac < m.length) {n ty : Str} (hcn : cStr n = n)
    (ht : memberTy E.T c n = some (.struct ty)) {v : Val} (hl : fs.lookup n = some v) {prog : List Item} (hw : WrCall C prog am delta ty v) :
    Sim ((wrVal E.T E.L prog delta v).wr ty >>= fun e => R.ok (.kid (.elem n e.attrs e.kids)))
      (execs C (xml540_tree n ty) ⟨m, vs, files, out⟩) (Added m vs ac d ks path nm el files out) := by
  obtain ⟨h1, h2, h3, h4⟩ := insGetAt hv (n := n)
  have hev := eval_member (files := files) (out := out) hC.env ht h1 hv.vData
  have h5 := hw ⟨insMem m ac d ks path nm el n, vs, files, out⟩ (.lv (.ptr .xmlEl) ⟨ac, []⟩) d (path ++ [el.kids.length]) _ n
    ⟨p.addr, p.path ++ [n]⟩ rfl (fun vars => load_lv (peek_var (insGet hac)) rfl) h3 (nodeAt_last hv.node) (h2 hl) h4 (hv.doTy ty)
  rw [hC.env] at h5
  have hargs : evals C [.id [c!"ch_el"], .addr (.arrow (.id [c!"data"]) n)] ⟨insMem m ac d ks path nm el n, vs, files, out⟩ =
      .ok [.lv (.ptr .xmlEl) ⟨ac, []⟩, .rv (.ptr (.struct ty)) (.ptr ⟨p.addr, p.path ++ [n]⟩)] ⟨insMem m ac d ks path nm el n, vs, files, out⟩ := by
    have hch' : eval C (.id [c!"ch_el"]) ⟨insMem m ac d ks path nm el n, vs, files, out⟩ = .ok (.lv (.ptr .xmlEl) ⟨ac, []⟩) ⟨insMem m ac d ks path nm el n, vs, files, out⟩ := by
      simp [eval, lookupId, hch]
    have had : eval C (.addr (.arrow (.id [c!"data"]) n)) ⟨insMem m ac d ks path nm el n, vs, files, out⟩ =
        .ok (.rv (.ptr (.struct ty)) (.ptr ⟨p.addr, p.path ++ [n]⟩)) ⟨insMem m ac d ks path nm el n, vs, files, out⟩ := by
      rw [eval]; simp [hev, ofMTy]
    simp only [evals, M.bind_run, hch', had, Res.ok_bind, M.pure_run]
  have htree : xml540_tree n ty = [insTree n, .when (.bin .ne (.id [c!"ch_el"]) .null)
      (.block [.expr (.call (.id [(c!"do_wr_" ++ ty)]) [(.id [c!"ch_el"]), (.addr (.arrow (.id [c!"data"]) n))])])] := rfl
  rw [htree, exec_ins hv hch hac hcn, execs_one, when_el hch (insGet hac), exec]
  refine h5.bind (fun e _ hx => ?_) (fun hx => ?_)
  · have h6 : exec C (.expr (.call (.id [(c!"do_wr_" ++ ty)]) [(.id [c!"ch_el"]), (.addr (.arrow (.id [c!"data"]) n))])) ⟨insMem m ac d ks path nm el n, vs, files, out⟩ =
        .ok .next ⟨(insMem m ac d ks path nm el n).set d (.doc (put (put ks path (.elem nm el.attrs (el.kids ++ [.elem n [] []]))) (path ++ [el.kids.length])
          (.elem n e.attrs e.kids))), vs, files, out⟩ := by
      rw [exec_call hargs, hx]
      rfl
    refine ⟨_, scope_len (scope_len (execs_one.trans h6) (by simp)) (by simp), ?_⟩
    rw [put_last hv.node]
    exact insUpd.trans .rfl
  · exact scope_ub (scope_ub (by
      rw [execs_one, exec_call hargs, hx]
      rfl))

/-- The body of the loop over a vector, process_items_xml.cpp:553-557.  (Proof notion, models no code.) -/
def itrTree (ty : Str) : Stmt :=
  .block [
    .decl (.ptr (.name [c!"tinyxml2", c!"XMLElement"])) c!"ch_ch_el" none (some (.call (.arrow (.id [c!"ch_el"]) c!"InsertNewChildElement") [(.str ty)])),
    .expr (.call (.id [(c!"do_wr_" ++ ty)]) [(.id [c!"ch_ch_el"]), (.addr (.id [c!"itr"]))])]

/-- One round of the loop.  (Proof notion, models no code.) -/
def itrRound (C : Ctx) (ty : Str) (x : CTy × V) : M Flow :=
  scope (do
      let vars ← getVars
      let u ← M.opt (tyOf C.E C.cls (vars ++ C.self) (.name [ty]))
      let v ← M.opt (coerce x.1 x.2 u)
      let l ← alloc v
      declare c!"itr" ⟨u, ⟨l, []⟩⟩
      exec C (itrTree ty))

/-- What the rounds of the loop need.  (Proof notion, models no code.) -/
structure ItrView (E : Env) (cls ty : Str) (am : Nat) (C : Ctx) (m : List V) (vs : List (Str × Var)) (ac d : Nat) (ks : List Node)
    (path : List Nat) (n : Str) (kk : List Node) (delta : Bool) : Prop where
  vCh : vs.lookup c!"ch_el" = some ⟨.ptr .xmlEl, ⟨ac, []⟩⟩
  vTy : (vs ++ C.self).lookup ty = none
  vDo : vs.lookup (c!"do_wr_" ++ ty) = none
  mCh : m[ac]? = some (.el d path)
  mDoc : m[d]? = some (.doc ks)
  node : nodeAt ks path = some (.elem n [] kk)
  mDelta : m[am]? = some (.val (.bool delta))

theorem ItrView.upd {ty n : Str} {kk kk' : List Node} (h : ItrView E cls ty am C m vs ac d ks path n kk delta) :
    ItrView E cls ty am C (m.set d (.doc (put ks path (.elem n [] kk')))) vs ac d (put ks path (.elem n [] kk')) path n kk' delta := by
  have hne : ∀ {a : Nat} {v : V}, m[a]? = some v → (∀ ks, v ≠ .doc ks) → d ≠ a := fun {a v} ha hv e => by
    subst e
    rw [h.mDoc] at ha
    cases ha
    exact hv _ rfl
  exact { h with
    mCh := by rw [List.getElem?_set_ne (hne h.mCh (by simp)), h.mCh]
    mDoc := List.getElem?_set_self (List.getElem?_eq_some_iff.1 h.mDoc).1
    node := nodeAt_put h.node
    mDelta := by rw [List.getElem?_set_ne (hne h.mDelta (by simp)), h.mDelta] }

/-- A declaration whose initialiser changes objects. -/
theorem exec_declChange {t : Ty} {u : CTy} {n : Str} {e : Expr} {x : EV} {v : V} {m1 : List V} {vars : List (Str × Var)}
    (ht : tyOf C.E C.cls (vars ++ C.self) t = some u) (hl : m1.length = m.length)
    (he : eval C e ⟨m ++ [.val .undef], (n, ⟨u, ⟨m.length, []⟩⟩) :: vars, files, out⟩ =
      .ok x ⟨m1 ++ [.val .undef], (n, ⟨u, ⟨m.length, []⟩⟩) :: vars, files, out⟩)
    (hi : initFrom u x ⟨m1 ++ [.val .undef], (n, ⟨u, ⟨m.length, []⟩⟩) :: vars, files, out⟩ =
      .ok v ⟨m1 ++ [.val .undef], (n, ⟨u, ⟨m.length, []⟩⟩) :: vars, files, out⟩) :
    exec C (.decl t n none (some e)) ⟨m, vars, files, out⟩ =
      .ok .next ⟨m1 ++ [v], (n, ⟨u, ⟨m.length, []⟩⟩) :: vars, files, out⟩ := by
  have hp := poke_var (m := m1 ++ [.val .undef]) (vars := (n, ⟨u, ⟨m.length, []⟩⟩) :: vars) (files := files) (out := out) (a := m.length) (v := v)
    (by simp [hl])
  have hs : (m1 ++ [V.val .undef]).set m.length v = m1 ++ [v] := by rw [← hl, List.set_append_right _ _ (Nat.le_refl _)]; simp
  cases t <;> first
    | (simp [tyOf] at ht; done)
    | (simp only [exec, declE, M.bind_run, getVars_run, Res.ok_bind, ht, M.opt_some, M.pure_run, alloc_run, declare_run, he, hi, hp, hs])

theorem wr_itr {ty n : Str} {kk : List Node} (hcls : C.E = E ∧ C.cls = some cls) (hv : ItrView E cls ty am C m vs ac d ks path n kk delta)
    (hty : StructName E cls ty) (hct : cStr ty = ty) {prog : List Item} {v : Val} (hw : WrCall C prog am delta ty v) :
    Sim ((wrVal E.T E.L prog delta v).wr ty) (itrRound C ty (.struct ty, .val v) ⟨m, vs, files, out⟩)
      fun e x => x = .ok .next ⟨m.set d (.doc (put ks path (.elem n [] (kk ++ [.elem ty e.attrs e.kids])))), vs, files, out⟩ := by
  obtain ⟨hE, hc⟩ := hcls
  have hT : tyOf C.E C.cls (vs ++ C.self) (.name [ty]) = some (.struct ty) := by
    rw [hE, hc]
    exact hty.tyOf hv.vTy
  have hdl := (List.getElem?_eq_some_iff.1 hv.mDoc).1
  have hap := fun (t : List V) {m : List V} {a : Nat} {v : V} (h : m[a]? = some v) => show (m ++ t)[a]? = some v by
    rw [List.getElem?_append_left (List.getElem?_eq_some_iff.1 h).1, h]
  generalize hvs2 : (c!"ch_ch_el", (⟨.ptr .xmlEl, ⟨m.length + 1, []⟩⟩ : Var)) :: (c!"itr", ⟨.struct ty, ⟨m.length, []⟩⟩) :: vs = vs2
  have l1 : vs2.lookup c!"ch_ch_el" = some ⟨.ptr .xmlEl, ⟨m.length + 1, []⟩⟩ := by subst hvs2; rfl
  have l2 : vs2.lookup c!"itr" = some ⟨.struct ty, ⟨m.length, []⟩⟩ := by subst hvs2; rfl
  have l3 : vs2.lookup c!"ch_el" = some ⟨.ptr .xmlEl, ⟨ac, []⟩⟩ := by subst hvs2; exact hv.vCh
  have l4 : vs2.lookup (c!"do_wr_" ++ ty) = none := by
    subst hvs2
    rw [lookup_cons_ne (do_wr_ne (by simp)), lookup_cons_ne (do_wr_ne (by simp)), hv.vDo]
  have hu := hv.upd (kk' := kk ++ [.elem ty [] []])
  generalize hm1 : m.set d (.doc (put ks path (.elem n [] (kk ++ [.elem ty [] []])))) = m1 at hu
  have hl1 : m1.length = m.length := by subst hm1; simp
  have h5 := hw ⟨m1 ++ [.val v, .el d (path ++ [kk.length])], vs2, files, out⟩ (.lv (.ptr .xmlEl) ⟨m.length + 1, []⟩) d
    (path ++ [kk.length]) _ ty ⟨m.length, []⟩ rfl
    (fun vars => load_lv (peek_var (by rw [← hl1]; simp)) rfl) (hap _ hu.mDoc) (nodeAt_last hv.node)
    (by
      have := getAt_append (r := [.el d (path ++ [kk.length])]) (getAt_new (m := m1) (v := v))
      rw [hl1] at this
      simpa using this) (hap _ hu.mDelta) l4
  rw [hE] at h5
  unfold itrRound
  refine Sim.scope (s := ⟨m, vs, files, out⟩) (M := fun e : El => m.set d (.doc (put ks path (.elem n [] (kk ++ [.elem ty e.attrs e.kids]))))) ?_ (by simp)
  simp only [coerce_self, M.opt_some, M.bind_run, M.pure_run, Res.ok_bind, alloc_run, declare_run, getVars_run, hT]
  have key : Sim ((wrVal E.T E.L prog delta v).wr ty) (exec C (itrTree ty) ⟨m ++ [.val v], (c!"itr", ⟨.struct ty, ⟨m.length, []⟩⟩) :: vs, files, out⟩)
      fun e y => y = .ok .next ⟨m.set d (.doc (put ks path (.elem n [] (kk ++ [.elem ty e.attrs e.kids])))) ++ [.val v],
        (c!"itr", ⟨.struct ty, ⟨m.length, []⟩⟩) :: vs, files, out⟩ := by
    rw [itrTree, exec]
    refine Sim.scope (s := ⟨m ++ [.val v], (c!"itr", ⟨.struct ty, ⟨m.length, []⟩⟩) :: vs, files, out⟩)
      (M := fun e : El => m.set d (.doc (put ks path (.elem n [] (kk ++ [.elem ty e.attrs e.kids])))) ++ [.val v]) ?_ (by simp)
    have hdecl : exec C (.decl (.ptr (.name [c!"tinyxml2", c!"XMLElement"])) c!"ch_ch_el" none
        (some (.call (.arrow (.id [c!"ch_el"]) c!"InsertNewChildElement") [(.str ty)])))
        ⟨m ++ [.val v], (c!"itr", ⟨.struct ty, ⟨m.length, []⟩⟩) :: vs, files, out⟩ =
        .ok .next ⟨m1 ++ [.val v] ++ [.el d (path ++ [kk.length])], vs2, files, out⟩ := by
      have hmm : (m ++ [V.val v]).length = m.length + 1 := by simp
      have := exec_declChange (C := C) (files := files) (out := out) (t := .ptr (.name [c!"tinyxml2", c!"XMLElement"])) (u := .ptr .xmlEl) (n := c!"ch_ch_el")
        (m := m ++ [.val v]) (m1 := m1 ++ [.val v]) (vars := (c!"itr", ⟨.struct ty, ⟨m.length, []⟩⟩) :: vs)
        (e := .call (.arrow (.id [c!"ch_el"]) c!"InsertNewChildElement") [(.str ty)]) (x := .rv (.ptr .xmlEl) (.el d (path ++ [kk.length])))
        (v := .el d (path ++ [kk.length])) rfl (by simp [hl1]) (by
          rw [hmm, hvs2, eval_insert l3 (hap _ (hap _ hv.mCh)) (hap _ (hap _ hv.mDoc)) hv.node hct, List.append_assoc, List.set_append_left _ _ hdl, hm1, List.append_assoc])
        (initFrom_load rfl)
      rw [this, hmm, hvs2]
    rw [execs_cons hdecl, execs_one]
    have hargs : evals C [.id [c!"ch_ch_el"], .addr (.id [c!"itr"])] ⟨m1 ++ [.val v, .el d (path ++ [kk.length])], vs2, files, out⟩ =
        .ok [.lv (.ptr .xmlEl) ⟨m.length + 1, []⟩, .rv (.ptr (.struct ty)) (.ptr ⟨m.length, []⟩)] ⟨m1 ++ [.val v, .el d (path ++ [kk.length])], vs2, files, out⟩ := by
      simp only [evals, eval, lookupId, l1, l2, M.bind_run, Res.ok_bind, M.pure_run]
    rw [List.append_assoc, List.singleton_append, exec_call hargs]
    cases hx : (wrVal E.T E.L prog delta v).wr ty with
    | stuck => trivial
    | ub =>
      rw [hx] at h5
      have h5 : callId _ _ _ _ = _ := h5
      show Res.bind _ _ = _
      rw [h5]
      rfl
    | ok e =>
      rw [hx] at h5
      have h5 : callId _ _ _ _ = _ := h5
      refine ⟨[.el d (path ++ [kk.length])], vs2, ?_⟩
      rw [h5, put_last hv.node, List.set_append_left _ _ (by rw [hl1]; exact hdl), ← hm1, List.set_set]
      simp
  cases hx : (wrVal E.T E.L prog delta v).wr ty with
  | stuck => trivial
  | ub => rw [hx] at key; exact key
  | ok w =>
    rw [hx] at key
    exact ⟨_, _, key⟩

theorem wr_itrs {ty n : Str} {kk : List Node} (hcls : C.E = E ∧ C.cls = some cls) (hv : ItrView E cls ty am C m vs ac d ks path n kk delta)
    (hty : StructName E cls ty) (hct : cStr ty = ty) {prog : List Item} (l : List Val) (hw : ∀ v ∈ l, WrCall C prog am delta ty v) :
    Sim (l.mapM fun v => (wrVal E.T E.L prog delta v).wr ty) (forL (itrRound C ty) (l.map fun v => (.struct ty, .val v)) ⟨m, vs, files, out⟩)
      fun es x => x = .ok .next ⟨m.set d (.doc (put ks path (.elem n [] (kk ++ (es : List El).map fun e => .elem ty e.attrs e.kids)))), vs, files, out⟩ := by
  induction l generalizing m ks kk with
  | nil =>
    show _ = Res.ok Flow.next ⟨m.set d (.doc (put ks path (.elem n [] (kk ++ [])))), _, _, _⟩
    obtain ⟨hl, he⟩ := List.getElem?_eq_some_iff.1 hv.mDoc
    rw [List.append_nil, put_self hv.node, ← he, List.set_getElem_self]
    rfl
  | cons v l ih =>
    have h1 := wr_itr (files := files) (out := out) hcls hv hty hct (hw v (by simp))
    rw [R.mapM_cons]
    simp only [List.map_cons, forL, M.bind_run]
    refine h1.bind (fun e _ h => ?_) (fun h => by rw [h]; rfl)
    rw [h]
    simp only [Res.ok_bind]
    have h2 := ih (hv.upd (kk' := kk ++ [.elem ty e.attrs e.kids])) (fun v h => hw v (by simp [h]))
    refine h2.bind (fun es _ h => ?_) id
    show _ = _
    rw [h, put_put, List.set_set]
    simp

theorem exec_itrs {ty : Str} {e : Expr} {s s' : St} {xs : List (CTy × V)} (h : (eval C e >>= rangeOf) s = .ok xs s') :
    exec C (.forEach (.name [ty]) c!"itr" e (itrTree ty)) s = forL (itrRound C ty) xs s' := by
  rw [exec]
  show Res.bind ((eval C e >>= rangeOf) s) _ = _
  rw [h]
  rfl

/-- A vector member is written. -/
theorem wr_vector (hv : WrView c m vs ac p fs d ks path nm el ae ad am delta dd) (hC : WrCtx E cls am C)
    (hch : vs.lookup c!"ch_el" = some ⟨.ptr .xmlEl, ⟨ac, []⟩⟩) (hac : ac < m.length) {n ty : Str} (hcn : cStr n = n) (hct : cStr ty = ty)
    (ht : memberTy E.T c n = some (.vec ty)) (hty : StructName E cls ty) {l : List Val} (hl : fs.lookup n = some (.vec l)) {prog : List Item}
    (hw : ∀ v ∈ l, WrCall C prog am delta ty v) :
    Sim (l.mapM (fun v => (wrVal E.T E.L prog delta v).wr ty) >>= fun es => R.ok (.kid (.elem n [] ((es : List El).map fun e => .elem ty e.attrs e.kids))))
      (execs C (xml549_tree n ty) ⟨m, vs, files, out⟩) (Added m vs ac d ks path nm el files out) := by
  obtain ⟨h1, h2, h3, h4⟩ := insGetAt hv (n := n)
  have hev := eval_member (files := files) (out := out) hC.env ht h1 hv.vData
  have hvt : vs.lookup ty = none := hv.clear ty (fun h => hty.clear (by
    simp only [List.mem_cons, List.not_mem_nil, or_false] at h ⊢
    rcases h with h | h | h | h | h <;> simp [h]))
  have htm : ty ≠ c!"m_delta_only" := fun h => hty.clear (by simp [h])
  have hiv : ItrView E cls ty am C (insMem m ac d ks path nm el n) vs ac d (put ks path (.elem nm el.attrs (el.kids ++ [.elem n [] []])))
      (path ++ [el.kids.length]) n [] delta :=
    { vCh := hch, vTy := by rw [lookup_append, hvt, hC.self _ htm]; rfl
      vDo := hv.doTy ty, mCh := insGet hac, mDoc := h3, node := nodeAt_last hv.node, mDelta := h4 }
  have h5 := wr_itrs (files := files) (out := out) ⟨hC.env, hC.cls_⟩ hiv hty hct l hw
  have hrange : (eval C (.arrow (.id [c!"data"]) n) >>= rangeOf) ⟨insMem m ac d ks path nm el n, vs, files, out⟩ =
      .ok (l.map fun v => ((.struct ty, .val v) : CTy × V)) ⟨insMem m ac d ks path nm el n, vs, files, out⟩ := by
    rw [M.bind_run, hev, Res.ok_bind, rangeOf, M.bind_run, load_val (h2 hl) (by simp)]
    rfl
  have htree : xml549_tree n ty = [insTree n, .when (.bin .ne (.id [c!"ch_el"]) .null)
      (.block [.forEach (.name [ty]) c!"itr" (.arrow (.id [c!"data"]) n) (itrTree ty)])] := rfl
  rw [htree, exec_ins hv hch hac hcn, execs_one, when_el hch (insGet hac), exec]
  refine h5.bind (fun es _ hx => ?_) (fun hx => ?_)
  · refine ⟨_, scope_len (scope_len (execs_one.trans ((exec_itrs hrange).trans hx)) (by simp)) (by simp), ?_⟩
    rw [put_last hv.node]
    exact insUpd.trans .rfl
  · exact scope_ub (scope_ub (execs_one.trans ((exec_itrs hrange).trans hx)))

/-! ### All statements -/

/-- The statement uses `ch_el`, process_items_xml.cpp:423-572.  (Proof notion, models no code.) -/
def _root_.Stfx.Gen.Wr.usesCh : Wr → Bool
  | .elem .. | .elemEnum .. | .child .. | .vector .. => true
  | _ => false

/-- The statement fits the class `c` and the functions it calls do what the model says.  (Proof notion, models no code.) -/
def WrOk (C : Ctx) (cls : Str) (prog : List Item) (am : Nat) (delta : Bool) (fs : List (Str × Val)) (c : Str) : Wr → Prop
  | .elem _ ty n => cStr n = n ∧ memberTy C.E.T c n = some (.simple ty) ∧ (ty = .long → C.E.T.longBits = 64)
  | .attr _ ty n => cStr n = n ∧ memberTy C.E.T c n = some (.simple ty)
  | .elemEnum _ n | .attrEnum _ n => cStr n = n ∧ ∃ e val, memberTy C.E.T c n = some (.enum e.name) ∧ C.E.T.enm e.name = some (e, val) ∧
      FromCall C e val
  | .child n ty => cStr n = n ∧ memberTy C.E.T c n = some (.struct ty) ∧ ∀ v, fs.lookup n = some v → WrCall C prog am delta ty v
  | .vector n ty => cStr n = n ∧ cStr ty = ty ∧ memberTy C.E.T c n = some (.vec ty) ∧ StructName C.E cls ty ∧
      ∀ l, fs.lookup n = some (.vec l) → ∀ v ∈ l, WrCall C prog am delta ty v
  | .fixme _ | .warn _ => True

theorem elem_tree {ty : SimpleTy} {n : Str} :
    wrTree (.elem false ty n) = [insTree n, .expr (.call (.arrow (.id [c!"ch_el"]) c!"SetText") [elemArg ty n])] ∧
    wrTree (.elem true ty n) = [.when (guardTree n) (.block [insTree n, .expr (.call (.arrow (.id [c!"ch_el"]) c!"SetText") [elemArg ty n])])] := by
  cases ty <;> exact ⟨rfl, rfl⟩

theorem elemEnum_tree {n : Str} :
    wrTree (.elemEnum false n) = [insTree n, .expr (.call (.arrow (.id [c!"ch_el"]) c!"SetText") [enumArg n])] ∧
    wrTree (.elemEnum true n) = [.when (guardTree n) (.block [insTree n, .expr (.call (.arrow (.id [c!"ch_el"]) c!"SetText") [enumArg n])])] := ⟨rfl, rfl⟩

theorem attr_tree {ty : SimpleTy} {n : Str} :
    wrTree (.attr false ty n) = [.expr (.call (.arrow (.id [c!"el"]) c!"SetAttribute") [.str n, attrArg ty n])] ∧
    wrTree (.attr true ty n) = [.when (guardTree n) (.expr (.call (.arrow (.id [c!"el"]) c!"SetAttribute") [.str n, attrArg ty n]))] := by
  cases ty <;> exact ⟨rfl, rfl⟩

theorem attrEnum_tree {n : Str} :
    wrTree (.attrEnum false n) = [.expr (.call (.arrow (.id [c!"el"]) c!"SetAttribute") [.str n, enumArg n])] ∧
    wrTree (.attrEnum true n) = [.when (guardTree n) (.expr (.call (.arrow (.id [c!"el"]) c!"SetAttribute") [.str n, enumArg n]))] := ⟨rfl, rfl⟩

/-- One statement of the model. -/
theorem wr_act (hv : WrView c m vs ac p fs d ks path nm el ae ad am delta dd) (hC : WrCtx E cls am C) {prog : List Item} {w : Wr}
    (hr : WrOk C cls prog am delta fs c w) (hwt : ∀ n t v, memberTy E.T c n = some t → fs.lookup n = some v → ∃ u, CTable.WT E.T u t v)
    (hch : w.usesCh = true → vs.lookup c!"ch_el" = some ⟨.ptr .xmlEl, ⟨ac, []⟩⟩ ∧ ac < m.length) :
    Sim (wrAct E.T E.L delta c dd (wrFields E.T E.L prog delta fs) w) (execs C (wrTree w) ⟨m, vs, files, out⟩)
      (Added m vs ac d ks path nm el files out) := by
  have hfield : ∀ n, field (wrFields E.T E.L prog delta fs) n = match fs.lookup n with | some v => .ok (wrVal E.T E.L prog delta v) | none => .stuck := by
    intro n
    rw [field, wrFields_lookup]
    cases fs.lookup n <;> rfl
  have hE := hC.env
  cases w with
  | elem g ty n =>
    obtain ⟨h1, h2, h3⟩ := hr
    rw [hE] at h2 h3
    obtain ⟨hc1, hc2⟩ := hch rfl
    rw [wrAct, hfield]
    cases hl : fs.lookup n with
    | none => trivial
    | some v =>
      obtain ⟨u, hw⟩ := hwt n _ v h2 hl
      have key := wr_elem (C := C) (files := files) (out := out) hv hc1 hc2 h1 hl (fun m' hm hq => arg_elem hE h2 h3 hw hv.vData hm hq)
      cases g with
      | false => rw [elem_tree.1]; simp only [R.ok_bind, wrVal_val]; exact key
      | true => rw [elem_tree.2]; simp only [R.ok_bind, wrVal_val]; exact wr_when hv hC h2 hl (sim_block key)
  | elemEnum g n =>
    obtain ⟨h1, e, val, h2, h3, h4⟩ := hr
    rw [hE] at h2 h3
    obtain ⟨hc1, hc2⟩ := hch rfl
    rw [wrAct, hfield]
    cases hl : fs.lookup n with
    | none => trivial
    | some v =>
      obtain ⟨u, hw⟩ := hwt n _ v h2 hl
      have key := wr_elem (C := C) (files := files) (out := out) hv hc1 hc2 h1 hl (fun m' hm hq => arg_enum hE h2 h3 h4 hw hv.vData hm hq)
      cases g with
      | false => rw [elemEnum_tree.1]; simp only [R.ok_bind, wrVal_val]; exact key
      | true => rw [elemEnum_tree.2]; simp only [R.ok_bind, wrVal_val]; exact wr_when hv hC h2 hl (sim_block key)
  | attr g ty n =>
    obtain ⟨h1, h2⟩ := hr
    rw [hE] at h2
    rw [wrAct, hfield]
    cases hl : fs.lookup n with
    | none => trivial
    | some v =>
      obtain ⟨u, hw⟩ := hwt n _ v h2 hl
      have key := wr_attr (C := C) (files := files) (out := out) hv h1 (arg_attr hE h2 hw hv.vData hv.mData (hv.member hl))
      cases g with
      | false => rw [attr_tree.1]; simp only [R.ok_bind, wrVal_val]; rw [execs_one]; exact key
      | true => rw [attr_tree.2]; simp only [R.ok_bind, wrVal_val]; exact wr_when hv hC h2 hl key
  | attrEnum g n =>
    obtain ⟨h1, e, val, h2, h3, h4⟩ := hr
    rw [hE] at h2 h3
    rw [wrAct, hfield]
    cases hl : fs.lookup n with
    | none => trivial
    | some v =>
      obtain ⟨u, hw⟩ := hwt n _ v h2 hl
      have key := wr_attr (C := C) (files := files) (out := out) hv h1 (arg_enum hE h2 h3 h4 hw hv.vData hv.mData (hv.member hl))
      cases g with
      | false => rw [attrEnum_tree.1]; simp only [R.ok_bind, wrVal_val]; rw [execs_one]; exact key
      | true => rw [attrEnum_tree.2]; simp only [R.ok_bind, wrVal_val]; exact wr_when hv hC h2 hl key
  | child n ty =>
    obtain ⟨h1, h2, h3⟩ := hr
    rw [hE] at h2
    obtain ⟨hc1, hc2⟩ := hch rfl
    rw [wrAct, hfield]
    cases hl : fs.lookup n with
    | none => trivial
    | some v => exact wr_child hv hC hc1 hc2 h1 h2 hl (h3 v hl)
  | vector n ty =>
    obtain ⟨h1, h2, h3, h4, h5⟩ := hr
    rw [hE] at h3 h4
    obtain ⟨hc1, hc2⟩ := hch rfl
    rw [wrAct, hfield]
    cases hl : fs.lookup n with
    | none => trivial
    | some v =>
      obtain ⟨u, hw⟩ := hwt n _ v h3 hl
      obtain ⟨l, rfl⟩ : ∃ l, v = .vec l := by
        cases hw with
        | undef _ _ h _ => exact absurd rfl (h _)
        | vec _ => exact ⟨_, rfl⟩
      have key := wr_vector (files := files) (out := out) hv hC hc1 hc2 h1 h2 h3 h4 hl (h5 l hl)
      have hmap : (wrVal E.T E.L prog delta (.vec l)).items.mapM (fun wr => wr ty) = (l.mapM fun v => (wrVal E.T E.L prog delta v).wr ty) := by
        rw [wrVal, wrVals_map]
        simp only [List.map_map, List.mapM_map]
        rfl
      show Sim ((wrVal E.T E.L prog delta (.vec l)).items.mapM (fun wr => wr ty) >>= _) _ _
      rw [hmap]
      exact key
  | fixme n => exact added_none hv
  | warn n => exact added_none hv

/-- Statements of the model. -/
theorem wr_steps (hC : WrCtx E cls am C) {prog : List Item} (ws : List Wr) (hv : WrView c m vs ac p fs d ks path nm el ae ad am delta dd)
    (hr : ∀ w ∈ ws, WrOk C cls prog am delta fs c w) (hwt : ∀ n t v, memberTy E.T c n = some t → fs.lookup n = some v → ∃ u, CTable.WT E.T u t v)
    (hch : ∀ w ∈ ws, w.usesCh = true → vs.lookup c!"ch_el" = some ⟨.ptr .xmlEl, ⟨ac, []⟩⟩ ∧ ac < m.length) :
    Sim (ws.mapM (wrAct E.T E.L delta c dd (wrFields E.T E.L prog delta fs)) >>= fun es => R.ok (es.foldl El.add el))
      (execs C (ws.flatMap wrTree) ⟨m, vs, files, out⟩)
      fun el' x => ∃ m', x = .ok .next ⟨m', vs, files, out⟩ ∧ WUpd ac d (put ks path (.elem nm el'.attrs el'.kids)) m m' := by
  induction ws generalizing m ks el with
  | nil => exact added_none hv
  | cons w ws ih =>
    rw [R.mapM_cons, List.flatMap_cons]
    have h0 := wr_act (files := files) (out := out) hv hC (hr w (by simp)) hwt (hch w (by simp))
    have hassoc : (wrAct E.T E.L delta c dd (wrFields E.T E.L prog delta fs) w >>= fun e =>
        ws.mapM (wrAct E.T E.L delta c dd (wrFields E.T E.L prog delta fs)) >>= fun es => R.ok (e :: es)) >>= (fun es => R.ok (es.foldl El.add el)) =
        (wrAct E.T E.L delta c dd (wrFields E.T E.L prog delta fs) w >>= fun e =>
          ws.mapM (wrAct E.T E.L delta c dd (wrFields E.T E.L prog delta fs)) >>= fun es => R.ok (es.foldl El.add (el.add e))) := by
      cases wrAct E.T E.L delta c dd (wrFields E.T E.L prog delta fs) w with
      | ok e =>
        show ((ws.mapM (wrAct E.T E.L delta c dd (wrFields E.T E.L prog delta fs)) >>= fun es => R.ok (e :: es)) >>= _) =
          (ws.mapM (wrAct E.T E.L delta c dd (wrFields E.T E.L prog delta fs)) >>= _)
        cases (ws.mapM (wrAct E.T E.L delta c dd (wrFields E.T E.L prog delta fs)) : R _) <;> rfl
      | ub => rfl
      | stuck => rfl
    have hassoc' := hassoc
    rw [hassoc]
    refine h0.bind (fun e _ h => ?_) execs_append_ub
    obtain ⟨m', h1, h2⟩ := h
    rw [execs_append h1]
    refine (ih (hv.upd h2) (fun w h => hr w (by simp [h])) (fun w h hu => ?_)).mono fun el' h => ?_
    · rw [h2.1]; exact hch w (by simp [h]) hu
    · obtain ⟨m'', h3, h4⟩ := h
      rw [put_put] at h4
      exact ⟨m'', h3, h2.trans h4⟩

end
end Stfx.Cpp
