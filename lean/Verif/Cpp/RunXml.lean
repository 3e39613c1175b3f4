import Verif.Cpp.RunEnum
import Verif.Cpp.XmlText
import Verif.Run.XmlTyped
/-
The generated XML readers, run as C++ code.
-/
set_option autoImplicit false
set_option linter.unusedSimpArgs false
namespace Stfx.Cpp
open Stfx.Run Stfx.Parser Stfx.Items Stfx.Gen

/-- `x` does what the model `r` says; nothing is said where the model is stuck.  (Proof notion, models no code.) -/
def Sim {α β : Type} (r : R α) (x : Res β) (Q : α → Res β → Prop) : Prop :=
  match r with
  | .ok a => Q a x
  | .ub => x = .ub
  | .stuck => True

theorem Sim.mono {α β : Type} {r : R α} {x : Res β} {Q Q' : α → Res β → Prop} (h : Sim r x Q) (hQ : ∀ a, Q a x → Q' a x) :
    Sim r x Q' := by
  cases r with
  | ok a => exact hQ a h
  | ub => exact h
  | stuck => trivial

/-! ### Memory -/

theorem setField_self {n : Str} {v : Val} {fs : List (Str × Val)} (h : fs.lookup n = some v) : setField n v fs = fs := by
  induction fs with
  | nil => rfl
  | cons q fs ih =>
    obtain ⟨k, w⟩ := q
    rw [setField]
    by_cases hk : k = n
    · subst hk
      rw [lookup_cons_eq] at h
      cases h
      rw [if_pos rfl]
    · rw [if_neg hk]
      rw [lookup_cons_ne (fun h => hk h.symm)] at h
      rw [ih h]

theorem vSet_self {v w : Val} {p : List Str} (h : vGet v p = some w) : vSet v p w = some v := by
  induction p generalizing v with
  | nil => cases v <;> (cases h; rfl)
  | cons n p ih =>
    cases v with
    | struct fs =>
      rw [vGet] at h
      rw [vSet]
      cases hl : fs.lookup n with
      | none => rw [hl] at h; cases h
      | some u =>
        rw [hl] at h
        simp only [ih h, setField_self hl]
    | _ => simp [vGet] at h

theorem setAt_self {m : List V} {p : Place} {v : Val} (h : getAt m p = some v) : setAt m p v = m := by
  obtain ⟨w, h1, h2⟩ := getAt_inv h
  rw [setAt_eq h1 (vSet_self h2)]
  obtain ⟨hlt, hg⟩ := List.getElem?_eq_some_iff.1 h1
  rw [← hg, List.set_getElem_self]

/-- After: the object at `p` has these members, the variable at `ac` may have changed.  (Proof notion, models no code.) -/
def Upd (ac : Nat) (p : Place) (m : List V) (fs' : List (Str × Val)) (m' : List V) : Prop :=
  m'.length = m.length ∧ ∀ b, b ≠ ac → m'[b]? = (setAt m p (.struct fs'))[b]?

theorem Upd.set {ac : Nat} {p : Place} {m : List V} {fs' : List (Str × Val)} {x : V} (h : ac ≠ p.addr) :
    Upd ac p m fs' (setAt (m.set ac x) p (.struct fs')) := by
  refine ⟨by simp, fun b hb => ?_⟩
  rw [setAt_set h, List.getElem?_set_ne (fun h => hb h.symm)]

theorem Upd.rfl {ac : Nat} {p : Place} {m : List V} {fs' : List (Str × Val)} : Upd ac p m fs' (setAt m p (.struct fs')) :=
  ⟨by simp, fun _ _ => Eq.refl _⟩

theorem Upd.other {ac : Nat} {p : Place} {m m' : List V} {fs' : List (Str × Val)} (h : Upd ac p m fs' m') {b : Nat} (hb : b ≠ ac)
    (hp : p.addr ≠ b) : m'[b]? = m[b]? := by
  rw [h.2 b hb, setAt_ne hp]

theorem getAt_congr {m m' : List V} {p : Place} (h : m'[p.addr]? = m[p.addr]?) : getAt m' p = getAt m p := by
  unfold getAt
  rw [h]

theorem setAt_congr {m m' : List V} {p : Place} {x : Val} (h : m'[p.addr]? = m[p.addr]?) :
    (setAt m' p x)[p.addr]? = (setAt m p x)[p.addr]? := by
  unfold setAt
  rw [h]
  split
  · rename_i w hw
    obtain ⟨hl, _⟩ := List.getElem?_eq_some_iff.1 hw
    obtain ⟨hl', _⟩ := List.getElem?_eq_some_iff.1 (h.trans hw)
    split
    · rw [List.getElem?_set_self hl, List.getElem?_set_self hl']
    · exact h
  · exact h

theorem Upd.get {ac : Nat} {p : Place} {m m' : List V} {fs fs' : List (Str × Val)} (h : Upd ac p m fs' m') (ha : ac ≠ p.addr)
    (hg : getAt m p = some (.struct fs)) : getAt m' p = some (.struct fs') := by
  rw [getAt_congr (h.2 p.addr (fun h => ha h.symm)), getAt_setAt hg]

theorem Upd.trans {ac : Nat} {p : Place} {m m' m'' : List V} {fs fs' fs'' : List (Str × Val)} (h : Upd ac p m fs' m') (h' : Upd ac p m' fs'' m'')
    (ha : ac ≠ p.addr) (hg : getAt m p = some (.struct fs)) : Upd ac p m fs'' m'' := by
  refine ⟨h'.1.trans h.1, fun b hb => ?_⟩
  rw [h'.2 b hb]
  by_cases hp : p.addr = b
  · subst hp
    rw [setAt_congr (h.2 p.addr hb), setAt_setAt hg]
  · rw [setAt_ne hp, setAt_ne hp, h.other hb hp]

/-! ### Elements -/

theorem elemAt_ok {m : List V} {vars : List (Str × Var)} {files : List FileSt} {out : List (Str × Saved)} {d : Nat} {path : List Nat}
    {ks : List Node} {nm : Str} {as : List (Str × Str)} {kids : List Node} (h1 : m[d]? = some (.doc ks))
    (h2 : nodeAt ks path = some (.elem nm as kids)) :
    elemAt (.el d path) ⟨m, vars, files, out⟩ = .ok (d, path, as, kids) ⟨m, vars, files, out⟩ := by
  simp [elemAt, h1, h2]

theorem nodeAt_kid {ks : List Node} {path : List Nat} {nm : Str} {as : List (Str × Str)} {kids : List Node}
    (h : nodeAt ks path = some (.elem nm as kids)) (i : Nat) : nodeAt ks (path ++ [i]) = kids[i]? := by
  induction path generalizing ks with
  | nil => simp [nodeAt] at h
  | cons j path ih =>
    cases path with
    | nil =>
      rw [nodeAt] at h
      simp [nodeAt, h, Node.kids]
    | cons j' path =>
      rw [nodeAt] at h
      rw [List.cons_append, List.cons_append, nodeAt]
      cases hk : ks[j]? with
      | none => rw [hk] at h; cases h
      | some n =>
        rw [hk] at h
        exact ih h

theorem find_idx {q : Node → Bool} {ks : List Node} : (ks.find? q = none ∧ ks.findIdx? q = none) ∨
    ∃ i k, ks.find? q = some k ∧ ks.findIdx? q = some i ∧ ks[i]? = some k := by
  induction ks with
  | nil => exact .inl ⟨rfl, rfl⟩
  | cons k ks ih =>
    by_cases h : q k
    · exact .inr ⟨0, k, by simp [h], by simp [h, List.findIdx?_cons], rfl⟩
    · rcases ih with ⟨h1, h2⟩ | ⟨i, k', h1, h2, h3⟩
      · exact .inl ⟨by simp [h, h1], by simp [h, h2, List.findIdx?_cons]⟩
      · exact .inr ⟨i + 1, k', by simp [h, h1], by simp [h, h2, List.findIdx?_cons], by simpa using h3⟩

theorem named_elem {k : Node} {n : Str} (h : k.named n = true) : ∃ as kids, k = .elem n as kids := by
  cases k with
  | elem m as kids =>
    simp only [Node.named, decide_eq_true_eq] at h
    subst h
    exact ⟨as, kids, rfl⟩
  | _ => cases h

theorem execs_one {C : Ctx} {t : Stmt} {s : St} : execs C [t] s = exec C t s := by
  rw [execs, M.bind_run]
  cases exec C t s with
  | ok f s' => cases f <;> rfl
  | _ => rfl

theorem modifyField_eq {n : Str} {f : Val → R Val} {fs : List (Str × Val)} {old : Val} (h : fs.lookup n = some old) :
    modifyField n f fs = f old >>= fun v => .ok (setField n v fs) := by
  induction fs with
  | nil => cases h
  | cons q fs ih =>
    obtain ⟨k, w⟩ := q
    rw [modifyField]
    by_cases hk : k = n
    · subst hk
      rw [lookup_cons_eq] at h
      cases h
      simp [setField]
    · rw [lookup_cons_ne (fun h => hk h.symm)] at h
      rw [if_neg hk, ih h]
      cases f old <;> simp [setField, hk]

theorem modifyField_none {n : Str} {f : Val → R Val} {fs : List (Str × Val)} (h : fs.lookup n = none) :
    modifyField n f fs = .stuck := by
  induction fs with
  | nil => rfl
  | cons q fs ih =>
    obtain ⟨k, w⟩ := q
    rw [modifyField]
    by_cases hk : k = n
    · subst hk
      rw [lookup_cons_eq] at h
      cases h
    · rw [lookup_cons_ne (fun h => hk h.symm)] at h
      rw [if_neg hk, ih h]
      rfl

/-! ### Reader statements -/

/-- What a reader function of struct `c` sees: the element `el`, the object `data`.  (Proof notion, models no code.) -/
structure RdView (c : Str) (m : List V) (vs : List (Str × Var)) (ac : Nat) (p : Place) (fs : List (Str × Val)) (d : Nat)
    (ks : List Node) (path : List Nat) (nm : Str) (as : List (Str × Str)) (kids : List Node) (ae ad : Nat) : Prop where
  vEl : vs.lookup c!"el" = some ⟨.ptr .xmlEl, ⟨ae, []⟩⟩
  vData : vs.lookup c!"data" = some ⟨.ptr (.struct c), ⟨ad, []⟩⟩
  mEl : m[ae]? = some (.el d path)
  mData : m[ad]? = some (.ptr p)
  mObj : getAt m p = some (.struct fs)
  mDoc : m[d]? = some (.doc ks)
  node : nodeAt ks path = some (.elem nm as kids)
  neE : ac ≠ ae
  neA : ac ≠ ad
  neD : ac ≠ d
  neP : ac ≠ p.addr
  clear : ∀ n, n ∉ [c!"el", c!"data", c!"ch_el", c!"rv"] → vs.lookup n = none

section
variable {c : Str} {m : List V} {vs : List (Str × Var)} {ac : Nat} {p : Place} {fs : List (Str × Val)} {d : Nat}
  {ks : List Node} {path : List Nat} {nm : Str} {as : List (Str × Str)} {kids : List Node} {ae ad : Nat}

theorem RdView.objNe {c : Str} (h : RdView c m vs ac p fs d ks path nm as kids ae ad) : p.addr ≠ d ∧ p.addr ≠ ae ∧ p.addr ≠ ad := by
  obtain ⟨w, h1, _⟩ := getAt_inv h.mObj
  refine ⟨?_, ?_, ?_⟩ <;> intro he <;> rw [he] at h1
  · rw [h.mDoc] at h1; cases h1
  · rw [h.mEl] at h1; cases h1
  · rw [h.mData] at h1; cases h1

theorem RdView.upd (h : RdView c m vs ac p fs d ks path nm as kids ae ad) {fs' : List (Str × Val)} {m' : List V} (hu : Upd ac p m fs' m') :
    RdView c m' vs ac p fs' d ks path nm as kids ae ad := by
  obtain ⟨h1, h2, h3⟩ := h.objNe
  exact { h with
    mEl := by rw [hu.other (fun e => h.neE e.symm) h2, h.mEl]
    mData := by rw [hu.other (fun e => h.neA e.symm) h3, h.mData]
    mDoc := by rw [hu.other (fun e => h.neD e.symm) h1, h.mDoc]
    mObj := hu.get h.neP h.mObj }

theorem RdView.set (h : RdView c m vs ac p fs d ks path nm as kids ae ad) {x : V} :
    RdView c (m.set ac x) vs ac p fs d ks path nm as kids ae ad :=
  { h with
    mEl := by rw [List.getElem?_set_ne h.neE, h.mEl]
    mData := by rw [List.getElem?_set_ne h.neA, h.mData]
    mDoc := by rw [List.getElem?_set_ne h.neD, h.mDoc]
    mObj := by rw [getAt_set h.neP, h.mObj] }

/-- Where the statements of a reader of the class `cls` are executed: `find_element` is that of tixml2ex.  (Proof notion, models no
code.) -/
structure RdCtx (E : Env) (cls : Str) (C : Ctx) : Prop where
  env : C.E = E
  cls_ : C.cls = some cls
  self : ∀ n, n ≠ c!"m_delta_only" → C.self.lookup n = none
  findM : methods E (some cls) c!"find_element" = []
  findC : E.T.cls c!"find_element" = none
  findE : E.T.enm c!"find_element" = none

theorem RdCtx.find {E : Env} {cls : Str} {C : Ctx} (h : RdCtx E cls C) (vars : List (Str × Var)) :
    tyOf E (some cls) vars (.name [c!"find_element"]) = none := by
  simp only [tyOf, h.findC, h.findE]
  repeat' split
  all_goals first | rfl | (rename_i h; exact absurd h (by decide))

variable {E : Env} {cls : Str} {C : Ctx} {files : List FileSt} {out : List (Str × Saved)}

/-- `ch_el = find_element(el, "n"); if (ch_el != nullptr) ...` -/
theorem rd_find (hv : RdView c m vs ac p fs d ks path nm as kids ae ad) (hC : RdCtx E cls C)
    (hch : vs.lookup c!"ch_el" = some ⟨.ptr .xmlEl, ⟨ac, []⟩⟩) (hac : ac < m.length)
    {n : Str} (hn : cStr n = n) (st : Stmt) :
    (Run.first kids n = none ∧ execs C [.expr (.assign (.id [c!"ch_el"]) (.call (.id [c!"find_element"]) [(.id [c!"el"]), (.str n)])),
      .when (.bin .ne (.id [c!"ch_el"]) .null) st] ⟨m, vs, files, out⟩ = .ok .next ⟨m.set ac .null, vs, files, out⟩) ∨
    ∃ i as' kids', Run.first kids n = some (.elem n as' kids') ∧ kids[i]? = some (.elem n as' kids') ∧
      execs C [.expr (.assign (.id [c!"ch_el"]) (.call (.id [c!"find_element"]) [(.id [c!"el"]), (.str n)])),
        .when (.bin .ne (.id [c!"ch_el"]) .null) st] ⟨m, vs, files, out⟩ = scope (exec C st) ⟨m.set ac (.el d (path ++ [i])), vs, files, out⟩ := by
  have find_ne : c!"find_element" ≠ c!"m_delta_only" := by decide
  have hvf := hv.clear c!"find_element" (by decide)
  have htf := hC.find vs
  have he := fun vars => elemAt_ok (vars := vars) (files := files) (out := out) hv.mDoc hv.node
  have hp1 := fun x : V => peek_var (m := m.set ac x) (vars := vs) (files := files) (out := out) (List.getElem?_set_self hac)
  rcases find_idx (q := Node.named n) (ks := kids) with ⟨h1, h2⟩ | ⟨i, k, h1, h2, h3⟩
  · refine .inl ⟨h1, ?_⟩
    simp [execs, exec, eval, evals, lookupId, hv.vEl, hch, callId, hvf, hC.self _ find_ne, hC.cls_, hC.env, hC.findM, htf, load, peek_var hv.mEl, V.isUndef, cstrArg, hn,
      childPtr, he, h2, assignE, coerce_self, poke_var hac, hp1, binV, asBool]
  · obtain ⟨as', kids', rfl⟩ := named_elem (List.find?_some h1)
    refine .inr ⟨i, as', kids', h1, h3, ?_⟩
    rw [execs_cons (s' := ⟨m.set ac (.el d (path ++ [i])), vs, files, out⟩), execs_one]
    · simp [exec, eval, lookupId, hch, load, hp1, V.isUndef, binV, asBool]
    · simp [execs, exec, eval, evals, lookupId, hv.vEl, hch, callId, hvf, hC.self _ find_ne, hC.cls_, hC.env, hC.findM, htf, load, peek_var hv.mEl, V.isUndef, cstrArg, hn,
        childPtr, he, h2, assignE, coerce_self, poke_var hac, hp1, binV, asBool]

/-- `ch_el = el->FirstChildElement("n"); if (ch_el != nullptr) ...` -/
theorem rd_first (hv : RdView c m vs ac p fs d ks path nm as kids ae ad)
    (hch : vs.lookup c!"ch_el" = some ⟨.ptr .xmlEl, ⟨ac, []⟩⟩) (hac : ac < m.length) {n : Str} (hn : cStr n = n) (st : Stmt) :
    (Run.first kids n = none ∧ execs C [.expr (.assign (.id [c!"ch_el"]) (.call (.arrow (.id [c!"el"]) c!"FirstChildElement") [(.str n)])),
      .when (.bin .ne (.id [c!"ch_el"]) .null) st] ⟨m, vs, files, out⟩ = .ok .next ⟨m.set ac .null, vs, files, out⟩) ∨
    ∃ i as' kids', Run.first kids n = some (.elem n as' kids') ∧ kids[i]? = some (.elem n as' kids') ∧
      execs C [.expr (.assign (.id [c!"ch_el"]) (.call (.arrow (.id [c!"el"]) c!"FirstChildElement") [(.str n)])),
        .when (.bin .ne (.id [c!"ch_el"]) .null) st] ⟨m, vs, files, out⟩ = scope (exec C st) ⟨m.set ac (.el d (path ++ [i])), vs, files, out⟩ := by
  have he := fun vars => elemAt_ok (vars := vars) (files := files) (out := out) hv.mDoc hv.node
  have hp1 := fun x : V => peek_var (m := m.set ac x) (vars := vs) (files := files) (out := out) (List.getElem?_set_self hac)
  rcases find_idx (q := Node.named n) (ks := kids) with ⟨h1, h2⟩ | ⟨i, k, h1, h2, h3⟩
  · refine .inl ⟨h1, ?_⟩
    simp [execs, exec, eval, evals, lookupId, hv.vEl, hch, arrowCall, load, peek_var hv.mEl, V.isUndef, cstrArg, hn,
      childPtr, he, h2, assignE, coerce_self, poke_var hac, hp1, binV, asBool]
  · obtain ⟨as', kids', rfl⟩ := named_elem (List.find?_some h1)
    refine .inr ⟨i, as', kids', h1, h3, ?_⟩
    rw [execs_cons (s' := ⟨m.set ac (.el d (path ++ [i])), vs, files, out⟩), execs_one]
    · simp [exec, eval, lookupId, hch, load, hp1, V.isUndef, binV, asBool]
    · simp [execs, exec, eval, evals, lookupId, hv.vEl, hch, arrowCall, load, peek_var hv.mEl, V.isUndef, cstrArg, hn,
        childPtr, he, h2, assignE, coerce_self, poke_var hac, hp1, binV, asBool]

end
/-! ### Conversions -/

theorem Sim.bind {α β γ δ : Type} {r : R α} {x : Res β} {Q : α → Res β → Prop} {f : α → R γ} {y : Res δ} {Q' : γ → Res δ → Prop}
    (h : Sim r x Q) (hok : ∀ a, r = .ok a → Q a x → Sim (f a) y Q') (hub : x = .ub → y = .ub) : Sim (r >>= f) y Q' := by
  cases r with
  | ok a => exact hok a rfl h
  | ub => exact hub h
  | stuck => trivial

/-- The value after the cast in a statement, process_items_xml.cpp:254-342.  (Proof notion, models no code.) -/
def castOf (T : CTable) : SimpleTy → Int → Int
  | .short, i => wrapSigned 16 i
  | .unsignedShort, i => wrapUnsigned 16 i
  | .long, i => wrapSigned T.longBits i
  | .unsignedLong, i => wrapUnsigned T.longBits i
  | _, i => i

/-- The type of the local variable in a statement, process_items_xml.cpp:254-342.  (Proof notion, models no code.) -/
def localOf : SimpleTy → SimpleTy
  | .short | .long => .int
  | .unsignedShort | .unsignedLong => .unsignedInt
  | ty => ty

theorem readSimple_local {T : CTable} (hb : 32 ≤ T.longBits) {L : Lib} {ty : SimpleTy} (hv : viaLocal ty = true) (old : Val) (txt : Option Str) :
    readSimple L ty old txt = readSimple L (localOf ty) .undef txt >>= fun
      | .num i => .ok (.num (castOf T ty i))
      | .undef => .ub
      | _ => .stuck := by
  cases txt with
  | none => cases ty <;> first | rfl | cases hv
  | some s =>
    have hi : ∀ i, toInt s = .val i → wrapSigned T.longBits i = i := fun i h =>
      wrapSigned_id (by omega) (inSigned_mono hb (toInt_range h))
    have hu : ∀ i, toUnsigned s = .val i → wrapUnsigned T.longBits i = i := fun i h => by
      have := toUnsigned_range h
      have hp : (2 : Nat) ^ 32 ≤ 2 ^ T.longBits := Nat.pow_le_pow_right (by decide) hb
      exact wrapUnsigned_id ⟨this.1, Int.lt_of_lt_of_le this.2 (by exact_mod_cast hp)⟩
    cases ty
    case short => simp only [readSimple, conv, localOf]; cases toInt s <;> rfl
    case unsignedShort => simp only [readSimple, conv, localOf]; cases toUnsigned s <;> rfl
    case long =>
      simp only [readSimple, conv, localOf]
      cases h : toInt s with
      | val i => simp [scanVal, assign, castOf, hi i h]
      | _ => rfl
    case unsignedLong =>
      simp only [readSimple, conv, localOf]
      cases h : toUnsigned s with
      | val i => simp [scanVal, assign, castOf, hu i h]
      | _ => rfl
    all_goals cases hv

theorem query_sim {L : Lib} {ty : SimpleTy} (hv : viaLocal ty = false) (hs : ty ≠ .stdString) {m : List V} {q : Place} {old : Val}
    (hq : getAt m q = some old) {vs : List (Str × Var)} {files : List FileSt} {out : List (Str × Saved)} (txt : Option Str) :
    Sim (readSimple L ty old txt) (query L (ofMTy (.simple ty)) (.ptr q) txt ⟨m, vs, files, out⟩)
      fun v x => ∃ b, x = .ok (.rv .xmlErr (.err b)) ⟨setAt m q v, vs, files, out⟩ := by
  have hid := setAt_self hq
  have hpk := fun x => poke_at (x := x) (vars := vs) (files := files) (out := out) hq
  cases txt with
  | none =>
    simp only [readSimple, assign, hv, query]
    exact ⟨false, by simp [hid]⟩
  | some s =>
    cases ty
    case bool =>
      simp only [readSimple, conv, query, ofMTy, queryConv]
      cases h : toBool s with
      | ok o => cases o <;> simp [assign, Sim, hpk, viaLocal, hid]
      | ub => simp [Sim]
      | stuck => trivial
    case int =>
      simp only [readSimple, conv, query, ofMTy, queryConv]
      cases h : toInt s <;> simp [scanVal, assign, Sim, hpk, viaLocal, hid]
    case unsignedInt =>
      simp only [readSimple, conv, query, ofMTy, queryConv]
      cases h : toUnsigned s <;> simp [scanVal, assign, Sim, hpk, viaLocal, hid]
    case float =>
      simp only [readSimple, conv, query, ofMTy, queryConv]
      cases h : L.scanF s <;> simp [assign, Sim, hpk, viaLocal, hid]
    case double =>
      simp only [readSimple, conv, query, ofMTy, queryConv]
      cases h : L.scanD s <;> simp [assign, Sim, hpk, viaLocal, hid]
    case stdString => exact absurd rfl hs
    all_goals cases hv

/-! ### Statements -/

theorem Sim.scope {α β : Type} {r : R α} {x : M β} {s : St} {a : β} {M : α → List V} {files : List FileSt} {out : List (Str × Saved)}
    (h : Sim r (x s) fun v y => ∃ t vs', y = .ok a ⟨M v ++ t, vs', files, out⟩) (hl : ∀ v, (M v).length = s.mem.length) :
    Sim r (scope x s) fun v y => y = .ok a ⟨M v, s.vars, files, out⟩ := by
  cases r with
  | ok v =>
    obtain ⟨t, vs', h⟩ := h
    show Cpp.scope x s = _
    rw [scope_ok h, List.take_left' (hl v)]
  | ub =>
    have h : x s = .ub := h
    show Cpp.scope x s = _
    simp [Cpp.scope, h]
  | stuck => trivial

theorem scope_len {α : Type} {x : M α} {s : St} {a : α} {m' : List V} {vs' : List (Str × Var)} {files : List FileSt}
    {out : List (Str × Saved)} (h : x s = .ok a ⟨m', vs', files, out⟩) (hl : m'.length = s.mem.length) :
    scope x s = .ok a ⟨m', s.vars, files, out⟩ := by
  rw [scope_ok h, List.take_of_length_le (Nat.le_of_eq hl)]

section
variable {c : Str} {m : List V} {vs : List (Str × Var)} {ac : Nat} {p : Place} {fs : List (Str × Val)} {d : Nat}
  {ks : List Node} {path : List Nat} {nm : Str} {as : List (Str × Str)} {kids : List Node} {ae ad : Nat}
  {E : Env} {cls : Str} {C : Ctx} {files : List FileSt} {out : List (Str × Saved)}

theorem RdView.member (hv : RdView c m vs ac p fs d ks path nm as kids ae ad) {n : Str} {old : Val} (hl : fs.lookup n = some old) :
    getAt m ⟨p.addr, p.path ++ [n]⟩ = some old := by
  rw [getAt_member (a := p.addr) (p := p.path) hv.mObj, hl]

theorem RdView.setMember (hv : RdView c m vs ac p fs d ks path nm as kids ae ad) {n : Str} {old : Val} (hl : fs.lookup n = some old)
    (x : Val) : setAt m ⟨p.addr, p.path ++ [n]⟩ x = setAt m p (.struct (setField n x fs)) :=
  setAt_member (a := p.addr) (p := p.path) hv.mObj hl

/-- `a = b;` where `a` is an object in the object at `q`. -/
theorem exec_assign {a b : Expr} {t u : CTy} {w : V} {z old : Val} {q : Place} {s : St} (y : EV) (hb : eval C b s = .ok y ⟨m, vs, files, out⟩)
    (hy : load y ⟨m, vs, files, out⟩ = .ok (u, w) ⟨m, vs, files, out⟩) (hz : coerce u w t = some (.val z))
    (ha : eval C a ⟨m, vs, files, out⟩ = .ok (.lv t q) ⟨m, vs, files, out⟩) (hq : getAt m q = some old) :
    exec C (.expr (.assign a b)) s = .ok .next ⟨setAt m q z, vs, files, out⟩ := by
  rw [exec, eval]
  simp [hb, ha, hz, hy, assignE, poke_at hq]

/-- `data->n` -/
theorem eval_data (hC : RdCtx E cls C) {n : Str} {t : MTy}
    (ht : memberTy E.T c n = some t) {m' : List V} {vs' : List (Str × Var)} (hm : m'[ad]? = some (.ptr p))
    (hvs : vs'.lookup c!"data" = some ⟨.ptr (.struct c), ⟨ad, []⟩⟩) :
    eval C (.arrow (.id [c!"data"]) n) ⟨m', vs', files, out⟩ = .ok (.lv (ofMTy t) ⟨p.addr, p.path ++ [n]⟩) ⟨m', vs', files, out⟩ := by
  simp [eval, lookupId, hvs, arrowMem, load, peek_var hm, V.isUndef, memTy, hC.env, ht]

/-- The function of tinyxml2 a statement calls, process_items_xml.cpp:254-342.  (Proof notion, models no code.) -/
def textFun : SimpleTy → Str
  | .bool => c!"QueryBoolText"
  | .int => c!"QueryIntText"
  | .unsignedInt => c!"QueryUnsignedText"
  | .float => c!"QueryFloatText"
  | _ => c!"QueryDoubleText"

/-- `ch_el->QueryIntText(&...)` -/
theorem eval_query (hC : RdCtx E cls C) {ty : SimpleTy} (hl : viaLocal ty = false) (hs : ty ≠ .stdString)
    (hch : vs.lookup c!"ch_el" = some ⟨.ptr .xmlEl, ⟨ac, []⟩⟩) (hac : m[ac]? = some (.el d path)) (hd : m[d]? = some (.doc ks))
    (hk : nodeAt ks path = some (.elem nm as kids)) {e : Expr} {q : Place}
    (he : eval C e ⟨m, vs, files, out⟩ = .ok (.lv (ofMTy (.simple ty)) q) ⟨m, vs, files, out⟩) :
    eval C (.call (.arrow (.id [c!"ch_el"]) (textFun ty)) [.addr e]) ⟨m, vs, files, out⟩ =
      query E.L (ofMTy (.simple ty)) (.ptr q) (queryText kids) ⟨m, vs, files, out⟩ := by
  have hel := elemAt_ok (vars := vs) (files := files) (out := out) hd hk
  cases ty
  case stdString => exact absurd rfl hs
  case short | unsignedShort | long | unsignedLong => cases hl
  all_goals
    simp only [ofMTy] at he ⊢
    simp [textFun, eval, evals, lookupId, hch, load, peek_var hac, V.isUndef, he, arrowCall, hel, hC.env]

/-- Simple members that are converted in place. -/
theorem rd_elem (hv : RdView c m vs ac p fs d ks path nm as kids ae ad) (hC : RdCtx E cls C)
    (hch : vs.lookup c!"ch_el" = some ⟨.ptr .xmlEl, ⟨ac, []⟩⟩) {ty : SimpleTy} (hl : viaLocal ty = false) (hs : ty ≠ .stdString)
    {n : Str} (ht : memberTy E.T c n = some (.simple ty)) {old : Val} (ho : fs.lookup n = some old) {path' : List Nat} {nm' : Str}
    {as' : List (Str × Str)} {kids' : List Node} (hac : m[ac]? = some (.el d path')) (hk : nodeAt ks path' = some (.elem nm' as' kids')) :
    Sim (readSimple E.L ty old (queryText kids'))
      (exec C (.expr (.call (.arrow (.id [c!"ch_el"]) (textFun ty)) [.addr (.arrow (.id [c!"data"]) n)])) ⟨m, vs, files, out⟩)
      fun v x => ∃ t vs', x = .ok .next ⟨setAt m p (.struct (setField n v fs)) ++ t, vs', files, out⟩ := by
  have h1 := eval_query hC hl hs hch hac hv.mDoc hk (eval_data (files := files) (out := out) hC ht hv.mData hv.vData)
  have h2 := query_sim (L := E.L) hl hs (hv.member ho) (vs := vs) (files := files) (out := out) (queryText kids')
  rw [exec, M.bind_run, h1]
  cases hr : readSimple E.L ty old (queryText kids') with
  | ok v =>
    rw [hr] at h2
    obtain ⟨b, h2⟩ := h2
    refine ⟨[], vs, ?_⟩
    rw [h2, hv.setMember ho]
    simp
  | ub =>
    rw [hr] at h2
    have h2 : query _ _ _ _ _ = _ := h2
    simp [Sim, h2]
  | stuck => trivial

/-- The type of the cast in a statement, process_items_xml.cpp:254-342.  (Proof notion, models no code.) -/
def castP : SimpleTy → Prim
  | .short => .short
  | .unsignedShort => .ushort
  | .long => .long
  | _ => .ulong

theorem readSimple_num {L : Lib} {ty : SimpleTy} (hl : viaLocal ty = true) {txt : Option Str} {v : Val}
    (h : readSimple L (localOf ty) .undef txt = .ok v) : v = .undef ∨ ∃ i, v = .num i := by
  cases txt with
  | none => cases ty <;> first | (cases hl; done) | (cases h; exact .inl rfl)
  | some s =>
    cases ty
    case short | long =>
      simp only [readSimple, conv, localOf] at h
      cases hi : toInt s <;> rw [hi] at h <;> cases h
      · exact .inr ⟨_, rfl⟩
      · exact .inl rfl
    case unsignedShort | unsignedLong =>
      simp only [readSimple, conv, localOf] at h
      cases hi : toUnsigned s <;> rw [hi] at h <;> cases h
      · exact .inr ⟨_, rfl⟩
      · exact .inl rfl
    all_goals cases hl

/-- Simple members that are converted into a local variable `x`: `int x; ...(&x); data->n = (short)x;` -/
theorem rd_local (hb : 32 ≤ E.T.longBits) (hv : RdView c m vs ac p fs d ks path nm as kids ae ad) (hC : RdCtx E cls C)
    {ty : SimpleTy} (hl : viaLocal ty = true) {n : Str} (ht : memberTy E.T c n = some (.simple ty)) {old : Val} (ho : fs.lookup n = some old)
    {x : Str} (hx : c!"data" ≠ x) {pt : Prim} (hpt : ofMTy (.simple (localOf ty)) = .prim pt) {e : Expr} {txt : Option Str}
    (he : eval C e ⟨m ++ [.val .undef], (x, ⟨.prim pt, ⟨m.length, []⟩⟩) :: vs, files, out⟩ =
      query E.L (.prim pt) (.ptr ⟨m.length, []⟩) txt ⟨m ++ [.val .undef], (x, ⟨.prim pt, ⟨m.length, []⟩⟩) :: vs, files, out⟩) :
    Sim (readSimple E.L ty old txt)
      (execs C [.decl (.prim pt) x none none, .expr e, .expr (.assign (.arrow (.id [c!"data"]) n) (.cast (castP ty) (.id [x])))] ⟨m, vs, files, out⟩)
      fun v y => ∃ t vs', y = .ok .next ⟨setAt m p (.struct (setField n v fs)) ++ t, vs', files, out⟩ := by
  have hvl : viaLocal (localOf ty) = false := by cases ty <;> rfl
  have hvs : localOf ty ≠ .stdString := by cases ty <;> first | (cases hl; done) | simp [localOf]
  have h2 := query_sim (L := E.L) hvl hvs (getAt_new (m := m) (v := .undef)) (vs := (x, ⟨.prim pt, ⟨m.length, []⟩⟩) :: vs) (files := files) (out := out) txt
  rw [execs_cons (exec_decl (u := .prim pt) tyOf_prim), readSimple_local hb hl]
  rw [hpt] at h2
  have hi : initV C.E.T (.prim pt) = .val .undef := rfl
  rw [hi, execs, exec, M.bind_run, M.bind_run, he]
  have hq := fun v : Val => getAt_new (m := m) (v := v)
  have hda := fun v : Val => show (m ++ [V.val v])[ad]? = some (.ptr p) by
    rw [List.getElem?_append_left (List.getElem?_eq_some_iff.1 hv.mData).1, hv.mData]
  have hvd : ((x, (⟨.prim pt, ⟨m.length, []⟩⟩ : Var)) :: vs).lookup c!"data" = some ⟨.ptr (.struct c), ⟨ad, []⟩⟩ := by
    rw [lookup_cons_ne hx, hv.vData]
  have hob := fun v : Val => getAt_append (r := [.val v]) (hv.member ho)
  have hlt := getAt_lt (hv.member ho)
  simp only at hlt
  refine h2.bind (fun v hr h => ?_) (fun h => by simp [h])
  obtain ⟨b, h⟩ := h
  rw [h, setAt_new]
  have hst := hv.setMember ho
  rcases readSimple_num hl hr with rfl | ⟨i, rfl⟩
  · simp [Sim, execs, exec, eval, lookupId, lookup_cons_eq, load, peek_at (hq _), V.isUndef]
  · refine ⟨[.val (.num i)], (x, ⟨.prim pt, ⟨m.length, []⟩⟩) :: vs, ?_⟩
    have hev := eval_data (files := files) (out := out) hC ht (hda (.num i)) hvd
    have hcast : eval C (.cast (castP ty) (.id [x])) ⟨m ++ [.val (.num i)], (x, ⟨.prim pt, ⟨m.length, []⟩⟩) :: vs, files, out⟩ =
        .ok (.rv (ofMTy (.simple ty)) (.val (.num (castOf E.T ty i)))) ⟨m ++ [.val (.num i)], (x, ⟨.prim pt, ⟨m.length, []⟩⟩) :: vs, files, out⟩ := by
      cases ty
      case short | long | unsignedShort | unsignedLong =>
        cases hpt
        simp [eval, lookupId, lookup_cons_eq, load, peek_at (hq _), V.isUndef, castP, castV, castOf, hC.env, ofMTy]
      all_goals cases hl
    rw [Res.ok_bind, M.pure_run, Res.ok_bind, ← hst, ← setAt_append (p := ⟨p.addr, p.path ++ [n]⟩) hlt]
    exact execs_one.trans (exec_assign _ hcast rfl coerce_self hev (hob _))

/-- `const char* pt = ch_el->GetText(); if (pt != nullptr) ...` -/
theorem rd_getText (hch : vs.lookup c!"ch_el" = some ⟨.ptr .xmlEl, ⟨ac, []⟩⟩) (hac : m[ac]? = some (.el d path)) (hd : m[d]? = some (.doc ks))
    (hk : nodeAt ks path = some (.elem nm as kids)) (st : Stmt) :
    execs C [.decl (.ptr (.prim .char)) c!"pt" none (some (.call (.arrow (.id [c!"ch_el"]) c!"GetText") [])),
      .when (.bin .ne (.id [c!"pt"]) .null) st] ⟨m, vs, files, out⟩ =
      match getText kids with
      | none => .ok .next ⟨m ++ [.null], (c!"pt", ⟨.ptr (.prim .char), ⟨m.length, []⟩⟩) :: vs, files, out⟩
      | some s => scope (exec C st) ⟨m ++ [.cstr s], (c!"pt", ⟨.ptr (.prim .char), ⟨m.length, []⟩⟩) :: vs, files, out⟩ := by
  have hp := fun v : V => peek_var (m := m ++ [v]) (vars := (c!"pt", ⟨.ptr (.prim .char), ⟨m.length, []⟩⟩) :: vs) (files := files) (out := out) (a := m.length) (v := v) (by simp)
  have hac' : (m ++ [V.val .undef])[ac]? = some (.el d path) := by
    rw [List.getElem?_append_left (List.getElem?_eq_some_iff.1 hac).1, hac]
  have hd' : (m ++ [V.val .undef])[d]? = some (.doc ks) := by
    rw [List.getElem?_append_left (List.getElem?_eq_some_iff.1 hd).1, hd]
  have hel := elemAt_ok (vars := (c!"pt", ⟨.ptr (.prim .char), ⟨m.length, []⟩⟩) :: vs) (files := files) (out := out) hd' hk
  rw [execs_cons (exec_declInit (u := .ptr (.prim .char)) (x := .rv (.ptr (.prim .char)) (match getText kids with | none => .null | some s => .cstr s))
    (v := match getText kids with | none => .null | some s => .cstr s) rfl ?_ (initFrom_load rfl)), execs_one]
  · cases h : getText kids <;>
      simp [exec, eval, lookupId, lookup_cons_eq, load, hp, V.isUndef, binV, asBool]
  · cases h : getText kids <;>
      simp [eval, evals, lookupId, lookup_cons_ne, hch, load, peek_var hac', V.isUndef, arrowCall, hel, h]

/-- `const char* pt; if (tinyxml2::XML_SUCCESS == el->QueryAttribute("n", &pt)) ...` -/
theorem rd_attrText (hel : vs.lookup c!"el" = some ⟨.ptr .xmlEl, ⟨ae, []⟩⟩) (hae : m[ae]? = some (.el d path)) (hd : m[d]? = some (.doc ks))
    (hk : nodeAt ks path = some (.elem nm as kids)) {n : Str} (hn : cStr n = n) (st : Stmt) :
    execs C [.decl (.ptr (.prim .char)) c!"pt" none none,
      .when (.bin .eq (.id [c!"tinyxml2", c!"XML_SUCCESS"]) (.call (.arrow (.id [c!"el"]) c!"QueryAttribute") [(.str n), (.addr (.id [c!"pt"]))])) st]
        ⟨m, vs, files, out⟩ =
      match as.lookup n with
      | none => .ok .next ⟨m ++ [.val .undef], (c!"pt", ⟨.ptr (.prim .char), ⟨m.length, []⟩⟩) :: vs, files, out⟩
      | some s => scope (exec C st) ⟨m ++ [.cstr s], (c!"pt", ⟨.ptr (.prim .char), ⟨m.length, []⟩⟩) :: vs, files, out⟩ := by
  have hae' : (m ++ [V.val .undef])[ae]? = some (.el d path) := by
    rw [List.getElem?_append_left (List.getElem?_eq_some_iff.1 hae).1, hae]
  have hd' : (m ++ [V.val .undef])[d]? = some (.doc ks) := by
    rw [List.getElem?_append_left (List.getElem?_eq_some_iff.1 hd).1, hd]
  have he := elemAt_ok (vars := (c!"pt", ⟨.ptr (.prim .char), ⟨m.length, []⟩⟩) :: vs) (files := files) (out := out) hd' hk
  have hpk : ∀ s, poke ⟨m.length, []⟩ (.cstr s) ⟨m ++ [.val .undef], (c!"pt", ⟨.ptr (.prim .char), ⟨m.length, []⟩⟩) :: vs, files, out⟩ =
      .ok () ⟨m ++ [.cstr s], (c!"pt", ⟨.ptr (.prim .char), ⟨m.length, []⟩⟩) :: vs, files, out⟩ := fun s => by
    rw [poke_var (by simp), List.set_append_right _ _ (Nat.le_refl _)]
    simp
  have hi : initV C.E.T (.ptr (.prim .char)) = .val .undef := rfl
  rw [execs_cons (exec_decl (u := .ptr (.prim .char)) rfl), execs_one, hi]
  cases h : as.lookup n <;>
    simp [exec, eval, evals, lookupId, lookup_cons_ne, lookup_cons_eq, hel, load, peek_var hae', V.isUndef, arrowCall, he, hn, h, binV, asBool, hpk]

theorem eval_var {n : Str} {t : CTy} {q : Place} : eval C (.id [n]) ⟨m, (n, ⟨t, q⟩) :: vs, files, out⟩ = .ok (.lv t q) ⟨m, (n, ⟨t, q⟩) :: vs, files, out⟩ := by
  simp [eval, lookupId, lookup_cons_eq]

/-- A string member is assigned. -/
theorem rd_str (hv : RdView c m vs ac p fs d ks path nm as kids ae ad) (hC : RdCtx E cls C) {n : Str} (ht : memberTy E.T c n = some (.simple .stdString))
    {old : Val} (ho : fs.lookup n = some old) {s : Str} :
    exec C (.expr (.assign (.arrow (.id [c!"data"]) n) (.id [c!"pt"]))) ⟨m ++ [.cstr s], (c!"pt", ⟨.ptr (.prim .char), ⟨m.length, []⟩⟩) :: vs, files, out⟩ =
      .ok .next ⟨setAt m p (.struct (setField n (.str s) fs)) ++ [.cstr s], (c!"pt", ⟨.ptr (.prim .char), ⟨m.length, []⟩⟩) :: vs, files, out⟩ := by
  have hda : (m ++ [V.cstr s])[ad]? = some (.ptr p) := by
    rw [List.getElem?_append_left (List.getElem?_eq_some_iff.1 hv.mData).1, hv.mData]
  have hlt := getAt_lt (hv.member ho)
  rw [← hv.setMember ho, ← setAt_append (p := ⟨p.addr, p.path ++ [n]⟩) hlt]
  refine exec_assign (.lv _ ⟨m.length, []⟩) eval_var (load_lv (peek_var (v := .cstr s) (by simp)) rfl) rfl
    (eval_data hC ht hda (by rw [lookup_cons_ne (by decide), hv.vData])) (getAt_append (hv.member ho))

theorem exec_call {q : List Str} {args : List Expr} {vals : List EV} {s : St} (h : evals C args s = .ok vals s) :
    exec C (.expr (.call (.id q) args)) s = (callId C q vals s).bind fun _ => pure .next := by
  rw [exec, eval]
  simp only [M.bind_run, h, Res.ok_bind]

/-- `stfx::s_to_e` is called as the model says.  (Proof notion, models no code.) -/
def ToCall (C : Ctx) (e : EnumS) (val : EnumVals) : Prop :=
  ∀ (s : St) (x : Str) (a : EV) (t : Place) (old : Val), StrArg s.mem x a → getAt s.mem t = some old →
    callId C [c!"stfx", c!"s_to_e"] [a, .lv (.enum e.name) t] s =
      match sToE e val x with
      | .ok rv none => .ok (.rv (.prim .bool) (.val (.bool rv))) s
      | .ok rv (some i) => .ok (.rv (.prim .bool) (.val (.bool rv))) { s with mem := setAt s.mem t (.num i) }
      | .ub => .ub

/-- An enum member is converted. -/
theorem rd_enum (hv : RdView c m vs ac p fs d ks path nm as kids ae ad) (hC : RdCtx E cls C) {n : Str} {e : EnumS} {val : EnumVals}
    (ht : memberTy E.T c n = some (.enum e.name)) (he : E.T.enm e.name = some (e, val)) (hto : ToCall C e val)
    {old : Val} (ho : fs.lookup n = some old) {s : Str} :
    Sim (readEnum E.T (memberTy E.T c n) old (some s))
      (exec C (.expr (.call (.id [c!"stfx", c!"s_to_e"]) [(.id [c!"pt"]), (.arrow (.id [c!"data"]) n)]))
        ⟨m ++ [.cstr s], (c!"pt", ⟨.ptr (.prim .char), ⟨m.length, []⟩⟩) :: vs, files, out⟩)
      fun v y => y = .ok .next ⟨setAt m p (.struct (setField n v fs)) ++ [.cstr s], (c!"pt", ⟨.ptr (.prim .char), ⟨m.length, []⟩⟩) :: vs, files, out⟩ := by
  have hda : (m ++ [V.cstr s])[ad]? = some (.ptr p) := by
    rw [List.getElem?_append_left (List.getElem?_eq_some_iff.1 hv.mData).1, hv.mData]
  have hlt := getAt_lt (hv.member ho)
  have hev := eval_data (files := files) (out := out) (vs' := (c!"pt", ⟨.ptr (.prim .char), ⟨m.length, []⟩⟩) :: vs) hC ht hda (by rw [lookup_cons_ne (by decide), hv.vData])
  have hpt : eval C (.id [c!"pt"]) ⟨m ++ [.cstr s], (c!"pt", ⟨.ptr (.prim .char), ⟨m.length, []⟩⟩) :: vs, files, out⟩ =
      .ok (.lv (.ptr (.prim .char)) ⟨m.length, []⟩) ⟨m ++ [.cstr s], (c!"pt", ⟨.ptr (.prim .char), ⟨m.length, []⟩⟩) :: vs, files, out⟩ :=
    eval_var
  have hc := hto ⟨m ++ [.cstr s], (c!"pt", ⟨.ptr (.prim .char), ⟨m.length, []⟩⟩) :: vs, files, out⟩ s (.lv (.ptr (.prim .char)) ⟨m.length, []⟩)
    ⟨p.addr, p.path ++ [n]⟩ old (.var (by simp)) (getAt_append (hv.member ho))
  rw [exec_call (vals := [.lv (.ptr (.prim .char)) ⟨m.length, []⟩, .lv (.enum e.name) ⟨p.addr, p.path ++ [n]⟩])
    (by simp only [evals, M.bind_run, hpt, hev, Res.ok_bind, M.pure_run, ofMTy]), hc]
  simp only [readEnum, ht, he]
  cases hs : sToE e val s with
  | ub => rfl
  | ok rv o =>
    cases o with
    | none =>
      simp only [Sim, Res.ok_bind, M.pure_run]
      rw [setField_self ho, setAt_self hv.mObj]
    | some i =>
      simp only [Sim, Res.ok_bind, M.pure_run]
      rw [← hv.setMember ho, ← setAt_append (p := ⟨p.addr, p.path ++ [n]⟩) hlt]

/-- `do_ty(el, &x)` is called on the node as the model says.  (Proof notion, models no code.) -/
def RdCall (C : Ctx) (prog : List Item) (ty : Str) (k : Node) : Prop :=
  ∀ (s : St) (a : EV) (d : Nat) (path : List Nat) (ks : List Node) (q : Place) (old : Val), a.ty = some (.ptr .xmlEl) →
    (∀ vars, load a { s with vars := vars } = .ok (.ptr .xmlEl, .el d path) { s with vars := vars }) →
    s.mem[d]? = some (.doc ks) → nodeAt ks path = some k →
    getAt s.mem q = some old → s.vars.lookup (c!"do_" ++ ty) = none →
    Sim ((rdNode C.E.T C.E.L prog k).rd ty old) (callId C [c!"do_" ++ ty] [a, .rv (.ptr (.struct ty)) (.ptr q)] s)
      fun v x => x = .ok (.rv (.prim .bool) (.val (.bool true))) { s with mem := setAt s.mem q v }

theorem do_ne {ty : Str} {n : Str} (h : n ∈ [c!"el", c!"data", c!"ch_el", c!"rv", c!"pt", c!"item", c!"s", c!"m_delta_only", c!"find_element", c!"default_data"]) :
    c!"do_" ++ ty ≠ n := by
  intro he
  subst he
  simp at h

theorem RdView.doTy (hv : RdView c m vs ac p fs d ks path nm as kids ae ad) (ty : Str) : vs.lookup (c!"do_" ++ ty) = none := by
  refine hv.clear _ fun h => do_ne (ty := ty) (n := c!"do_" ++ ty) ?_ rfl
  simp only [List.mem_cons, List.not_mem_nil, or_false] at h ⊢
  rcases h with h | h | h | h <;> simp [h]

/-- A member of class type is read. -/
theorem rd_child (hv : RdView c m vs ac p fs d ks path nm as kids ae ad) (hC : RdCtx E cls C)
    (hch : vs.lookup c!"ch_el" = some ⟨.ptr .xmlEl, ⟨ac, []⟩⟩) {n ty : Str} (ht : memberTy E.T c n = some (.struct ty))
    {old : Val} (ho : fs.lookup n = some old) {prog : List Item} {k : Node} (hr : RdCall C prog ty k) {path' : List Nat}
    (hac : m[ac]? = some (.el d path')) (hk : nodeAt ks path' = some k) :
    Sim ((rdNode E.T E.L prog k).rd ty old)
      (exec C (.block [.expr (.call (.id [(c!"do_" ++ ty)]) [(.id [c!"ch_el"]), (.addr (.arrow (.id [c!"data"]) n))])]) ⟨m, vs, files, out⟩)
      fun v x => x = .ok .next ⟨setAt m p (.struct (setField n v fs)), vs, files, out⟩ := by
  have hev := eval_data (files := files) (out := out) hC ht hv.mData hv.vData
  have h1 := hr ⟨m, vs, files, out⟩ (.lv (.ptr .xmlEl) ⟨ac, []⟩) d path' ks ⟨p.addr, p.path ++ [n]⟩ old rfl
    (fun vars => load_lv (peek_var hac) rfl) hv.mDoc hk (hv.member ho) (hv.doTy ty)
  rw [hC.env] at h1
  rw [exec]
  refine Sim.scope (s := ⟨m, vs, files, out⟩) (M := fun v => setAt m p (.struct (setField n v fs))) ?_ (by simp)
  rw [execs_one, exec_call (vals := [.lv (.ptr .xmlEl) ⟨ac, []⟩, .rv (.ptr (.struct ty)) (.ptr ⟨p.addr, p.path ++ [n]⟩)])]
  · cases hx : (rdNode E.T E.L prog k).rd ty old with
    | ok v =>
      rw [hx] at h1
      have h1 : callId _ _ _ _ = _ := h1
      refine ⟨[], vs, ?_⟩
      rw [h1, hv.setMember ho]
      simp
    | ub =>
      rw [hx] at h1
      have h1 : callId _ _ _ _ = _ := h1
      show Res.bind _ _ = _
      rw [h1]
      rfl
    | stuck => trivial
  · have hch' : eval C (.id [c!"ch_el"]) ⟨m, vs, files, out⟩ = .ok (.lv (.ptr .xmlEl) ⟨ac, []⟩) ⟨m, vs, files, out⟩ := by
      simp [eval, lookupId, hch]
    have had : eval C (.addr (.arrow (.id [c!"data"]) n)) ⟨m, vs, files, out⟩ = .ok (.rv (.ptr (.struct ty)) (.ptr ⟨p.addr, p.path ++ [n]⟩)) ⟨m, vs, files, out⟩ := by
      rw [eval]; simp [hev, ofMTy]
    simp only [evals, M.bind_run, hch', had, Res.ok_bind, M.pure_run]

/-- The name of a struct where it is used in a function of class `cls`.  (Proof notion, models no code.) -/
structure StructName (E : Env) (cls ty : Str) : Prop where
  clear : ty ∉ [c!"el", c!"data", c!"ch_el", c!"rv", c!"item", c!"itr", c!"default_data", c!"m_delta_only"]
  methods_ : methods E (some cls) ty = []
  nested : ty ∉ E.nested
  cls_ : (E.T.cls ty).isSome = true

theorem StructName.tyOf {ty : Str} (h : StructName E cls ty) {vars : List (Str × Var)} (hv : vars.lookup ty = none) :
    Cpp.tyOf E (some cls) vars (.name [ty]) = some (.struct ty) := by
  rw [tyOf_name (by simp [hidden, hv, h.methods_]) h.nested, if_pos h.cls_]

theorem rdNode_struct {T : CTable} {L : Lib} {prog : List Item} {k : Node} {ty : Str} {old v : Val} (h : (rdNode T L prog k).rd ty old = .ok v) :
    ∃ fs, v = .struct fs := by
  cases k with
  | elem n as ks =>
    rw [rdNode] at h
    simp only [runRd] at h
    split at h
    · split at h
      · cases hf : (List.foldlM (rdStep T L ty as (rdKids T L prog ks)) _ _ : R _) with
        | ok fs' => rw [hf] at h; cases h; exact ⟨_, rfl⟩
        | _ => rw [hf] at h; cases h
      · cases h
    · cases h
  | _ => rw [rdNode] at h; cases h

/-- `if (e == true)` where `e` is true. -/
theorem when_true {e : Expr} {st : Stmt} {s s' : St} (h : eval C e s = .ok (.rv (.prim .bool) (.val (.bool true))) s') :
    exec C (.when (.bin .eq e (.bool true)) st) s = scope (exec C st) s' := by
  simp [exec, eval, h, load, binV, asBool, neq]

theorem when_ub {e : Expr} {st : Stmt} {s : St} (h : eval C e s = .ub) : exec C (.when (.bin .eq e (.bool true)) st) s = .ub := by
  simp [exec, eval, h]

/-- `data->n.push_back(s);` -/
theorem exec_push {a : Expr} {ty : Str} {x q : Place} {wf : List (Str × Val)} {vs0 : List Val}
    (hs : vs.lookup c!"s" = some ⟨.struct ty, x⟩) (hx : getAt m x = some (.struct wf)) (hq : getAt m q = some (.vec vs0))
    (ha : eval C a ⟨m, vs, files, out⟩ = .ok (.lv (.vec ty) q) ⟨m, vs, files, out⟩) :
    exec C (.expr (.call (.mem a c!"push_back") [(.id [c!"s"])])) ⟨m, vs, files, out⟩ =
      .ok .next ⟨setAt m q (.vec (vs0 ++ [.struct wf])), vs, files, out⟩ := by
  simp [exec, eval, evals, ha, lookupId, hs, dotCall, load, peek_at hx, V.isUndef, peek_at hq, poke_at hq]

/-- The body of the loop over the items of a vector, process_items_xml.cpp:370-385.  (Proof notion, models no code.) -/
def itemTree (n ty : Str) : Stmt :=
  .block [
    .decl (.name [ty]) c!"s" none none,
    .when (.bin .eq (.call (.id [(c!"do_" ++ ty)]) [(.id [c!"item"]), (.addr (.id [c!"s"]))]) (.bool true))
      (.block [
        .expr (.call (.mem (.arrow (.id [c!"data"]) n) c!"push_back") [(.id [c!"s"])])])]

/-- One round of the loop.  (Proof notion, models no code.) -/
def itemRound (C : Ctx) (n ty : Str) (x : CTy × V) : M Flow :=
  scope (do
      let v ← M.opt (coerce x.1 x.2 x.1)
      let l ← alloc v
      declare c!"item" ⟨x.1, ⟨l, []⟩⟩
      exec C (itemTree n ty))

theorem rd_item (hv : RdView c m vs ac p fs d ks path nm as kids ae ad) (hC : RdCtx E cls C)
    {n ty : Str} (ht : memberTy E.T c n = some (.vec ty)) (hty : StructName E cls ty)
    {vs0 : List Val} (ho : fs.lookup n = some (.vec vs0)) {prog : List Item} {k : Node} (hr : RdCall C prog ty k) {path' : List Nat}
    (hk : nodeAt ks path' = some k) :
    Sim ((rdNode E.T E.L prog k).rd ty (E.T.dflt ty)) (itemRound C n ty (.ptr .xmlEl, .el d path') ⟨m, vs, files, out⟩)
      fun v x => x = .ok .next ⟨setAt m p (.struct (setField n (.vec (vs0 ++ [v])) fs)), vs, files, out⟩ := by
  have hlt := getAt_lt (hv.member ho)
  simp only at hlt
  have hvt : vs.lookup ty = none := hv.clear ty (fun h => hty.clear (by
    simp only [List.mem_cons, List.not_mem_nil, or_false] at h ⊢
    rcases h with h | h | h | h <;> simp [h]))
  have hti : ty ≠ c!"item" := fun h => hty.clear (by simp [h])
  have htm : ty ≠ c!"m_delta_only" := fun h => hty.clear (by simp [h])
  have hT : tyOf C.E C.cls (((c!"item", (⟨.ptr .xmlEl, ⟨m.length, []⟩⟩ : Var)) :: vs) ++ C.self) (.name [ty]) = some (.struct ty) := by
    rw [hC.env, hC.cls_]
    refine hty.tyOf ?_
    rw [List.cons_append, lookup_cons_ne hti, lookup_append, hvt, hC.self _ htm]
    rfl
  generalize hvs2 : (c!"s", (⟨.struct ty, ⟨m.length + 1, []⟩⟩ : Var)) :: (c!"item", ⟨.ptr .xmlEl, ⟨m.length, []⟩⟩) :: vs = vs2
  have l1 : vs2.lookup c!"s" = some ⟨.struct ty, ⟨m.length + 1, []⟩⟩ := by subst hvs2; rfl
  have l2 : vs2.lookup c!"item" = some ⟨.ptr .xmlEl, ⟨m.length, []⟩⟩ := by subst hvs2; rfl
  have l3 : vs2.lookup c!"data" = some ⟨.ptr (.struct c), ⟨ad, []⟩⟩ := by subst hvs2; exact hv.vData
  have l4 : vs2.lookup (c!"do_" ++ ty) = none := by
    subst hvs2
    rw [lookup_cons_ne (do_ne (by simp)), lookup_cons_ne (do_ne (by simp)), hv.doTy]
  have hm : ∀ w : Val, getAt (m ++ [.el d path'] ++ [.val w]) ⟨m.length + 1, []⟩ = some w := fun w => by
    have := getAt_new (m := m ++ [.el d path']) (v := w)
    simpa using this
  have h1 := hr ⟨m ++ [.el d path'] ++ [.val (E.T.dflt ty)], vs2, files, out⟩ (.lv (.ptr .xmlEl) ⟨m.length, []⟩) d path' ks
    ⟨m.length + 1, []⟩ (E.T.dflt ty) rfl (fun vars => load_lv (peek_var (v := .el d path') (by simp)) rfl)
    (by
      have := (List.getElem?_eq_some_iff.1 hv.mDoc).1
      simp only [List.append_assoc]
      rw [List.getElem?_append_left this, hv.mDoc]) hk (hm _) l4
  rw [hC.env] at h1
  unfold itemRound
  refine Sim.scope (s := ⟨m, vs, files, out⟩) (M := fun v => setAt m p (.struct (setField n (.vec (vs0 ++ [v])) fs))) ?_ (by simp)
  simp only [coerce_self, M.opt_some, M.bind_run, M.pure_run, Res.ok_bind, alloc_run, declare_run]
  have key : Sim ((rdNode E.T E.L prog k).rd ty (E.T.dflt ty)) (exec C (itemTree n ty) ⟨m ++ [.el d path'], (c!"item", ⟨.ptr .xmlEl, ⟨m.length, []⟩⟩) :: vs, files, out⟩)
      fun v y => y = .ok .next ⟨setAt m p (.struct (setField n (.vec (vs0 ++ [v])) fs)) ++ [.el d path'], (c!"item", ⟨.ptr .xmlEl, ⟨m.length, []⟩⟩) :: vs, files, out⟩ := by
    rw [itemTree, exec]
    refine Sim.scope (s := ⟨m ++ [.el d path'], (c!"item", ⟨.ptr .xmlEl, ⟨m.length, []⟩⟩) :: vs, files, out⟩)
      (M := fun v => setAt m p (.struct (setField n (.vec (vs0 ++ [v])) fs)) ++ [.el d path']) ?_ (by simp)
    rw [execs_cons (exec_decl hT)]
    simp only [List.length_append, List.length_cons, List.length_nil, Nat.zero_add, initV]
    rw [hvs2, execs_one, hC.env]
    have hcall : eval C (.call (.id [(c!"do_" ++ ty)]) [(.id [c!"item"]), (.addr (.id [c!"s"]))]) ⟨m ++ [.el d path'] ++ [.val (E.T.dflt ty)], vs2, files, out⟩ =
        callId C [c!"do_" ++ ty] [.lv (.ptr .xmlEl) ⟨m.length, []⟩, .rv (.ptr (.struct ty)) (.ptr ⟨m.length + 1, []⟩)]
          ⟨m ++ [.el d path'] ++ [.val (E.T.dflt ty)], vs2, files, out⟩ := by
      rw [eval]
      simp only [evals, eval, lookupId, l1, l2, M.bind_run, Res.ok_bind, M.pure_run]
    cases hx : (rdNode E.T E.L prog k).rd ty (E.T.dflt ty) with
    | stuck => trivial
    | ub =>
      rw [hx] at h1
      have h1 : callId _ _ _ _ = _ := h1
      exact when_ub (hcall.trans h1)
    | ok w =>
      rw [hx] at h1
      have h1 : callId _ _ _ _ = _ := h1
      obtain ⟨wf, rfl⟩ := rdNode_struct hx
      have hs : setAt (m ++ [.el d path'] ++ [.val (E.T.dflt ty)]) ⟨m.length + 1, []⟩ (.struct wf) = m ++ [.el d path'] ++ [.val (.struct wf)] := by
        have := setAt_new (m := m ++ [.el d path']) (v := E.T.dflt ty) (x := .struct wf)
        simpa using this
      simp only [hs] at h1
      refine ⟨[.val (.struct wf)], vs2, ?_⟩
      rw [when_true (hcall.trans h1)]
      have hda : (m ++ [V.el d path'] ++ [.val (.struct wf)])[ad]? = some (.ptr p) := by
        have := (List.getElem?_eq_some_iff.1 hv.mData).1
        simp only [List.append_assoc]
        rw [List.getElem?_append_left this, hv.mData]
      have hev := eval_data (files := files) (out := out) hC ht hda l3
      have hob := getAt_append (r := [.val (.struct wf)]) (getAt_append (r := [.el d path']) (hv.member ho))
      have hpush : exec C (.expr (.call (.mem (.arrow (.id [c!"data"]) n) c!"push_back") [(.id [c!"s"])])) ⟨m ++ [.el d path'] ++ [.val (.struct wf)], vs2, files, out⟩ =
          .ok .next ⟨setAt m p (.struct (setField n (.vec (vs0 ++ [.struct wf])) fs)) ++ [.el d path'] ++ [.val (.struct wf)], vs2, files, out⟩ := by
        rw [← hv.setMember ho, ← setAt_append (p := ⟨p.addr, p.path ++ [n]⟩) hlt,
          ← setAt_append (p := ⟨p.addr, p.path ++ [n]⟩) (by simp; omega)]
        exact exec_push l1 (hm _) hob hev
      rw [exec]
      exact scope_len (scope_len (execs_one.trans hpush) (by simp)) (by simp)
  cases hx : (rdNode E.T E.L prog k).rd ty (E.T.dflt ty) with
  | stuck => trivial
  | ub => rw [hx] at key; exact key
  | ok w =>
    rw [hx] at key
    exact ⟨_, _, key⟩

theorem R.mapM_cons {α β : Type} {f : α → R β} {a : α} {l : List α} :
    (a :: l).mapM f = f a >>= fun b => l.mapM f >>= fun bs => .ok (b :: bs) := by
  rw [List.mapM_cons]
  rfl

theorem rd_items (hv : RdView c m vs ac p fs d ks path nm as kids ae ad) (hC : RdCtx E cls C)
    {n ty : Str} (ht : memberTy E.T c n = some (.vec ty)) (hty : StructName E cls ty)
    {vs0 : List Val} (ho : fs.lookup n = some (.vec vs0)) {prog : List Item} (l : List (Node × List Nat))
    (hl : ∀ x ∈ l, RdCall C prog ty x.1 ∧ nodeAt ks x.2 = some x.1) :
    Sim (l.mapM (fun x => (rdNode E.T E.L prog x.1).rd ty (E.T.dflt ty)) >>= fun ws => .ok (.vec (vs0 ++ ws)))
      (forL (itemRound C n ty) (l.map fun x => (.ptr .xmlEl, .el d x.2)) ⟨m, vs, files, out⟩)
      fun v x => x = .ok .next ⟨setAt m p (.struct (setField n v fs)), vs, files, out⟩ := by
  induction l generalizing m fs vs0 with
  | nil =>
    show _ = Res.ok Flow.next ⟨setAt m p (.struct (setField n (.vec (vs0 ++ [])) fs)), _, _, _⟩
    rw [List.append_nil, setField_self ho, setAt_self hv.mObj]
    rfl
  | cons x l ih =>
    have h1 := rd_item (files := files) (out := out) hv hC ht hty ho (hl x (by simp)).1 (hl x (by simp)).2
    rw [R.mapM_cons]
    simp only [List.map_cons, forL, M.bind_run]
    cases hx : (rdNode E.T E.L prog x.1).rd ty (E.T.dflt ty) with
    | stuck => trivial
    | ub =>
      rw [hx] at h1
      have h1 : itemRound _ _ _ _ _ = _ := h1
      rw [h1]
      rfl
    | ok w =>
      rw [hx] at h1
      have h1 : itemRound _ _ _ _ _ = _ := h1
      rw [h1]
      simp only [Res.ok_bind]
      have hu : Upd ac p m (setField n (.vec (vs0 ++ [w])) fs) _ := Upd.rfl
      have h2 := ih (hv.upd hu) (vs0 := vs0 ++ [w]) (by rw [lookup_setField, if_pos rfl, ho]; rfl) (fun y hy => hl y (by simp [hy]))
      simp only [setAt_setAt hv.mObj, setField_setField] at h2
      cases hm : (l.mapM (fun x => (rdNode E.T E.L prog x.1).rd ty (E.T.dflt ty)) : R _) with
      | stuck => trivial
      | ub => rw [hm] at h2; exact h2
      | ok ws =>
        rw [hm] at h2
        simpa [Sim] using h2

theorem elems_idx {g : Nat → Option Node} : ∀ (kids : List Node) (off : Nat), (∀ i, g (off + i) = kids[i]?) →
    ((List.range' off kids.length).filter fun i => ((g i).map Node.isElem).getD false) =
      ((kids.zipIdx off).filter fun x => x.1.isElem).map Prod.snd := by
  intro kids
  induction kids with
  | nil => intro off _; rfl
  | cons k kids ih =>
    intro off h
    have h0 : g off = some k := by simpa using h 0
    have h1 := ih (off + 1) fun i => by
      have := h (i + 1)
      rw [show off + (i + 1) = off + 1 + i by omega] at this
      simpa using this
    rw [List.length_cons, List.range'_succ, List.zipIdx_cons, List.filter_cons, List.filter_cons, h0]
    simp only [Option.map_some, Option.getD_some, h1]
    cases k.isElem <;> rfl

theorem zipIdx_filter {q : Node → Bool} : ∀ (kids : List Node) (off : Nat),
    ((kids.zipIdx off).filter fun x => q x.1).map Prod.fst = kids.filter q := by
  intro kids
  induction kids with
  | nil => intro _; rfl
  | cons k kids ih =>
    intro off
    rw [List.zipIdx_cons, List.filter_cons, List.filter_cons]
    cases q k
    · exact ih (off + 1)
    · exact congrArg (k :: ·) (ih (off + 1))

theorem rdKids_filter {T : CTable} {L : Lib} {prog : List Item} (kids : List Node) :
    ((rdKids T L prog kids).filter fun k => k.node.isElem).map Kid.rd = (kids.filter Node.isElem).map fun k => (rdNode T L prog k).rd := by
  rw [rdKids_map, List.filter_map, List.map_map]
  simp [Function.comp_def]

theorem exec_items {n ty : Str} {e : Expr} {s s' : St} {xs : List (CTy × V)} (h : (eval C e >>= rangeOf) s = .ok xs s') :
    exec C (.forEach .auto c!"item" e (itemTree n ty)) s = forL (itemRound C n ty) xs s' := by
  rw [exec]
  show Res.bind ((eval C e >>= rangeOf) s) _ = _
  rw [h]
  rfl

/-- A vector member is read. -/
theorem rd_vector (hv : RdView c m vs ac p fs d ks path nm as kids ae ad) (hC : RdCtx E cls C)
    (hch : vs.lookup c!"ch_el" = some ⟨.ptr .xmlEl, ⟨ac, []⟩⟩) {n ty : Str} (ht : memberTy E.T c n = some (.vec ty)) (hty : StructName E cls ty)
    {vs0 : List Val} (ho : fs.lookup n = some (.vec vs0)) {prog : List Item} {path' : List Nat} {nm' : Str} {as' : List (Str × Str)}
    {kids' : List Node} (hac : m[ac]? = some (.el d path')) (hk : nodeAt ks path' = some (.elem nm' as' kids'))
    (hr : ∀ k ∈ kids', RdCall C prog ty k) :
    Sim ((rdNode E.T E.L prog (.elem nm' as' kids')).items.mapM (fun rd => rd ty (E.T.dflt ty)) >>= fun ws => .ok (.vec (vs0 ++ ws)))
      (exec C (.block [.forEach .auto c!"item" (.id [c!"ch_el"]) (itemTree n ty)]) ⟨m, vs, files, out⟩)
      fun v x => x = .ok .next ⟨setAt m p (.struct (setField n v fs)), vs, files, out⟩ := by
  have hi : (rdNode E.T E.L prog (.elem nm' as' kids')).items = (kids'.filter Node.isElem).map fun k => (rdNode E.T E.L prog k).rd := by
    rw [rdNode]; exact rdKids_filter kids'
  have h1 := rd_items (files := files) (out := out) hv hC ht hty ho (prog := prog)
    (((kids'.zipIdx 0).filter fun x => x.1.isElem).map fun x => (x.1, path' ++ [x.2])) (by
      intro x hx
      obtain ⟨y, hy, rfl⟩ := List.mem_map.1 hx
      have hy := (List.mem_filter.1 hy).1
      have hy := List.mem_zipIdx_iff_getElem?.1 hy
      exact ⟨hr _ (List.mem_of_getElem? hy), by rw [nodeAt_kid hk, hy]⟩)
  have h2 : (((kids'.zipIdx 0).filter fun x => x.1.isElem).map fun x => (x.1, path' ++ [x.2])).mapM (fun x => (rdNode E.T E.L prog x.1).rd ty (E.T.dflt ty)) =
      ((rdNode E.T E.L prog (.elem nm' as' kids')).items.mapM (fun rd => rd ty (E.T.dflt ty)) : R _) := by
    rw [hi, ← zipIdx_filter kids' 0, List.map_map, List.mapM_map, List.mapM_map]
    rfl
  rw [h2] at h1
  have h3 : (eval C (.id [c!"ch_el"]) >>= rangeOf) ⟨m, vs, files, out⟩ =
      .ok ((((kids'.zipIdx 0).filter fun x => x.1.isElem).map fun x => (x.1, path' ++ [x.2])).map
        fun x : Node × List Nat => ((.ptr .xmlEl, .el d x.2) : CTy × V)) ⟨m, vs, files, out⟩ := by
    have h4 := elems_idx (g := fun i => kids'[i]?) kids' 0 (fun i => by simp)
    have h5 : eval C (.id [c!"ch_el"]) ⟨m, vs, files, out⟩ = .ok (.lv (.ptr .xmlEl) ⟨ac, []⟩) ⟨m, vs, files, out⟩ := by
      simp [eval, lookupId, hch]
    rw [M.bind_run, h5, Res.ok_bind, rangeOf, M.bind_run, load_lv (peek_var hac) rfl]
    simp only [Res.ok_bind, M.bind_run, elemAt_ok hv.mDoc hk, M.pure_run, List.range_eq_range', h4, List.map_map]
    rfl
  rw [exec]
  refine (Sim.scope (s := ⟨m, vs, files, out⟩) (M := fun v => setAt m p (.struct (setField n v fs))) ?_ (by simp))
  rw [execs_one, exec_items h3]
  exact h1.mono fun v hx => ⟨[], vs, by simpa using hx⟩

/-! ### All statements -/

/-- The statement uses `ch_el`, process_items_xml.cpp:227-395.  (Proof notion, models no code.) -/
def _root_.Stfx.Gen.Rd.usesCh : Rd → Bool
  | .elem .. | .elemEnum _ | .child .. | .vector .. => true
  | _ => false

/-- The statement fits the class `c` and the functions it calls do what the model says.  (Proof notion, models no code.) -/
def RdOk (C : Ctx) (cls : Str) (prog : List Item) (kids : List Node) (c : Str) : Rd → Prop
  | .elem ty n | .attr ty n => cStr n = n ∧ memberTy C.E.T c n = some (.simple ty)
  | .elemEnum n | .attrEnum n => cStr n = n ∧ ∃ e val, memberTy C.E.T c n = some (.enum e.name) ∧ C.E.T.enm e.name = some (e, val) ∧ ToCall C e val
  | .child n ty => cStr n = n ∧ memberTy C.E.T c n = some (.struct ty) ∧ ∀ k ∈ kids, RdCall C prog ty k
  | .vector n ty => cStr n = n ∧ memberTy C.E.T c n = some (.vec ty) ∧ StructName C.E cls ty ∧ ∀ k ∈ kids, ∀ k' ∈ k.kids, RdCall C prog ty k'
  | .fixme _ | .warn _ => True

theorem rd_none (hv : RdView c m vs ac p fs d ks path nm as kids ae ad) {n : Str} {old : Val} (ho : fs.lookup n = some old) {x : V} :
    Upd ac p m (setField n old fs) (m.set ac x) := by
  have h := Upd.set (p := p) (m := m) (fs' := setField n old fs) (x := x) hv.neP
  rwa [setField_self ho, setAt_self hv.set.mObj, ← setField_self ho] at h

theorem rd_same (hv : RdView c m vs ac p fs d ks path nm as kids ae ad) {n : Str} {old : Val} (ho : fs.lookup n = some old) :
    Upd ac p m (setField n old fs) m := by
  have h := Upd.rfl (ac := ac) (p := p) (m := m) (fs' := setField n old fs)
  rwa [setField_self ho, setAt_self hv.mObj, ← setField_self ho] at h

/-- Statements with `find_element`. -/
theorem rd_withFind (hv : RdView c m vs ac p fs d ks path nm as kids ae ad) (hC : RdCtx E cls C)
    (hch : vs.lookup c!"ch_el" = some ⟨.ptr .xmlEl, ⟨ac, []⟩⟩) (hac : ac < m.length) {n : Str} (hn : cStr n = n) {st : Stmt}
    {old : Val} (ho : fs.lookup n = some old) {f : Node → R Val}
    (h : ∀ path' as' kids', nodeAt ks path' = some (.elem n as' kids') → (.elem n as' kids') ∈ kids →
      Sim (f (.elem n as' kids')) (exec C st ⟨m.set ac (.el d path'), vs, files, out⟩)
        fun v y => ∃ t vs', y = .ok .next ⟨setAt (m.set ac (.el d path')) p (.struct (setField n v fs)) ++ t, vs', files, out⟩) :
    Sim (match Run.first kids n with | none => .ok old | some k => f k)
      (execs C [.expr (.assign (.id [c!"ch_el"]) (.call (.id [c!"find_element"]) [(.id [c!"el"]), (.str n)])),
        .when (.bin .ne (.id [c!"ch_el"]) .null) st] ⟨m, vs, files, out⟩)
      fun v x => ∃ m', x = .ok .next ⟨m', vs, files, out⟩ ∧ Upd ac p m (setField n v fs) m' := by
  rcases rd_find (files := files) (out := out) hv hC hch hac hn st with ⟨h1, h2⟩ | ⟨i, as', kids', h1, h2, h3⟩
  · rw [h1, h2]
    exact ⟨_, rfl, rd_none hv ho⟩
  · rw [h1, h3]
    have h4 := h (path ++ [i]) as' kids' (by rw [nodeAt_kid hv.node, h2]) (List.mem_of_getElem? h2)
    exact (Sim.scope (s := ⟨_, vs, files, out⟩) (M := fun v => setAt (m.set ac (.el d (path ++ [i]))) p (.struct (setField n v fs))) h4 (by simp)).mono
      fun v hx => ⟨_, hx, Upd.set hv.neP⟩

/-- Statements with `FirstChildElement`. -/
theorem rd_withFirst (hv : RdView c m vs ac p fs d ks path nm as kids ae ad)
    (hch : vs.lookup c!"ch_el" = some ⟨.ptr .xmlEl, ⟨ac, []⟩⟩) (hac : ac < m.length) {n : Str} (hn : cStr n = n) {st : Stmt}
    {old : Val} (ho : fs.lookup n = some old) {f : Node → R Val}
    (h : ∀ path' as' kids', nodeAt ks path' = some (.elem n as' kids') → (.elem n as' kids') ∈ kids →
      Sim (f (.elem n as' kids')) (exec C st ⟨m.set ac (.el d path'), vs, files, out⟩)
        fun v y => y = .ok .next ⟨setAt (m.set ac (.el d path')) p (.struct (setField n v fs)), vs, files, out⟩) :
    Sim (match Run.first kids n with | none => .ok old | some k => f k)
      (execs C [.expr (.assign (.id [c!"ch_el"]) (.call (.arrow (.id [c!"el"]) c!"FirstChildElement") [(.str n)])),
        .when (.bin .ne (.id [c!"ch_el"]) .null) st] ⟨m, vs, files, out⟩)
      fun v x => ∃ m', x = .ok .next ⟨m', vs, files, out⟩ ∧ Upd ac p m (setField n v fs) m' := by
  rcases rd_first (C := C) (files := files) (out := out) hv hch hac hn st with ⟨h1, h2⟩ | ⟨i, as', kids', h1, h2, h3⟩
  · rw [h1, h2]
    exact ⟨_, rfl, rd_none hv ho⟩
  · rw [h1, h3]
    have h4 := h (path ++ [i]) as' kids' (by rw [nodeAt_kid hv.node, h2]) (List.mem_of_getElem? h2)
    exact (Sim.scope (s := ⟨_, vs, files, out⟩) (M := fun v => setAt (m.set ac (.el d (path ++ [i]))) p (.struct (setField n v fs)))
      (h4.mono fun v hx => ⟨[], vs, by simpa using hx⟩) (by simp)).mono
      fun v hx => ⟨_, hx, Upd.set hv.neP⟩

/-- `{ const char* pt = ch_el->GetText(); if (pt != nullptr) ... }` -/
theorem rd_elemText (hv : RdView c m vs ac p fs d ks path nm as kids ae ad)
    (hch : vs.lookup c!"ch_el" = some ⟨.ptr .xmlEl, ⟨ac, []⟩⟩) {n : Str} {old : Val} (ho : fs.lookup n = some old) {path' : List Nat} {nm' : Str}
    {as' : List (Str × Str)} {kids' : List Node} (hac : m[ac]? = some (.el d path')) (hk : nodeAt ks path' = some (.elem nm' as' kids'))
    {st : Stmt} {g : Str → R Val}
    (h : ∀ s, Sim (g s) (exec C st ⟨m ++ [.cstr s], (c!"pt", ⟨.ptr (.prim .char), ⟨m.length, []⟩⟩) :: vs, files, out⟩)
      fun v y => y = .ok .next ⟨setAt m p (.struct (setField n v fs)) ++ [.cstr s], (c!"pt", ⟨.ptr (.prim .char), ⟨m.length, []⟩⟩) :: vs, files, out⟩) :
    Sim (match getText kids' with | none => .ok old | some s => g s)
      (exec C (.block [.decl (.ptr (.prim .char)) c!"pt" none (some (.call (.arrow (.id [c!"ch_el"]) c!"GetText") [])),
        .when (.bin .ne (.id [c!"pt"]) .null) st]) ⟨m, vs, files, out⟩)
      fun v y => y = .ok .next ⟨setAt m p (.struct (setField n v fs)), vs, files, out⟩ := by
  rw [exec]
  refine Sim.scope (s := ⟨m, vs, files, out⟩) (M := fun v => setAt m p (.struct (setField n v fs))) ?_ (by simp)
  rw [rd_getText hch hac hv.mDoc hk]
  cases getText kids' with
  | none => exact ⟨_, _, by rw [setField_self ho, setAt_self hv.mObj]⟩
  | some s =>
    have := (Sim.scope (s := ⟨_, _, files, out⟩) (M := fun v => setAt m p (.struct (setField n v fs)) ++ [.cstr s])
      ((h s).mono fun v hx => ⟨[], _, by simpa using hx⟩) (by simp))
    exact this.mono fun v hx => ⟨_, _, hx⟩

/-- `{ const char* pt; if (tinyxml2::XML_SUCCESS == el->QueryAttribute("n", &pt)) ... }` -/
theorem rd_attrStr (hv : RdView c m vs ac p fs d ks path nm as kids ae ad) {n : Str} (hn : cStr n = n) {old : Val} (ho : fs.lookup n = some old)
    {st : Stmt} {g : Str → R Val}
    (h : ∀ s, Sim (g s) (exec C st ⟨m ++ [.cstr s], (c!"pt", ⟨.ptr (.prim .char), ⟨m.length, []⟩⟩) :: vs, files, out⟩)
      fun v y => y = .ok .next ⟨setAt m p (.struct (setField n v fs)) ++ [.cstr s], (c!"pt", ⟨.ptr (.prim .char), ⟨m.length, []⟩⟩) :: vs, files, out⟩) :
    Sim (match as.lookup n with | none => .ok old | some s => g s)
      (execs C [.block [.decl (.ptr (.prim .char)) c!"pt" none none,
      .when (.bin .eq (.id [c!"tinyxml2", c!"XML_SUCCESS"]) (.call (.arrow (.id [c!"el"]) c!"QueryAttribute") [(.str n), (.addr (.id [c!"pt"]))])) st]] ⟨m, vs, files, out⟩)
      fun v y => y = .ok .next ⟨setAt m p (.struct (setField n v fs)), vs, files, out⟩ := by
  rw [execs_one, exec]
  refine Sim.scope (s := ⟨m, vs, files, out⟩) (M := fun v => setAt m p (.struct (setField n v fs))) ?_ (by simp)
  rw [rd_attrText hv.vEl hv.mEl hv.mDoc hv.node hn]
  cases as.lookup n with
  | none => exact ⟨_, _, by rw [setField_self ho, setAt_self hv.mObj]⟩
  | some s =>
    have := (Sim.scope (s := ⟨_, _, files, out⟩) (M := fun v => setAt m p (.struct (setField n v fs)) ++ [.cstr s])
      ((h s).mono fun v hx => ⟨[], _, by simpa using hx⟩) (by simp))
    exact this.mono fun v hx => ⟨_, _, hx⟩

/-- `el->QueryAttribute("n", &...)` -/
theorem eval_queryAttr (hC : RdCtx E cls C) {ty : SimpleTy} (hl : viaLocal ty = false) (hs : ty ≠ .stdString) {f : Str}
    (hf : f = c!"QueryAttribute" ∨ (f = c!"QueryIntAttribute" ∧ ty = .int) ∨ (f = c!"QueryUnsignedAttribute" ∧ ty = .unsignedInt))
    (hel : vs.lookup c!"el" = some ⟨.ptr .xmlEl, ⟨ae, []⟩⟩) (hae : m[ae]? = some (.el d path)) (hd : m[d]? = some (.doc ks))
    (hk : nodeAt ks path = some (.elem nm as kids)) {n : Str} (hn : cStr n = n) {e : Expr} {q : Place}
    (he : eval C e ⟨m, vs, files, out⟩ = .ok (.lv (ofMTy (.simple ty)) q) ⟨m, vs, files, out⟩) :
    eval C (.call (.arrow (.id [c!"el"]) f) [.str n, .addr e]) ⟨m, vs, files, out⟩ =
      query E.L (ofMTy (.simple ty)) (.ptr q) (as.lookup n) ⟨m, vs, files, out⟩ := by
  have hem := elemAt_ok (vars := vs) (files := files) (out := out) hd hk
  rcases hf with rfl | ⟨rfl, rfl⟩ | ⟨rfl, rfl⟩
  · cases ty
    case stdString => exact absurd rfl hs
    case short | unsignedShort | long | unsignedLong => cases hl
    all_goals
      simp only [ofMTy] at he ⊢
      simp [eval, evals, lookupId, hel, load, peek_var hae, V.isUndef, he, arrowCall, hem, hn, hC.env]
  all_goals
    simp only [ofMTy] at he ⊢
    simp [eval, evals, lookupId, hel, load, peek_var hae, V.isUndef, he, arrowCall, hem, hn, hC.env]

/-- `el->QueryAttribute("n", &data->n);` -/
theorem rd_attr (hv : RdView c m vs ac p fs d ks path nm as kids ae ad) (hC : RdCtx E cls C)
    {ty : SimpleTy} (hl : viaLocal ty = false) (hs : ty ≠ .stdString)
    {n : Str} (hn : cStr n = n) (ht : memberTy E.T c n = some (.simple ty)) {old : Val} (ho : fs.lookup n = some old) :
    Sim (readSimple E.L ty old (as.lookup n)) (execs C (attrib37_tree n) ⟨m, vs, files, out⟩)
      fun v y => y = .ok .next ⟨setAt m p (.struct (setField n v fs)), vs, files, out⟩ := by
  have hev := eval_data (files := files) (out := out) hC ht hv.mData hv.vData
  have h1 := eval_queryAttr hC hl hs (.inl rfl) hv.vEl hv.mEl hv.mDoc hv.node hn hev
  have h2 := query_sim (L := E.L) hl hs (hv.member ho) (vs := vs) (files := files) (out := out) (as.lookup n)
  rw [attrib37_tree, execs_one, exec, M.bind_run, h1]
  cases hr : readSimple E.L ty old (as.lookup n) with
  | ok v =>
    rw [hr] at h2
    obtain ⟨b, h2⟩ := h2
    show Res.bind _ _ = _
    rw [h2, hv.setMember ho]
    simp
  | ub =>
    rw [hr] at h2
    have h2 : query _ _ _ _ _ = _ := h2
    simp [Sim, h2]
  | stuck => trivial

theorem localOf_not {ty : SimpleTy} : viaLocal (localOf ty) = false := by cases ty <;> rfl

theorem localOf_str {ty : SimpleTy} (hl : viaLocal ty = true) : localOf ty ≠ .stdString := by
  cases ty <;> first | (cases hl; done) | simp [localOf]

/-- Elements that are converted into a local variable. -/
theorem rd_elemLocal (hb : 32 ≤ E.T.longBits) (hv : RdView c m vs ac p fs d ks path nm as kids ae ad) (hC : RdCtx E cls C)
    (hch : vs.lookup c!"ch_el" = some ⟨.ptr .xmlEl, ⟨ac, []⟩⟩) {ty : SimpleTy} (hl : viaLocal ty = true)
    {n : Str} (ht : memberTy E.T c n = some (.simple ty)) {old : Val} (ho : fs.lookup n = some old) {path' : List Nat} {nm' : Str}
    {as' : List (Str × Str)} {kids' : List Node} (hac : m[ac]? = some (.el d path')) (hk : nodeAt ks path' = some (.elem nm' as' kids'))
    {x : Str} (hx : x ∉ [c!"data", c!"ch_el"]) {pt : Prim} (hpt : ofMTy (.simple (localOf ty)) = .prim pt) :
    Sim (readSimple E.L ty old (queryText kids'))
      (exec C (.block [.decl (.prim pt) x none none, .expr (.call (.arrow (.id [c!"ch_el"]) (textFun (localOf ty))) [.addr (.id [x])]),
        .expr (.assign (.arrow (.id [c!"data"]) n) (.cast (castP ty) (.id [x])))]) ⟨m, vs, files, out⟩)
      fun v y => y = .ok .next ⟨setAt m p (.struct (setField n v fs)), vs, files, out⟩ := by
  simp only [List.mem_cons, List.not_mem_nil, or_false, not_or] at hx
  rw [exec]
  refine Sim.scope (s := ⟨m, vs, files, out⟩) (M := fun v => setAt m p (.struct (setField n v fs))) ?_ (by simp)
  refine rd_local hb hv hC hl ht ho (fun h => hx.1 h.symm) hpt ?_
  rw [← hpt]
  exact eval_query hC localOf_not (localOf_str hl) (by rw [lookup_cons_ne (fun h => hx.2 h.symm), hch])
    (by rw [List.getElem?_append_left (List.getElem?_eq_some_iff.1 hac).1, hac])
    (by rw [List.getElem?_append_left (List.getElem?_eq_some_iff.1 hv.mDoc).1, hv.mDoc]) hk eval_var

/-- Attributes that are converted into a local variable. -/
theorem rd_attrLocal (hb : 32 ≤ E.T.longBits) (hv : RdView c m vs ac p fs d ks path nm as kids ae ad) (hC : RdCtx E cls C)
    {ty : SimpleTy} (hl : viaLocal ty = true) {n : Str} (hn : cStr n = n) (ht : memberTy E.T c n = some (.simple ty)) {old : Val} (ho : fs.lookup n = some old)
    {x : Str} (hx : x ∉ [c!"data", c!"el"]) {pt : Prim} (hpt : ofMTy (.simple (localOf ty)) = .prim pt) {f : Str}
    (hf : (f = c!"QueryIntAttribute" ∧ localOf ty = .int) ∨ (f = c!"QueryUnsignedAttribute" ∧ localOf ty = .unsignedInt)) :
    Sim (readSimple E.L ty old (as.lookup n))
      (execs C [.block [.decl (.prim pt) x none none, .expr (.call (.arrow (.id [c!"el"]) f) [.str n, .addr (.id [x])]),
        .expr (.assign (.arrow (.id [c!"data"]) n) (.cast (castP ty) (.id [x])))]] ⟨m, vs, files, out⟩)
      fun v y => y = .ok .next ⟨setAt m p (.struct (setField n v fs)), vs, files, out⟩ := by
  simp only [List.mem_cons, List.not_mem_nil, or_false, not_or] at hx
  rw [execs_one, exec]
  refine Sim.scope (s := ⟨m, vs, files, out⟩) (M := fun v => setAt m p (.struct (setField n v fs))) ?_ (by simp)
  refine rd_local hb hv hC hl ht ho (fun h => hx.1 h.symm) hpt ?_
  rw [← hpt]
  exact eval_queryAttr hC localOf_not (localOf_str hl) (.inr hf) (by rw [lookup_cons_ne (fun h => hx.2 h.symm), hv.vEl])
    (by rw [List.getElem?_append_left (List.getElem?_eq_some_iff.1 hv.mEl).1, hv.mEl])
    (by rw [List.getElem?_append_left (List.getElem?_eq_some_iff.1 hv.mDoc).1, hv.mDoc]) hv.node hn eval_var

theorem readSimple_str {L : Lib} {old : Val} {o : Option Str} :
    readSimple L .stdString old o = match o with | none => .ok old | some s => .ok (.str s) := by
  cases o <;> rfl

theorem readEnum_opt {T : CTable} {t : Option MTy} {old : Val} {o : Option Str} :
    readEnum T t old o = match o with | none => .ok old | some s => readEnum T t old (some s) := by
  cases o <;> rfl

/-- A reader statement has the effect of the model. -/
theorem rd_act (hb : 32 ≤ E.T.longBits) (hv : RdView c m vs ac p fs d ks path nm as kids ae ad) (hC : RdCtx E cls C) {prog : List Item} {r : Rd}
    (hr : RdOk C cls prog kids c r) (hc : r.usesCh = true → vs.lookup c!"ch_el" = some ⟨.ptr .xmlEl, ⟨ac, []⟩⟩ ∧ ac < m.length)
    {n : Str} (hn : r.member = some n) {old : Val} (ho : fs.lookup n = some old) :
    Sim (rdAct E.T E.L c as (rdKids E.T E.L prog kids) r old) (execs C (rdTree r) ⟨m, vs, files, out⟩)
      fun v x => ∃ m', x = .ok .next ⟨m', vs, files, out⟩ ∧ Upd ac p m (setField n v fs) m' := by
  have hfk : ∀ n, firstKid (rdKids E.T E.L prog kids) n = (Run.first kids n).map (rdNode E.T E.L prog) := fun n => by
    rw [rdKids_map, firstKid_map]
  cases r with
  | fixme n => cases hn
  | warn n => cases hn
  | elem ty n' =>
    cases hn
    obtain ⟨hcn, ht⟩ := hr
    rw [hC.env] at ht
    obtain ⟨hch, hac⟩ := hc rfl
    have hg : rdAct E.T E.L c as (rdKids E.T E.L prog kids) (.elem ty n) old = match Run.first kids n with
        | none => .ok old
        | some k => readSimple E.L ty old (if ty = .stdString then getText k.kids else queryText k.kids) := by
      simp only [rdAct, hfk]
      cases Run.first kids n <;> simp
    rw [hg]
    have hset := fun x : V => List.getElem?_set_self (a := x) hac
    cases ty
    case stdString =>
      refine rd_withFind hv hC hch hac hcn ho fun path' as' kids' hk _ => ?_
      simp only [if_true, Node.kids, readSimple_str]
      exact (rd_elemText hv.set hch ho (hset _) hk (g := fun s => .ok (.str s)) fun s => rd_str hv.set hC ht ho).mono fun v hx => ⟨[], vs, by simpa using hx⟩
    case short | long =>
      refine rd_withFind hv hC hch hac hcn ho fun path' as' kids' hk _ => ?_
      exact (rd_elemLocal hb hv.set hC hch rfl ht ho (hset _) hk (by decide) rfl).mono fun v hx => ⟨[], vs, by simpa using hx⟩
    case unsignedShort | unsignedLong =>
      refine rd_withFind hv hC hch hac hcn ho fun path' as' kids' hk _ => ?_
      exact (rd_elemLocal hb hv.set hC hch rfl ht ho (hset _) hk (by decide) rfl).mono fun v hx => ⟨[], vs, by simpa using hx⟩
    all_goals
      refine rd_withFind hv hC hch hac hcn ho fun path' as' kids' hk _ => ?_
      exact rd_elem hv.set hC hch rfl (by simp) ht ho (hset _) hk
  | elemEnum n' =>
    cases hn
    obtain ⟨hcn, e, val, ht, he, hto⟩ := hr
    rw [hC.env] at ht he
    obtain ⟨hch, hac⟩ := hc rfl
    have hg : rdAct E.T E.L c as (rdKids E.T E.L prog kids) (.elemEnum n) old = match Run.first kids n with
        | none => .ok old
        | some k => readEnum E.T (memberTy E.T c n) old (getText k.kids) := by
      simp only [rdAct, hfk]
      cases Run.first kids n <;> simp
    rw [hg]
    refine rd_withFind hv hC hch hac hcn ho fun path' as' kids' hk _ => ?_
    simp only [Node.kids]
    rw [readEnum_opt]
    exact (rd_elemText hv.set hch ho (List.getElem?_set_self hac) hk fun s => rd_enum hv.set hC ht he hto ho).mono fun v hx => ⟨[], vs, by simpa using hx⟩
  | attr ty n' =>
    cases hn
    obtain ⟨hcn, ht⟩ := hr
    rw [hC.env] at ht
    simp only [rdAct]
    cases ty
    case stdString =>
      rw [readSimple_str]
      exact (rd_attrStr hv hcn ho (g := fun s => .ok (.str s)) fun s => rd_str hv hC ht ho).mono fun v hx => ⟨_, hx, .rfl⟩
    case short | long =>
      exact (rd_attrLocal hb hv hC rfl hcn ht ho (by decide) rfl (.inl ⟨rfl, rfl⟩)).mono fun v hx => ⟨_, hx, .rfl⟩
    case unsignedShort | unsignedLong =>
      exact (rd_attrLocal hb hv hC rfl hcn ht ho (by decide) rfl (.inr ⟨rfl, rfl⟩)).mono fun v hx => ⟨_, hx, .rfl⟩
    all_goals
      exact (rd_attr hv hC rfl (by simp) hcn ht ho).mono fun v hx => ⟨_, hx, .rfl⟩
  | attrEnum n' =>
    cases hn
    obtain ⟨hcn, e, val, ht, he, hto⟩ := hr
    rw [hC.env] at ht he
    simp only [rdAct]
    rw [readEnum_opt]
    exact (rd_attrStr hv hcn ho fun s => rd_enum hv hC ht he hto ho).mono fun v hx => ⟨_, hx, .rfl⟩
  | child n' ty =>
    cases hn
    obtain ⟨hcn, ht, hcall⟩ := hr
    rw [hC.env] at ht
    obtain ⟨hch, hac⟩ := hc rfl
    have hg : rdAct E.T E.L c as (rdKids E.T E.L prog kids) (.child n ty) old = match Run.first kids n with
        | none => .ok old
        | some k => (rdNode E.T E.L prog k).rd ty old := by
      simp only [rdAct, hfk]
      cases Run.first kids n <;> simp
    rw [hg]
    refine rd_withFirst hv hch hac hcn ho fun path' as' kids' hk hmem => ?_
    exact rd_child hv.set hC hch ht ho (hcall _ hmem) (List.getElem?_set_self hac) hk
  | vector n' ty =>
    cases hn
    obtain ⟨hcn, ht, hty, hcall⟩ := hr
    rw [hC.env] at ht hty
    obtain ⟨hch, hac⟩ := hc rfl
    have hg : rdAct E.T E.L c as (rdKids E.T E.L prog kids) (.vector n ty) old = match Run.first kids n with
        | none => .ok old
        | some k => match old with
          | .vec vs => (rdNode E.T E.L prog k).items.mapM (fun rd => rd ty (E.T.dflt ty)) >>= fun ws => .ok (.vec (vs ++ ws))
          | _ => .stuck := by
      simp only [rdAct, hfk]
      cases Run.first kids n with
      | none => rfl
      | some k => cases old <;> rfl
    rw [hg]
    refine rd_withFirst hv hch hac hcn ho fun path' as' kids' hk hmem => ?_
    cases old with
    | vec vs0 => exact rd_vector hv.set hC hch ht hty ho (List.getElem?_set_self hac) hk (hcall _ hmem)
    | _ => trivial

end
end Stfx.Cpp
