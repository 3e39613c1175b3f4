import Verif.Cpp.RunXmlWr
/-
The generated XML writer functions, run as C++ code.
-/
set_option autoImplicit false
set_option linter.unusedSimpArgs false
namespace Stfx.Cpp
open Stfx.Run Stfx.Parser Stfx.Items Stfx.Gen

section
variable {c : Str} {m : List V} {vs : List (Str × Var)} {ac : Nat} {p : Place} {fs : List (Str × Val)} {d : Nat}
  {ks : List Node} {path : List Nat} {nm : Str} {el : El} {ae ad am : Nat} {delta : Bool} {dd : List (Str × Val)}
  {E : Env} {cls : Str} {C : Ctx} {files : List FileSt} {out : List (Str × Saved)}

/-! ### Functions -/

theorem WUpd.take {m0 t m' : List V} {ks' : List Node} (h : WUpd ac d ks' (m0 ++ t) m') (ha : m0.length ≤ ac) (hd : d < m0.length) :
    m'.take m0.length = m0.set d (.doc ks') := by
  apply List.ext_getElem?
  intro b
  rw [List.getElem?_take]
  split
  · rw [h.2 b (by omega), List.set_append_left _ _ hd, List.getElem?_append_left (by simpa using ‹_›)]
  · rw [List.getElem?_eq_none]
    simp; omega

/-- A new variable. -/
theorem WrView.push (hv : WrView c m vs ac p fs d ks path nm el ae ad am delta dd) {x : V} {t : CTy} {l : Nat} :
    WrView c (m ++ [x]) ((c!"ch_el", ⟨t, ⟨l, []⟩⟩) :: vs) ac p fs d ks path nm el ae ad am delta dd := by
  have hp := fun {a : Nat} {v : V} (h : m[a]? = some v) => show (m ++ [x])[a]? = some v by
    rw [List.getElem?_append_left (List.getElem?_eq_some_iff.1 h).1, h]
  exact { hv with
    vEl := by rw [lookup_cons_ne (by decide), hv.vEl]
    vData := by rw [lookup_cons_ne (by decide), hv.vData]
    mEl := hp hv.mEl
    mData := hp hv.mData
    mObj := getAt_append hv.mObj
    mDoc := hp hv.mDoc
    mDelta := hp hv.mDelta
    dflt := fun n v h => by
      obtain ⟨ax, h1, h2, h3⟩ := hv.dflt n v h
      exact ⟨ax, by rw [lookup_cons_ne (by decide), h1], h2, getAt_append h3⟩
    clear := fun n h => by
      rw [lookup_cons_ne (fun e => h (by simp [e])), hv.clear n h] }

/-- `c default_data;` -/
theorem WrView.dfltVar (hv : WrView c m vs ac p fs d ks path nm el ae ad am delta []) {v : Val} (ha : ac ≠ m.length) :
    WrView c (m ++ [.val v]) ((c!"default_data", ⟨.struct c, ⟨m.length, []⟩⟩) :: vs) ac p fs d ks path nm el ae ad am delta v.fields := by
  have hp := fun {a : Nat} {w : V} (h : m[a]? = some w) => show (m ++ [.val v])[a]? = some w by
    rw [List.getElem?_append_left (List.getElem?_eq_some_iff.1 h).1, h]
  exact { hv with
    vEl := by rw [lookup_cons_ne (by decide), hv.vEl]
    vData := by rw [lookup_cons_ne (by decide), hv.vData]
    mEl := hp hv.mEl
    mData := hp hv.mData
    mObj := getAt_append hv.mObj
    mDoc := hp hv.mDoc
    mDelta := hp hv.mDelta
    dflt := fun n w h => by
      refine ⟨m.length, lookup_cons_eq, ha, ?_⟩
      cases v with
      | struct fs' =>
        have h0 := getAt_member (m := m ++ [.val (.struct fs')]) (a := m.length) (p := []) (n := n) getAt_new
        rw [List.nil_append] at h0
        rw [h0]
        exact h
      | _ => cases h
    clear := fun n h => by
      rw [lookup_cons_ne (fun e => h (by simp [e])), hv.clear n h] }

/-- The objects and variables of `c default_data;`.  (Proof notion, models no code.) -/
def ddMem (T : CTable) (c : Str) (dd : Bool) : List V := if dd then [.val (T.dflt c)] else []
/-- See the definition before it.  (Proof notion, models no code.) -/
def ddVars (c : Str) (dd : Bool) (l : Nat) : List (Str × Var) := if dd then [(c!"default_data", ⟨.struct c, ⟨l, []⟩⟩)] else []

theorem execs_ddDecl (hC : WrCtx E cls am C) (hn : StructName E cls c) (hv : vs.lookup c = none) {dd : Bool} {r : List Stmt} :
    execs C (ddDecl dd c ++ r) ⟨m, vs, files, out⟩ = execs C r ⟨m ++ ddMem E.T c dd, ddVars c dd m.length ++ vs, files, out⟩ := by
  cases dd with
  | false => simp [ddDecl, ddMem, ddVars]
  | true =>
    show execs C (.decl (.name [c]) c!"default_data" none none :: r) _ = _
    have hc : (vs ++ C.self).lookup c = none := by
      rw [lookup_append, hv, hC.self _ (fun h => hn.clear (by simp [h]))]
      rfl
    rw [execs_cons (exec_decl (u := .struct c) (by rw [hC.env, hC.cls_]; exact hn.tyOf hc)), hC.env]
    rfl

theorem WrView.withDd (hv : WrView c m vs ac p fs d ks path nm el ae ad am delta []) {dd : Bool} {v : Val} (ha : dd = true → ac ≠ m.length) {T : CTable}
    (hT : T.dflt c = v) : WrView c (m ++ ddMem T c dd) (ddVars c dd m.length ++ vs) ac p fs d ks path nm el ae ad am delta (if dd then v.fields else []) := by
  cases dd with
  | false => simpa [ddMem, ddVars] using hv
  | true =>
    have := hv.dfltVar (v := v) (ha rfl)
    simpa [ddMem, ddVars, hT] using this

/-- Where `ch_el` is used it is declared.  (Proof notion, models no code.) -/
def WrForm (k : Kind) (ch : Bool) (ss cs : List Wr) : Prop :=
  k = .xml ∨ (∀ r ∈ ss, r.usesCh = false) ∧ (ch = true ∨ ∀ r ∈ cs, r.usesCh = false)

/-- What statements of the model add to an element.  (Proof notion, models no code.) -/
def emits (T : CTable) (L : Lib) (prog : List Item) (delta : Bool) (c : Str) (dd fs : List (Str × Val)) (ws : List Wr) (el : El) : R El :=
  ws.mapM (wrAct T L delta c dd (wrFields T L prog delta fs)) >>= fun es => R.ok (es.foldl El.add el)

theorem emits_append {T : CTable} {L : Lib} {prog : List Item} {ss cs : List Wr} :
    emits T L prog delta c dd fs (ss ++ cs) el = emits T L prog delta c dd fs ss el >>= emits T L prog delta c dd fs cs := by
  unfold emits
  rw [List.mapM_append]
  cases (ss.mapM (wrAct T L delta c dd (wrFields T L prog delta fs)) : R _) with
  | ok es =>
    show ((cs.mapM (wrAct T L delta c dd (wrFields T L prog delta fs)) >>= fun es' => R.ok (es ++ es')) >>= _) =
      (cs.mapM (wrAct T L delta c dd (wrFields T L prog delta fs)) >>= _)
    cases (cs.mapM (wrAct T L delta c dd (wrFields T L prog delta fs)) : R _) with
    | ok es' =>
      show R.ok ((es ++ es').foldl El.add el) = R.ok (es'.foldl El.add (es.foldl El.add el))
      rw [List.foldl_append]
    | _ => rfl
  | _ => rfl

/-- The statements after the declarations, then `return rv;`. -/
theorem wr_ret (hv : WrView c m vs ac p fs d ks path nm el ae ad am delta dd) (hC : WrCtx E cls am C) {prog : List Item} {ws : List Wr}
    (hr : ∀ w ∈ ws, WrOk C cls prog am delta fs c w) (hwt : ∀ n t v, memberTy E.T c n = some t → fs.lookup n = some v → ∃ u, CTable.WT E.T u t v)
    (hch : ∀ w ∈ ws, w.usesCh = true → vs.lookup c!"ch_el" = some ⟨.ptr .xmlEl, ⟨ac, []⟩⟩ ∧ ac < m.length)
    {m0 t : List V} (hm : m = m0 ++ t) (ha : m0.length ≤ ac) (hd : d < m0.length) {l : Nat}
    (hrv : vs.lookup c!"rv" = some ⟨.prim .bool, ⟨l, []⟩⟩) (hl : m[l]? = some (.val (.bool true))) (hla : l ≠ ac) (hld : d ≠ l) :
    Sim (emits E.T E.L prog delta c dd fs ws el) (execs C (ws.flatMap wrTree ++ retRv) ⟨m, vs, files, out⟩)
      fun el' x => ∃ m' vs' l, x = .ok (.ret (.lv (.prim .bool) ⟨l, []⟩)) ⟨m', vs', files, out⟩ ∧
        m'[l]? = some (.val (.bool true)) ∧ m'.take m0.length = m0.set d (.doc (put ks path (.elem nm el'.attrs el'.kids))) := by
  have h := wr_steps (files := files) (out := out) hC ws hv hr hwt hch
  rw [← emits] at h
  cases hx : emits E.T E.L prog delta c dd fs ws el with
  | stuck => trivial
  | ub =>
    rw [hx] at h
    exact execs_append_ub h
  | ok el' =>
    rw [hx] at h
    obtain ⟨m', h1, h2⟩ := h
    refine ⟨m', vs, l, ?_, ?_, (hm ▸ h2).take ha hd⟩
    · rw [execs_append h1, execs_retRv hrv]
    · rw [h2.other hla hld, hl]

/-- The body of a writer function. -/
theorem wr_body (hC : WrCtx E cls am C) (hn : StructName E cls c) {prog : List Item} {k : Kind} {dd ch : Bool} {ss cs : List Wr}
    (hf : WrForm k ch ss cs) (hr : ∀ w ∈ ss ++ cs, WrOk C cls prog am delta fs c w)
    (hwt : ∀ n t v, memberTy E.T c n = some t → fs.lookup n = some v → ∃ u, CTable.WT E.T u t v) {m0 : List V}
    (hobj : getAt m0 p = some (.struct fs)) (hdoc : m0[d]? = some (.doc ks)) (hnode : nodeAt ks path = some (.elem nm [] []))
    (hdl : m0[am]? = some (.val (.bool delta))) :
    Sim (emits E.T E.L prog delta c (if dd then (E.T.dflt c).fields else []) fs (ss ++ cs) ⟨[], []⟩)
      (execs C (wrBody k c dd ch ss cs) ⟨m0 ++ [.el d path, .ptr p],
        [(c!"data", ⟨.ptr (.struct c), ⟨m0.length + 1, []⟩⟩), (c!"el", ⟨.ptr .xmlEl, ⟨m0.length, []⟩⟩)], files, out⟩)
      fun el' x => ∃ m' vs' l, x = .ok (.ret (.lv (.prim .bool) ⟨l, []⟩)) ⟨m', vs', files, out⟩ ∧
        m'[l]? = some (.val (.bool true)) ∧ m'.take m0.length = m0.set d (.doc (put ks path (.elem nm el'.attrs el'.kids))) := by
  have hplt := getAt_lt hobj
  have hdlt := (List.getElem?_eq_some_iff.1 hdoc).1
  have halt := (List.getElem?_eq_some_iff.1 hdl).1
  have hcl : ∀ {vs : List (Str × Var)} {n : Str}, (∀ x ∈ vs, n ≠ x.1) → vs.lookup n = none := by
    intro vs n h
    induction vs with
    | nil => rfl
    | cons x vs ih =>
      rw [show x :: vs = (x.1, x.2) :: vs from rfl, lookup_cons_ne (h x (by simp)), ih fun y hy => h y (by simp [hy])]
  have hap := fun (t : List V) {a : Nat} {v : V} (h : m0[a]? = some v) => show (m0 ++ t)[a]? = some v by
    rw [List.getElem?_append_left (List.getElem?_eq_some_iff.1 h).1, h]
  have hnc : ∀ x ∈ [c!"el", c!"data", c!"ch_el", c!"rv"], c ≠ x := fun x hx e => hn.clear (by
    subst e
    simp only [List.mem_cons, List.not_mem_nil, or_false] at hx ⊢
    rcases hx with h | h | h | h <;> simp [h])
  have hdm : (ddMem E.T c dd).length ≤ 1 ∧ (dd = true → (ddMem E.T c dd).length = 1) := by cases dd <;> simp [ddMem]
  have hdv : ∀ {n : Str} {l : Nat} {vs : List (Str × Var)}, n ≠ c!"default_data" → (ddVars c dd l ++ vs).lookup n = vs.lookup n := by
    intro n l vs h
    cases dd
    · rfl
    · exact lookup_cons_ne h
  by_cases hk : k = .xml
  · subst hk
    have hbody : wrBody .xml c dd ch ss cs = attrib83_tree ++ (xml225_tree ++ (ddDecl dd c ++ ((ss ++ cs).flatMap wrTree ++ retRv))) := by
      simp [wrBody, chDecl]
    rw [hbody, execs_chDecl, execs_rvDecl, execs_ddDecl hC hn (hcl (by simpa using ⟨hnc _ (by simp), hnc _ (by simp), hnc _ (by simp), hnc _ (by simp)⟩))]
    have hv : WrView c (m0 ++ [.el d path, .ptr p] ++ [.val .undef] ++ [.val (.bool true)])
        [(c!"rv", ⟨.prim .bool, ⟨m0.length + 3, []⟩⟩), (c!"ch_el", ⟨.ptr .xmlEl, ⟨m0.length + 2, []⟩⟩),
          (c!"data", ⟨.ptr (.struct c), ⟨m0.length + 1, []⟩⟩), (c!"el", ⟨.ptr .xmlEl, ⟨m0.length, []⟩⟩)] (m0.length + 2) p fs d ks path nm ⟨[], []⟩
        m0.length (m0.length + 1) am delta [] :=
      { vEl := by simp [List.lookup], vData := by simp [List.lookup]
        mEl := by simp, mData := by simp
        mObj := by simp only [List.append_assoc]; exact getAt_append hobj
        mDoc := by simp only [List.append_assoc]; exact hap _ hdoc
        mDelta := by simp only [List.append_assoc]; exact hap _ hdl
        dflt := fun n v h => by cases h
        node := hnode, neE := by omega, neA := by omega, neD := by omega, neP := by omega, neM := by omega
        clear := fun n h => by
          simp only [List.mem_cons, List.not_mem_nil, or_false, not_or] at h
          exact hcl (by simpa using ⟨h.2.2.2.1, h.2.2.1, h.2.1, h.1⟩) }
    have hv' := hv.withDd (dd := dd) (T := E.T) (by simp) rfl
    simp only [List.length_append, List.length_cons, List.length_nil, Nat.zero_add] at hv' ⊢
    exact wr_ret (m0 := m0) (t := [.el d path, .ptr p, .val .undef, .val (.bool true)] ++ ddMem E.T c dd) (l := m0.length + 3) hv' hC hr hwt
      (fun r _ _ => ⟨by rw [hdv (by decide)]; simp [List.lookup], by simp⟩) (by simp) (by omega) hdlt (by rw [hdv (by decide)]; simp [List.lookup])
      (by rw [List.getElem?_append_left (by simp)]; simp) (by omega) (by omega)
  · have hss : ∀ r ∈ ss, r.usesCh = false := by
      rcases hf with h | h
      · exact absurd h hk
      · exact h.1
    have hcs : ch = true ∨ ∀ r ∈ cs, r.usesCh = false := by
      rcases hf with h | h
      · exact absurd h hk
      · exact h.2
    have hv : WrView c (m0 ++ [.el d path, .ptr p] ++ [.val (.bool true)])
        [(c!"rv", ⟨.prim .bool, ⟨m0.length + 2, []⟩⟩),
          (c!"data", ⟨.ptr (.struct c), ⟨m0.length + 1, []⟩⟩), (c!"el", ⟨.ptr .xmlEl, ⟨m0.length, []⟩⟩)] (m0.length + 3 + (ddMem E.T c dd).length) p fs d ks path nm ⟨[], []⟩
        m0.length (m0.length + 1) am delta [] :=
      { vEl := by simp [List.lookup], vData := by simp [List.lookup]
        mEl := by simp, mData := by simp
        mObj := by simp only [List.append_assoc]; exact getAt_append hobj
        mDoc := by simp only [List.append_assoc]; exact hap _ hdoc
        mDelta := by simp only [List.append_assoc]; exact hap _ hdl
        dflt := fun n v h => by cases h
        node := hnode, neE := by omega, neA := by omega, neD := by omega, neP := by omega, neM := by omega
        clear := fun n h => by
          simp only [List.mem_cons, List.not_mem_nil, or_false, not_or] at h
          exact hcl (by simpa using ⟨h.2.2.2.1, h.2.1, h.1⟩) }
    have hv' := hv.withDd (dd := dd) (T := E.T) (by have := hdm.2; intro h; simp [this h]) rfl
    have hcv : List.lookup c [(c!"rv", (⟨.prim .bool, ⟨m0.length + 2, []⟩⟩ : Var)),
          (c!"data", ⟨.ptr (.struct c), ⟨m0.length + 1, []⟩⟩), (c!"el", ⟨.ptr .xmlEl, ⟨m0.length, []⟩⟩)] = none :=
      hcl (by simpa using ⟨hnc _ (by simp), hnc _ (by simp), hnc _ (by simp)⟩)
    simp only [List.length_append, List.length_cons, List.length_nil, Nat.zero_add] at hv'
    cases ch with
    | false =>
      have hbody : wrBody k c dd false ss cs = xml225_tree ++ (ddDecl dd c ++ ((ss ++ cs).flatMap wrTree ++ retRv)) := by
        simp [wrBody, chDecl, hk]
      rw [hbody, execs_rvDecl]
      simp only [List.length_append, List.length_cons, List.length_nil, Nat.zero_add]
      rw [execs_ddDecl hC hn hcv]
      simp only [List.length_append, List.length_cons, List.length_nil, Nat.zero_add]
      refine wr_ret (m0 := m0) (t := [.el d path, .ptr p, .val (.bool true)] ++ ddMem E.T c dd) (l := m0.length + 2) hv' hC hr hwt
        (fun r hr hu => ?_) (by simp) (by omega) hdlt (by rw [hdv (by decide)]; simp [List.lookup])
        (by rw [List.getElem?_append_left (by simp)]; simp) (by omega) (by omega)
      have : r.usesCh = false := by
        rcases List.mem_append.1 hr with h | h
        · exact hss r h
        · exact (hcs.resolve_left (by simp)) r h
      rw [this] at hu; cases hu
    | true =>
      have hbody : wrBody k c dd true ss cs = xml225_tree ++ (ddDecl dd c ++ (ss.flatMap wrTree ++ (attrib83_tree ++ (cs.flatMap wrTree ++ retRv)))) := by
        simp [wrBody, chDecl, hk]
      rw [hbody, execs_rvDecl]
      simp only [List.length_append, List.length_cons, List.length_nil, Nat.zero_add]
      rw [execs_ddDecl hC hn hcv]
      simp only [List.length_append, List.length_cons, List.length_nil, Nat.zero_add]
      rw [emits_append]
      refine (wr_steps (files := files) (out := out) hC ss hv' (fun r h => hr r (by simp [h])) hwt (fun r h hu => by rw [hss r h] at hu; cases hu)).bind
        (fun el' _ h => ?_) execs_append_ub
      obtain ⟨m', h1, h2⟩ := h
      rw [execs_append h1, execs_chDecl]
      have hl : m'.length = m0.length + 3 + (ddMem E.T c dd).length := by rw [h2.1]; simp; omega
      have h3 : m'.take m0.length = m0.set d (.doc (put ks path (.elem nm el'.attrs el'.kids))) := by
        rw [List.append_assoc, List.append_assoc] at h2
        exact h2.take (by omega) hdlt
      have h4 : m'.take m0.length ++ m'.drop m0.length = m' := List.take_append_drop _ _
      have h5 : (m'.take m0.length).length = m0.length := by simp [hl]; omega
      have h7 := wr_ret (files := files) (out := out) (m0 := m'.take m0.length) (t := m'.drop m0.length ++ [.val .undef]) (l := m0.length + 2) (ws := cs) (prog := prog)
        ((hv'.upd h2).push (x := .val .undef) (t := .ptr .xmlEl) (l := m0.length + 3 + (ddMem E.T c dd).length)) hC (fun r h => hr r (by simp [h])) hwt
        (fun r _ _ => ⟨by simp [List.lookup], by simp [hl]⟩) (by rw [← List.append_assoc, h4]) (by omega) (by omega)
        (by rw [lookup_cons_ne (by decide), hdv (by decide)]; simp [List.lookup])
        (by
          rw [List.getElem?_append_left (by omega), h2.other (by omega) (by omega), List.getElem?_append_left (by simp)]
          simp) (by omega) (by omega)
      rw [h5, h3] at h7
      rw [hl]
      refine h7.mono fun el'' h => ?_
      obtain ⟨m2, vs2, l2, h8, h9, h10⟩ := h
      exact ⟨m2, vs2, l2, h8, h9, by rw [h10, List.set_set, put_put]⟩

/-! ### Calls -/

/-- The statement fits the class `c`.  (Proof notion, models no code.) -/
def WrTyped (E : Env) (cls c : Str) : Wr → Prop
  | .elem _ ty n => cStr n = n ∧ memberTy E.T c n = some (.simple ty) ∧ (ty = .long → E.T.longBits = 64)
  | .attr _ ty n => cStr n = n ∧ memberTy E.T c n = some (.simple ty)
  | .elemEnum _ n | .attrEnum _ n => cStr n = n ∧ ∃ e val, memberTy E.T c n = some (.enum e.name) ∧ E.T.enm e.name = some (e, val) ∧
      ∀ self fuel k, FromCall ⟨E, some cls, self, run E self (fuel + 1), k⟩ e val
  | .child n ty => cStr n = n ∧ memberTy E.T c n = some (.struct ty)
  | .vector n ty => cStr n = n ∧ cStr ty = ty ∧ memberTy E.T c n = some (.vec ty) ∧ StructName E cls ty
  | .fixme _ | .warn _ => True

/-- A program with the writer functions of the pieces `prog` in the class `cls`.  (Proof notion, models no code.) -/
structure WrProgram (E : Env) (cls : Str) (prog : List Item) : Prop where
  stfx : cls ≠ c!"stfx"
  funs : ∀ c dd body, Run.wrBody prog c = some (dd, body) → StructName E cls c ∧ ∃ k ch ss cs, body = ss ++ cs ∧ WrForm k ch ss cs ∧
    methods E (some cls) (c!"do_wr_" ++ c) = [wrFun cls c (wrBody k c dd ch ss cs)] ∧ ∀ w ∈ ss ++ cs, WrTyped E cls c w

theorem wt_member {T : CTable} {u : Bool} (h : CTable.WT T u (.struct c) (.struct fs)) {n : Str} {t : MTy} {v : Val}
    (ht : memberTy T c n = some t) (hl : fs.lookup n = some v) : CTable.WT T u t v := by
  cases h with
  | @struct _ ms _ h1 h2 h3 =>
    unfold memberTy at ht
    rw [h1] at ht
    simp only [Option.map_eq_some_iff] at ht
    obtain ⟨x, hx, rfl⟩ := ht
    have := List.find?_some hx
    have := of_decide_eq_true this
    subst this
    exact h3 x (List.mem_of_find?_eq_some hx) v hl

theorem nestingVals_mem {l : List Val} {v : Val} (h : v ∈ l) : nesting v ≤ nestingVals l := by
  induction l with
  | nil => cases h
  | cons x l ih =>
    rw [nestingVals]
    rcases List.mem_cons.1 h with rfl | h
    · omega
    · have := ih h
      omega

/-- The writers write what the model writes. -/
theorem wr_call {prog : List Item} (hp : WrProgram E cls prog) {self : List (Str × Var)} (hs : ∀ n, n ≠ c!"m_delta_only" → self.lookup n = none)
    (hsd : self.lookup c!"m_delta_only" = some ⟨.prim .bool, ⟨am, []⟩⟩) {u : Bool}
    (fuel : Nat) : ∀ (v : Val) (ty : Str) (fu : Nat), nesting v < fuel → CTable.WT E.T u (.struct ty) v →
      WrCall ⟨E, some cls, self, run E self fuel, fu⟩ prog am delta ty v := by
  induction fuel with
  | zero => intro v ty fu h; omega
  | succ fuel ih =>
    intro v ty fu hd hwt s a d path ks nm q ha hload hdoc hnode hq hdl hvar
    cases v with
    | struct fs =>
      show Sim (runWr E.T E.L prog delta (wrFields E.T E.L prog delta fs) ty) _ _
      rw [nesting] at hd
      have hfuel : 1 ≤ fuel := by omega
      rw [runWr]
      cases hbd : Run.wrBody prog ty with
      | none => trivial
      | some b =>
        obtain ⟨dd, body⟩ := b
        obtain ⟨hty, k, ch, ss, cs, rfl, hform, hm, hok⟩ := hp.funs ty dd body hbd
        have hcall : callId ⟨E, some cls, self, run E self (fuel + 1), fu⟩ [c!"do_wr_" ++ ty] [a, .rv (.ptr (.struct ty)) (.ptr q)] s =
            invoke ⟨E, some cls, self, run E self fuel, fuel⟩ (wrFun cls ty (wrBody k ty dd ch ss cs)) [a, .rv (.ptr (.struct ty)) (.ptr q)] s :=
          call_two hty hs hp.stfx hm hvar (hs _ (do_wr_ne (by simp))) ha
        have hC : WrCtx E cls am ⟨E, some cls, self, run E self fuel, fuel⟩ := ⟨rfl, rfl, hs, hsd⟩
        have hmem : ∀ n t v, memberTy E.T ty n = some t → fs.lookup n = some v → CTable.WT E.T u t v :=
          fun n t v h1 h2 => wt_member hwt h1 h2
        have hr : ∀ w ∈ ss ++ cs, WrOk ⟨E, some cls, self, run E self fuel, fuel⟩ cls prog am delta fs ty w := by
          intro w hw
          have := hok w hw
          obtain ⟨f1, rfl⟩ : ∃ f1, fuel = f1 + 1 := ⟨fuel - 1, by omega⟩
          cases w with
          | elem _ _ _ => exact this
          | attr _ _ _ => exact this
          | elemEnum _ _ | attrEnum _ _ =>
            obtain ⟨h1, e, val, h2, h3, h4⟩ := this
            exact ⟨h1, e, val, h2, h3, h4 _ _ _⟩
          | child n ty' =>
            refine ⟨this.1, this.2, fun v hl => ih v ty' _ ?_ (hmem n _ v this.2 hl)⟩
            have := nestingFields_lookup hl
            omega
          | vector n ty' =>
            refine ⟨this.1, this.2.1, this.2.2.1, this.2.2.2, fun l hl v hv => ih v ty' _ ?_ ?_⟩
            · have h1 := nestingFields_lookup hl
              have h2 : nesting v ≤ nestingVals l := nestingVals_mem hv
              rw [nesting] at h1
              omega
            · cases hmem n _ _ this.2.2.1 hl with
              | vec h => exact h v hv
          | fixme _ | warn _ => trivial
        have h1 := wr_body (files := s.files) (out := s.out) (dd := dd) hC hty hform hr (fun n t v h1 h2 => ⟨u, hmem n t v h1 h2⟩) hq hdoc hnode hdl
        have hbind := bind_two (files := s.files) (out := s.out) (m := s.mem) (q := q) hty hs hload
        rw [hcall]
        obtain ⟨m0, vs0, files, out⟩ := s
        show Sim (emits E.T E.L prog delta ty (if dd then (E.T.dflt ty).fields else []) fs (ss ++ cs) ⟨[], []⟩) _ _
        cases hx : emits E.T E.L prog delta ty (if dd then (E.T.dflt ty).fields else []) fs (ss ++ cs) ⟨[], []⟩ with
        | stuck => trivial
        | ub =>
          rw [hx] at h1
          exact invoke_ub hbind h1
        | ok el =>
          rw [hx] at h1
          obtain ⟨m', vs', l, h2, h3, h4⟩ := h1
          show invoke _ _ _ _ = _
          rw [invoke_ok (f := wrFun cls ty (wrBody k ty dd ch ss cs)) rfl (u := .prim .bool) rfl hbind h2 (initFrom_load (load_lv (peek_var h3) rfl))]
          simp only [h4]
    | _ => trivial

end
end Stfx.Cpp
