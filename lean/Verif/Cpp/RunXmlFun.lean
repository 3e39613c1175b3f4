import Verif.Cpp.RunXml
import Verif.Run.Depth
/-
The generated XML reader functions, run as C++ code.
-/
set_option autoImplicit false
set_option linter.unusedSimpArgs false
namespace Stfx.Cpp
open Stfx.Run Stfx.Parser Stfx.Items Stfx.Gen

section
variable {c : Str} {m : List V} {vs : List (Str × Var)} {ac : Nat} {p : Place} {fs : List (Str × Val)} {d : Nat}
  {ks : List Node} {path : List Nat} {nm : Str} {as : List (Str × Str)} {kids : List Node} {ae ad : Nat}
  {E : Env} {cls : Str} {C : Ctx} {files : List FileSt} {out : List (Str × Saved)}

/-! ### Functions -/

/-- One statement of the model. -/
theorem rd_step (hb : 32 ≤ E.T.longBits) (hv : RdView c m vs ac p fs d ks path nm as kids ae ad) (hC : RdCtx E cls C) {prog : List Item} {r : Rd}
    (hr : RdOk C cls prog kids c r) (hch : r.usesCh = true → vs.lookup c!"ch_el" = some ⟨.ptr .xmlEl, ⟨ac, []⟩⟩ ∧ ac < m.length) :
    Sim (rdStep E.T E.L c as (rdKids E.T E.L prog kids) fs r) (execs C (rdTree r) ⟨m, vs, files, out⟩)
      fun fs' x => ∃ m', x = .ok .next ⟨m', vs, files, out⟩ ∧ Upd ac p m fs' m' := by
  cases hn : r.member with
  | none =>
    have h1 : rdStep E.T E.L c as (rdKids E.T E.L prog kids) fs r = .ok fs := by simp [rdStep, hn]
    have h2 : rdTree r = [] := by cases r <;> first | rfl | cases hn
    rw [h1, h2]
    refine ⟨m, rfl, ?_⟩
    have h := Upd.rfl (ac := ac) (p := p) (m := m) (fs' := fs)
    rwa [setAt_self hv.mObj] at h
  | some n =>
    have h1 : rdStep E.T E.L c as (rdKids E.T E.L prog kids) fs r = modifyField n (rdAct E.T E.L c as (rdKids E.T E.L prog kids) r) fs := by
      simp [rdStep, hn]
    rw [h1]
    cases ho : fs.lookup n with
    | none => rw [modifyField_none ho]; trivial
    | some old =>
      rw [modifyField_eq ho]
      have h2 := rd_act (files := files) (out := out) hb hv hC hr hch hn ho
      exact h2.bind (fun v _ h => h) id

/-- Statements of the model. -/
theorem rd_steps (hb : 32 ≤ E.T.longBits) (hv : RdView c m vs ac p fs d ks path nm as kids ae ad) (hC : RdCtx E cls C) {prog : List Item} (rs : List Rd)
    (hr : ∀ r ∈ rs, RdOk C cls prog kids c r)
    (hch : ∀ r ∈ rs, r.usesCh = true → vs.lookup c!"ch_el" = some ⟨.ptr .xmlEl, ⟨ac, []⟩⟩ ∧ ac < m.length) :
    Sim (rs.foldlM (rdStep E.T E.L c as (rdKids E.T E.L prog kids)) fs) (execs C (rs.flatMap rdTree) ⟨m, vs, files, out⟩)
      fun fs' x => ∃ m', x = .ok .next ⟨m', vs, files, out⟩ ∧ Upd ac p m fs' m' := by
  induction rs generalizing m fs with
  | nil =>
    refine ⟨m, rfl, ?_⟩
    have h := Upd.rfl (ac := ac) (p := p) (m := m) (fs' := fs)
    rwa [setAt_self hv.mObj] at h
  | cons r rs ih =>
    rw [List.foldlM_cons, List.flatMap_cons]
    refine (rd_step (files := files) (out := out) hb hv hC (hr r (by simp)) (hch r (by simp))).bind (fun fs' _ h => ?_) execs_append_ub
    obtain ⟨m', h1, h2⟩ := h
    rw [execs_append h1]
    refine (ih (hv.upd h2) (fun r h => hr r (by simp [h])) (fun r h hu => ?_)).mono fun fs'' h => ?_
    · rw [h2.1]; exact hch r (by simp [h]) hu
    · obtain ⟨m'', h3, h4⟩ := h
      exact ⟨m'', h3, h2.trans h4 hv.neP hv.mObj⟩

theorem Upd.take {m0 t m' : List V} {fs' : List (Str × Val)} (h : Upd ac p (m0 ++ t) fs' m') (ha : m0.length ≤ ac) (hp : p.addr < m0.length) :
    m'.take m0.length = setAt m0 p (.struct fs') := by
  apply List.ext_getElem?
  intro b
  rw [List.getElem?_take]
  split
  · rw [h.2 b (by omega), setAt_append hp, List.getElem?_append_left (by simpa using ‹_›)]
  · rw [List.getElem?_eq_none]
    simp; omega

/-- In a second form of the function, `ch_el` is declared before the last statements. -/
theorem RdView.push (hv : RdView c m vs ac p fs d ks path nm as kids ae ad) {x : V} {t : CTy} {l : Nat} :
    RdView c (m ++ [x]) ((c!"ch_el", ⟨t, ⟨l, []⟩⟩) :: vs) ac p fs d ks path nm as kids ae ad := by
  have hp := fun {a : Nat} {v : V} (h : m[a]? = some v) => show (m ++ [x])[a]? = some v by
    rw [List.getElem?_append_left (List.getElem?_eq_some_iff.1 h).1, h]
  exact { hv with
    vEl := by rw [lookup_cons_ne (by decide), hv.vEl]
    vData := by rw [lookup_cons_ne (by decide), hv.vData]
    mEl := hp hv.mEl
    mData := hp hv.mData
    mObj := getAt_append hv.mObj
    mDoc := hp hv.mDoc
    clear := fun n h => by
      rw [lookup_cons_ne (fun e => h (by simp [e])), hv.clear n h] }

/-- Where `ch_el` is used it is declared.  (Proof notion, models no code.) -/
def RdForm (k : Kind) (ch : Bool) (ss cs : List Rd) : Prop :=
  k = .xml ∨ (∀ r ∈ ss, r.usesCh = false) ∧ (ch = true ∨ ∀ r ∈ cs, r.usesCh = false)

/-- `tinyxml2::XMLElement* ch_el;` -/
theorem execs_chDecl {r : List Stmt} : execs C (attrib83_tree ++ r) ⟨m, vs, files, out⟩ =
    execs C r ⟨m ++ [.val .undef], (c!"ch_el", ⟨.ptr .xmlEl, ⟨m.length, []⟩⟩) :: vs, files, out⟩ := by
  show execs C (_ :: r) _ = _
  rw [execs_cons (exec_decl (u := .ptr .xmlEl) rfl)]
  rfl

/-- `bool rv = true;` -/
theorem execs_rvDecl {r : List Stmt} : execs C (xml225_tree ++ r) ⟨m, vs, files, out⟩ =
    execs C r ⟨m ++ [.val (.bool true)], (c!"rv", ⟨.prim .bool, ⟨m.length, []⟩⟩) :: vs, files, out⟩ := by
  show execs C (_ :: r) _ = _
  rw [execs_cons (exec_declInit (u := .prim .bool) (x := .rv (.prim .bool) (.val (.bool true))) (v := .val (.bool true)) rfl (by rw [eval]; rfl) (initFrom_load rfl))]

/-- The statements after the declarations, then `return rv;`. -/
theorem rd_ret (hb : 32 ≤ E.T.longBits) (hv : RdView c m vs ac p fs d ks path nm as kids ae ad) (hC : RdCtx E cls C) {prog : List Item} {rs : List Rd}
    (hr : ∀ r ∈ rs, RdOk C cls prog kids c r)
    (hch : ∀ r ∈ rs, r.usesCh = true → vs.lookup c!"ch_el" = some ⟨.ptr .xmlEl, ⟨ac, []⟩⟩ ∧ ac < m.length)
    {m0 t : List V} (hm : m = m0 ++ t) (ha : m0.length ≤ ac) (hp : p.addr < m0.length) {l : Nat}
    (hrv : vs.lookup c!"rv" = some ⟨.prim .bool, ⟨l, []⟩⟩) (hl : m[l]? = some (.val (.bool true))) (hla : l ≠ ac) (hlp : p.addr ≠ l) :
    Sim (rs.foldlM (rdStep E.T E.L c as (rdKids E.T E.L prog kids)) fs) (execs C (rs.flatMap rdTree ++ retRv) ⟨m, vs, files, out⟩)
      fun fs' x => ∃ m' vs' l, x = .ok (.ret (.lv (.prim .bool) ⟨l, []⟩)) ⟨m', vs', files, out⟩ ∧
        m'[l]? = some (.val (.bool true)) ∧ m'.take m0.length = setAt m0 p (.struct fs') := by
  have h := rd_steps (files := files) (out := out) hb hv hC rs hr hch
  cases hx : (rs.foldlM (rdStep E.T E.L c as (rdKids E.T E.L prog kids)) fs : R _) with
  | stuck => trivial
  | ub =>
    rw [hx] at h
    exact execs_append_ub h
  | ok fs' =>
    rw [hx] at h
    obtain ⟨m', h1, h2⟩ := h
    refine ⟨m', vs, l, ?_, ?_, (hm ▸ h2).take ha hp⟩
    · rw [execs_append h1, execs_retRv hrv]
    · rw [h2.other hla hlp, hl]

/-- The body of a reader function. -/
theorem rd_body (hb : 32 ≤ E.T.longBits) (hC : RdCtx E cls C) {prog : List Item} {k : Kind} {ch : Bool} {ss cs : List Rd}
    (hf : RdForm k ch ss cs) (hr : ∀ r ∈ ss ++ cs, RdOk C cls prog kids c r) {m0 : List V}
    (hobj : getAt m0 p = some (.struct fs)) (hdoc : m0[d]? = some (.doc ks)) (hnode : nodeAt ks path = some (.elem nm as kids)) :
    Sim ((ss ++ cs).foldlM (rdStep E.T E.L c as (rdKids E.T E.L prog kids)) fs)
      (execs C (rdBody k ch ss cs) ⟨m0 ++ [.el d path, .ptr p],
        [(c!"data", ⟨.ptr (.struct c), ⟨m0.length + 1, []⟩⟩), (c!"el", ⟨.ptr .xmlEl, ⟨m0.length, []⟩⟩)], files, out⟩)
      fun fs' x => ∃ m' vs' l, x = .ok (.ret (.lv (.prim .bool) ⟨l, []⟩)) ⟨m', vs', files, out⟩ ∧
        m'[l]? = some (.val (.bool true)) ∧ m'.take m0.length = setAt m0 p (.struct fs') := by
  have hplt := getAt_lt hobj
  have hdlt := (List.getElem?_eq_some_iff.1 hdoc).1
  obtain ⟨w, hw, _⟩ := getAt_inv hobj
  have hpd : p.addr ≠ d := fun e => by rw [e, hdoc] at hw; cases hw
  have hap := fun (t : List V) {a : Nat} {v : V} (h : m0[a]? = some v) => show (m0 ++ t)[a]? = some v by
    rw [List.getElem?_append_left (List.getElem?_eq_some_iff.1 h).1, h]
  by_cases hk : k = .xml
  · subst hk
    have hbody : rdBody .xml ch ss cs = attrib83_tree ++ (xml225_tree ++ ((ss ++ cs).flatMap rdTree ++ retRv)) := by
      simp [rdBody, chDecl]
    rw [hbody, execs_chDecl, execs_rvDecl]
    have hv : RdView c (m0 ++ [.el d path, .ptr p] ++ [.val .undef] ++ [.val (.bool true)])
        [(c!"rv", ⟨.prim .bool, ⟨m0.length + 3, []⟩⟩), (c!"ch_el", ⟨.ptr .xmlEl, ⟨m0.length + 2, []⟩⟩),
          (c!"data", ⟨.ptr (.struct c), ⟨m0.length + 1, []⟩⟩), (c!"el", ⟨.ptr .xmlEl, ⟨m0.length, []⟩⟩)] (m0.length + 2) p fs d ks path nm as kids
        m0.length (m0.length + 1) :=
      { vEl := by simp [List.lookup], vData := by simp [List.lookup]
        mEl := by simp, mData := by simp
        mObj := by simp only [List.append_assoc]; exact getAt_append hobj
        mDoc := by simp only [List.append_assoc]; exact hap _ hdoc
        node := hnode, neE := by omega, neA := by omega, neD := by omega, neP := by omega
        clear := fun n h => by
          simp only [List.mem_cons, List.not_mem_nil, or_false, not_or] at h
          rw [lookup_cons_ne h.2.2.2, lookup_cons_ne h.2.2.1, lookup_cons_ne h.2.1, lookup_cons_ne h.1]
          rfl }
    simp only [List.length_append, List.length_cons, List.length_nil, Nat.zero_add]
    exact rd_ret (m0 := m0) (t := [.el d path, .ptr p, .val .undef, .val (.bool true)]) (l := m0.length + 3) hb hv hC hr
      (fun r _ _ => ⟨by simp [List.lookup], by simp⟩) (by simp) (by omega) hplt (by simp [List.lookup]) (by simp) (by omega) (by omega)
  · have hss : ∀ r ∈ ss, r.usesCh = false := by
      rcases hf with h | h
      · exact absurd h hk
      · exact h.1
    have hcs : ch = true ∨ ∀ r ∈ cs, r.usesCh = false := by
      rcases hf with h | h
      · exact absurd h hk
      · exact h.2
    have hv : RdView c (m0 ++ [.el d path, .ptr p] ++ [.val (.bool true)])
        [(c!"rv", ⟨.prim .bool, ⟨m0.length + 2, []⟩⟩),
          (c!"data", ⟨.ptr (.struct c), ⟨m0.length + 1, []⟩⟩), (c!"el", ⟨.ptr .xmlEl, ⟨m0.length, []⟩⟩)] (m0.length + 3) p fs d ks path nm as kids
        m0.length (m0.length + 1) :=
      { vEl := by simp [List.lookup], vData := by simp [List.lookup]
        mEl := by simp, mData := by simp
        mObj := by simp only [List.append_assoc]; exact getAt_append hobj
        mDoc := by simp only [List.append_assoc]; exact hap _ hdoc
        node := hnode, neE := by omega, neA := by omega, neD := by omega, neP := by omega
        clear := fun n h => by
          simp only [List.mem_cons, List.not_mem_nil, or_false, not_or] at h
          rw [lookup_cons_ne h.2.2.2, lookup_cons_ne h.2.1, lookup_cons_ne h.1]
          rfl }
    cases ch with
    | false =>
      have hbody : rdBody k false ss cs = xml225_tree ++ ((ss ++ cs).flatMap rdTree ++ retRv) := by
        simp [rdBody, chDecl, hk]
      rw [hbody, execs_rvDecl]
      simp only [List.length_append, List.length_cons, List.length_nil, Nat.zero_add]
      refine rd_ret (m0 := m0) (t := [.el d path, .ptr p, .val (.bool true)]) (l := m0.length + 2) hb hv hC hr
        (fun r hr hu => ?_) (by simp) (by omega) hplt (by simp [List.lookup]) (by simp) (by omega) (by omega)
      have : r.usesCh = false := by
        rcases List.mem_append.1 hr with h | h
        · exact hss r h
        · exact (hcs.resolve_left (by simp)) r h
      rw [this] at hu; cases hu
    | true =>
      have hbody : rdBody k true ss cs = xml225_tree ++ (ss.flatMap rdTree ++ (attrib83_tree ++ (cs.flatMap rdTree ++ retRv))) := by
        simp [rdBody, chDecl, hk]
      rw [hbody, execs_rvDecl, List.foldlM_append]
      simp only [List.length_append, List.length_cons, List.length_nil, Nat.zero_add]
      refine (rd_steps (files := files) (out := out) hb hv hC ss (fun r h => hr r (by simp [h])) (fun r h hu => by rw [hss r h] at hu; cases hu)).bind
        (fun fs' _ h => ?_) execs_append_ub
      obtain ⟨m', h1, h2⟩ := h
      rw [execs_append h1, execs_chDecl]
      have hl : m'.length = m0.length + 3 := by rw [h2.1]; simp
      have h3 : m'.take m0.length = setAt m0 p (.struct fs') := by
        rw [List.append_assoc] at h2
        exact h2.take (by omega) hplt
      have h4 : m'.take m0.length ++ m'.drop m0.length = m' := List.take_append_drop _ _
      have h5 : (m'.take m0.length).length = m0.length := by simp [hl]
      have h6 : setAt (m'.take m0.length) p = fun x => setAt m0 p x := by
        funext x; rw [h3, setAt_setAt hobj]
      have h7 := rd_ret (files := files) (out := out) (m0 := m'.take m0.length) (t := m'.drop m0.length ++ [.val .undef]) (l := m0.length + 2) (rs := cs) (prog := prog) hb
        ((hv.upd h2).push (x := .val .undef) (t := .ptr .xmlEl) (l := m0.length + 3)) hC (fun r h => hr r (by simp [h]))
        (fun r _ _ => ⟨by simp [List.lookup], by simp [hl]⟩) (by rw [← List.append_assoc, h4]) (by omega) (by omega) (by simp [List.lookup])
        (by rw [List.getElem?_append_left (by omega), h2.other (by omega) (by omega)]; simp) (by omega) (by omega)
      rw [h5, h6] at h7
      rw [hl]
      exact h7

/-! ### Calls -/

/-- The statement fits the class `c`.  (Proof notion, models no code.) -/
def RdTyped (E : Env) (cls c : Str) : Rd → Prop
  | .elem ty n | .attr ty n => cStr n = n ∧ memberTy E.T c n = some (.simple ty)
  | .elemEnum n | .attrEnum n => cStr n = n ∧ ∃ e val, memberTy E.T c n = some (.enum e.name) ∧ E.T.enm e.name = some (e, val) ∧
      ∀ self fuel k, ToCall ⟨E, some cls, self, run E self (fuel + 1), k⟩ e val
  | .child n ty => cStr n = n ∧ memberTy E.T c n = some (.struct ty)
  | .vector n ty => cStr n = n ∧ memberTy E.T c n = some (.vec ty) ∧ StructName E cls ty
  | .fixme _ | .warn _ => True

/-- A program with the reader functions of the pieces `prog` in the class `cls`.  (Proof notion, models no code.) -/
structure RdProgram (E : Env) (cls : Str) (prog : List Item) : Prop where
  stfx : cls ≠ c!"stfx"
  findM : methods E (some cls) c!"find_element" = []
  findC : E.T.cls c!"find_element" = none
  findE : E.T.enm c!"find_element" = none
  bits : 32 ≤ E.T.longBits
  funs : ∀ c body, Run.rdBody prog c = some body → StructName E cls c ∧ ∃ k ch ss cs, body = ss ++ cs ∧ RdForm k ch ss cs ∧
    methods E (some cls) (c!"do_" ++ c) = [rdFun cls c (rdBody k ch ss cs)] ∧ ∀ r ∈ ss ++ cs, RdTyped E cls c r

theorem depth_kid {k : Node} {k' : Node} (h : k' ∈ k.kids) : depth k' < depth k := by
  cases k with
  | elem n as ks =>
    have := depthKids_le.1 (Nat.le_refl (depthKids ks)) k' h
    rw [depth]
    omega
  | _ => cases h

/-- The parameters of a reader or writer function.  (Proof notion, models no code.) -/
def twoParams (c : Str) : List (Ty × Str) := [(.ptr (.name [c!"tinyxml2", c!"XMLElement"]), c!"el"), (.ptr (.name [c]), c!"data")]

theorem StructName.ptr {ty : Str} (h : StructName E cls ty) {vars : List (Str × Var)} (hv : vars.lookup ty = none) :
    Cpp.tyOf E (some cls) vars (.ptr (.name [ty])) = some (.ptr (.struct ty)) := by
  show (match Cpp.tyOf E (some cls) vars (.name [ty]) with | some t => some (CTy.ptr t) | none => none) = _
  rw [h.tyOf hv]

theorem fits_self {a : EV} {t : CTy} (h : a.ty = some t) : argFits false t a = true := by
  cases a with
  | lst _ => cases h
  | lv _ _ => cases h; simp [argFits, convertible]
  | rv _ _ => cases h; simp [argFits, convertible]

/-- A call of a reader or writer function. -/
theorem call_two {ty n : Str} {body : List Stmt} {self : List (Str × Var)} {fuel fu : Nat} {a : EV} {q : Place} {s : St}
    (hty : StructName E cls ty) (hs : ∀ n, n ≠ c!"m_delta_only" → self.lookup n = none)
    (hc : cls ≠ c!"stfx") (hm : methods E (some cls) n = [⟨some (.prim .bool), [cls, n], twoParams ty, none, body⟩])
    (hv : s.vars.lookup n = none) (hn : self.lookup n = none) (ha : a.ty = some (.ptr .xmlEl)) :
    callId ⟨E, some cls, self, run E self (fuel + 1), fu⟩ [n] [a, .rv (.ptr (.struct ty)) (.ptr q)] s =
      invoke ⟨E, some cls, self, run E self fuel, fuel⟩ ⟨some (.prim .bool), [cls, n], twoParams ty, none, body⟩
        [a, .rv (.ptr (.struct ty)) (.ptr q)] s := by
  have hst : self.lookup ty = none := hs _ (fun h => hty.clear (by simp [h]))
  have hel : ty ≠ c!"el" := fun h => hty.clear (by simp [h])
  have hvi : viable E (some cls) self (twoParams ty) [a, .rv (.ptr (.struct ty)) (.ptr q)] = true := by
    have h1 : tyOf E (some cls) self (.ptr (.name [c!"tinyxml2", c!"XMLElement"])) = some (.ptr .xmlEl) := rfl
    have h2 : tyOf E (some cls) ((c!"el", ⟨.ptr .xmlEl, ⟨0, []⟩⟩) :: self) (.ptr (.name [ty])) = some (.ptr (.struct ty)) :=
      hty.ptr (by rw [lookup_cons_ne hel, hst])
    simp only [twoParams, viable, Ty.noRef, Ty.isRef, h1, h2, fits_self ha, fits_self (a := .rv (.ptr (.struct ty)) (.ptr q)) rfl, Bool.and_self]
  simp only [callId, M.bind_run, getVars_run, Res.ok_bind, hv, hn, hm, Option.isSome_none, Bool.or_self, Bool.false_eq_true, if_false, callOne,
    List.filter_cons, hvi, if_true, List.filter_nil]
  rw [run]
  simp only [hc, if_false]

/-- Its parameters. -/
theorem bind_two {ty : Str} {self : List (Str × Var)} {a : EV} {q : Place}
    (hty : StructName E cls ty) (hs : ∀ n, n ≠ c!"m_delta_only" → self.lookup n = none)
    {w : V} (hl : ∀ vars, load a ⟨m, vars, files, out⟩ = .ok (.ptr .xmlEl, w) ⟨m, vars, files, out⟩) :
    bindParams E (some cls) self (twoParams ty) [a, .rv (.ptr (.struct ty)) (.ptr q)] ⟨m, [], files, out⟩ =
      .ok () ⟨m ++ [w, .ptr q], [(c!"data", ⟨.ptr (.struct ty), ⟨m.length + 1, []⟩⟩), (c!"el", ⟨.ptr .xmlEl, ⟨m.length, []⟩⟩)], files, out⟩ := by
  have hst : self.lookup ty = none := hs _ (fun h => hty.clear (by simp [h]))
  have hel : ty ≠ c!"el" := fun h => hty.clear (by simp [h])
  rw [twoParams, bindParams_val rfl (u := .ptr .xmlEl) rfl (initFrom_load (hl [])),
    bindParams_val rfl (u := .ptr (.struct ty)) (hty.ptr (by rw [List.cons_append, lookup_cons_ne hel]; exact hst)) (initFrom_load rfl)]
  simp [bindParams]

/-- The readers read what the model reads. -/
theorem rd_call {prog : List Item} (hp : RdProgram E cls prog) {self : List (Str × Var)} (hs : ∀ n, n ≠ c!"m_delta_only" → self.lookup n = none)
    (fuel : Nat) : ∀ (k : Node) (ty : Str) (fu : Nat), depth k < fuel → RdCall ⟨E, some cls, self, run E self fuel, fu⟩ prog ty k := by
  induction fuel with
  | zero => intro k ty fu h; omega
  | succ fuel ih =>
    intro k ty fu hd s a d path ks q old ha hload hdoc hnode hq hvar
    cases k with
    | elem nm as kids =>
      show Sim (runRd E.T E.L prog as (rdKids E.T E.L prog kids) ty old) _ _
      have hfuel : 1 ≤ fuel := by rw [depth] at hd; omega
      have hkd : depthKids kids < fuel := by rw [depth] at hd; omega
      cases old with
      | struct fs =>
        rw [runRd]
        cases hbd : Run.rdBody prog ty with
        | none => trivial
        | some body =>
          obtain ⟨hty, k, ch, ss, cs, rfl, hform, hm, hok⟩ := hp.funs ty body hbd
          have hcall : callId ⟨E, some cls, self, run E self (fuel + 1), fu⟩ [c!"do_" ++ ty] [a, .rv (.ptr (.struct ty)) (.ptr q)] s =
              invoke ⟨E, some cls, self, run E self fuel, fuel⟩ (rdFun cls ty (rdBody k ch ss cs)) [a, .rv (.ptr (.struct ty)) (.ptr q)] s :=
            call_two hty hs hp.stfx hm hvar (hs _ (do_ne (by simp))) ha
          have hC : RdCtx E cls ⟨E, some cls, self, run E self fuel, fuel⟩ := ⟨rfl, rfl, hs, hp.findM, hp.findC, hp.findE⟩
          have hr : ∀ r ∈ ss ++ cs, RdOk ⟨E, some cls, self, run E self fuel, fuel⟩ cls prog kids ty r := by
            intro r hr
            have := hok r hr
            obtain ⟨f1, rfl⟩ : ∃ f1, fuel = f1 + 1 := ⟨fuel - 1, by omega⟩
            cases r with
            | elem _ _ => exact this
            | attr _ _ => exact this
            | elemEnum _ | attrEnum _ =>
              obtain ⟨h1, e, val, h2, h3, h4⟩ := this
              exact ⟨h1, e, val, h2, h3, h4 _ _ _⟩
            | child n ty' =>
              refine ⟨this.1, this.2, fun k hk => ih k ty' _ ?_⟩
              have := depthKids_le.1 (Nat.le_refl (depthKids kids)) k hk
              omega
            | vector n ty' =>
              refine ⟨this.1, this.2.1, this.2.2, fun k hk k' hk' => ih k' ty' _ ?_⟩
              have := depthKids_le.1 (Nat.le_refl (depthKids kids)) k hk
              have := depth_kid hk'
              omega
            | fixme _ | warn _ => trivial
          have h1 := rd_body (files := s.files) (out := s.out) hp.bits hC hform hr hq hdoc hnode
          have hbind := bind_two (files := s.files) (out := s.out) (m := s.mem) (q := q) hty hs hload
          rw [hcall]
          obtain ⟨m0, vs0, files, out⟩ := s
          show Sim ((ss ++ cs).foldlM (rdStep E.T E.L ty as (rdKids E.T E.L prog kids)) fs >>= fun fs' => R.ok (Val.struct fs')) _ _
          refine h1.bind (fun fs' _ h => ?_) (fun h => invoke_ub hbind h)
          obtain ⟨m', vs', l, h2, h3, h4⟩ := h
          show invoke _ _ _ _ = _
          rw [invoke_ok (f := rdFun cls ty (rdBody k ch ss cs)) rfl (u := .prim .bool) rfl hbind h2 (initFrom_load (load_lv (peek_var h3) rfl))]
          simp only [h4]
      | _ => trivial
    | _ => trivial

/-! ### A document without elements -/

theorem eval_nullEl (hel : vs.lookup c!"el" = some ⟨.ptr .xmlEl, ⟨ae, []⟩⟩) (hae : m[ae]? = some .null) {f n : Str} {e : Expr} {t : CTy} {q : Place}
    (he : eval C e ⟨m, vs, files, out⟩ = .ok (.lv t q) ⟨m, vs, files, out⟩) :
    eval C (.call (.arrow (.id [c!"el"]) f) [.str n, .addr e]) ⟨m, vs, files, out⟩ = .ub := by
  simp [eval, evals, lookupId, hel, load, peek_var hae, V.isUndef, he, arrowCall, elemAt]

/-- A statement about a member, where there is no element. -/
theorem rd_null (hC : RdCtx E cls C) (hel : vs.lookup c!"el" = some ⟨.ptr .xmlEl, ⟨ae, []⟩⟩) (hae : m[ae]? = some .null)
    (hda : vs.lookup c!"data" = some ⟨.ptr (.struct c), ⟨ad, []⟩⟩) (had : m[ad]? = some (.ptr p))
    (hf : vs.lookup c!"find_element" = none) {r : Rd} (hr : r.member ≠ none)
    (ht : RdTyped E cls c r) : execs C (rdTree r) ⟨m, vs, files, out⟩ = .ub := by
  have find_ne : c!"find_element" ≠ c!"m_delta_only" := by decide
  have htf := hC.find vs
  have e1 : ∀ {n : Str} {ss : List Stmt}, cStr n = n → execs C (.expr (.assign (.id [c!"ch_el"]) (.call (.id [c!"find_element"]) [(.id [c!"el"]), (.str n)])) :: ss)
      ⟨m, vs, files, out⟩ = .ub := by
    intro n ss hn
    simp [execs, exec, eval, evals, lookupId, hel, callId, hf, hC.self _ find_ne, hC.cls_, hC.env, hC.findM, htf, load, peek_var hae, V.isUndef, cstrArg, hn,
      childPtr, elemAt]
  have e2 : ∀ {n : Str} {ss : List Stmt}, cStr n = n → execs C (.expr (.assign (.id [c!"ch_el"]) (.call (.arrow (.id [c!"el"]) c!"FirstChildElement") [(.str n)])) :: ss)
      ⟨m, vs, files, out⟩ = .ub := by
    intro n ss hn
    simp [execs, exec, eval, evals, lookupId, hel, arrowCall, load, peek_var hae, V.isUndef, cstrArg, hn, childPtr, elemAt]
  have e3 : ∀ {n : Str} {ty : SimpleTy}, memberTy E.T c n = some (.simple ty) → execs C (attrib37_tree n) ⟨m, vs, files, out⟩ = .ub := by
    intro n ty ht
    rw [attrib37_tree, execs_one, exec, M.bind_run, eval_nullEl hel hae (eval_data hC ht had hda)]
    rfl
  have hae' : (m ++ [V.val .undef])[ae]? = some .null := by
    rw [List.getElem?_append_left (List.getElem?_eq_some_iff.1 hae).1, hae]
  have e4 : ∀ {n x f : Str} {pt : Prim} {st : Stmt}, c!"el" ≠ x → execs C [.block [.decl (.prim pt) x none none,
      .expr (.call (.arrow (.id [c!"el"]) f) [.str n, .addr (.id [x])]), st]] ⟨m, vs, files, out⟩ = .ub := by
    intro n x f pt st hx
    have hi : initV C.E.T (.prim pt) = .val .undef := rfl
    rw [execs_one, exec, scope, execs_cons (exec_decl (u := .prim pt) tyOf_prim), hi, execs, M.bind_run, exec, M.bind_run,
      eval_nullEl (by rw [lookup_cons_ne hx, hel]) hae' eval_var]
    rfl
  have e5 : ∀ {n : Str} {st : Stmt}, execs C [.block [.decl (.ptr (.prim .char)) c!"pt" none none,
      .when (.bin .eq (.id [c!"tinyxml2", c!"XML_SUCCESS"]) (.call (.arrow (.id [c!"el"]) c!"QueryAttribute") [(.str n), (.addr (.id [c!"pt"]))])) st]]
        ⟨m, vs, files, out⟩ = .ub := by
    intro n st
    have hi : initV C.E.T (.ptr (.prim .char)) = .val .undef := rfl
    rw [execs_one, exec, scope, execs_cons (exec_decl (u := .ptr (.prim .char)) rfl), hi, execs_one]
    have h1 := eval_nullEl (C := C) (files := files) (out := out) (f := c!"QueryAttribute") (n := n) (e := .id [c!"pt"])
      (vs := (c!"pt", ⟨.ptr (.prim .char), ⟨m.length, []⟩⟩) :: vs) (by rw [lookup_cons_ne (by decide), hel]) hae' eval_var
    have h2 : ∀ e : Expr, ∀ s : St, eval C e s = .ub → exec C (.when (.bin .eq (.id [c!"tinyxml2", c!"XML_SUCCESS"]) e) st) s = .ub := by
      intro e s h
      simp [exec, eval, lookupId, h, load]
    rw [h2 _ _ h1]
  cases r with
  | fixme n => exact absurd rfl hr
  | warn n => exact absurd rfl hr
  | elem ty n => cases ty <;> exact e1 ht.1
  | elemEnum n => exact e1 ht.1
  | attr ty n =>
    cases ty
    case stdString => exact e5
    case short | long => exact e4 (by decide)
    case unsignedShort | unsignedLong => exact e4 (by decide)
    all_goals exact e3 ht.2
  | attrEnum n => exact e5
  | child n ty => exact e2 ht.1
  | vector n ty => exact e2 ht.1

/-- Statements, where there is no element. -/
theorem rd_nulls (hC : RdCtx E cls C) (hel : vs.lookup c!"el" = some ⟨.ptr .xmlEl, ⟨ae, []⟩⟩) (hae : m[ae]? = some .null)
    (hda : vs.lookup c!"data" = some ⟨.ptr (.struct c), ⟨ad, []⟩⟩) (had : m[ad]? = some (.ptr p))
    (hf : vs.lookup c!"find_element" = none) (rs : List Rd) (ht : ∀ r ∈ rs, RdTyped E cls c r) (ts : List Stmt) :
    execs C (rs.flatMap rdTree ++ ts) ⟨m, vs, files, out⟩ =
      if rs.all fun r => r.member = none then execs C ts ⟨m, vs, files, out⟩ else .ub := by
  induction rs with
  | nil => rfl
  | cons r rs ih =>
    rw [List.flatMap_cons, List.append_assoc]
    by_cases hm : r.member = none
    · have h2 : rdTree r = [] := by cases r <;> first | rfl | cases hm
      rw [h2, List.nil_append, ih fun r h => ht r (by simp [h])]
      simp [hm]
    · rw [execs_append_ub (rd_null hC hel hae hda had hf hm (ht r (by simp)))]
      simp [hm]

/-- `do_ty(nullptr, &x)` -/
theorem rd_callNull {prog : List Item} (hp : RdProgram E cls prog) {self : List (Str × Var)} (hs : ∀ n, n ≠ c!"m_delta_only" → self.lookup n = none)
    {ty : Str} {body : List Rd} (hbd : Run.rdBody prog ty = some body) {fuel fu : Nat} {s : St} {a : EV} {q : Place} (ha : a.ty = some (.ptr .xmlEl))
    (hl : ∀ vars, load a { s with vars := vars } = .ok (.ptr .xmlEl, .null) { s with vars := vars }) (hvar : s.vars.lookup (c!"do_" ++ ty) = none) :
    callId ⟨E, some cls, self, run E self (fuel + 1), fu⟩ [c!"do_" ++ ty] [a, .rv (.ptr (.struct ty)) (.ptr q)] s =
      if body.all fun r => r.member = none then .ok (.rv (.prim .bool) (.val (.bool true))) s else .ub := by
  obtain ⟨hty, k, ch, ss, cs, rfl, hform, hm, hok⟩ := hp.funs ty body hbd
  have hcall : callId ⟨E, some cls, self, run E self (fuel + 1), fu⟩ [c!"do_" ++ ty] [a, .rv (.ptr (.struct ty)) (.ptr q)] s =
      invoke ⟨E, some cls, self, run E self fuel, fuel⟩ (rdFun cls ty (rdBody k ch ss cs)) [a, .rv (.ptr (.struct ty)) (.ptr q)] s :=
    call_two hty hs hp.stfx hm hvar (hs _ (do_ne (by simp))) ha
  have hC : RdCtx E cls ⟨E, some cls, self, run E self fuel, fuel⟩ := ⟨rfl, rfl, hs, hp.findM, hp.findC, hp.findE⟩
  have hbind := bind_two (files := s.files) (out := s.out) (m := s.mem) (q := q) hty hs hl
  obtain ⟨m0, vs0, files, out⟩ := s
  rw [hcall]
  have hbody : ∃ t l vs', (m0 ++ t)[l]? = some (V.val (.bool true)) ∧
      execs ⟨E, some cls, self, run E self fuel, fuel⟩ (rdBody k ch ss cs)
      ⟨m0 ++ [.null, .ptr q], [(c!"data", ⟨.ptr (.struct ty), ⟨m0.length + 1, []⟩⟩), (c!"el", ⟨.ptr .xmlEl, ⟨m0.length, []⟩⟩)], files, out⟩ =
      if (ss ++ cs).all fun r => r.member = none then .ok (.ret (.lv (.prim .bool) ⟨l, []⟩)) ⟨m0 ++ t, vs', files, out⟩ else .ub := by
    by_cases hk : k = .xml
    · subst hk
      have hbody : rdBody .xml ch ss cs = attrib83_tree ++ (xml225_tree ++ ((ss ++ cs).flatMap rdTree ++ retRv)) := by
        simp [rdBody, chDecl]
      refine ⟨[.null, .ptr q, .val .undef, .val (.bool true)], m0.length + 3,
        [(c!"rv", ⟨.prim .bool, ⟨m0.length + 3, []⟩⟩), (c!"ch_el", ⟨.ptr .xmlEl, ⟨m0.length + 2, []⟩⟩),
          (c!"data", ⟨.ptr (.struct ty), ⟨m0.length + 1, []⟩⟩), (c!"el", ⟨.ptr .xmlEl, ⟨m0.length, []⟩⟩)], by simp, ?_⟩
      rw [hbody, execs_chDecl, execs_rvDecl]
      rw [rd_nulls hC (ae := m0.length) (ad := m0.length + 1) (p := q) (c := ty) (by simp [List.lookup]) (by simp) (by simp [List.lookup]) (by simp)
        (by simp [List.lookup]) _ hok, execs_retRv (x := ⟨.prim .bool, ⟨m0.length + 3, []⟩⟩) (by simp [List.lookup])]
      simp
    · cases ch with
      | false =>
        have hbody : rdBody k false ss cs = xml225_tree ++ ((ss ++ cs).flatMap rdTree ++ retRv) := by
          simp [rdBody, chDecl, hk]
        refine ⟨[.null, .ptr q, .val (.bool true)], m0.length + 2,
          [(c!"rv", ⟨.prim .bool, ⟨m0.length + 2, []⟩⟩),
            (c!"data", ⟨.ptr (.struct ty), ⟨m0.length + 1, []⟩⟩), (c!"el", ⟨.ptr .xmlEl, ⟨m0.length, []⟩⟩)], by simp, ?_⟩
        rw [hbody, execs_rvDecl]
        rw [rd_nulls hC (ae := m0.length) (ad := m0.length + 1) (p := q) (c := ty) (by simp [List.lookup]) (by simp) (by simp [List.lookup]) (by simp)
          (by simp [List.lookup]) _ hok, execs_retRv (x := ⟨.prim .bool, ⟨m0.length + 2, []⟩⟩) (by simp [List.lookup])]
        simp
      | true =>
        have hbody : rdBody k true ss cs = xml225_tree ++ (ss.flatMap rdTree ++ (attrib83_tree ++ (cs.flatMap rdTree ++ retRv))) := by
          simp [rdBody, chDecl, hk]
        refine ⟨[.null, .ptr q, .val (.bool true), .val .undef], m0.length + 2,
          [(c!"ch_el", ⟨.ptr .xmlEl, ⟨m0.length + 3, []⟩⟩), (c!"rv", ⟨.prim .bool, ⟨m0.length + 2, []⟩⟩),
            (c!"data", ⟨.ptr (.struct ty), ⟨m0.length + 1, []⟩⟩), (c!"el", ⟨.ptr .xmlEl, ⟨m0.length, []⟩⟩)], by simp, ?_⟩
        rw [hbody, execs_rvDecl]
        rw [rd_nulls hC (ae := m0.length) (ad := m0.length + 1) (p := q) (c := ty) (by simp [List.lookup]) (by simp) (by simp [List.lookup]) (by simp)
          (by simp [List.lookup]) _ (fun r h => hok r (by simp [h])), execs_chDecl,
          rd_nulls hC (ae := m0.length) (ad := m0.length + 1) (p := q) (c := ty) (by simp [List.lookup]) (by simp) (by simp [List.lookup]) (by simp)
          (by simp [List.lookup]) _ (fun r h => hok r (by simp [h])), execs_retRv (x := ⟨.prim .bool, ⟨m0.length + 2, []⟩⟩) (by simp [List.lookup]), List.all_append]
        cases ss.all fun r => r.member = none <;> simp
  obtain ⟨t, l, vs', h1, h2⟩ := hbody
  split
  · rw [if_pos ‹_›] at h2
    rw [invoke_ok (f := rdFun cls ty (rdBody k ch ss cs)) rfl (u := .prim .bool) rfl hbind h2 (initFrom_load (load_lv (peek_var h1) rfl))]
    simp
  · rw [if_neg ‹_›] at h2
    exact invoke_ub hbind h2

end
end Stfx.Cpp
