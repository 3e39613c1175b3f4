import Verif.Cpp.Eval
import Verif.Cpp.IniText
/-
Facts about the interpreter.
-/
set_option autoImplicit false
set_option linter.unusedSimpArgs false
namespace Stfx.Cpp
open Stfx.Run Stfx.Parser Stfx.Items

/-! ### Variables -/

theorem lookup_cons_ne {α : Type} {n k : Str} {v : α} {l : List (Str × α)} (h : n ≠ k) : ((k, v) :: l).lookup n = l.lookup n := by
  rw [List.lookup_cons, (beq_eq_false_iff_ne (a := n) (b := k)).2 h]

theorem lookup_cons_eq {α : Type} {n : Str} {v : α} {l : List (Str × α)} : ((n, v) :: l).lookup n = some v := by
  rw [List.lookup_cons, beq_self_eq_true]

theorem lookup_append {α : Type} {n : Str} {l k : List (Str × α)} : (l ++ k).lookup n = (l.lookup n).or (k.lookup n) := by
  induction l with
  | nil => rfl
  | cons p l ih =>
    obtain ⟨m, v⟩ := p
    rw [List.cons_append, List.lookup_cons, List.lookup_cons]
    cases (n == m) <;> simp [ih]

theorem lookupId_var {C : Ctx} {n : Str} {x : Var} {s : St} (h : s.vars.lookup n = some x) :
    lookupId C [n] s = .ok (.lv x.ty x.at_) s := by
  simp [lookupId, h]

theorem tyOf_name {E : Env} {cls : Option Str} {vars : List (Str × Var)} {n : Str} (h : hidden E cls vars n = false)
    (hn : n ∉ E.nested) : tyOf E cls vars (.name [n]) =
      if (E.T.cls n).isSome then some (.struct n) else if (E.T.enm n).isSome then some (.enum n)
      else if n = c!"size_t" then some (.prim .ulong) else none := by
  simp [tyOf, h, hn]

/-! ### Objects -/

theorem peek_var {m : List V} {vars : List (Str × Var)} {files : List FileSt} {out : List (Str × Saved)} {a : Nat} {v : V}
    (h : m[a]? = some v) : peek ⟨a, []⟩ ⟨m, vars, files, out⟩ = .ok v ⟨m, vars, files, out⟩ := by
  simp [peek, h]

theorem poke_var {m : List V} {vars : List (Str × Var)} {files : List FileSt} {out : List (Str × Saved)} {a : Nat} {v : V}
    (h : a < m.length) : poke ⟨a, []⟩ v ⟨m, vars, files, out⟩ = .ok () ⟨m.set a v, vars, files, out⟩ := by
  simp [poke, List.getElem?_eq_getElem h]

theorem load_lv {t : CTy} {p : Place} {v : V} {s : St} (h : peek p s = .ok v s) (hv : v.isUndef = false) :
    load (.lv t p) s = .ok (t, v) s := by
  simp [load, h, hv]

@[simp] theorem load_rv {t : CTy} {v : V} {s : St} : load (.rv t v) s = .ok (t, v) s := rfl

theorem coerce_self {t : CTy} {v : V} : coerce t v t = some v := by simp [coerce]

/-! ### Parts of objects -/

theorem vSet_some {v w x : Val} {p : List Str} (h : vGet v p = some w) : ∃ v', vSet v p x = some v' := by
  induction p generalizing v with
  | nil => exact ⟨x, by cases v <;> rfl⟩
  | cons n p ih =>
    cases v with
    | struct fs =>
      rw [vGet] at h
      cases hl : fs.lookup n with
      | none => rw [hl] at h; cases h
      | some u =>
        rw [hl] at h
        obtain ⟨v', hv⟩ := ih h
        exact ⟨.struct (setField n v' fs), by rw [vSet, hl]; simp only [hv]⟩
    | _ => simp [vGet] at h

theorem lookup_setField {n m : Str} {v : Val} {fs : List (Str × Val)} :
    (setField n v fs).lookup m = if m = n then (fs.lookup n).map fun _ => v else fs.lookup m := by
  induction fs with
  | nil => simp [setField]
  | cons f fs ih =>
    obtain ⟨k, w⟩ := f
    unfold setField
    by_cases hk : k = n
    · subst hk
      by_cases hm : m = k
      · subst hm; simp [lookup_cons_eq]
      · simp [lookup_cons_ne hm, hm]
    · rw [if_neg hk]
      by_cases hm : m = k
      · subst hm
        rw [if_neg hk, lookup_cons_eq, lookup_cons_eq]
      · rw [lookup_cons_ne hm, ih, lookup_cons_ne hm]
        by_cases hmn : m = n
        · subst hmn; simp [lookup_cons_ne hm]
        · simp [hmn]

theorem setField_setField {n : Str} {v w : Val} {fs : List (Str × Val)} : setField n w (setField n v fs) = setField n w fs := by
  induction fs with
  | nil => rfl
  | cons f fs ih =>
    obtain ⟨k, u⟩ := f
    by_cases hk : k = n
    · simp [setField, hk]
    · simp [setField, hk, ih]

theorem vGet_vSet {v v' w x : Val} {p : List Str} (h : vGet v p = some w) (hs : vSet v p x = some v') : vGet v' p = some x := by
  induction p generalizing v v' with
  | nil =>
    have : v' = x := by cases v <;> (injection hs with hs; exact hs.symm)
    rw [this]; cases x <;> rfl
  | cons n p ih =>
    cases v with
    | struct fs =>
      rw [vGet] at h
      rw [vSet] at hs
      cases hl : fs.lookup n with
      | none => rw [hl] at h; cases h
      | some u =>
        rw [hl] at h hs
        simp only at h hs
        obtain ⟨u', hu⟩ := vSet_some (x := x) h
        rw [hu] at hs
        injection hs with hs
        subst hs
        rw [vGet, lookup_setField, if_pos rfl, hl]
        exact ih h hu
    | _ => simp [vGet] at h

theorem vSet_vSet {v v' w x y : Val} {p : List Str} (h : vGet v p = some w) (hs : vSet v p x = some v') :
    vSet v' p y = vSet v p y := by
  induction p generalizing v v' with
  | nil => cases v <;> cases v' <;> rfl
  | cons n p ih =>
    cases v with
    | struct fs =>
      rw [vGet] at h
      rw [vSet] at hs
      cases hl : fs.lookup n with
      | none => rw [hl] at h; cases h
      | some u =>
        rw [hl] at h hs
        simp only at h hs
        obtain ⟨u', hu⟩ := vSet_some (x := x) h
        rw [hu] at hs
        injection hs with hs
        subst hs
        rw [vSet, vSet, lookup_setField, if_pos rfl, hl]
        simp only [Option.map_some]
        rw [ih h hu]
        cases vSet u p y with
        | none => rfl
        | some z => simp only [setField_setField]
    | _ => simp [vGet] at h

theorem vGet_member {v : Val} {p : List Str} {n : Str} {fs : List (Str × Val)} (h : vGet v p = some (.struct fs)) :
    vGet v (p ++ [n]) = fs.lookup n := by
  induction p generalizing v with
  | nil =>
    have : v = .struct fs := by cases v <;> (injection h)
    subst this
    rw [List.nil_append, vGet]
    cases fs.lookup n with
    | none => rfl
    | some u => cases u <;> rfl
  | cons m p ih =>
    cases v with
    | struct gs =>
      rw [vGet] at h
      rw [List.cons_append, vGet]
      cases hl : gs.lookup m with
      | none => rw [hl] at h; cases h
      | some u => rw [hl] at h; exact ih h
    | _ => simp [vGet] at h

theorem vSet_member {v : Val} {p : List Str} {n : Str} {fs : List (Str × Val)} {o x : Val} (h : vGet v p = some (.struct fs))
    (hn : fs.lookup n = some o) : vSet v (p ++ [n]) x = vSet v p (.struct (setField n x fs)) := by
  induction p generalizing v with
  | nil =>
    have : v = .struct fs := by cases v <;> (injection h)
    subst this
    rw [List.nil_append]
    show vSet _ _ _ = some _
    have : vSet o [] x = some x := by cases o <;> rfl
    simp [vSet, hn, this]
  | cons m p ih =>
    cases v with
    | struct gs =>
      rw [vGet] at h
      rw [List.cons_append, vSet, vSet]
      cases hl : gs.lookup m with
      | none => rfl
      | some u =>
        rw [hl] at h
        simp only [ih h]
    | _ => simp [vGet] at h

/-- The object at a place.  (Proof notion, models no code.) -/
def getAt (m : List V) (p : Place) : Option Val :=
  match m[p.addr]? with
  | some (.val w) => vGet w p.path
  | _ => none

/-- Replace the object at a place.  (Proof notion, models no code.) -/
def setAt (m : List V) (p : Place) (x : Val) : List V :=
  match m[p.addr]? with
  | some (.val w) => match vSet w p.path x with
    | some w' => m.set p.addr (.val w')
    | none => m
  | _ => m

theorem getAt_inv {m : List V} {p : Place} {v : Val} (h : getAt m p = some v) :
    ∃ w, m[p.addr]? = some (.val w) ∧ vGet w p.path = some v := by
  unfold getAt at h
  split at h
  · exact ⟨_, by assumption, h⟩
  · cases h

theorem setAt_eq {m : List V} {p : Place} {w w' x : Val} (h : m[p.addr]? = some (.val w)) (hs : vSet w p.path x = some w') :
    setAt m p x = m.set p.addr (.val w') := by
  unfold setAt
  simp only [h, hs]

theorem peek_at {m : List V} {p : Place} {v : Val} {vars : List (Str × Var)} {files : List FileSt} {out : List (Str × Saved)}
    (h : getAt m p = some v) : peek p ⟨m, vars, files, out⟩ = .ok (.val v) ⟨m, vars, files, out⟩ := by
  obtain ⟨w, h1, h2⟩ := getAt_inv h
  obtain ⟨a, q⟩ := p
  cases q with
  | nil =>
    have : w = v := by cases w <;> (injection h2)
    subst this
    simp only at h1
    simp [peek, h1]
  | cons n q =>
    simp only at h1 h2
    simp [peek, h1, h2]

theorem poke_at {m : List V} {p : Place} {v x : Val} {vars : List (Str × Var)} {files : List FileSt} {out : List (Str × Saved)}
    (h : getAt m p = some v) : poke p (.val x) ⟨m, vars, files, out⟩ = .ok () ⟨setAt m p x, vars, files, out⟩ := by
  obtain ⟨w, h1, h2⟩ := getAt_inv h
  obtain ⟨w', h3⟩ := vSet_some (x := x) h2
  rw [setAt_eq h1 h3]
  obtain ⟨a, q⟩ := p
  cases q with
  | nil =>
    have : w' = x := by cases w <;> (injection h3 with h3; exact h3.symm)
    subst this
    simp only at h1
    simp [poke, h1]
  | cons n q =>
    simp only at h1 h3
    simp [poke, h1, h3]

@[simp] theorem setAt_length {m : List V} {p : Place} {x : Val} : (setAt m p x).length = m.length := by
  unfold setAt
  split
  · split <;> simp
  · rfl

theorem getAt_lt {m : List V} {p : Place} {v : Val} (h : getAt m p = some v) : p.addr < m.length := by
  obtain ⟨w, h1, _⟩ := getAt_inv h
  exact (List.getElem?_eq_some_iff.1 h1).1

theorem getAt_setAt {m : List V} {p : Place} {v x : Val} (h : getAt m p = some v) : getAt (setAt m p x) p = some x := by
  obtain ⟨w, h1, h2⟩ := getAt_inv h
  obtain ⟨w', h3⟩ := vSet_some (x := x) h2
  rw [setAt_eq h1 h3]
  unfold getAt
  rw [List.getElem?_set_self (getAt_lt h)]
  exact vGet_vSet h2 h3

theorem setAt_setAt {m : List V} {p : Place} {v x y : Val} (h : getAt m p = some v) : setAt (setAt m p x) p y = setAt m p y := by
  obtain ⟨w, h1, h2⟩ := getAt_inv h
  obtain ⟨w', h3⟩ := vSet_some (x := x) h2
  obtain ⟨w'', h4⟩ := vSet_some (x := y) h2
  rw [setAt_eq h1 h3, setAt_eq h1 h4, setAt_eq (w := w') (w' := w'') (List.getElem?_set_self (getAt_lt h)) (by rw [vSet_vSet h2 h3, h4]),
    List.set_set]

theorem setAt_ne {m : List V} {p : Place} {x : Val} {b : Nat} (h : p.addr ≠ b) : (setAt m p x)[b]? = m[b]? := by
  unfold setAt
  split
  · split
    · exact List.getElem?_set_ne h
    · rfl
  · rfl

theorem getAt_append {m r : List V} {p : Place} {v : Val} (h : getAt m p = some v) : getAt (m ++ r) p = some v := by
  have h1 := getAt_lt h
  unfold getAt at *
  rw [List.getElem?_append_left h1]
  exact h

theorem setAt_append {m r : List V} {p : Place} {x : Val} (h : p.addr < m.length) : setAt (m ++ r) p x = setAt m p x ++ r := by
  unfold setAt
  rw [List.getElem?_append_left h]
  split
  · split
    · rw [List.set_append_left _ _ h]
    · rfl
  · rfl

theorem getAt_set {m : List V} {p : Place} {b : Nat} {x : V} (h : b ≠ p.addr) : getAt (m.set b x) p = getAt m p := by
  unfold getAt
  rw [List.getElem?_set_ne h]

theorem setAt_set {m : List V} {p : Place} {b : Nat} {x : V} {y : Val} (h : b ≠ p.addr) :
    setAt (m.set b x) p y = (setAt m p y).set b x := by
  unfold setAt
  rw [List.getElem?_set_ne h]
  split
  · split
    · rw [List.set_comm _ _ h]
    · rfl
  · rfl

theorem getAt_member {m : List V} {a : Nat} {p : List Str} {n : Str} {fs : List (Str × Val)}
    (h : getAt m ⟨a, p⟩ = some (.struct fs)) : getAt m ⟨a, p ++ [n]⟩ = fs.lookup n := by
  obtain ⟨w, h1, h2⟩ := getAt_inv h
  simp only at h1 h2
  unfold getAt
  simp only [h1]
  exact vGet_member h2

theorem setAt_member {m : List V} {a : Nat} {p : List Str} {n : Str} {fs : List (Str × Val)} {o x : Val}
    (h : getAt m ⟨a, p⟩ = some (.struct fs)) (hn : fs.lookup n = some o) :
    setAt m ⟨a, p ++ [n]⟩ x = setAt m ⟨a, p⟩ (.struct (setField n x fs)) := by
  obtain ⟨w, h1, h2⟩ := getAt_inv h
  simp only at h1 h2
  unfold setAt
  simp only [h1]
  rw [vSet_member h2 hn]

theorem getAt_new {m : List V} {v : Val} : getAt (m ++ [.val v]) ⟨m.length, []⟩ = some v := by
  unfold getAt
  simp
  cases v <;> rfl

theorem setAt_new {m : List V} {v x : Val} : setAt (m ++ [.val v]) ⟨m.length, []⟩ x = m ++ [.val x] := by
  unfold setAt
  have : vSet v [] x = some x := by cases v <;> rfl
  simp [this, List.set_append_right]

/-! ### Scopes -/

theorem scope_ok {α : Type} {x : M α} {s s' : St} {a : α} (h : x s = .ok a s') :
    scope x s = .ok a { s' with vars := s.vars, mem := s'.mem.take s.mem.length } := by
  simp [scope, h]

theorem take_set_append {α : Type} {m r : List α} {a : Nat} {x : α} (h : a < m.length) :
    ((m ++ r).set a x).take m.length = m.set a x := by
  rw [List.set_append_left _ _ h, List.take_left']
  simp

/-! ### Statements -/

theorem ne_of_len {n k : Str} (h : n.length ≠ k.length) : n ≠ k := fun e => h (by rw [e])

@[simp] theorem getVars_run {s : St} : getVars s = .ok s.vars s := rfl

@[simp] theorem alloc_run {v : V} {s : St} : alloc v s = .ok s.mem.length { s with mem := s.mem ++ [v] } := rfl

@[simp] theorem declare_run {n : Str} {x : Var} {s : St} : declare n x s = .ok () { s with vars := (n, x) :: s.vars } := rfl

theorem execs_cons {C : Ctx} {t : Stmt} {ts : List Stmt} {s s' : St} (h : exec C t s = .ok .next s') :
    execs C (t :: ts) s = execs C ts s' := by
  rw [execs, M.bind_run, h]; rfl

section
variable {C : Ctx} {m : List V} {vars : List (Str × Var)} {files : List FileSt} {out : List (Str × Saved)}

theorem exec_decl {t : Ty} {u : CTy} {n : Str} (ht : tyOf C.E C.cls (vars ++ C.self) t = some u) :
    exec C (.decl t n none none) ⟨m, vars, files, out⟩ =
      .ok .next ⟨m ++ [initV C.E.T u], (n, ⟨u, ⟨m.length, []⟩⟩) :: vars, files, out⟩ := by
  cases t <;> first | (simp [tyOf] at ht; done) | simp [exec, declE, ht]

theorem exec_declInit {t : Ty} {u : CTy} {n : Str} {e : Expr} {x : EV} {v : V} (ht : tyOf C.E C.cls (vars ++ C.self) t = some u)
    (he : eval C e ⟨m ++ [.val .undef], (n, ⟨u, ⟨m.length, []⟩⟩) :: vars, files, out⟩ =
      .ok x ⟨m ++ [.val .undef], (n, ⟨u, ⟨m.length, []⟩⟩) :: vars, files, out⟩)
    (hi : initFrom u x ⟨m ++ [.val .undef], (n, ⟨u, ⟨m.length, []⟩⟩) :: vars, files, out⟩ =
      .ok v ⟨m ++ [.val .undef], (n, ⟨u, ⟨m.length, []⟩⟩) :: vars, files, out⟩) :
    exec C (.decl t n none (some e)) ⟨m, vars, files, out⟩ =
      .ok .next ⟨m ++ [v], (n, ⟨u, ⟨m.length, []⟩⟩) :: vars, files, out⟩ := by
  cases t <;> first | (simp [tyOf] at ht; done) | simp [exec, declE, ht, he, hi, poke, List.set_append_right]

theorem invoke_ok {f : Fun} {args : List EV} {t : Ty} {u : CTy} {e : EV} {v : V} {s1 s2 s3 : St} (hf : f.ret = some t)
    (ht : tyOf C.E none [] t = some u) (hp : bindParams C.E C.cls C.self f.params args ⟨m, [], files, out⟩ = .ok () s1)
    (hb : execs C f.body s1 = .ok (.ret e) s2) (hr : initFrom u e s2 = .ok v s3) :
    invoke C f args ⟨m, vars, files, out⟩ = .ok (.rv u v) ⟨s3.mem.take m.length, vars, s3.files, s3.out⟩ := by
  simp [invoke, scope, hp, hb, hf, ht, retVal, hr]

/-- The body does not end normally. -/
theorem invoke_ub {f : Fun} {args : List EV} {s1 : St}
    (hp : bindParams C.E C.cls C.self f.params args ⟨m, [], files, out⟩ = .ok () s1)
    (hb : execs C f.body s1 = .ub) : invoke C f args ⟨m, vars, files, out⟩ = .ub := by
  simp [invoke, scope, hp, hb]

/-- `return rv;` -/
theorem execs_retRv {x : Var} {s : St} (h : s.vars.lookup c!"rv" = some x) :
    execs C retRv s = .ok (.ret (.lv x.ty x.at_)) s := by
  simp [retRv, execs, exec, eval, lookupId, h]

/-- A parameter passed by value. -/
theorem bindParams_val {E : Env} {cls : Option Str} {self : List (Str × Var)} {t : Ty} {u : CTy} {n : Str} {ps : List (Ty × Str)}
    {a : EV} {as : List EV} {v : V} (hr : t.isRef = false) (ht : tyOf E cls (vars ++ self) t.noRef = some u)
    (hi : initFrom u a ⟨m, vars, files, out⟩ = .ok v ⟨m, vars, files, out⟩) :
    bindParams E cls self ((t, n) :: ps) (a :: as) ⟨m, vars, files, out⟩ =
      bindParams E cls self ps as ⟨m ++ [v], (n, ⟨u, ⟨m.length, []⟩⟩) :: vars, files, out⟩ := by
  simp [bindParams, ht, hr, hi]

/-- A parameter passed by reference. -/
theorem bindParams_ref {E : Env} {cls : Option Str} {self : List (Str × Var)} {t : Ty} {u : CTy} {n : Str} {ps : List (Ty × Str)}
    {p : Place} {as : List EV} (ht : tyOf E cls (vars ++ self) t = some u) :
    bindParams E cls self ((.ref t, n) :: ps) (.lv u p :: as) ⟨m, vars, files, out⟩ =
      bindParams E cls self ps as ⟨m, (n, ⟨u, p⟩) :: vars, files, out⟩ := by
  simp [bindParams, ht, Ty.isRef, Ty.noRef]

end

theorem execs_append {C : Ctx} {ss ts : List Stmt} {s s' : St} (h : execs C ss s = .ok .next s') :
    execs C (ss ++ ts) s = execs C ts s' := by
  induction ss generalizing s with
  | nil => cases h; rfl
  | cons t ss ih =>
    rw [execs, M.bind_run] at h
    rw [List.cons_append, execs, M.bind_run]
    cases hx : exec C t s with
    | ok f s1 =>
      rw [hx] at h
      cases f with
      | next => exact ih h
      | _ => simp at h
    | _ => rw [hx] at h; simp at h

/-- Statements that do not end normally. -/
theorem execs_append_ub {C : Ctx} {ss ts : List Stmt} {s : St} (h : execs C ss s = .ub) : execs C (ss ++ ts) s = .ub := by
  induction ss generalizing s with
  | nil => cases h
  | cons t ss ih =>
    rw [execs, M.bind_run] at h
    rw [List.cons_append, execs, M.bind_run]
    cases hx : exec C t s with
    | ok f s1 =>
      rw [hx] at h
      cases f with
      | next => exact ih h
      | _ => simp at h
    | ub => simp
    | _ => rw [hx] at h; simp at h

@[simp] theorem tyOf_prim {E : Env} {cls : Option Str} {vars : List (Str × Var)} {p : Prim} :
    tyOf E cls vars (.prim p) = some (.prim p) := rfl

theorem tyOf_map {E : Env} {cls : Option Str} {vars : List (Str × Var)} {k v : Ty} {k' v' : CTy}
    (hk : tyOf E cls vars k = some k') (hv : tyOf E cls vars v = some v') : tyOf E cls vars (.map k v) = some (.map k' v') := by
  rw [tyOf, hk, hv]

theorem initFrom_load {a : EV} {t : CTy} {v : V} {s : St} (h : load a s = .ok (t, v) s) : initFrom t a s = .ok v s := by
  cases a with
  | lst vs => simp [load] at h
  | lv t p => simp [initFrom, h, coerce_self]
  | rv t v => simp [initFrom, h, coerce_self]

theorem initFrom_map {k v : CTy} {vs : List EV} {m : List (Str × Val)} {s : St} (h : mapInit k v vs [] s = .ok m s) :
    initFrom (.map k v) (.lst vs) s = .ok (.val (.struct m)) s := by
  cases vs with
  | nil => cases h; rfl
  | cons a as => simp [initFrom, h]

end Stfx.Cpp
