import Verif.Cpp.RunIniLoop
import Verif.Cpp.RunWriteFile
import Verif.Run.Depth
import Verif.Run.IniTrip
/-
The generated n_ini reader functions, run as C++ code.
-/
set_option autoImplicit false
set_option linter.unusedSimpArgs false
namespace Stfx.Cpp
open Stfx.Run Stfx.Parser Stfx.Items Stfx.Gen

/-! ### Look-ups -/

/-- The conversion of the text `e` to a member, process_items_ini.cpp:316-347.  (Proof notion, models no code.) -/
def convE : SimpleTy → Expr → Expr
  | .bool, e => .cast .bool (.call (.id [c!"std", c!"stoi"]) [e])
  | .int, e => .call (.id [c!"std", c!"stoi"]) [e]
  | .unsignedInt, e => .cast .uint (.call (.id [c!"std", c!"stoul"]) [e])
  | .float, e => .call (.id [c!"std", c!"stof"]) [e]
  | .double, e => .call (.id [c!"std", c!"stod"]) [e]
  | .long, e => .call (.id [c!"std", c!"stol"]) [e]
  | .short, e => .cast .short (.call (.id [c!"std", c!"stoi"]) [e])
  | .unsignedShort, e => .cast .ushort (.call (.id [c!"std", c!"stoul"]) [e])
  | .stdString, e => e
  | .unsignedLong, e => .call (.id [c!"std", c!"stoul"]) [e]

/-- The statement that uses a text that was found, process_items_ini.cpp:357, 372.  (Proof notion, models no code.) -/
def useStmt : Look → Stmt
  | .simple ty n => .expr (.assign (.mem (.id [c!"data"]) n) (convE ty (.arrow (.id [n]) c!"second")))
  | .enum n => .expr (.call (.id [c!"stfx", c!"s_to_e"]) [(.arrow (.id [n]) c!"second"), (.mem (.id [c!"data"]) n)])

theorem lookTree_eq (l : Look) : lookTree l = [
    .decl .auto l.member none (some (.call (.mem (.id [c!"items"]) c!"find") [(.str l.member)])),
    .when (.bin .ne (.id [l.member]) (.call (.mem (.id [c!"items"]) c!"cend") [])) (.block [useStmt l])] := by
  cases l with
  | simple ty n => cases ty <;> rfl
  | enum n => rfl

section
variable {E : Env} {cls : Str} {C : Ctx} {files : List FileSt} {out : List (Str × Saved)} {m : List V} {vs : List (Str × Var)}

/-- A call of a function of `std` with one argument. -/
theorem eval_std {f : Str} {e : Expr} {y : EV} {S : St} (he : eval C e S = .ok y S) :
    eval C (.call (.id [c!"std", f]) [e]) S = stdCall C.E f [y] S := by
  rw [eval]
  simp only [M.bind_run, evals, he, Res.ok_bind, M.pure_run]
  rfl

theorem eval_cast {p : Prim} {e : Expr} {S : St} : eval C (.cast p e) S = (eval C e S).bind fun x s => (load x s).bind fun tv s =>
    (M.opt (castV C.E.T p tv.1 tv.2) s).bind fun w s => .ok (.rv (.prim p) w) s := by
  rw [eval]
  simp only [M.bind_run]
  cases eval C e S <;> rfl

theorem eval_conv {ty : SimpleTy} {e : Expr} {y : EV} {S : St} {s : Str} (he : eval C e S = .ok y S)
    (hl : load y S = .ok (.str, .val (.str s)) S) :
    match iniConv C.E.T C.E.I ty s with
    | .val v => ∃ z, eval C (convE ty e) S = .ok z S ∧ load z S = .ok (ofMTy (.simple ty), .val v) S
    | .throws => eval C (convE ty e) S = .thr S
    | _ => False := by
  have hs : strArg y S = .ok s S := by simp [strArg, hl, coerce_self]
  cases ty with
  | stdString => exact ⟨y, he, hl⟩
  | bool =>
    simp only [iniConv, convE, eval_cast, eval_std he, stdCall, if_pos, M.bind_run, hs, Res.ok_bind]
    cases stoSigned 32 s <;> first | exact ⟨_, rfl, rfl⟩ | rfl
  | int =>
    simp only [iniConv, convE, eval_cast, eval_std he, stdCall, if_pos, M.bind_run, hs, Res.ok_bind]
    cases stoSigned 32 s <;> simp [StoRes.conv, stoV, castV, ofMTy]
  | short =>
    simp only [iniConv, convE, eval_cast, eval_std he, stdCall, if_pos, M.bind_run, hs, Res.ok_bind]
    cases stoSigned 32 s <;> first | exact ⟨_, rfl, rfl⟩ | rfl
  | long =>
    simp [iniConv, convE, eval_cast, eval_std he, stdCall, hs]
    cases stoSigned C.E.T.longBits s <;> simp [StoRes.conv, stoV, castV, ofMTy]
  | unsignedInt =>
    simp [iniConv, convE, eval_cast, eval_std he, stdCall, hs]
    cases stoUnsigned C.E.T.longBits s <;> first | exact ⟨_, rfl, rfl⟩ | rfl
  | unsignedShort =>
    simp [iniConv, convE, eval_cast, eval_std he, stdCall, hs]
    cases stoUnsigned C.E.T.longBits s <;> first | exact ⟨_, rfl, rfl⟩ | rfl
  | unsignedLong =>
    simp [iniConv, convE, eval_cast, eval_std he, stdCall, hs]
    cases stoUnsigned C.E.T.longBits s <;> simp [StoRes.conv, stoV, castV, ofMTy]
  | float =>
    simp [iniConv, convE, eval_cast, eval_std he, stdCall, hs]
    cases C.E.I.stof s <;> simp [ofMTy]
  | double =>
    simp [iniConv, convE, eval_cast, eval_std he, stdCall, hs]
    cases C.E.I.stod s <;> simp [ofMTy]

/-- A look-up fits the struct `c`.  (Proof notion, models no code.) -/
def LookOk (C : Ctx) (c : Str) : Look → Prop
  | .simple ty n => cStr n = n ∧ memberTy C.E.T c n = some (.simple ty)
  | .enum n => cStr n = n ∧ ∃ e val, memberTy C.E.T c n = some (.enum e.name) ∧ C.E.T.enm e.name = some (e, val) ∧ ToCall C e val

theorem LookOk.name {c : Str} {l : Look} (h : LookOk C c l) : cStr l.member = l.member := by
  cases l <;> exact h.1

/-- What a look-up in a section sees: the copy of the items and the object.  (Proof notion, models no code.) -/
structure LookView (c : Str) (m : List V) (vs : List (Str × Var)) (q : Place) (fs : List (Str × Val)) (ai : Nat) (items : Items) : Prop where
  vData : vs.lookup c!"data" = some ⟨.struct c, q⟩
  vItems : vs.lookup c!"items" = some ⟨.map .str .str, ⟨ai, []⟩⟩
  mObj : getAt m q = some (.struct fs)
  mItems : ∃ I, m[ai]? = some (.val (.struct I)) ∧ RepItems I items
  ne : q.addr ≠ ai

variable {c : Str} {q : Place} {fs : List (Str × Val)} {ai : Nat} {items : Items}

theorem LookView.push (h : LookView c m vs q fs ai items) {n : Str} (hn : n ≠ c!"items" ∧ n ≠ c!"data") {w : V} {x : Var} :
    LookView c (m ++ [w]) ((n, x) :: vs) q fs ai items where
  vData := by rw [lookup_cons_ne (Ne.symm hn.2), h.vData]
  vItems := by rw [lookup_cons_ne (Ne.symm hn.1), h.vItems]
  mObj := getAt_append h.mObj
  mItems := by
    obtain ⟨I, h1, h2⟩ := h.mItems
    exact ⟨I, by rw [List.getElem?_append_left (List.getElem?_eq_some_iff.1 h1).1, h1], h2⟩
  ne := h.ne

theorem LookView.set (h : LookView c m vs q fs ai items) {fs' : List (Str × Val)} : LookView c (setAt m q (.struct fs')) vs q fs' ai items where
  vData := h.vData
  vItems := h.vItems
  mObj := getAt_setAt h.mObj
  mItems := by
    obtain ⟨I, h1, h2⟩ := h.mItems
    exact ⟨I, by rw [setAt_ne h.ne, h1], h2⟩
  ne := h.ne

/-- The iterator a look-up finds.  (Proof notion, models no code.) -/
def found (ai : Nat) (items : Items) (n : Str) : V := match items.lookup n with
  | some _ => .ptr ⟨ai, [n]⟩
  | none => .null

/-- `auto n = items.find("n");` -/
theorem exec_findItem (hv : LookView c m vs q fs ai items) {n : Str} (hn : n ≠ c!"items") (hs : cStr n = n) :
    exec C (.decl .auto n none (some (.call (.mem (.id [c!"items"]) c!"find") [(.str n)]))) ⟨m, vs, files, out⟩ =
      .ok .next ⟨m ++ [found ai items n], (n, ⟨.iter .str .str, ⟨m.length, []⟩⟩) :: vs, files, out⟩ := by
  obtain ⟨I, h1, h2⟩ := hv.mItems
  have hpk : ∀ vars, peek ⟨ai, []⟩ ⟨m ++ [.val .undef], vars, files, out⟩ = .ok (.val (.struct I)) ⟨m ++ [.val .undef], vars, files, out⟩ :=
    fun vars => peek_var (by rw [List.getElem?_append_left (List.getElem?_eq_some_iff.1 h1).1, h1])
  have h3 := h2 n
  refine exec_declAuto ?_
  rw [eval]
  simp only [M.bind_run]
  rw [eval_id (x := ⟨.map .str .str, ⟨ai, []⟩⟩) (by simp only [lookup_cons_ne (Ne.symm hn), hv.vItems])]
  unfold found
  cases hl : items.lookup n with
  | none =>
    rw [hl] at h3
    simp [evals, eval, dotCall, hs, coerce, keyOf, hpk, h3]
  | some s =>
    rw [hl] at h3
    simp [evals, eval, dotCall, hs, coerce, keyOf, hpk, h3]

/-- `if (n != items.cend()) ...` -/
theorem exec_whenFound {n : Str} (hi : vs.lookup c!"items" = some ⟨.map .str .str, ⟨ai, []⟩⟩) (hn : n ≠ c!"items") (st : Stmt) :
    exec C (.when (.bin .ne (.id [n]) (.call (.mem (.id [c!"items"]) c!"cend") [])) st)
        ⟨m ++ [found ai items n], (n, ⟨.iter .str .str, ⟨m.length, []⟩⟩) :: vs, files, out⟩ =
      match items.lookup n with
      | some _ => scope (exec C st) ⟨m ++ [.ptr ⟨ai, [n]⟩], (n, ⟨.iter .str .str, ⟨m.length, []⟩⟩) :: vs, files, out⟩
      | none => .ok .next ⟨m ++ [.null], (n, ⟨.iter .str .str, ⟨m.length, []⟩⟩) :: vs, files, out⟩ := by
  have hpk : ∀ w vars, peek ⟨m.length, []⟩ ⟨m ++ [w], vars, files, out⟩ = .ok w ⟨m ++ [w], vars, files, out⟩ :=
    fun w vars => peek_var (by simp)
  unfold found
  cases hl : items.lookup n with
  | none =>
    simp [exec, eval, evals, lookupId, lookup_cons_ne (Ne.symm hn), lookup_cons_eq, hi, dotCall, load, hpk, V.isUndef, binV, asBool]
  | some s =>
    simp [exec, eval, evals, lookupId, lookup_cons_ne (Ne.symm hn), lookup_cons_eq, hi, dotCall, load, hpk, V.isUndef, binV, asBool]

/-- `n->second` -/
theorem eval_second {n : Str} : eval C (.arrow (.id [n]) c!"second") ⟨m ++ [.ptr ⟨ai, [n]⟩], (n, ⟨.iter .str .str, ⟨m.length, []⟩⟩) :: vs, files, out⟩ =
    .ok (.lv .str ⟨ai, [n]⟩) ⟨m ++ [.ptr ⟨ai, [n]⟩], (n, ⟨.iter .str .str, ⟨m.length, []⟩⟩) :: vs, files, out⟩ := by
  have hpk : ∀ w vars, peek ⟨m.length, []⟩ ⟨m ++ [w], vars, files, out⟩ = .ok w ⟨m ++ [w], vars, files, out⟩ :=
    fun w vars => peek_var (by simp)
  simp [eval, lookupId, lookup_cons_eq, arrowMem, load, hpk, V.isUndef]

/-- `data.n` -/
theorem eval_dataMem {n : Str} {t : MTy} (ht : memberTy C.E.T c n = some t) {S : St} (hd : S.vars.lookup c!"data" = some ⟨.struct c, q⟩) :
    eval C (.mem (.id [c!"data"]) n) S = .ok (.lv (ofMTy t) ⟨q.addr, q.path ++ [n]⟩) S := by
  simp [eval, lookupId, hd, dotMem, memTy, ht]

theorem execs_block {ts : List Stmt} : exec C (.block ts) = scope (execs C ts) := by rw [exec]

theorem scope_thr {α : Type} {x : M α} {s s' : St} (h : x s = .thr s') : scope x s = .thr s' := by
  simp [scope, h]

/-- One look-up. -/
theorem run_look (hv : LookView c m vs q fs ai items) {l : Look} (hl : LookOk C c l) (hc : clash l = false) :
    match items.lookup l.member with
    | none => execs C (lookTree l) ⟨m, vs, files, out⟩ =
        .ok .next ⟨m ++ [.null], (l.member, ⟨.iter .str .str, ⟨m.length, []⟩⟩) :: vs, files, out⟩
    | some s => match lookConv C.E.T C.E.I c l s with
      | .val v => ∀ old, fs.lookup l.member = some old → execs C (lookTree l) ⟨m, vs, files, out⟩ =
          .ok .next ⟨setAt m q (.struct (setField l.member v fs)) ++ [.ptr ⟨ai, [l.member]⟩], (l.member, ⟨.iter .str .str, ⟨m.length, []⟩⟩) :: vs, files, out⟩
      | .keep => ∀ old, fs.lookup l.member = some old → execs C (lookTree l) ⟨m, vs, files, out⟩ =
          .ok .next ⟨m ++ [.ptr ⟨ai, [l.member]⟩], (l.member, ⟨.iter .str .str, ⟨m.length, []⟩⟩) :: vs, files, out⟩
      | .throws => execs C (lookTree l) ⟨m, vs, files, out⟩ =
          .thr ⟨m ++ [.ptr ⟨ai, [l.member]⟩], (l.member, ⟨.iter .str .str, ⟨m.length, []⟩⟩) :: vs, files, out⟩
      | .ub => ∀ old, fs.lookup l.member = some old → execs C (lookTree l) ⟨m, vs, files, out⟩ = .ub
      | .stuck => True := by
  have hne : l.member ≠ c!"items" ∧ l.member ≠ c!"data" := by simpa [clash] using hc
  have h0 : execs C (lookTree l) ⟨m, vs, files, out⟩ = match items.lookup l.member with
      | some _ => scope (exec C (.block [useStmt l])) ⟨m ++ [.ptr ⟨ai, [l.member]⟩], (l.member, ⟨.iter .str .str, ⟨m.length, []⟩⟩) :: vs, files, out⟩
      | none => .ok .next ⟨m ++ [.null], (l.member, ⟨.iter .str .str, ⟨m.length, []⟩⟩) :: vs, files, out⟩ := by
    rw [lookTree_eq, execs_cons (exec_findItem hv hne.1 hl.name), execs_one, exec_whenFound hv.vItems hne.1]
  rw [h0]
  cases hi : items.lookup l.member with
  | none => rfl
  | some s =>
  simp only
  have hv' := hv.push (w := .ptr ⟨ai, [l.member]⟩) (x := ⟨.iter .str .str, ⟨m.length, []⟩⟩) hne
  obtain ⟨I, h1, h2⟩ := hv.mItems
  have h3 := h2 l.member
  rw [hi] at h3
  have hsec : getAt (m ++ [.ptr ⟨ai, [l.member]⟩]) ⟨ai, [l.member]⟩ = some (.str s) := by
    refine getAt_append ?_
    unfold getAt
    simp [h1, vGet, h3]
  have hlt := getAt_lt hv.mObj
  have hmem : ∀ old, fs.lookup l.member = some old → getAt (m ++ [.ptr ⟨ai, [l.member]⟩]) ⟨q.addr, q.path ++ [l.member]⟩ = some old := by
    intro old ho
    refine getAt_append ?_
    rw [getAt_member (p := q.path) hv.mObj, ho]
  have hset : ∀ old v, fs.lookup l.member = some old → setAt (m ++ [.ptr ⟨ai, [l.member]⟩]) ⟨q.addr, q.path ++ [l.member]⟩ v =
      setAt m q (.struct (setField l.member v fs)) ++ [.ptr ⟨ai, [l.member]⟩] := by
    intro old v ho
    rw [setAt_append (p := ⟨q.addr, q.path ++ [l.member]⟩) hlt, setAt_member (p := q.path) hv.mObj ho]
  have hsc : ∀ (r : Res Flow) , exec C (useStmt l) ⟨m ++ [.ptr ⟨ai, [l.member]⟩], (l.member, ⟨.iter .str .str, ⟨m.length, []⟩⟩) :: vs, files, out⟩ = r →
      (∀ m', m'.length = m.length + 1 → r = .ok .next ⟨m', (l.member, ⟨.iter .str .str, ⟨m.length, []⟩⟩) :: vs, files, out⟩ →
        scope (exec C (.block [useStmt l])) ⟨m ++ [.ptr ⟨ai, [l.member]⟩], (l.member, ⟨.iter .str .str, ⟨m.length, []⟩⟩) :: vs, files, out⟩ = r) ∧
      (∀ s', r = .thr s' → scope (exec C (.block [useStmt l])) ⟨m ++ [.ptr ⟨ai, [l.member]⟩], (l.member, ⟨.iter .str .str, ⟨m.length, []⟩⟩) :: vs, files, out⟩ = r) ∧
      (r = .ub → scope (exec C (.block [useStmt l])) ⟨m ++ [.ptr ⟨ai, [l.member]⟩], (l.member, ⟨.iter .str .str, ⟨m.length, []⟩⟩) :: vs, files, out⟩ = .ub) := by
    intro r hr
    rw [execs_block]
    refine ⟨fun m' hm he => ?_, fun s' he => ?_, fun he => ?_⟩
    · subst he
      have h4 : scope (execs C [useStmt l]) ⟨m ++ [.ptr ⟨ai, [l.member]⟩], (l.member, ⟨.iter .str .str, ⟨m.length, []⟩⟩) :: vs, files, out⟩ =
          .ok .next ⟨m', (l.member, ⟨.iter .str .str, ⟨m.length, []⟩⟩) :: vs, files, out⟩ := by
        rw [scope_ok (execs_one.trans hr), List.take_of_length_le (by simp [hm])]
      rw [scope_ok h4, List.take_of_length_le (by simp [hm])]
    · subst he
      exact scope_thr (scope_thr (execs_one.trans hr))
    · subst he
      exact scope_ub (scope_ub (execs_one.trans hr))
  cases l with
  | simple ty n =>
    obtain ⟨_, ht⟩ := hl
    have hev := eval_conv (C := C) (ty := ty) (eval_second (m := m) (vs := vs) (files := files) (out := out) (ai := ai) (n := n)) (load_lv (peek_at hsec) rfl)
    have hda := eval_dataMem (C := C) (S := ⟨m ++ [.ptr ⟨ai, [n]⟩], (n, ⟨.iter .str .str, ⟨m.length, []⟩⟩) :: vs, files, out⟩) ht hv'.vData
    show match iniConv C.E.T C.E.I ty s with | .val v => _ | .keep => _ | .throws => _ | .ub => _ | .stuck => _
    cases hcv : iniConv C.E.T C.E.I ty s with
    | val v =>
      rw [hcv] at hev
      obtain ⟨z, h4, h5⟩ := hev
      intro old ho
      have h6 := exec_assign (C := C) z h4 h5 coerce_self hda (hmem old ho)
      have h7 : setAt (m ++ [.ptr ⟨ai, [n]⟩]) ⟨q.addr, q.path ++ [n]⟩ v = _ := hset old v ho
      rw [h7] at h6
      exact (hsc _ h6).1 _ (by simp [Look.member]) rfl
    | throws =>
      rw [hcv] at hev
      have h6 : exec C (useStmt (.simple ty n)) ⟨m ++ [.ptr ⟨ai, [n]⟩], (n, ⟨.iter .str .str, ⟨m.length, []⟩⟩) :: vs, files, out⟩ =
          .thr ⟨m ++ [.ptr ⟨ai, [n]⟩], (n, ⟨.iter .str .str, ⟨m.length, []⟩⟩) :: vs, files, out⟩ := by
        rw [useStmt, exec, eval]
        simp only [M.bind_run, hev, Res.thr_bind]
      exact (hsc _ h6).2.1 _ rfl
    | keep => rw [hcv] at hev; exact hev.elim
    | ub => rw [hcv] at hev; exact hev.elim
    | stuck => trivial
  | enum n =>
    obtain ⟨_, e, val, ht, he, hto⟩ := hl
    have hda := eval_dataMem (C := C) (S := ⟨m ++ [.ptr ⟨ai, [n]⟩], (n, ⟨.iter .str .str, ⟨m.length, []⟩⟩) :: vs, files, out⟩) ht hv'.vData
    have hca : ∀ old, fs.lookup n = some old → exec C (useStmt (.enum n)) ⟨m ++ [.ptr ⟨ai, [n]⟩], (n, ⟨.iter .str .str, ⟨m.length, []⟩⟩) :: vs, files, out⟩ = _ :=
      fun old ho => (exec_call (vals := [.lv .str ⟨ai, [n]⟩, .lv (.enum e.name) ⟨q.addr, q.path ++ [n]⟩])
        (by simp only [evals, M.bind_run, eval_second, hda, Res.ok_bind, M.pure_run, ofMTy])).trans
        (by rw [hto _ s _ _ old (.lv hsec) (hmem old ho)])
    show match iniEnum C.E.T (memberTy C.E.T c n) s with | .val v => _ | .keep => _ | .throws => _ | .ub => _ | .stuck => _
    simp only [iniEnum, ht, he]
    cases hs : sToE e val s with
    | ub =>
      intro old ho
      have h6 := hca old ho
      rw [hs] at h6
      exact (hsc _ h6).2.2 rfl
    | ok rv o =>
      cases o with
      | none =>
        intro old ho
        have h6 := hca old ho
        rw [hs] at h6
        exact (hsc _ h6).1 _ (by simp) rfl
      | some i =>
        intro old ho
        have h6 := hca old ho
        rw [hs] at h6
        have h7 : setAt (m ++ [.ptr ⟨ai, [n]⟩]) ⟨q.addr, q.path ++ [n]⟩ (.num i) = _ := hset old _ ho
        simp only at h6
        rw [h7] at h6
        exact (hsc _ h6).1 _ (by simp) rfl

theorem execs_append_thr {ss ts : List Stmt} {s s' : St} (h : execs C ss s = .thr s') : execs C (ss ++ ts) s = .thr s' := by
  induction ss generalizing s with
  | nil => cases h
  | cons t ss ih =>
    rw [execs, M.bind_run] at h
    rw [List.cons_append, execs, M.bind_run]
    cases hx : exec C t s with
    | ok f s1 =>
      rw [hx] at h
      cases f with
      | next => exact ih h
      | _ => cases h
    | thr s1 => rw [hx] at h; cases h; rfl
    | _ => rw [hx] at h; cases h

theorem setField_isSome {n k : Str} {v : Val} {fs : List (Str × Val)} (h : (fs.lookup k).isSome = true) : ((setField n v fs).lookup k).isSome = true := by
  rw [lookup_setField]
  split
  · subst_vars; cases hl : fs.lookup k <;> simp_all
  · exact h

/-- The look-ups one after the other. -/
theorem run_looks (ls : List Look) (hv : LookView c m vs q fs ai items) (hl : ∀ l ∈ ls, LookOk C c l) (hc : ∀ l ∈ ls, clash l = false)
    (hm : ∀ l ∈ ls, (fs.lookup l.member).isSome = true) :
    Sim (runLooks C.E.T C.E.I c items ls fs) (execs C (ls.flatMap lookTree) ⟨m, vs, files, out⟩)
      fun r x => ∃ t vs', x = if r.1 then .ok .next ⟨setAt m q (.struct r.2) ++ t, vs', files, out⟩ else .thr ⟨setAt m q (.struct r.2) ++ t, vs', files, out⟩ := by
  induction ls generalizing m vs fs with
  | nil => exact ⟨[], vs, by simp [execs, setAt_self hv.mObj]⟩
  | cons l ls ih =>
    have hne : l.member ≠ c!"items" ∧ l.member ≠ c!"data" := by simpa [clash] using hc l (by simp)
    have h1 := run_look (files := files) (out := out) hv (hl l (by simp)) (hc l (by simp))
    have hlt := getAt_lt hv.mObj
    rw [List.flatMap_cons, runLooks]
    have hstep : ∀ {fs' : List (Str × Val)} {m' : List V} {w : V}, LookView c m' vs q fs' ai items → m'.length = m.length →
        (∀ l ∈ ls, (fs'.lookup l.member).isSome = true) → (∀ z, setAt m' q (.struct z) = setAt m q (.struct z)) →
        execs C (lookTree l) ⟨m, vs, files, out⟩ = .ok .next ⟨m' ++ [w], (l.member, ⟨.iter .str .str, ⟨m.length, []⟩⟩) :: vs, files, out⟩ →
        Sim (runLooks C.E.T C.E.I c items ls fs') (execs C (lookTree l ++ ls.flatMap lookTree) ⟨m, vs, files, out⟩)
          fun r x => ∃ t vs', x = if r.1 then .ok .next ⟨setAt m q (.struct r.2) ++ t, vs', files, out⟩ else .thr ⟨setAt m q (.struct r.2) ++ t, vs', files, out⟩ := by
      intro fs' m' w hv' hlen hm' hset he
      rw [execs_append he]
      refine (ih (hv'.push hne) (fun l h => hl l (by simp [h])) (fun l h => hc l (by simp [h])) hm').mono fun r h => ?_
      obtain ⟨t, vs', h⟩ := h
      refine ⟨w :: t, vs', ?_⟩
      rw [h, setAt_append (by omega), hset]
      simp
    have hm' : ∀ l ∈ ls, (fs.lookup l.member).isSome = true := fun l h => hm l (by simp [h])
    cases hi : items.lookup l.member with
    | none =>
      rw [hi] at h1
      exact hstep hv rfl hm' (fun _ => rfl) h1
    | some s =>
      rw [hi] at h1
      simp only at h1 ⊢
      obtain ⟨old, ho⟩ := Option.isSome_iff_exists.1 (hm l (by simp))
      cases hcv : lookConv C.E.T C.E.I c l s with
      | val v =>
        rw [hcv] at h1
        simp only
        rw [modifyField_eq ho]
        exact hstep hv.set (by simp) (fun l h => setField_isSome (hm' l h)) (fun _ => setAt_setAt hv.mObj) (h1 old ho)
      | keep =>
        rw [hcv] at h1
        exact hstep hv rfl hm' (fun _ => rfl) (h1 old ho)
      | throws =>
        rw [hcv] at h1
        refine ⟨[.ptr ⟨ai, [l.member]⟩], (l.member, ⟨.iter .str .str, ⟨m.length, []⟩⟩) :: vs, ?_⟩
        rw [execs_append_thr h1]
        simp [setAt_self hv.mObj]
      | ub =>
        rw [hcv] at h1
        exact execs_append_ub (h1 old ho)
      | stuck => trivial

/-! ### A section -/

theorem exec_declAutoLv {n : Str} {e : Expr} {u : CTy} {v : V} {y : EV}
    (he : eval C e ⟨m ++ [.val .undef], (n, ⟨.void, ⟨m.length, []⟩⟩) :: vs, files, out⟩ =
      .ok y ⟨m ++ [.val .undef], (n, ⟨.void, ⟨m.length, []⟩⟩) :: vs, files, out⟩)
    (hl : load y ⟨m ++ [.val .undef], (n, ⟨.void, ⟨m.length, []⟩⟩) :: vs, files, out⟩ =
      .ok (u, v) ⟨m ++ [.val .undef], (n, ⟨.void, ⟨m.length, []⟩⟩) :: vs, files, out⟩) :
    exec C (.decl .auto n none (some e)) ⟨m, vs, files, out⟩ = .ok .next ⟨m ++ [v], (n, ⟨u, ⟨m.length, []⟩⟩) :: vs, files, out⟩ := by
  rw [exec, M.bind_run, declE]
  simp only [M.bind_run, getVars_run, Res.ok_bind, alloc_run, declare_run]
  show Res.bind (Res.bind (Res.bind (eval C e _) load) fun (x : CTy × V) (s : St) =>
    Res.ok () { s with vars := (n, ⟨x.1, ⟨m.length, []⟩⟩) :: vs, mem := s.mem.set m.length x.2 }) _ = _
  rw [he]
  show Res.bind (Res.bind (load y _) _) _ = _
  rw [hl]
  simp [Res.bind, List.set_append_right]

/-- The sections of the reader are in memory.  (Proof notion, models no code.) -/
def HasUnder (al : Nat) (m : List V) (under : List (Str × Items)) : Prop :=
  ∃ I U, m[al]? = some (.val (itemVal I U)) ∧ RepUnder U under

theorem HasUnder.append {al : Nat} {under : List (Str × Items)} (h : HasUnder al m under) {t : List V} : HasUnder al (m ++ t) under := by
  obtain ⟨I, U, h1, h2⟩ := h
  exact ⟨I, U, by rw [List.getElem?_append_left (List.getElem?_eq_some_iff.1 h1).1, h1], h2⟩

theorem HasUnder.setAt {al : Nat} {under : List (Str × Items)} (h : HasUnder al m under) {q : Place} {x : Val} (hq : q.addr ≠ al) :
    HasUnder al (Cpp.setAt m q x) under := by
  obtain ⟨I, U, h1, h2⟩ := h
  exact ⟨I, U, by rw [setAt_ne hq, h1], h2⟩

theorem HasUnder.set {al : Nat} {under : List (Str × Items)} (h : HasUnder al m under) {a : Nat} {x : V} (hq : a ≠ al) :
    HasUnder al (m.set a x) under := by
  obtain ⟨I, U, h1, h2⟩ := h
  exact ⟨I, U, by rw [List.getElem?_set_ne hq, h1], h2⟩

/-- What the body of a reader function sees: its parameters and the members of the reader.  (Proof notion, models no code.) -/
structure NView (c : Str) (m : List V) (vs : List (Str × Var)) (q : Place) (fs : List (Str × Val)) (ap : Nat) (path : Str) (al : Nat)
    (under : List (Str × Items)) : Prop where
  vData : vs.lookup c!"data" = some ⟨.struct c, q⟩
  vPath : vs.lookup c!"path" = some ⟨.str, ⟨ap, []⟩⟩
  vLook : vs.lookup c!"m_lookup" = none
  mObj : getAt m q = some (.struct fs)
  mPath : m[ap]? = some (.val (.str path))
  mUnder : HasUnder al m under
  neP : q.addr ≠ ap
  neL : q.addr ≠ al
  pl : ap ≠ al

variable {ap al : Nat} {path : Str} {under : List (Str × Items)}

/-- `m_lookup.under` -/
theorem eval_under (hs : C.self.lookup c!"m_lookup" = some ⟨.item, ⟨al, []⟩⟩) {S : St} (hn : S.vars.lookup c!"m_lookup" = none) :
    eval C (.mem (.id [c!"m_lookup"]) c!"under") S = .ok (.lv (.map .str .item) ⟨al, [c!"under"]⟩) S := by
  rw [eval]
  simp only [M.bind_run, eval_self hn hs, Res.ok_bind]
  simp [dotMem, memTy]

/-- The iterator to the section.  (Proof notion, models no code.) -/
def foundAt (al : Nat) (under : List (Str × Items)) (path : Str) : V := match under.lookup path with
  | some _ => .ptr ⟨al, [c!"under", path]⟩
  | none => .null

/-- `auto found_items = m_lookup.under.find(path);` -/
theorem exec_findSection (hv : NView c m vs q fs ap path al under) (hs : C.self.lookup c!"m_lookup" = some ⟨.item, ⟨al, []⟩⟩) :
    execs C ini310_tree ⟨m, vs, files, out⟩ =
      .ok .next ⟨m ++ [foundAt al under path], (c!"found_items", ⟨.iter .str .item, ⟨m.length, []⟩⟩) :: vs, files, out⟩ := by
  obtain ⟨I, U, h1, h2⟩ := hv.mUnder
  have hpk : ∀ vars, peek ⟨al, [c!"under"]⟩ ⟨m ++ [.val .undef], vars, files, out⟩ = .ok (.val (.struct U)) ⟨m ++ [.val .undef], vars, files, out⟩ :=
    fun vars => peek_at (getAt_append (by unfold getAt; simp [h1, itemVal, vGet, List.lookup]))
  have hpp : ∀ vars, peek ⟨ap, []⟩ ⟨m ++ [.val .undef], vars, files, out⟩ = .ok (.val (.str path)) ⟨m ++ [.val .undef], vars, files, out⟩ :=
    fun vars => peek_var (by rw [List.getElem?_append_left (List.getElem?_eq_some_iff.1 hv.mPath).1, hv.mPath])
  show execs C [.decl .auto c!"found_items" none (some (.call (.mem (.mem (.id [c!"m_lookup"]) c!"under") c!"find") [.id [c!"path"]]))] _ = _
  rw [execs_one]
  refine exec_declAuto ?_
  rw [eval]
  simp only [M.bind_run]
  rw [eval_under hs (by rw [lookup_cons_ne (by decide), hv.vLook])]
  simp only [Res.ok_bind, evals, M.bind_run]
  rw [eval_id (x := ⟨.str, ⟨ap, []⟩⟩) (by rw [lookup_cons_ne (by decide), hv.vPath])]
  unfold foundAt
  cases hl : under.lookup path with
  | none =>
    have h3 := h2.miss hl
    simp [dotCall, load, hpp, V.isUndef, coerce, keyOf, hpk, h3]
  | some items =>
    obtain ⟨I', h3, _⟩ := h2.hit hl
    simp [dotCall, load, hpp, V.isUndef, coerce, keyOf, hpk, h3]

/-- `if (found_items != m_lookup.under.cend()) ...` -/
theorem exec_whenSection (hs : C.self.lookup c!"m_lookup" = some ⟨.item, ⟨al, []⟩⟩) (hn : vs.lookup c!"m_lookup" = none) (st : Stmt) :
    exec C (.when foundCond st) ⟨m ++ [foundAt al under path], (c!"found_items", ⟨.iter .str .item, ⟨m.length, []⟩⟩) :: vs, files, out⟩ =
      match under.lookup path with
      | some _ => scope (exec C st) ⟨m ++ [.ptr ⟨al, [c!"under", path]⟩], (c!"found_items", ⟨.iter .str .item, ⟨m.length, []⟩⟩) :: vs, files, out⟩
      | none => .ok .next ⟨m ++ [.null], (c!"found_items", ⟨.iter .str .item, ⟨m.length, []⟩⟩) :: vs, files, out⟩ := by
  have hpk : ∀ w vars, peek ⟨m.length, []⟩ ⟨m ++ [w], vars, files, out⟩ = .ok w ⟨m ++ [w], vars, files, out⟩ :=
    fun w vars => peek_var (by simp)
  have hun : ∀ w, eval C (.mem (.id [c!"m_lookup"]) c!"under") ⟨m ++ [w], (c!"found_items", ⟨.iter .str .item, ⟨m.length, []⟩⟩) :: vs, files, out⟩ = _ :=
    fun w => eval_under hs (by rw [lookup_cons_ne (by decide), hn])
  have hend : ∀ w, eval C (.call (.mem (.mem (.id [c!"m_lookup"]) c!"under") c!"cend") [])
      ⟨m ++ [w], (c!"found_items", ⟨.iter .str .item, ⟨m.length, []⟩⟩) :: vs, files, out⟩ =
        .ok (.rv (.iter .str .item) .null) ⟨m ++ [w], (c!"found_items", ⟨.iter .str .item, ⟨m.length, []⟩⟩) :: vs, files, out⟩ := by
    intro w
    rw [eval]
    simp only [M.bind_run]
    rw [hun]
    simp [evals, dotCall]
  unfold foundCond foundAt
  generalize Expr.call (.mem (.mem (.id [c!"m_lookup"]) c!"under") c!"cend") [] = e at hend ⊢
  cases hl : under.lookup path with
  | none =>
    simp [exec, eval, lookupId, lookup_cons_eq, hend, load, hpk, V.isUndef, binV, asBool]
  | some s =>
    simp [exec, eval, lookupId, lookup_cons_eq, hend, load, hpk, V.isUndef, binV, asBool]

/-- `auto items = found_items->second.items;` -/
theorem exec_sectionItems {items : Items} (hu : HasUnder al m under) (hl : under.lookup path = some items) :
    ∃ I, RepItems I items ∧ execs C ini313_tree ⟨m ++ [.ptr ⟨al, [c!"under", path]⟩], (c!"found_items", ⟨.iter .str .item, ⟨m.length, []⟩⟩) :: vs, files, out⟩ =
      .ok .next ⟨m ++ [.ptr ⟨al, [c!"under", path]⟩] ++ [.val (.struct I)], (c!"items", ⟨.map .str .str, ⟨m.length + 1, []⟩⟩) ::
        (c!"found_items", ⟨.iter .str .item, ⟨m.length, []⟩⟩) :: vs, files, out⟩ := by
  obtain ⟨I, U, h1, h2⟩ := hu
  obtain ⟨I', h3, h4⟩ := h2.hit hl
  refine ⟨I', h4, ?_⟩
  show execs C [.decl .auto c!"items" none (some (.mem (.arrow (.id [c!"found_items"]) c!"second") c!"items"))] _ = _
  rw [execs_one]
  have hg : getAt (m ++ [.ptr ⟨al, [c!"under", path]⟩] ++ [.val .undef]) ⟨al, [c!"under", path, c!"items"]⟩ = some (.struct I') := by
    refine getAt_append (getAt_append ?_)
    unfold getAt
    rw [h1]
    simp [itemVal, vGet, List.lookup]
    rw [h3]
    simp [itemVal, vGet, List.lookup]
  have hpk : ∀ vars, peek ⟨m.length, []⟩ ⟨m ++ [.ptr ⟨al, [c!"under", path]⟩] ++ [.val .undef], vars, files, out⟩ = .ok (.ptr ⟨al, [c!"under", path]⟩) _ :=
    fun vars => peek_var (by simp)
  have h5 := exec_declAutoLv (C := C) (m := m ++ [.ptr ⟨al, [c!"under", path]⟩]) (vs := (c!"found_items", ⟨.iter .str .item, ⟨m.length, []⟩⟩) :: vs) (files := files)
    (out := out) (n := c!"items") (e := .mem (.arrow (.id [c!"found_items"]) c!"second") c!"items") (y := .lv (.map .str .str) ⟨al, [c!"under", path, c!"items"]⟩)
    (u := .map .str .str) (v := .val (.struct I')) ?_ (load_lv (peek_at hg) rfl)
  · rw [h5]; simp
  · simp only [eval, M.bind_run, lookupId, lookup_cons_ne (show c!"found_items" ≠ c!"items" by decide), lookup_cons_eq, getVars_run, Res.ok_bind, M.pure_run]
    simp only [arrowMem, load, M.bind_run, hpk, Res.ok_bind, V.isUndef]
    simp [dotMem, memTy]

/-- The look-ups of a section. -/
theorem run_section (hv : NView c m vs q fs ap path al under) (hs : C.self.lookup c!"m_lookup" = some ⟨.item, ⟨al, []⟩⟩) {looks : Option (List Look)}
    (hl : ∀ ls, looks = some ls → ∀ l ∈ ls, LookOk C c l ∧ (fs.lookup l.member).isSome = true) :
    Sim (runSection C.E.T C.E.I under c path looks fs) (execs C (looksTree looks) ⟨m, vs, files, out⟩)
      fun r x => if r.1 then ∃ t vs', (∀ n, n ≠ c!"found_items" → vs'.lookup n = vs.lookup n) ∧ x = .ok .next ⟨setAt m q (.struct r.2) ++ t, vs', files, out⟩
        else ∃ t vs', x = .thr ⟨setAt m q (.struct r.2) ++ t, vs', files, out⟩ := by
  cases looks with
  | none =>
    refine ⟨[], vs, fun _ _ => rfl, ?_⟩
    simp [looksTree, execs, setAt_self hv.mObj]
  | some ls =>
    have hsk : ∀ n, n ≠ c!"found_items" → ((c!"found_items", (⟨.iter .str .item, ⟨m.length, []⟩⟩ : Var)) :: vs).lookup n = vs.lookup n :=
      fun n h => lookup_cons_ne h
    rw [runSection]
    split
    · trivial
    · rename_i hcl
      have hcl' : ∀ l ∈ ls, clash l = false := by
        intro l h
        cases hx : clash l with
        | false => rfl
        | true => exact absurd (List.any_eq_true.2 ⟨l, h, hx⟩) hcl
      rw [looksTree, execs_append (exec_findSection hv hs), execs_one, exec_whenSection hs hv.vLook]
      cases hu : under.lookup path with
      | none => exact ⟨[.null], _, hsk, by rw [setAt_self hv.mObj]⟩
      | some items =>
        simp only
        obtain ⟨I, hI, h1⟩ := exec_sectionItems (C := C) (m := m) (vs := vs) (files := files) (out := out) hv.mUnder hu
        have hlv : LookView c (m ++ [.ptr ⟨al, [c!"under", path]⟩] ++ [.val (.struct I)]) ((c!"items", ⟨.map .str .str, ⟨m.length + 1, []⟩⟩) ::
            (c!"found_items", ⟨.iter .str .item, ⟨m.length, []⟩⟩) :: vs) q fs (m.length + 1) items :=
          { vData := by rw [lookup_cons_ne (by decide), lookup_cons_ne (by decide), hv.vData]
            vItems := by rw [lookup_cons_eq]
            mObj := getAt_append (getAt_append hv.mObj)
            mItems := ⟨I, by simp, hI⟩
            ne := by have := getAt_lt hv.mObj; omega }
        have h2 := run_looks (C := C) (files := files) (out := out) ls hlv (fun l h => (hl ls rfl l h).1) hcl' (fun l h => (hl ls rfl l h).2)
        have hlt := getAt_lt hv.mObj
        rw [execs_block]
        cases hr : runLooks C.E.T C.E.I c items ls fs with
        | stuck => trivial
        | ub =>
          rw [hr] at h2
          exact scope_ub (scope_ub (by rw [execs_append h1]; exact h2))
        | ok r =>
          rw [hr] at h2
          obtain ⟨t, vs', h2⟩ := h2
          rw [setAt_append (by simp; omega), setAt_append hlt] at h2
          obtain ⟨b, fs'⟩ := r
          cases b with
          | true =>
            simp only [if_true] at h2
            refine ⟨[.ptr ⟨al, [c!"under", path]⟩], _, hsk, ?_⟩
            have h3 : scope (execs C (ini313_tree ++ ls.flatMap lookTree)) ⟨m ++ [.ptr ⟨al, [c!"under", path]⟩],
                (c!"found_items", ⟨.iter .str .item, ⟨m.length, []⟩⟩) :: vs, files, out⟩ =
                .ok .next ⟨setAt m q (.struct fs') ++ [.ptr ⟨al, [c!"under", path]⟩], (c!"found_items", ⟨.iter .str .item, ⟨m.length, []⟩⟩) :: vs, files, out⟩ := by
              rw [scope_ok (by rw [execs_append h1]; exact h2)]
              congr 2
              rw [List.append_assoc]
              exact List.take_left' (by simp)
            rw [scope_ok h3, List.take_of_length_le (by simp)]
          | false =>
            simp only [Bool.false_eq_true, if_false] at h2 ⊢
            refine ⟨[.ptr ⟨al, [c!"under", path]⟩] ++ [.val (.struct I)] ++ t, vs', ?_⟩
            rw [scope_thr (scope_thr (by rw [execs_append h1]; exact h2))]
            simp

theorem runLooks_keep {T : CTable} {L : IniLib} {ls : List Look} {n : Str} (hn : n ∉ ls.map Look.member) {b : Bool} {fs' : List (Str × Val)}
    (h : runLooks T L c items ls fs = .ok (b, fs')) : fs'.lookup n = fs.lookup n := by
  induction ls generalizing fs with
  | nil => cases h; rfl
  | cons l ls ih =>
    have hn' : n ∉ ls.map Look.member := fun e => hn (by simp [e])
    have hl : n ≠ l.member := fun e => hn (by simp [e])
    rw [runLooks] at h
    split at h
    · exact ih hn' h
    · split at h
      · cases ho : fs.lookup l.member with
        | none => rw [modifyField_none ho] at h; cases h
        | some old =>
          rw [modifyField_eq ho] at h
          rw [ih hn' h, lookup_setField, if_neg hl]
      · exact ih hn' h
      · cases h; rfl
      · cases h
      · cases h

theorem runSection_keep {T : CTable} {L : IniLib} {looks : Option (List Look)} {n : Str} (hn : ∀ ls, looks = some ls → n ∉ ls.map Look.member)
    {b : Bool} {fs' : List (Str × Val)} (h : runSection T L under c path looks fs = .ok (b, fs')) : fs'.lookup n = fs.lookup n := by
  cases looks with
  | none => cases h; rfl
  | some ls =>
    rw [runSection] at h
    split at h
    · cases h
    · split at h
      · cases h; rfl
      · exact runLooks_keep (hn ls rfl) h

/-! ### Below a section -/

theorem NView.setPath (h : NView c m vs q fs ap path al under) {p' : Str} : NView c (m.set ap (.val (.str p'))) vs q fs ap p' al under :=
  { h with
    mObj := by rw [getAt_set (Ne.symm h.neP), h.mObj]
    mPath := List.getElem?_set_self (List.getElem?_eq_some_iff.1 h.mPath).1
    mUnder := h.mUnder.set h.pl }

/-- `if (path.length() > 0) path += ".";` -/
theorem run_dot (hv : NView c m vs q fs ap path al under) (dot : Bool) :
    execs C (if dot then ini400_tree else []) ⟨m, vs, files, out⟩ =
      .ok .next ⟨m.set ap (.val (.str (if dot && path ≠ [] then path ++ c!"." else path))), vs, files, out⟩ := by
  have hid : m.set ap (.val (.str path)) = m := by
    have h := List.getElem?_eq_some_iff.1 hv.mPath
    rw [← h.2]; simp
  cases dot with
  | false => simp [execs, hid]
  | true =>
    simp only [if_true, Bool.true_and]
    have hap := (List.getElem?_eq_some_iff.1 hv.mPath).1
    have hev : eval C (.bin .gt (.call (.mem (.id [c!"path"]) c!"length") []) (.num c!"0")) ⟨m, vs, files, out⟩ =
        .ok (.rv (.prim .bool) (.val (.bool (decide (path ≠ []))))) ⟨m, vs, files, out⟩ := by
      cases path <;> simp [eval, evals, lookupId, hv.vPath, dotCall, peek_var hv.mPath, load, binV]
    have hpl : exec C (.expr (.plusAssign (.id [c!"path"]) (.str c!"."))) ⟨m, vs, files, out⟩ =
        .ok .next ⟨m.set ap (.val (.str (path ++ c!"."))), vs, files, out⟩ := by
      have hd : cStr c!"." = c!"." := by decide
      have hs : eval C (.str c!".") ⟨m, vs, files, out⟩ = .ok (.rv (.ptr (.prim .char)) (.cstr c!".")) ⟨m, vs, files, out⟩ := by
        rw [eval, hd]; rfl
      rw [exec, eval]
      simp only [M.bind_run, hs, Res.ok_bind, eval_id (C := C) (s := ⟨m, vs, files, out⟩) hv.vPath]
      simp [plusE, strArg, load, coerce, peek_var hv.mPath, poke_var hap]
    show execs C [.when _ _] _ = _
    rw [execs_one, exec]
    simp only [M.bind_run, hev, Res.ok_bind]
    by_cases hp : path = []
    · subst hp; simp [asBool, load, hid]
    · simp [asBool, load, hp]
      rw [scope_len hpl (by simp)]

/-- The members with functions of their own.  (Proof notion, models no code.) -/
def kidNames (body : List NRd) : List Str := body.filterMap fun
  | .child n _ _ => some n
  | _ => none

/-- A reader function is called as the model says.  (Proof notion, models no code.) -/
def NrdCall (C : Ctx) (al : Nat) (under : List (Str × Items)) (prog : List Item) (v : Val) (ty : Str) : Prop :=
  ∀ (s : St) (path : Str) (a : EV) (q : Place), StrArg s.mem path a → s.vars.lookup (c!"do_rd_" ++ ty) = none → getAt s.mem q = some v →
    HasUnder al s.mem under → q.addr ≠ al →
    Sim (nrdVal C.E.T C.E.I prog under v ty path) (callId C [c!"do_rd_" ++ ty] [a, .lv (.struct ty) q] s)
      fun r x => x = .ok (.rv (.prim .bool) (.val (.bool r.1))) { s with mem := setAt s.mem q r.2 }

variable {ar : Nat}

theorem NView.setObj (h : NView c m vs q fs ap path al under) {fs' : List (Str × Val)} {v : V} (h1 : q.addr ≠ ar) (h2 : ar ≠ ap) (h3 : ar ≠ al) :
    NView c ((setAt m q (.struct fs')).set ar v) vs q fs' ap path al under :=
  { h with
    mObj := by rw [getAt_set (Ne.symm h1), getAt_setAt h.mObj]
    mPath := by rw [List.getElem?_set_ne h2, setAt_ne h.neP, h.mPath]
    mUnder := (h.mUnder.setAt h.neL).set h3 }

theorem exec_assignOk {a b : Expr} {y z : EV} {x : Var} {s s1 s2 : St} (hb : eval C b s = .ok y s1) (ha : eval C a s1 = .ok (.lv x.ty x.at_) s1)
    (hz : assignE y (.lv x.ty x.at_) s1 = .ok z s2) : exec C (.expr (.assign a b)) s = .ok .next s2 := by
  rw [exec, eval]
  simp only [M.bind_run, hb, Res.ok_bind, ha, hz, M.pure_run]

theorem exec_assign_ub {a b : Expr} {s : St} (hb : eval C b s = .ub) : exec C (.expr (.assign a b)) s = .ub := by
  rw [exec, eval]
  simp only [M.bind_run, hb]
  rfl

/-- The members with functions of their own. -/
theorem run_kids {prog : List Item} {fs0 : List (Str × Val)} (body : List NRd) (hv : NView c m vs q fs ap path al under)
    (hrv : vs.lookup c!"rv" = some ⟨.prim .bool, ⟨ar, []⟩⟩) {rv : Bool} (hr : m[ar]? = some (.val (.bool rv)))
    (h1 : q.addr ≠ ar) (h2 : ar ≠ ap) (h3 : ar ≠ al) (hdo : ∀ ty, vs.lookup (c!"do_rd_" ++ ty) = none)
    (hk : ∀ n ty sp, NRd.child n ty sp ∈ body → cStr sp = sp ∧ memberTy C.E.T c n = some (.struct ty) ∧
      ∀ v, fs0.lookup n = some v → NrdCall C al under prog v ty)
    (hnd : (kidNames body).Nodup) (hag : ∀ n ∈ kidNames body, fs.lookup n = fs0.lookup n) :
    Sim (runKids (nrdFields C.E.T C.E.I prog under fs0) path body rv fs) (execs C (body.flatMap nrdTree) ⟨m, vs, files, out⟩)
      fun r x => x = .ok .next ⟨(setAt m q (.struct r.2)).set ar (.val (.bool r.1)), vs, files, out⟩ := by
  induction body generalizing m fs rv with
  | nil =>
    show execs C [] _ = _
    have h := List.getElem?_eq_some_iff.1 hr
    rw [setAt_self hv.mObj]
    simp [execs, ← h.2]
  | cons b body ih =>
    have hk' : ∀ n ty sp, NRd.child n ty sp ∈ body → cStr sp = sp ∧ memberTy C.E.T c n = some (.struct ty) ∧
      ∀ v, fs0.lookup n = some v → NrdCall C al under prog v ty := fun n ty sp h => hk n ty sp (by simp [h])
    cases b with
    | vector n => exact ih hv hr hk' hnd hag
    | fixme n => exact ih hv hr hk' hnd hag
    | warn n => exact ih hv hr hk' hnd hag
    | child n ty sp =>
      obtain ⟨hsp, hty, hcall⟩ := hk n ty sp (by simp)
      have hnd' : n ∉ kidNames body ∧ (kidNames body).Nodup := by simpa [kidNames] using hnd
      have hag1 : fs.lookup n = fs0.lookup n := hag n (by simp [kidNames])
      have hag2 : ∀ k ∈ kidNames body, fs.lookup k = fs0.lookup k := fun k h => hag k (by
        simp only [kidNames, List.filterMap_cons, List.mem_cons]; exact .inr h)
      rw [runKids]
      unfold field
      rw [nrdFields_lookup]
      cases hl : fs0.lookup n with
      | none => trivial
      | some v =>
        rw [hl] at hag1
        show Sim (nrdVal C.E.T C.E.I prog under v ty (path ++ sp) >>= fun r => modifyField n (fun _ => .ok r.2) fs >>= fun fs' => _) _ _
        have hmem : getAt m ⟨q.addr, q.path ++ [n]⟩ = some v := by rw [getAt_member (p := q.path) hv.mObj, hag1]
        have hc := hcall v hl ⟨m, vs, files, out⟩ (path ++ sp) (.rv .str (.val (.str (path ++ sp)))) ⟨q.addr, q.path ++ [n]⟩ .rv (hdo ty) hmem hv.mUnder hv.neL
        have he : evals C [(.bin .add (.id [c!"path"]) (.str sp)), (.mem (.id [c!"data"]) n)] ⟨m, vs, files, out⟩ =
            .ok [.rv .str (.val (.str (path ++ sp))), .lv (.struct ty) ⟨q.addr, q.path ++ [n]⟩] ⟨m, vs, files, out⟩ := by
          simp [evals, eval, lookupId, hv.vPath, hv.vData, load, peek_var hv.mPath, V.isUndef, hsp, binV, coerce, dotMem, memTy, hty, ofMTy]
        have hx : eval C (.call (.id [(c!"do_rd_" ++ ty)]) [(.bin .add (.id [c!"path"]) (.str sp)), (.mem (.id [c!"data"]) n)]) ⟨m, vs, files, out⟩ =
            callId C [c!"do_rd_" ++ ty] [.rv .str (.val (.str (path ++ sp))), .lv (.struct ty) ⟨q.addr, q.path ++ [n]⟩] ⟨m, vs, files, out⟩ := by
          rw [eval]
          simp only [M.bind_run, he, Res.ok_bind]
        refine hc.bind (fun r _ h => ?_) (fun h => ?_)
        · obtain ⟨b, w⟩ := r
          rw [modifyField_eq hag1]
          have h4 : exec C (.expr (.assign (.id [c!"rv"]) (.call (.id [(c!"do_rd_" ++ ty)]) [(.bin .add (.id [c!"path"]) (.str sp)), (.mem (.id [c!"data"]) n)])))
              ⟨m, vs, files, out⟩ = .ok .next ⟨(setAt m q (.struct (setField n w fs))).set ar (.val (.bool b)), vs, files, out⟩ := by
            rw [h, setAt_member (p := q.path) hv.mObj hag1] at hx
            have hlt : ar < (setAt m q (.struct (setField n w fs))).length := by simpa using (List.getElem?_eq_some_iff.1 hr).1
            exact exec_assignOk hx (eval_id (x := ⟨.prim .bool, ⟨ar, []⟩⟩) hrv) (z := .lv (.prim .bool) ⟨ar, []⟩) (by simp [assignE, load, coerce, poke_var hlt])
          show Sim (runKids _ path body b (setField n w fs)) _ _
          rw [List.flatMap_cons]
          show Sim _ (execs C (_ :: (body.flatMap nrdTree)) _) _
          rw [execs_cons h4]
          have hlt : ar < (setAt m q (.struct (setField n w fs))).length := by simpa using (List.getElem?_eq_some_iff.1 hr).1
          refine (ih (hv.setObj h1 h2 h3) (List.getElem?_set_self hlt) hk' hnd'.2 (fun k hkm => ?_)).mono fun r h => ?_
          · rw [lookup_setField, if_neg (fun e => hnd'.1 (by rwa [e] at hkm)), hag2 k hkm]
          · rw [h, setAt_set (Ne.symm h1), setAt_setAt hv.mObj, List.set_set]
        · rw [List.flatMap_cons]
          refine execs_append_ub ?_
          show execs C [_] _ = _
          rw [execs_one]
          exact exec_assign_ub (hx.trans h)

/-! ### Functions -/

/-- The body of a reader function. -/
theorem run_nrdBody {prog : List Item} {looks : Option (List Look)} {dot : Bool} {body : List NRd} {m0 : List V}
    (hs : C.self.lookup c!"m_lookup" = some ⟨.item, ⟨al, []⟩⟩) (hobj : getAt m0 q = some (.struct fs)) (hu : HasUnder al m0 under) (hne : q.addr ≠ al)
    (hl : ∀ ls, looks = some ls → ∀ l ∈ ls, LookOk C c l ∧ (fs.lookup l.member).isSome = true)
    (hk : ∀ n ty sp, NRd.child n ty sp ∈ body → cStr sp = sp ∧ memberTy C.E.T c n = some (.struct ty) ∧
      ∀ v, fs.lookup n = some v → NrdCall C al under prog v ty)
    (hnd : (kidNames body).Nodup) (hdis : ∀ ls, looks = some ls → ∀ n ∈ kidNames body, n ∉ ls.map Look.member)
    (hb : Run.nrdBody prog c = some (looks, dot, body)) :
    Sim (runNRd C.E.T C.E.I prog under fs (nrdFields C.E.T C.E.I prog under fs) c path)
      (execs C (Cpp.nrdBody looks dot body) ⟨m0 ++ [.val (.str path)], [(c!"data", ⟨.struct c, q⟩), (c!"path", ⟨.str, ⟨m0.length, []⟩⟩)], files, out⟩)
      fun r x => ∃ m' vs' l, x = .ok (.ret (.lv (.prim .bool) ⟨l, []⟩)) ⟨m', vs', files, out⟩ ∧
        m'[l]? = some (.val (.bool r.1)) ∧ m'.take m0.length = setAt m0 q r.2 := by
  have hlt := getAt_lt hobj
  obtain ⟨vs, hvs⟩ : ∃ vs, vs = [(c!"rv", (⟨.prim .bool, ⟨m0.length + 1, []⟩⟩ : Var)), (c!"data", ⟨.struct c, q⟩), (c!"path", ⟨.str, ⟨m0.length, []⟩⟩)] := ⟨_, rfl⟩
  have hrv : vs.lookup c!"rv" = some ⟨.prim .bool, ⟨m0.length + 1, []⟩⟩ := by rw [hvs, lookup_cons_eq]
  have hal : al < m0.length := by
    obtain ⟨I, U, h, _⟩ := hu
    exact (List.getElem?_eq_some_iff.1 h).1
  have hv : NView c (m0 ++ [.val (.str path), .val (.bool true)]) vs q fs m0.length path al under :=
    { vData := by rw [hvs, lookup_cons_ne (by decide), lookup_cons_eq]
      vPath := by rw [hvs, lookup_cons_ne (by decide), lookup_cons_ne (by decide), lookup_cons_eq]
      vLook := by rw [hvs, lookup_cons_ne (by decide), lookup_cons_ne (by decide), lookup_cons_ne (by decide)]; rfl
      mObj := getAt_append hobj
      mPath := by simp
      mUnder := hu.append
      neP := by omega
      neL := hne
      pl := by omega }
  have hdecl : execs C (Cpp.nrdBody looks dot body) ⟨m0 ++ [.val (.str path)], [(c!"data", ⟨.struct c, q⟩), (c!"path", ⟨.str, ⟨m0.length, []⟩⟩)], files, out⟩ =
      execs C ([.try (looksTree looks ++ (if dot then ini400_tree else []) ++ body.flatMap nrdTree) (.ref (.name [c!"std", c!"exception"])) ini444_tree] ++ retRv)
        ⟨m0 ++ [.val (.str path), .val (.bool true)], vs, files, out⟩ := by
    show execs C (.decl (.prim .bool) c!"rv" none (some (.bool true)) :: _) _ = _
    rw [execs_cons (exec_declInit (u := .prim .bool) (x := .rv (.prim .bool) (.val (.bool true))) (v := .val (.bool true)) rfl (by rw [eval]; rfl) (initFrom_load rfl))]
    simp [hvs]
  rw [hdecl]
  -- what is left to do after the `try` block
  have hfin : ∀ {m1 : List V} {b : Bool} {v : Val}, m1 = setAt m0 q v ++ [m1[m0.length]?.getD .null, .val (.bool b)] →
      exec C (.try (looksTree looks ++ (if dot then ini400_tree else []) ++ body.flatMap nrdTree) (.ref (.name [c!"std", c!"exception"])) ini444_tree)
        ⟨m0 ++ [.val (.str path), .val (.bool true)], vs, files, out⟩ = .ok .next ⟨m1, vs, files, out⟩ →
      ∃ m' vs' l, execs C ([.try (looksTree looks ++ (if dot then ini400_tree else []) ++ body.flatMap nrdTree) (.ref (.name [c!"std", c!"exception"])) ini444_tree] ++ retRv)
        ⟨m0 ++ [.val (.str path), .val (.bool true)], vs, files, out⟩ = .ok (.ret (.lv (.prim .bool) ⟨l, []⟩)) ⟨m', vs', files, out⟩ ∧
        m'[l]? = some (.val (.bool b)) ∧ m'.take m0.length = setAt m0 q v := by
    intro m1 b v hm he
    refine ⟨m1, vs, m0.length + 1, ?_, ?_, ?_⟩
    · rw [List.singleton_append, execs_cons he, execs_retRv hrv]
    · rw [hm]
      have : (setAt m0 q v).length = m0.length := by simp
      rw [← this, List.getElem?_append_right (by omega)]
      simp
    · rw [hm]
      exact List.take_left' (by simp)
  rw [runNRd, hb]
  simp only
  have h1 := run_section (C := C) (files := files) (out := out) hv hs hl
  have htry : ∀ ss hs, exec C (.try ss (.ref (.name [c!"std", c!"exception"])) hs) = catching (scope (execs C ss)) (scope (execs C hs)) := by
    intro ss hs; rw [exec]
  cases hr : runSection C.E.T C.E.I under c path looks fs with
  | stuck => trivial
  | ub =>
    rw [hr] at h1
    show execs C _ _ = _
    refine execs_append_ub ?_
    rw [execs_one, htry, catching, scope_ub (execs_append_ub (execs_append_ub h1))]
  | ok r =>
    obtain ⟨b, fs1⟩ := r
    rw [hr] at h1
    cases b with
    | false =>
      simp only [Sim, Bool.false_eq_true, if_false] at h1
      obtain ⟨t, vs', h1⟩ := h1
      show ∃ m' vs' l, _ ∧ _
      refine hfin (b := false) (m1 := setAt m0 q (.struct fs1) ++ [.val (.str path), .val (.bool false)]) (by simp) ?_
      rw [htry, catching, scope_thr (execs_append_thr (execs_append_thr h1))]
      simp only
      rw [setAt_append hlt]
      have ht : (setAt m0 q (.struct fs1) ++ [V.val (.str path), V.val (.bool true)] ++ t).take (m0 ++ [V.val (.str path), .val (.bool true)]).length =
          setAt m0 q (.struct fs1) ++ [.val (.str path), .val (.bool true)] := List.take_left' (by simp)
      rw [ht]
      have hx : execs C ini444_tree ⟨setAt m0 q (.struct fs1) ++ [.val (.str path), .val (.bool true)], vs, files, out⟩ =
          .ok .next ⟨setAt m0 q (.struct fs1) ++ [.val (.str path), .val (.bool false)], vs, files, out⟩ := by
        show execs C [.expr (.assign (.id [c!"rv"]) (.bool false))] _ = _
        rw [execs_one]
        refine exec_assignOk (s1 := ⟨setAt m0 q (.struct fs1) ++ [.val (.str path), .val (.bool true)], vs, files, out⟩)
          (y := .rv (.prim .bool) (.val (.bool false))) (by rw [eval]; rfl)
          (eval_id (x := ⟨.prim .bool, ⟨m0.length + 1, []⟩⟩) hrv) (z := .lv (.prim .bool) ⟨m0.length + 1, []⟩) ?_
        have hlt' : m0.length + 1 < (setAt m0 q (.struct fs1) ++ [V.val (.str path), .val (.bool true)]).length := by simp
        simp only [assignE, load, M.bind_run, M.pure_run, Res.ok_bind, coerce_self, M.opt_some, poke_var hlt']
        rw [List.set_append_right _ _ (by simp)]
        simp
      rw [scope_len hx (by simp)]
    | true =>
      simp only [Sim, if_true] at h1
      obtain ⟨t, vs', hvs', h1⟩ := h1
      have hfi : ∀ ty, c!"do_rd_" ++ ty ≠ c!"found_items" := fun ty h => by simp at h
      have hv1 : NView c (setAt (m0 ++ [.val (.str path), .val (.bool true)]) q (.struct fs1) ++ t) vs' q fs1 m0.length path al under :=
        { hv with
          vData := by rw [hvs' _ (by decide), hv.vData]
          vPath := by rw [hvs' _ (by decide), hv.vPath]
          vLook := by rw [hvs' _ (by decide), hv.vLook]
          mObj := getAt_append (getAt_setAt hv.mObj)
          mPath := by
            rw [List.getElem?_append_left (by simp), setAt_ne hv.neP, hv.mPath]
          mUnder := (hv.mUnder.setAt hne).append }
      have h2 := run_dot (C := C) (files := files) (out := out) hv1 dot
      obtain ⟨path', hp'⟩ : ∃ path', path' = if dot && path ≠ [] then path ++ c!"." else path := ⟨_, rfl⟩
      rw [← hp'] at h2
      have hm2 : (setAt (m0 ++ [.val (.str path), .val (.bool true)]) q (.struct fs1) ++ t).set m0.length (.val (.str path')) =
          setAt m0 q (.struct fs1) ++ ([.val (.str path'), .val (.bool true)] ++ t) := by
        rw [setAt_append hlt, List.append_assoc, List.set_append_right _ _ (by simp)]
        simp
      have hv2 := hv1.setPath (p' := path')
      rw [hm2] at h2 hv2
      have h3 := run_kids (C := C) (files := files) (out := out) (prog := prog) (fs0 := fs) (ar := m0.length + 1) (rv := true) body hv2
        (by rw [hvs' _ (by decide), hrv])
        (by rw [List.getElem?_append_right (by simp)]; simp) (by omega) (by omega) (by omega)
        (fun ty => by
          rw [hvs' _ (hfi ty), hvs, lookup_cons_ne (fun h => by simp at h), lookup_cons_ne (fun h => by simp at h), lookup_cons_ne (fun h => by simp at h)]
          rfl)
        hk hnd (fun n hn => runSection_keep (fun ls h => hdis ls h n hn) hr)
      show Sim (runKids (nrdFields C.E.T C.E.I prog under fs) (if dot && path ≠ [] then path ++ c!"." else path) body true fs1 >>= fun r => R.ok (r.1, Val.struct r.2)) _ _
      rw [← hp']
      refine h3.bind (fun r _ h3 => ?_) (fun h3 => ?_)
      · obtain ⟨rv, fs2⟩ := r
        rw [setAt_append (by simp; omega), setAt_setAt hobj] at h3
        have hm3 : (setAt m0 q (.struct fs2) ++ ([V.val (.str path'), V.val (.bool true)] ++ t)).set (m0.length + 1) (.val (.bool rv)) =
            setAt m0 q (.struct fs2) ++ [.val (.str path'), .val (.bool rv)] ++ t := by
          rw [List.set_append_right _ _ (by simp)]
          simp
        simp only at h3
        rw [hm3] at h3
        refine hfin (b := rv) (m1 := setAt m0 q (.struct fs2) ++ [.val (.str path'), .val (.bool rv)]) (by simp) ?_
        rw [htry, catching]
        have h4 : execs C (looksTree looks ++ (if dot then ini400_tree else []) ++ body.flatMap nrdTree)
            ⟨m0 ++ [.val (.str path), .val (.bool true)], vs, files, out⟩ = .ok .next ⟨setAt m0 q (.struct fs2) ++ [.val (.str path'), .val (.bool rv)] ++ t, vs', files, out⟩ := by
          rw [execs_append (by rw [execs_append h1, h2])]
          exact h3
        rw [scope_ok h4]
        simp only
        rw [List.take_left' (by simp)]
      · refine execs_append_ub ?_
        have h4 : execs C (looksTree looks ++ (if dot then ini400_tree else []) ++ body.flatMap nrdTree)
            ⟨m0 ++ [.val (.str path), .val (.bool true)], vs, files, out⟩ = .ub := by
          rw [execs_append (by rw [execs_append h1, h2])]
          exact h3
        rw [execs_one, htry, catching, scope_ub h4]

/-! ### Calls -/

/-- The members of a generated n_ini class, process_items_ini.cpp:101-103, 224-225.  (Proof notion, models no code.) -/
def iniMembers : List Str := [c!"m_lookup", c!"m_multiline_string_key", c!"m_multiline_string_value", c!"m_delta_only", c!"m_file"]

/-- The name of a struct where it is used in a function of class `cls`.  (Proof notion, models no code.) -/
structure IniName (E : Env) (cls ty : Str) : Prop where
  clear : ty ∉ [c!"path", c!"filename", c!"data", c!"rv"] ++ iniMembers
  methods_ : methods E (some cls) ty = []
  nested : ty ∉ E.nested
  cls_ : (E.T.cls ty).isSome = true

theorem IniName.tyOf {E : Env} {cls ty : Str} (h : IniName E cls ty) {vars : List (Str × Var)} (hv : vars.lookup ty = none) :
    Cpp.tyOf E (some cls) vars (.name [ty]) = some (.struct ty) := by
  rw [tyOf_name (by simp [hidden, hv, h.methods_]) h.nested, if_pos h.cls_]

/-- The look-up fits the class `c`.  (Proof notion, models no code.) -/
def LookTyped (E : Env) (cls c : Str) : Look → Prop
  | .simple ty n => cStr n = n ∧ memberTy E.T c n = some (.simple ty)
  | .enum n => cStr n = n ∧ ∃ e val, memberTy E.T c n = some (.enum e.name) ∧ E.T.enm e.name = some (e, val) ∧
      ∀ self fuel k, ToCall ⟨E, some cls, self, run E self (fuel + 1), k⟩ e val

/-- A program with the reader functions of the pieces `prog` in the class `cls`.  (Proof notion, models no code.) -/
structure NRdProgram (E : Env) (cls : Str) (prog : List Item) : Prop where
  stfx : cls ≠ c!"stfx"
  funs : ∀ c looks dot body, Run.nrdBody prog c = some (looks, dot, body) → IniName E cls c ∧
    methods E (some cls) (c!"do_rd_" ++ c) = [nrdFun cls c (Cpp.nrdBody looks dot body)] ∧
    (∀ ls, looks = some ls → ∀ l ∈ ls, LookTyped E cls c l) ∧
    (∀ n ty sp, NRd.child n ty sp ∈ body → cStr sp = sp ∧ memberTy E.T c n = some (.struct ty)) ∧
    (kidNames body).Nodup

theorem LookTyped.member {E : Env} {cls c : Str} {l : Look} (h : LookTyped E cls c l) : ∃ t, memberTy E.T c l.member = some t ∧ ∀ ty, t ≠ .struct ty := by
  cases l with
  | simple ty n => exact ⟨_, h.2, fun _ h => by cases h⟩
  | enum n =>
    obtain ⟨_, e, val, h, _⟩ := h
    exact ⟨_, h, fun _ h => by cases h⟩

theorem memberTy_mem {T : CTable} {c n : Str} {t : MTy} (h : memberTy T c n = some t) : ∃ ms, T.cls c = some ms ∧ ∃ k ∈ ms, k.name = n ∧ k.ty = t := by
  unfold memberTy at h
  cases hc : T.cls c with
  | none => rw [hc] at h; cases h
  | some ms =>
    rw [hc] at h
    refine ⟨ms, rfl, ?_⟩
    simp only [Option.bind_some] at h
    cases hf : ms.find? (fun m => m.name = n) with
    | none => rw [hf] at h; cases h
    | some k =>
      rw [hf] at h
      cases h
      exact ⟨k, List.mem_of_find?_eq_some hf, by simpa using List.find?_some hf, rfl⟩

/-- The parameters of a reader function.  (Proof notion, models no code.) -/
def rdParams (c : Str) : List (Ty × Str) := [(.name [c!"std", c!"string"], c!"path"), (.ref (.name [c]), c!"data")]

/-- A call of a reader function. -/
theorem call_nrd {E : Env} {cls ty n : Str} {stmts : List Stmt} {self : List (Str × Var)} {fuel fu : Nat} {a : EV} {q : Place} {s : St} {x : Str}
    (hty : IniName E cls ty) (hs : ∀ n, n ∉ iniMembers → self.lookup n = none)
    (hc : cls ≠ c!"stfx") (hm : methods E (some cls) n = [⟨some (.prim .bool), [cls, n], rdParams ty, none, stmts⟩])
    (hv : s.vars.lookup n = none) (hn : self.lookup n = none) (ha : StrArg s.mem x a) :
    callId ⟨E, some cls, self, run E self (fuel + 1), fu⟩ [n] [a, .lv (.struct ty) q] s =
      invoke ⟨E, some cls, self, run E self fuel, fuel⟩ ⟨some (.prim .bool), [cls, n], rdParams ty, none, stmts⟩ [a, .lv (.struct ty) q] s := by
  have hst : self.lookup ty = none := hs _ (fun h => hty.clear (List.mem_append_right _ h))
  have hp : ty ≠ c!"path" := fun h => hty.clear (by simp [h])
  have hvi : viable E (some cls) self (rdParams ty) [a, .lv (.struct ty) q] = true := by
    have h1 : tyOf E (some cls) self (.name [c!"std", c!"string"]) = some .str := rfl
    have h2 : tyOf E (some cls) ((c!"path", ⟨.str, ⟨0, []⟩⟩) :: self) (.name [ty]) = some (.struct ty) :=
      hty.tyOf (by rw [lookup_cons_ne hp, hst])
    have h3 : argFits true (.struct ty) (.lv (.struct ty) q) = true := by simp [argFits]
    simp only [rdParams, viable, Ty.noRef, Ty.isRef, h1, h2, ha.fits, h3, Bool.and_self]
  simp only [callId, M.bind_run, getVars_run, Res.ok_bind, hv, hn, hm, Option.isSome_none, Bool.or_self, Bool.false_eq_true, if_false, callOne,
    List.filter_cons, hvi, if_true, List.filter_nil]
  rw [run]
  simp only [hc, if_false]

/-- Its parameters. -/
theorem bind_nrd {E : Env} {cls ty : Str} {self : List (Str × Var)} {a : EV} {q : Place} {x : Str}
    (hty : IniName E cls ty) (hs : ∀ n, n ∉ iniMembers → self.lookup n = none) (ha : StrArg m x a) :
    bindParams E (some cls) self (rdParams ty) [a, .lv (.struct ty) q] ⟨m, [], files, out⟩ =
      .ok () ⟨m ++ [.val (.str x)], [(c!"data", ⟨.struct ty, q⟩), (c!"path", ⟨.str, ⟨m.length, []⟩⟩)], files, out⟩ := by
  have hst : self.lookup ty = none := hs _ (fun h => hty.clear (List.mem_append_right _ h))
  have hp : ty ≠ c!"path" := fun h => hty.clear (by simp [h])
  rw [rdParams, bindParams_val rfl (u := .str) rfl (ha.init [] files out),
    bindParams_ref (u := .struct ty) (hty.tyOf (by rw [List.cons_append, lookup_cons_ne hp]; exact hst))]
  simp [bindParams]

/-- The readers read what the model reads. -/
theorem nrd_call {E : Env} {cls : Str} {prog : List Item} (hp : NRdProgram E cls prog) {self : List (Str × Var)}
    (hs : ∀ n, n ∉ iniMembers → self.lookup n = none) (hsl : self.lookup c!"m_lookup" = some ⟨.item, ⟨al, []⟩⟩) {u : Bool}
    (fuel : Nat) : ∀ (v : Val) (ty : Str) (fu : Nat), nesting v < fuel → CTable.WT E.T u (.struct ty) v →
      NrdCall ⟨E, some cls, self, run E self fuel, fu⟩ al under prog v ty := by
  induction fuel with
  | zero => intro v ty fu h; omega
  | succ fuel ih =>
    intro v ty fu hd hwt s path a q ha hvar hq hu hne
    obtain ⟨ms, fs, rfl, hcls, hfs, hmem⟩ := wt_struct hwt
    have hfuel : 1 ≤ fuel := by rw [nesting] at hd; omega
    have hkd : nestingFields fs < fuel := by rw [nesting] at hd; omega
    show Sim (runNRd E.T E.I prog under fs (nrdFields E.T E.I prog under fs) ty path) _ _
    cases hb : Run.nrdBody prog ty with
    | none => rw [runNRd, hb]; trivial
    | some body =>
      obtain ⟨looks, dot, body⟩ := body
      obtain ⟨hty, hm, hlk, hkd', hnd⟩ := hp.funs ty looks dot body hb
      have hdo : c!"do_rd_" ++ ty ∉ iniMembers := by simp [iniMembers]
      have hcall := call_nrd (fu := fu) (q := q) (fuel := fuel) hty hs hp.stfx hm hvar (hs _ hdo) ha
      have hbind := bind_nrd (files := s.files) (out := s.out) (q := q) hty hs ha
      have hisSome : ∀ n t, memberTy E.T ty n = some t → ∃ v, fs.lookup n = some v ∧ CTable.WT E.T u t v := by
        intro n t h
        obtain ⟨ms', h1, k, hk, h2, h3⟩ := memberTy_mem h
        rw [hcls] at h1
        cases h1
        obtain ⟨v, hv⟩ := lookup_isSome (fs := fs) (n := n) (by rw [hfs, ← h2]; exact List.mem_map_of_mem hk)
        exact ⟨v, hv, h3 ▸ hmem k hk v (h2 ▸ hv)⟩
      obtain ⟨f1, rfl⟩ : ∃ f1, fuel = f1 + 1 := ⟨fuel - 1, by omega⟩
      have h1 := run_nrdBody (C := ⟨E, some cls, self, run E self (f1 + 1), f1 + 1⟩) (files := s.files) (out := s.out) (path := path) (prog := prog) (c := ty)
        (under := under) hsl hq hu hne
        (fun ls h l hl => by
          have ht := hlk ls h l hl
          obtain ⟨t, h2, _⟩ := ht.member
          obtain ⟨v, h3, _⟩ := hisSome _ _ h2
          refine ⟨?_, by rw [h3]; rfl⟩
          cases l with
          | simple _ _ => exact ht
          | enum n =>
            obtain ⟨h1, e, val, h2, h3, h4⟩ := ht
            exact ⟨h1, e, val, h2, h3, h4 _ _ _⟩)
        (fun n ty' sp h => by
          obtain ⟨h2, h3⟩ := hkd' n ty' sp h
          refine ⟨h2, h3, fun v hv => ih v ty' _ ?_ ?_⟩
          · have := nestingFields_lookup hv
            omega
          · obtain ⟨v', h4, h5⟩ := hisSome _ _ h3
            rw [hv] at h4
            cases h4
            exact h5)
        hnd
        (fun ls h n hn hin => by
          obtain ⟨l, hl, rfl⟩ := List.mem_map.1 hin
          obtain ⟨t, h2, h3⟩ := (hlk ls h l hl).member
          obtain ⟨b, hb', hbn⟩ := List.mem_filterMap.1 hn
          cases b with
          | child n ty' sp =>
            simp only [Option.some.injEq] at hbn
            obtain ⟨_, h4⟩ := hkd' n ty' sp hb'
            rw [hbn, h2] at h4
            exact h3 ty' (Option.some.inj h4)
          | _ => cases hbn)
        hb
      have hcall' : callId ⟨E, some cls, self, run E self (f1 + 1 + 1), fu⟩ [c!"do_rd_" ++ ty] [a, .lv (.struct ty) q] s =
          invoke ⟨E, some cls, self, run E self (f1 + 1), f1 + 1⟩ (nrdFun cls ty (Cpp.nrdBody looks dot body)) [a, .lv (.struct ty) q] s := hcall
      rw [hcall']
      obtain ⟨m0, vs0, files, out⟩ := s
      cases hr : runNRd E.T E.I prog under fs (nrdFields E.T E.I prog under fs) ty path with
      | stuck => trivial
      | ub =>
        simp only [hr] at h1
        exact invoke_ub hbind h1
      | ok r =>
        simp only [hr] at h1
        obtain ⟨m', vs', l, h2, h3, h4⟩ := h1
        show invoke _ _ _ _ = _
        rw [invoke_ok (f := nrdFun cls ty (Cpp.nrdBody looks dot body)) rfl (u := .prim .bool) rfl hbind h2 (initFrom_load (load_lv (peek_var h3) rfl))]
        simp only [h4]

end
end Stfx.Cpp
