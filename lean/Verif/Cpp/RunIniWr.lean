import Verif.Cpp.RunIniFile
/-
The generated n_ini writer functions, run as C++ code.
-/
set_option autoImplicit false
set_option linter.unusedSimpArgs false
namespace Stfx.Cpp
open Stfx.Run Stfx.Parser Stfx.Items Stfx.Gen

/-! ### What a writer function sees -/

/-- What an n_ini writer function of struct `c` sees: the path, the object `data`, its copy of the default object, the open file and
whether only differences from the default are written.  (Proof notion, models no code.) -/
structure NWView (c : Str) (m : List V) (vs : List (Str × Var)) (al : Nat) (p : Place) (fs : List (Str × Val)) (ap : Nat) (path : Str)
    (ad am af : Nat) (delta : Bool) (h : Nat) (dd : List (Str × Val)) : Prop where
  vPath : vs.lookup c!"path" = some ⟨.str, ⟨ap, []⟩⟩
  vData : vs.lookup c!"data" = some ⟨.ptr (.struct c), ⟨ad, []⟩⟩
  vLow : vs.lookup c!"lower_path" = some ⟨.str, ⟨al, []⟩⟩
  mPath : m[ap]? = some (.val (.str path))
  mData : m[ad]? = some (.ptr p)
  mObj : getAt m p = some (.struct fs)
  mLow : ∃ z, m[al]? = some (.val (.str z))
  mDelta : m[am]? = some (.val (.bool delta))
  mFile : m[af]? = some (.file h)
  dflt : ∀ n v, dd.lookup n = some v → ∃ ax, vs.lookup c!"default_data" = some ⟨.struct c, ⟨ax, []⟩⟩ ∧ al ≠ ax ∧ getAt m ⟨ax, [n]⟩ = some v
  neP : al ≠ ap
  neD : al ≠ ad
  neO : al ≠ p.addr
  neM : al ≠ am
  neF : al ≠ af
  clear : ∀ n, n ∉ [c!"path", c!"data", c!"lower_path", c!"rv", c!"default_data"] → vs.lookup n = none

/-- Where the statements of a writer of the class `cls` are executed.  (Proof notion, models no code.) -/
structure NWCtx (E : Env) (cls : Str) (am af : Nat) (C : Ctx) : Prop where
  env : C.E = E
  cls_ : C.cls = some cls
  self : ∀ n, n ∉ iniMembers → C.self.lookup n = none
  delta : C.self.lookup c!"m_delta_only" = some ⟨.prim .bool, ⟨am, []⟩⟩
  file : C.self.lookup c!"m_file" = some ⟨.ptr .file, ⟨af, []⟩⟩

section
variable {c : Str} {m : List V} {vs : List (Str × Var)} {al : Nat} {p : Place} {fs : List (Str × Val)} {ap : Nat} {path : Str}
  {ad am af : Nat} {delta : Bool} {h : Nat} {dd : List (Str × Val)} {nm t : Str}
  {E : Env} {cls : Str} {C : Ctx} {files : List FileSt} {out : List (Str × Saved)}

theorem NWView.upd (hv : NWView c m vs al p fs ap path ad am af delta h dd) {m' : List V} (hu : Only al m m')
    (hz : ∃ z, m'[al]? = some (.val (.str z))) : NWView c m' vs al p fs ap path ad am af delta h dd :=
  { hv with
    mPath := by rw [hu.2 _ (Ne.symm hv.neP), hv.mPath]
    mData := by rw [hu.2 _ (Ne.symm hv.neD), hv.mData]
    mObj := by rw [getAt_congr (hu.2 _ (Ne.symm hv.neO)), hv.mObj]
    mLow := hz
    mDelta := by rw [hu.2 _ (Ne.symm hv.neM), hv.mDelta]
    mFile := by rw [hu.2 _ (Ne.symm hv.neF), hv.mFile]
    dflt := fun n v hn => by
      obtain ⟨ax, h1, h2, h3⟩ := hv.dflt n v hn
      exact ⟨ax, h1, h2, by rw [getAt_congr (hu.2 _ (Ne.symm h2)), h3]⟩ }

theorem NWView.member (hv : NWView c m vs al p fs ap path ad am af delta h dd) {n : Str} {old : Val} (hl : fs.lookup n = some old) :
    getAt m ⟨p.addr, p.path ++ [n]⟩ = some old := by
  rw [getAt_member (a := p.addr) (p := p.path) hv.mObj, hl]

/-! ### Formatted text -/

/-- No character of the text means anything in a format string.  (Proof notion, models no code.) -/
def NoBraces (n : Str) : Prop := ∀ x ∈ n, x ≠ '{' ∧ x ≠ '}'

theorem fmtText_plain {n r : Str} (hn : NoBraces n) {xs : List Str} : fmtText (n ++ r) xs = (fmtText r xs).map fun s => n ++ s := by
  induction n with
  | nil => simp
  | cons x n ih =>
    have hx := hn x (by simp)
    have ih := ih fun y hy => hn y (by simp [hy])
    rw [List.cons_append, fmtText, ih]
    · cases fmtText r xs <;> rfl
    all_goals (intros; simp_all)

/-- The argument `e` is formatted as `r`, or that is undefined behaviour.  (Proof notion, models no code.) -/
def FmtSim (r : R Str) (C : Ctx) (e : Expr) (s : St) : Prop :=
  match r with
  | .ok x => ∃ y, eval C e s = .ok y s ∧ fmtArg C y s = .ok x s
  | .ub => eval C e s = .ub ∨ ∃ y, eval C e s = .ok y s ∧ fmtArg C y s = .ub
  | .stuck => True

/-- `fmt::println(m_file, "n {}", e);`, process_items_ini.cpp:490-563. -/
def printTree (n : Str) (e : Expr) : Stmt := .expr (.call (.id [c!"fmt", c!"println"]) [(.id [c!"m_file"]), (.str (n ++ c!" {}")), e])

/-- A line is added to a file.  (Proof notion, models no code.) -/
def addText (files : List FileSt) (h : Nat) (nm t x : Str) : List FileSt := files.set h (.wr nm (t ++ x))

theorem eval_file (hv : NWView c m vs al p fs ap path ad am af delta h dd) (hC : NWCtx E cls am af C) :
    eval C (.id [c!"m_file"]) ⟨m, vs, files, out⟩ = .ok (.lv (.ptr .file) ⟨af, []⟩) ⟨m, vs, files, out⟩ ∧
    load (.lv (.ptr .file) ⟨af, []⟩) ⟨m, vs, files, out⟩ = .ok (.ptr .file, .file h) ⟨m, vs, files, out⟩ :=
  ⟨eval_self (hv.clear _ (by decide)) hC.file, load_lv (peek_var hv.mFile) rfl⟩

theorem exec_print (hv : NWView c m vs al p fs ap path ad am af delta h dd) (hC : NWCtx E cls am af C) {n : Str} (hn : NoBraces n) (hcn : cStr n = n)
    (hf : files[h]? = some (.wr nm t)) {r : R Str} {e : Expr} (ha : FmtSim r C e ⟨m, vs, files, out⟩) :
    Sim r (exec C (printTree n e) ⟨m, vs, files, out⟩)
      fun x y => y = .ok .next ⟨m, vs, addText files h nm t (itemLine n x ++ c!"\n"), out⟩ := by
  obtain ⟨h1, h2⟩ := eval_file (files := files) (out := out) hv hC
  have hc : cStr (n ++ c!" {}") = n ++ c!" {}" := by
    refine takeWhile_all _ fun d hd => ?_
    rw [List.mem_append] at hd
    rcases hd with hd | hd
    · rw [← hcn] at hd
      simpa using takeWhile_mem (l := n) hd
    · revert d; decide
  have h3 : eval C (.str (n ++ c!" {}")) ⟨m, vs, files, out⟩ = .ok (.rv (.ptr (.prim .char)) (.cstr (n ++ c!" {}"))) ⟨m, vs, files, out⟩ := by
    rw [eval, hc]; rfl
  have hx : ∀ x, fmtText (n ++ c!" {}") [x] = some (itemLine n x) := by
    intro x
    rw [fmtText_plain hn]
    simp [fmtText, itemLine]
  cases r with
  | stuck => trivial
  | ok x =>
    obtain ⟨y, h4, h5⟩ := ha
    rw [Sim, printTree, exec_call (vals := [.lv (.ptr .file) ⟨af, []⟩, .rv (.ptr (.prim .char)) (.cstr (n ++ c!" {}")), y])
      (by simp only [evals, M.bind_run, h1, h3, h4, Res.ok_bind, M.pure_run])]
    simp [callId, fmtPrintln, h2, cstrArg, load_rv, fmtArgs, h5, hx, addText]
    show Res.bind (match files[h]? with
      | some (.wr n y) => _
      | _ => Res.ub) _ = _
    rw [hf]
    rfl
  | ub =>
    rw [Sim, printTree]
    rcases ha with h4 | ⟨y, h4, h5⟩
    · rw [exec, eval]
      simp only [evals, M.bind_run, h1, h3, h4, Res.ok_bind, Res.ub_bind]
    · rw [exec_call (vals := [.lv (.ptr .file) ⟨af, []⟩, .rv (.ptr (.prim .char)) (.cstr (n ++ c!" {}")), y])
        (by simp only [evals, M.bind_run, h1, h3, h4, Res.ok_bind, M.pure_run])]
      simp [callId, fmtPrintln, h2, cstrArg, load_rv, fmtArgs, h5, hx, hf]


/-! ### The text of a member -/

/-- The argument of `fmt::println` for a simple member, process_items_ini.cpp:483-519.  (Proof notion, models no code.) -/
def iniArg : SimpleTy → Str → Expr
  | .bool, n => .cast .int (.arrow (.id [c!"data"]) n)
  | _, n => .arrow (.id [c!"data"]) n

/-- A call of `stfx::s_from_e` on a value does what the model says.  (Proof notion, models no code.) -/
def FromRv (C : Ctx) (e : EnumS) (val : EnumVals) : Prop :=
  ∀ (s : St) (x : Int), inSigned 32 x →
    callId C [c!"stfx", c!"s_from_e"] [.rv (.enum e.name) (.val (.num x))] s = .ok (.rv .str (.val (.str (sFromE e val x)))) s

theorem fmt_plain (hE : C.E = E) {n : Str} {t : MTy} {v : Val} {r : R Str} (ht : memberTy E.T c n = some t)
    (hvs : vs.lookup c!"data" = some ⟨.ptr (.struct c), ⟨ad, []⟩⟩) (hm : m[ad]? = some (.ptr p))
    (hq : getAt m ⟨p.addr, p.path ++ [n]⟩ = some v) (hu : r = .ub → v = .undef)
    (hr : ∀ x, r = .ok x → v ≠ .undef ∧ fmtArg C (.rv (ofMTy t) (.val v)) ⟨m, vs, files, out⟩ = .ok x ⟨m, vs, files, out⟩) :
    FmtSim r C (.arrow (.id [c!"data"]) n) ⟨m, vs, files, out⟩ := by
  have hev := eval_member (files := files) (out := out) hE ht hm hvs
  cases r with
  | ok x =>
    obtain ⟨h1, h2⟩ := hr x rfl
    refine ⟨_, hev, ?_⟩
    rw [fmtArg, M.bind_run] at h2 ⊢
    rw [load_val hq h1]
    exact h2
  | ub =>
    cases hu rfl
    refine .inr ⟨_, hev, ?_⟩
    rw [fmtArg, M.bind_run, load_undef hq]
    rfl
  | stuck => trivial

/-- The argument for a simple member. -/
theorem fmt_simple (hE : C.E = E) {n : Str} {ty : SimpleTy} {v : Val} {u : Bool} (ht : memberTy E.T c n = some (.simple ty))
    (hw : CTable.WT E.T u (.simple ty) v) (hvs : vs.lookup c!"data" = some ⟨.ptr (.struct c), ⟨ad, []⟩⟩) (hm : m[ad]? = some (.ptr p))
    (hq : getAt m ⟨p.addr, p.path ++ [n]⟩ = some v) :
    FmtSim (iniText E.I ty v) C (iniArg ty n) ⟨m, vs, files, out⟩ := by
  have hev := eval_member (files := files) (out := out) hE ht hm hvs
  cases hw with
  | undef _ _ _ h4 =>
    cases ty
    case stdString => exact absurd rfl h4
    case bool =>
      refine .inl ?_
      rw [iniArg, eval_cast, hev]
      show Res.bind (load _ _) _ = _
      rw [load_undef hq]
      rfl
    all_goals exact fmt_plain hE ht hvs hm hq (fun _ => rfl) (by simp [iniText])
  | simple h =>
    cases ty <;> cases v <;> first | (cases h; done) | skip
    case bool.bool b =>
      refine ⟨.rv (.prim .int) (.val (.num (if b then 1 else 0))), ?_, rfl⟩
      rw [iniArg, eval_cast, hev]
      show Res.bind (load _ _) _ = _
      rw [load_val hq (by simp)]
      cases b <;> rfl
    all_goals exact fmt_plain hE ht hvs hm hq (by simp [iniText]) (by simp [iniText, ofMTy, fmtArg, load, hE])

/-- The argument for a member of an enum type. -/
theorem fmt_enum (hE : C.E = E) {n : Str} {e : EnumS} {val : EnumVals} {v : Val} {u : Bool} (ht : memberTy E.T c n = some (.enum e.name))
    (he : E.T.enm e.name = some (e, val)) (hf : FromRv C e val) (hw : CTable.WT E.T u (.enum e.name) v)
    (hvs : vs.lookup c!"data" = some ⟨.ptr (.struct c), ⟨ad, []⟩⟩) (hm : m[ad]? = some (.ptr p))
    (hq : getAt m ⟨p.addr, p.path ++ [n]⟩ = some v) :
    FmtSim (iniEnumText E.T (memberTy E.T c n) v) C (.arrow (.id [c!"data"]) n) ⟨m, vs, files, out⟩ := by
  cases hw with
  | undef => exact fmt_plain hE ht hvs hm hq (fun _ => rfl) (by simp [ht, iniEnumText])
  | @enum _ e' val' i h1 h2 h3 =>
    rw [he] at h1
    cases h1
    refine fmt_plain hE ht hvs hm hq (by simp [ht, iniEnumText, he]) fun x hx => ⟨by simp, ?_⟩
    have hx' : x = sFromE e val i := by
      simp [ht, iniEnumText, he] at hx
      exact hx.symm
    subst hx'
    have h4 := hf ⟨m, vs, files, out⟩ i h2
    have h5 : callId C [c!"stfx", c!"s_from_e"] [.rv (.enum e.name) (.val (.num i))] ⟨m, vs, files, out⟩ =
        callOne C none [] (C.E.prog.filter fun f => f.name = [c!"stfx", c!"s_from_e"]) [.rv (.enum e.name) (.val (.num i))] ⟨m, vs, files, out⟩ := rfl
    rw [h5] at h4
    rw [fmtArg, ofMTy]
    show Res.bind (Res.ok _ _) _ = _
    show (callOne C none [] (C.E.prog.filter fun f => f.name = [c!"stfx", c!"s_from_e"]) [.rv (.enum e.name) (.val (.num i))] >>= _) _ = _
    rw [M.bind_run, h4]
    rfl

/-! ### Statements -/

/-- The statements print the lines.  (Proof notion, models no code.) -/
def Printed (m : List V) (vs : List (Str × Var)) (al h : Nat) (nm t : Str) (files : List FileSt) (out : List (Str × Saved)) (ls : List Str)
    (x : Res Flow) : Prop :=
  ∃ m', x = .ok .next ⟨m', vs, addText files h nm t (Run.fileText ls), out⟩ ∧ Only al m m' ∧ ∃ z, m'[al]? = some (.val (.str z))

theorem addText_nil (hf : files[h]? = some (.wr nm t)) : addText files h nm t [] = files := by
  rw [addText, List.append_nil]
  have h1 := List.getElem?_eq_some_iff.1 hf
  rw [← h1.2]
  simp

theorem addText_get (hf : files[h]? = some (.wr nm t)) {x : Str} : (addText files h nm t x)[h]? = some (.wr nm (t ++ x)) := by
  rw [addText, List.getElem?_set_self (List.getElem?_eq_some_iff.1 hf).1]

theorem addText_add {x y : Str} : addText (addText files h nm t x) h nm (t ++ x) y = addText files h nm t (x ++ y) := by
  simp [addText]

theorem printed_none (hv : NWView c m vs al p fs ap path ad am af delta h dd) (hf : files[h]? = some (.wr nm t)) :
    Printed m vs al h nm t files out [] (execs C [] ⟨m, vs, files, out⟩) :=
  ⟨m, by rw [show Run.fileText [] = [] from rfl, addText_nil hf]; rfl, ⟨rfl, fun _ _ => rfl⟩, hv.mLow⟩

/-- A line without a delta test. -/
theorem nwr_print (hv : NWView c m vs al p fs ap path ad am af delta h dd) (hC : NWCtx E cls am af C) {n : Str} (hn : NoBraces n) (hcn : cStr n = n)
    (hf : files[h]? = some (.wr nm t)) {r : R Str} {e : Expr} (ha : FmtSim r C e ⟨m, vs, files, out⟩) :
    Sim (r >>= fun s => R.ok [itemLine n s]) (execs C [printTree n e] ⟨m, vs, files, out⟩) (Printed m vs al h nm t files out) := by
  rw [execs_one]
  refine (exec_print hv hC hn hcn hf ha).bind (fun x _ hx => ?_) (fun hx => hx)
  exact ⟨m, by rw [hx]; simp [Run.fileText], ⟨rfl, fun _ _ => rfl⟩, hv.mLow⟩

/-- A line with a delta test. -/
theorem nwr_when (hv : NWView c m vs al p fs ap path ad am af delta h dd) (hC : NWCtx E cls am af C) {n : Str} {ty : MTy}
    (ht : memberTy E.T c n = some ty) {v : Val} (hl : fs.lookup n = some v) (hf : files[h]? = some (.wr nm t)) {ss : List Stmt} {r : R (List Str)}
    (hx : Sim r (execs C ss ⟨m, vs, files, out⟩) (Printed m vs al h nm t files out)) :
    Sim (guard true delta (dd.lookup n) v >>= fun b => if b = true then r else R.ok [])
      (execs C [.when (guardTree n) (.block ss)] ⟨m, vs, files, out⟩) (Printed m vs al h nm t files out) := by
  rw [execs_one, exec]
  refine (eval_guard (files := files) (out := out) hC.env ht (hv.member hl) hv.vData hv.mData (hv.clear _ (by decide)) hC.delta hv.mDelta (fun w hd => by
    obtain ⟨ax, h1, _, h3⟩ := hv.dflt n w hd
    exact ⟨ax, h1, h3⟩)).bind (fun b _ hb => ?_) (fun hb => ?_)
  · rw [M.bind_run, hb, Res.ok_bind]
    cases b with
    | false => exact printed_none (C := C) hv hf
    | true =>
      simp only [if_true]
      rw [execs_block]
      cases r with
      | stuck => trivial
      | ub => exact scope_ub (scope_ub hx)
      | ok ls =>
        obtain ⟨m', h1, h2, h3⟩ := hx
        exact ⟨m', scope_len (scope_len h1 h2.1) h2.1, h2, h3⟩
  · rw [M.bind_run, hb]; rfl


/-- A writer function is called as the model says.  (Proof notion, models no code.) -/
def NwrCall (C : Ctx) (am af : Nat) (prog : List Item) (delta : Bool) (ty : Str) (v : Val) : Prop :=
  ∀ (s : St) (path : Str) (a : EV) (q : Place) (h : Nat) (nm t : Str), StrArg s.mem path a → s.vars.lookup (c!"do_wr_" ++ ty) = none →
    getAt s.mem q = some v → s.mem[am]? = some (.val (.bool delta)) → s.mem[af]? = some (.file h) → s.files[h]? = some (.wr nm t) →
    Sim ((nwrVal C.E.T C.E.I prog delta v).wr ty path) (callId C [c!"do_wr_" ++ ty] [a, .rv (.ptr (.struct ty)) (.ptr q)] s)
      fun ls x => x = .ok (.rv (.prim .bool) (.val (.bool true))) { s with files := addText s.files h nm t (Run.fileText ls) }

theorem NWView.doTy (hv : NWView c m vs al p fs ap path ad am af delta h dd) (ty : Str) : vs.lookup (c!"do_wr_" ++ ty) = none :=
  hv.clear _ (by simp)

/-- `if (x.length() > 0) ...` -/
theorem when_length {x : Str} {a : Nat} {s : Str} (hx : vs.lookup x = some ⟨.str, ⟨a, []⟩⟩) (ha : m[a]? = some (.val (.str s))) (st : Stmt) :
    exec C (.when (.bin .gt (.call (.mem (.id [x]) c!"length") []) (.num c!"0")) st) ⟨m, vs, files, out⟩ =
      if s = [] then .ok .next ⟨m, vs, files, out⟩ else scope (exec C st) ⟨m, vs, files, out⟩ := by
  have hev : eval C (.bin .gt (.call (.mem (.id [x]) c!"length") []) (.num c!"0")) ⟨m, vs, files, out⟩ =
      .ok (.rv (.prim .bool) (.val (.bool (decide (s ≠ []))))) ⟨m, vs, files, out⟩ := by
    cases s <;> simp [eval, evals, lookupId, hx, dotCall, peek_var ha, load, binV]
  rw [exec]
  simp only [M.bind_run, hev, Res.ok_bind]
  by_cases hs : s = []
  · subst hs; simp [asBool, load]
  · simp [asBool, load, hs]

/-- `x += "l";` -/
theorem exec_plus {x : Str} {a : Nat} {s l : Str} (hx : vs.lookup x = some ⟨.str, ⟨a, []⟩⟩) (ha : m[a]? = some (.val (.str s))) (hl : cStr l = l) :
    exec C (.expr (.plusAssign (.id [x]) (.str l))) ⟨m, vs, files, out⟩ = .ok .next ⟨m.set a (.val (.str (s ++ l))), vs, files, out⟩ := by
  have hs : eval C (.str l) ⟨m, vs, files, out⟩ = .ok (.rv (.ptr (.prim .char)) (.cstr l)) ⟨m, vs, files, out⟩ := by
    rw [eval, hl]; rfl
  rw [exec, eval]
  simp only [M.bind_run, hs, Res.ok_bind, eval_id (C := C) (s := ⟨m, vs, files, out⟩) hx]
  simp [plusE, strArg, load, coerce, peek_var ha, poke_var (List.getElem?_eq_some_iff.1 ha).1]

/-- The path of a member, process_items_ini.cpp:571-577. -/
theorem exec_lower (hv : NWView c m vs al p fs ap path ad am af delta h dd) {n ty sp : Str} (hsp : cStr sp = sp) :
    execs C (ini571_tree n ty sp) ⟨m, vs, files, out⟩ =
      execs C [.expr (.call (.id [(c!"do_wr_" ++ ty)]) [(.id [c!"lower_path"]), (.addr (.arrow (.id [c!"data"]) n))])]
        ⟨m.set al (.val (.str (lowerPath path sp))), vs, files, out⟩ := by
  obtain ⟨z, hz⟩ := hv.mLow
  have hlt := (List.getElem?_eq_some_iff.1 hz).1
  have h1 : exec C (.expr (.assign (.id [c!"lower_path"]) (.id [c!"path"]))) ⟨m, vs, files, out⟩ =
      .ok .next ⟨m.set al (.val (.str path)), vs, files, out⟩ := by
    refine exec_assignOk (eval_id hv.vPath) (eval_id (x := ⟨.str, ⟨al, []⟩⟩) hv.vLow) (z := .lv .str ⟨al, []⟩) ?_
    simp [assignE, load, peek_var hv.mPath, V.isUndef, coerce, poke_var hlt]
  have hg : ∀ s : Str, (m.set al (.val (.str s)))[al]? = some (.val (.str s)) := fun s => List.getElem?_set_self hlt
  show execs C (_ :: _ :: _ :: _) _ = _
  have h2 : exec C (.when (.bin .gt (.call (.mem (.id [c!"lower_path"]) c!"length") []) (.num c!"0"))
      (.block [.expr (.plusAssign (.id [c!"lower_path"]) (.str c!"."))])) ⟨m.set al (.val (.str path)), vs, files, out⟩ =
      .ok .next ⟨m.set al (.val (.str (if path = [] then [] else path ++ c!"."))), vs, files, out⟩ := by
    rw [when_length hv.vLow (hg path)]
    split
    · subst_vars; rfl
    · rw [execs_block]
      have h3 := exec_plus (C := C) (files := files) (out := out) hv.vLow (hg path) (show cStr c!"." = c!"." by decide)
      rw [List.set_set] at h3
      exact scope_len (scope_len (execs_one.trans h3) (by simp)) (by simp)
  rw [execs_cons h1, execs_cons h2, execs_cons (exec_plus hv.vLow (hg _) hsp), List.set_set]
  rfl

/-- A member of class type is written. -/
theorem nwr_child (hv : NWView c m vs al p fs ap path ad am af delta h dd) (hC : NWCtx E cls am af C) {n ty sp : Str} (hsp : cStr sp = sp)
    (ht : memberTy E.T c n = some (.struct ty)) {v : Val} (hl : fs.lookup n = some v) (hf : files[h]? = some (.wr nm t)) {prog : List Item}
    (hw : NwrCall C am af prog delta ty v) :
    Sim ((nwrVal E.T E.I prog delta v).wr ty (lowerPath path sp)) (execs C (ini571_tree n ty sp) ⟨m, vs, files, out⟩)
      (Printed m vs al h nm t files out) := by
  obtain ⟨z, hz⟩ := hv.mLow
  have hlt := (List.getElem?_eq_some_iff.1 hz).1
  have hu : Only al m (m.set al (.val (.str (lowerPath path sp)))) := ⟨by simp, fun b hb => List.getElem?_set_ne (Ne.symm hb)⟩
  have hg : (m.set al (.val (.str (lowerPath path sp))))[al]? = some (.val (.str (lowerPath path sp))) := List.getElem?_set_self hlt
  have hv' := hv.upd hu ⟨_, hg⟩
  have hev := eval_member (files := files) (out := out) hC.env ht hv'.mData hv'.vData
  have had : eval C (.addr (.arrow (.id [c!"data"]) n)) ⟨m.set al (.val (.str (lowerPath path sp))), vs, files, out⟩ =
      .ok (.rv (.ptr (.struct ty)) (.ptr ⟨p.addr, p.path ++ [n]⟩)) ⟨m.set al (.val (.str (lowerPath path sp))), vs, files, out⟩ := by
    rw [eval]; simp [hev, ofMTy]
  have hargs : evals C [.id [c!"lower_path"], .addr (.arrow (.id [c!"data"]) n)] ⟨m.set al (.val (.str (lowerPath path sp))), vs, files, out⟩ =
      .ok [.lv .str ⟨al, []⟩, .rv (.ptr (.struct ty)) (.ptr ⟨p.addr, p.path ++ [n]⟩)] ⟨m.set al (.val (.str (lowerPath path sp))), vs, files, out⟩ := by
    simp only [evals, M.bind_run, eval_id (C := C) (s := ⟨m.set al (.val (.str (lowerPath path sp))), vs, files, out⟩) hv.vLow, had, Res.ok_bind, M.pure_run]
  have hc := hw ⟨m.set al (.val (.str (lowerPath path sp))), vs, files, out⟩ (lowerPath path sp) (.lv .str ⟨al, []⟩) ⟨p.addr, p.path ++ [n]⟩ h nm t
    (.lv (by unfold getAt; rw [hg]; rfl)) (hv.doTy ty) (hv'.member hl) hv'.mDelta hv'.mFile hf
  rw [hC.env] at hc
  rw [exec_lower hv hsp, execs_one, exec_call hargs]
  cases hr : (nwrVal E.T E.I prog delta v).wr ty (lowerPath path sp) with
  | stuck => trivial
  | ub =>
    rw [hr] at hc
    have hc : callId _ _ _ _ = _ := hc
    rw [Sim, hc]; rfl
  | ok ls =>
    rw [hr] at hc
    have hc : callId _ _ _ _ = _ := hc
    rw [Sim, hc]
    exact ⟨_, rfl, hu, _, hg⟩

/-- The statement fits the class `c` and the functions it calls do what the model says.  (Proof notion, models no code.) -/
def NwrOk (C : Ctx) (am af : Nat) (prog : List Item) (delta : Bool) (fs : List (Str × Val)) (c : Str) : NWr → Prop
  | .line _ ty n => cStr n = n ∧ NoBraces n ∧ memberTy C.E.T c n = some (.simple ty)
  | .lineEnum _ n => cStr n = n ∧ NoBraces n ∧ ∃ e val, memberTy C.E.T c n = some (.enum e.name) ∧ C.E.T.enm e.name = some (e, val) ∧ FromRv C e val
  | .child n ty sp => cStr sp = sp ∧ memberTy C.E.T c n = some (.struct ty) ∧ ∀ v, fs.lookup n = some v → NwrCall C am af prog delta ty v
  | .vector _ | .fixme _ | .warn _ => True

theorem line_tree {ty : SimpleTy} {n : Str} :
    nwrTree (.line false ty n) = [printTree n (iniArg ty n)] ∧ nwrTree (.line true ty n) = [.when (guardTree n) (.block [printTree n (iniArg ty n)])] := by
  cases ty <;> exact ⟨rfl, rfl⟩

theorem lineEnum_tree {n : Str} :
    nwrTree (.lineEnum false n) = [printTree n (.arrow (.id [c!"data"]) n)] ∧
    nwrTree (.lineEnum true n) = [.when (guardTree n) (.block [printTree n (.arrow (.id [c!"data"]) n)])] := ⟨rfl, rfl⟩

/-- One statement of the model. -/
theorem nwr_act (hv : NWView c m vs al p fs ap path ad am af delta h dd) (hC : NWCtx E cls am af C) {prog : List Item} {w : NWr}
    (hr : NwrOk C am af prog delta fs c w) (hwt : ∀ n t v, memberTy E.T c n = some t → fs.lookup n = some v → ∃ u, CTable.WT E.T u t v)
    (hf : files[h]? = some (.wr nm t)) :
    Sim (nwrAct E.T E.I delta c path dd (nwrFields E.T E.I prog delta fs) w) (execs C (nwrTree w) ⟨m, vs, files, out⟩)
      (Printed m vs al h nm t files out) := by
  have hfield : ∀ n, field (nwrFields E.T E.I prog delta fs) n = match fs.lookup n with | some v => .ok (nwrVal E.T E.I prog delta v) | none => .stuck := by
    intro n
    rw [field, nwrFields_lookup]
    cases fs.lookup n <;> rfl
  have hE := hC.env
  cases w with
  | line g ty n =>
    obtain ⟨h1, h2, h3⟩ := hr
    rw [hE] at h3
    rw [nwrAct, hfield]
    cases hl : fs.lookup n with
    | none => trivial
    | some v =>
      obtain ⟨u, hw⟩ := hwt n _ v h3 hl
      have key := nwr_print (out := out) hv hC h2 h1 hf (fmt_simple hE h3 hw hv.vData hv.mData (hv.member hl))
      cases g with
      | false => rw [line_tree.1]; simp only [R.ok_bind, nwrVal_val]; exact key
      | true => rw [line_tree.2]; simp only [R.ok_bind, nwrVal_val]; exact nwr_when hv hC h3 hl hf key
  | lineEnum g n =>
    obtain ⟨h1, h2, e, val, h3, h4, h5⟩ := hr
    rw [hE] at h3 h4
    rw [nwrAct, hfield]
    cases hl : fs.lookup n with
    | none => trivial
    | some v =>
      obtain ⟨u, hw⟩ := hwt n _ v h3 hl
      have key := nwr_print (out := out) hv hC h2 h1 hf (fmt_enum hE h3 h4 h5 hw hv.vData hv.mData (hv.member hl))
      cases g with
      | false => rw [lineEnum_tree.1]; simp only [R.ok_bind, nwrVal_val]; exact key
      | true => rw [lineEnum_tree.2]; simp only [R.ok_bind, nwrVal_val]; exact nwr_when hv hC h3 hl hf key
  | child n ty sp =>
    obtain ⟨h1, h2, h3⟩ := hr
    rw [hE] at h2
    rw [nwrAct, hfield]
    cases hl : fs.lookup n with
    | none => trivial
    | some v => exact nwr_child hv hC h1 h2 hl hf (h3 v hl)
  | vector n => exact printed_none (C := C) hv hf
  | fixme n => exact printed_none (C := C) hv hf
  | warn n => exact printed_none (C := C) hv hf

theorem fileText_append {a b : List Str} : Run.fileText (a ++ b) = Run.fileText a ++ Run.fileText b := by simp [Run.fileText]

/-- The statements one after the other. -/
theorem nwr_steps (hC : NWCtx E cls am af C) {prog : List Item} (ws : List NWr) (hv : NWView c m vs al p fs ap path ad am af delta h dd)
    (hr : ∀ w ∈ ws, NwrOk C am af prog delta fs c w) (hwt : ∀ n t v, memberTy E.T c n = some t → fs.lookup n = some v → ∃ u, CTable.WT E.T u t v)
    (hf : files[h]? = some (.wr nm t)) :
    Sim (ws.mapM (nwrAct E.T E.I delta c path dd (nwrFields E.T E.I prog delta fs)) >>= fun ls => R.ok ls.flatten)
      (execs C (ws.flatMap nwrTree) ⟨m, vs, files, out⟩) (Printed m vs al h nm t files out) := by
  induction ws generalizing m files t with
  | nil => exact printed_none hv hf
  | cons w ws ih =>
    rw [R.mapM_cons, List.flatMap_cons]
    have h0 := nwr_act (out := out) hv hC (hr w (by simp)) hwt hf
    have hassoc : (nwrAct E.T E.I delta c path dd (nwrFields E.T E.I prog delta fs) w >>= fun e =>
        ws.mapM (nwrAct E.T E.I delta c path dd (nwrFields E.T E.I prog delta fs)) >>= fun es => R.ok (e :: es)) >>= (fun es => R.ok es.flatten) =
        (nwrAct E.T E.I delta c path dd (nwrFields E.T E.I prog delta fs) w >>= fun e =>
          (ws.mapM (nwrAct E.T E.I delta c path dd (nwrFields E.T E.I prog delta fs)) >>= fun es => R.ok es.flatten) >>= fun r => R.ok (e ++ r)) := by
      cases nwrAct E.T E.I delta c path dd (nwrFields E.T E.I prog delta fs) w with
      | ok e =>
        show ((ws.mapM (nwrAct E.T E.I delta c path dd (nwrFields E.T E.I prog delta fs)) >>= fun es => R.ok (e :: es)) >>= _) =
          ((ws.mapM (nwrAct E.T E.I delta c path dd (nwrFields E.T E.I prog delta fs)) >>= _) >>= _)
        cases (ws.mapM (nwrAct E.T E.I delta c path dd (nwrFields E.T E.I prog delta fs)) : R _) <;> rfl
      | ub => rfl
      | stuck => rfl
    rw [hassoc]
    refine h0.bind (fun e _ hx => ?_) execs_append_ub
    obtain ⟨m', h1, h2, h3⟩ := hx
    rw [execs_append h1]
    refine (ih (hv.upd h2 h3) (fun w h => hr w (by simp [h])) (addText_get hf)).bind (fun r _ hx => ?_) (fun hx => hx)
    obtain ⟨m'', h4, h5, h6⟩ := hx
    refine ⟨m'', ?_, ⟨h5.1.trans h2.1, fun b hb => (h5.2 b hb).trans (h2.2 b hb)⟩, h6⟩
    rw [h4, addText_add, fileText_append]


/-! ### Functions -/

/-- The heading, process_items_ini.cpp:468-473. -/
theorem exec_heading (hv : NWView c m vs al p fs ap path ad am af delta h dd) (hC : NWCtx E cls am af C) (hf : files[h]? = some (.wr nm t)) :
    execs C ini468_tree ⟨m, vs, files, out⟩ = .ok .next ⟨m, vs, addText files h nm t (Run.fileText (heading path)), out⟩ := by
  have h0 : cStr c!"" = c!"" := by decide
  have hb : cStr c!"[{}]" = c!"[{}]" := by decide
  show execs C [_] _ = _
  rw [execs_one, when_length hv.vPath hv.mPath]
  by_cases hp : path = []
  · rw [if_pos hp, heading, if_pos hp]
    show _ = Res.ok Flow.next ⟨m, vs, addText files h nm t [], out⟩
    rw [addText_nil hf]
  · rw [if_neg hp, heading, if_neg hp, execs_block]
    have h1 : exec C (.expr (.call (.id [c!"fmt", c!"println"]) [(.id [c!"m_file"]), (.str c!"")])) ⟨m, vs, files, out⟩ =
        .ok .next ⟨m, vs, addText files h nm t c!"\n", out⟩ := by
      obtain ⟨h1, h2⟩ := eval_file (files := files) (out := out) hv hC
      have h3 : eval C (.str c!"") ⟨m, vs, files, out⟩ = .ok (.rv (.ptr (.prim .char)) (.cstr c!"")) ⟨m, vs, files, out⟩ := by
        rw [eval, h0]; rfl
      rw [exec_call (vals := [.lv (.ptr .file) ⟨af, []⟩, .rv (.ptr (.prim .char)) (.cstr c!"")])
        (by simp only [evals, M.bind_run, h1, h3, Res.ok_bind, M.pure_run])]
      simp [callId, fmtPrintln, h2, cstrArg, load_rv, fmtArgs, fmtText, addText]
      show Res.bind (match files[h]? with
        | some (.wr n y) => _
        | _ => Res.ub) _ = _
      rw [hf]
      rfl
    have h2 : exec C (.expr (.call (.id [c!"fmt", c!"println"]) [(.id [c!"m_file"]), (.str c!"[{}]"), (.id [c!"path"])]))
        ⟨m, vs, addText files h nm t c!"\n", out⟩ = .ok .next ⟨m, vs, addText files h nm t (c!"\n" ++ ('[' :: (path ++ [']']) ++ c!"\n")), out⟩ := by
      obtain ⟨h1, h2⟩ := eval_file (files := addText files h nm t c!"\n") (out := out) hv hC
      have h3 : eval C (.str c!"[{}]") ⟨m, vs, addText files h nm t c!"\n", out⟩ =
          .ok (.rv (.ptr (.prim .char)) (.cstr c!"[{}]")) ⟨m, vs, addText files h nm t c!"\n", out⟩ := by
        rw [eval, hb]; rfl
      have h4 := eval_id (C := C) (s := ⟨m, vs, addText files h nm t c!"\n", out⟩) hv.vPath
      have h5 : fmtArg C (.lv .str ⟨ap, []⟩) ⟨m, vs, addText files h nm t c!"\n", out⟩ = .ok path ⟨m, vs, addText files h nm t c!"\n", out⟩ := by
        rw [fmtArg, M.bind_run, load_lv (peek_var hv.mPath) rfl]
        rfl
      rw [exec_call (vals := [.lv (.ptr .file) ⟨af, []⟩, .rv (.ptr (.prim .char)) (.cstr c!"[{}]"), .lv .str ⟨ap, []⟩])
        (by simp only [evals, M.bind_run, h1, h3, h4, Res.ok_bind, M.pure_run])]
      rw [← addText_add]
      have h6 := addText_get hf (x := c!"\n")
      generalize addText files h nm t c!"\n" = fl at *
      simp [callId, fmtPrintln, h2, cstrArg, load_rv, fmtArgs, h5, fmtText, addText]
      show Res.bind (match fl[h]? with
        | some (.wr n y) => _
        | _ => Res.ub) _ = _
      rw [h6]
      simp [Res.bind]
    refine scope_len (vs' := vs) (scope_len (vs' := vs) ?_ rfl) rfl
    rw [execs_cons h1, execs_one, h2]
    simp [Run.fileText]

/-- The parameters of a writer function.  (Proof notion, models no code.) -/
def wrParams (c : Str) : List (Ty × Str) := [(.name [c!"std", c!"string"], c!"path"), (.ptr (.name [c]), c!"data")]

/-- The body of a writer function. -/
theorem run_nwrBody (hC : NWCtx E cls am af C) (hn : IniName E cls c) (hlp : c ≠ c!"lower_path") {prog : List Item} {dd : Bool} {body : List NWr}
    (hr : ∀ w ∈ body, NwrOk C am af prog delta fs c w)
    (hwt : ∀ n t v, memberTy E.T c n = some t → fs.lookup n = some v → ∃ u, CTable.WT E.T u t v) {m0 : List V}
    (hobj : getAt m0 p = some (.struct fs)) (hdl : m0[am]? = some (.val (.bool delta))) (hfi : m0[af]? = some (.file h))
    (hf : files[h]? = some (.wr nm t)) (hb : Run.nwrBody prog c = some (dd, body)) :
    Sim (runNWr E.T E.I prog delta (nwrFields E.T E.I prog delta fs) c path)
      (execs C (Cpp.nwrBody c dd body) ⟨m0 ++ [.val (.str path), .ptr p],
        [(c!"data", ⟨.ptr (.struct c), ⟨m0.length + 1, []⟩⟩), (c!"path", ⟨.str, ⟨m0.length, []⟩⟩)], files, out⟩)
      fun ls x => ∃ m' vs' l, x = .ok (.ret (.lv (.prim .bool) ⟨l, []⟩)) ⟨m', vs', addText files h nm t (Run.fileText ls), out⟩ ∧
        m'[l]? = some (.val (.bool true)) ∧ m'.take m0.length = m0 := by
  have hplt := getAt_lt hobj
  have halt := (List.getElem?_eq_some_iff.1 hdl).1
  have hflt := (List.getElem?_eq_some_iff.1 hfi).1
  have hap := fun (t : List V) {a : Nat} {v : V} (h : m0[a]? = some v) => show (m0 ++ t)[a]? = some v by
    rw [List.getElem?_append_left (List.getElem?_eq_some_iff.1 h).1, h]
  have hself : C.self.lookup c = none := hC.self _ (fun h => hn.clear (List.mem_append_right _ h))
  obtain ⟨vs, hvs⟩ : ∃ vs, vs = ddVars c dd (m0.length + 4) ++ [(c!"lower_path", (⟨.str, ⟨m0.length + 3, []⟩⟩ : Var)), (c!"rv", ⟨.prim .bool, ⟨m0.length + 2, []⟩⟩),
    (c!"data", ⟨.ptr (.struct c), ⟨m0.length + 1, []⟩⟩), (c!"path", ⟨.str, ⟨m0.length, []⟩⟩)] := ⟨_, rfl⟩
  have hvl : ∀ {n : Str}, n ≠ c!"default_data" → vs.lookup n = [(c!"lower_path", (⟨.str, ⟨m0.length + 3, []⟩⟩ : Var)), (c!"rv", ⟨.prim .bool, ⟨m0.length + 2, []⟩⟩),
    (c!"data", ⟨.ptr (.struct c), ⟨m0.length + 1, []⟩⟩), (c!"path", ⟨.str, ⟨m0.length, []⟩⟩)].lookup n := by
    intro n h
    rw [hvs]
    cases dd
    · rfl
    · exact lookup_cons_ne h
  have hdecl : execs C (Cpp.nwrBody c dd body) ⟨m0 ++ [.val (.str path), .ptr p],
        [(c!"data", ⟨.ptr (.struct c), ⟨m0.length + 1, []⟩⟩), (c!"path", ⟨.str, ⟨m0.length, []⟩⟩)], files, out⟩ =
      execs C (ini468_tree ++ (body.flatMap nwrTree ++ retRv)) ⟨m0 ++ ([.val (.str path), .ptr p, .val (.bool true), .val (.str [])] ++ ddMem E.T c dd), vs, files, out⟩ := by
    have hbody : Cpp.nwrBody c dd body = xml225_tree ++ (ini463_tree ++ (ddDecl dd c ++ (ini468_tree ++ (body.flatMap nwrTree ++ retRv)))) := by
      simp only [Cpp.nwrBody, List.append_assoc]; rfl
    rw [hbody, execs_rvDecl]
    show execs C (_ :: (ddDecl dd c ++ _)) _ = _
    rw [execs_cons (exec_decl (u := .str) rfl)]
    have hc0 : ∀ x ∈ [c!"path", c!"data", c!"rv"], c ≠ x := fun x hx e => hn.clear (by
      subst e
      simp only [List.mem_cons, List.not_mem_nil, or_false] at hx
      rcases hx with h | h | h <;> simp [h])
    cases dd with
    | false =>
      rw [hvs]
      simp [ddDecl, ddMem, ddVars, initV]
    | true =>
      show execs C (.decl (.name [c]) c!"default_data" none none :: _) _ = _
      rw [execs_cons (exec_decl (u := .struct c) (by
        rw [hC.env, hC.cls_]
        refine hn.tyOf ?_
        rw [lookup_append, lookup_cons_ne hlp, lookup_cons_ne (hc0 _ (by simp)), lookup_cons_ne (hc0 _ (by simp)), lookup_cons_ne (hc0 _ (by simp)), hself]
        rfl)), hvs]
      simp [ddMem, ddVars, initV, hC.env]
  have hv : NWView c (m0 ++ ([.val (.str path), .ptr p, .val (.bool true), .val (.str [])] ++ ddMem E.T c dd)) vs (m0.length + 3) p fs m0.length path
      (m0.length + 1) am af delta h (if dd then (E.T.dflt c).fields else []) :=
    { vPath := by rw [hvl (by decide)]; simp [List.lookup]
      vData := by rw [hvl (by decide)]; simp [List.lookup]
      vLow := by rw [hvl (by decide)]; simp [List.lookup]
      mPath := by simp
      mData := by simp
      mObj := getAt_append hobj
      mLow := ⟨[], by simp⟩
      mDelta := hap _ hdl
      mFile := hap _ hfi
      dflt := fun n v hnv => by
        cases dd with
        | false => cases hnv
        | true =>
          refine ⟨m0.length + 4, by rw [hvs]; simp [ddVars, List.lookup], by omega, ?_⟩
          simp only [if_true] at hnv
          have hg : (m0 ++ ([V.val (.str path), .ptr p, .val (.bool true), .val (.str [])] ++ ddMem E.T c true))[m0.length + 4]? = some (.val (E.T.dflt c)) := by
            simp [ddMem]
          cases hd : E.T.dflt c with
          | struct fs' =>
            rw [hd] at hg hnv
            have h0 := getAt_member (m := m0 ++ ([V.val (.str path), .ptr p, .val (.bool true), .val (.str [])] ++ ddMem E.T c true)) (a := m0.length + 4) (p := [])
              (n := n) (fs := fs') (by unfold getAt; rw [hg]; rfl)
            rw [List.nil_append] at h0
            rw [h0]
            exact hnv
          | _ => rw [hd] at hnv; cases hnv
      neP := by omega, neD := by omega, neO := by omega, neM := by omega, neF := by omega
      clear := fun n hcl => by
        simp only [List.mem_cons, List.not_mem_nil, or_false, not_or] at hcl
        rw [hvl hcl.2.2.2.2, lookup_cons_ne hcl.2.2.1, lookup_cons_ne hcl.2.2.2.1, lookup_cons_ne hcl.2.1, lookup_cons_ne hcl.1]
        rfl }
  have hsteps := nwr_steps (out := out) hC (prog := prog) body hv hr hwt (addText_get hf (x := Run.fileText (heading path)))
  rw [hdecl, execs_append (exec_heading hv hC hf), runNWr, hb]
  simp only
  have hassoc : (body.mapM (nwrAct E.T E.I delta c path (if dd then (E.T.dflt c).fields else []) (nwrFields E.T E.I prog delta fs)) >>= fun ls =>
      (pure (heading path ++ ls.flatten) : R _)) = (body.mapM (nwrAct E.T E.I delta c path (if dd then (E.T.dflt c).fields else []) (nwrFields E.T E.I prog delta fs)) >>=
      fun ls => R.ok ls.flatten) >>= fun r => R.ok (heading path ++ r) := by
    cases (body.mapM (nwrAct E.T E.I delta c path (if dd then (E.T.dflt c).fields else []) (nwrFields E.T E.I prog delta fs)) : R _) <;> rfl
  rw [hassoc]
  refine hsteps.bind (fun ls _ hx => ?_) execs_append_ub
  obtain ⟨m', h1, h2, h3⟩ := hx
  refine ⟨m', vs, m0.length + 2, ?_, ?_, ?_⟩
  · rw [execs_append h1, execs_retRv (x := ⟨.prim .bool, ⟨m0.length + 2, []⟩⟩) (by rw [hvl (by decide)]; simp [List.lookup]), addText_add, fileText_append]
  · rw [h2.2 _ (by omega)]
    simp
  · apply List.ext_getElem?
    intro b
    rw [List.getElem?_take]
    split
    · rw [h2.2 b (by omega), List.getElem?_append_left (by assumption)]
    · rw [List.getElem?_eq_none (by omega)]


/-! ### Calls -/

/-- The statement fits the class `c`.  (Proof notion, models no code.) -/
def NwrTyped (E : Env) (cls c : Str) : NWr → Prop
  | .line _ ty n => cStr n = n ∧ NoBraces n ∧ memberTy E.T c n = some (.simple ty)
  | .lineEnum _ n => cStr n = n ∧ NoBraces n ∧ ∃ e val, memberTy E.T c n = some (.enum e.name) ∧ E.T.enm e.name = some (e, val) ∧
      ∀ self fuel k, FromRv ⟨E, some cls, self, run E self (fuel + 1), k⟩ e val
  | .child n ty sp => cStr sp = sp ∧ memberTy E.T c n = some (.struct ty)
  | .vector _ | .fixme _ | .warn _ => True

/-- A program with the writer functions of the pieces `prog` in the class `cls`.  (Proof notion, models no code.) -/
structure NWrProgram (E : Env) (cls : Str) (prog : List Item) : Prop where
  stfx : cls ≠ c!"stfx"
  funs : ∀ c dd body, Run.nwrBody prog c = some (dd, body) → IniName E cls c ∧ c ≠ c!"lower_path" ∧
    methods E (some cls) (c!"do_wr_" ++ c) = [nwrFun cls c (Cpp.nwrBody c dd body)] ∧ ∀ w ∈ body, NwrTyped E cls c w

/-- A call of a writer function. -/
theorem call_nwr {ty n : Str} {stmts : List Stmt} {self : List (Str × Var)} {fuel fu : Nat} {a : EV} {q : Place} {s : St} {x : Str}
    (hty : IniName E cls ty) (hs : ∀ n, n ∉ iniMembers → self.lookup n = none)
    (hc : cls ≠ c!"stfx") (hm : methods E (some cls) n = [⟨some (.prim .bool), [cls, n], wrParams ty, none, stmts⟩])
    (hv : s.vars.lookup n = none) (hn : self.lookup n = none) (ha : StrArg s.mem x a) :
    callId ⟨E, some cls, self, run E self (fuel + 1), fu⟩ [n] [a, .rv (.ptr (.struct ty)) (.ptr q)] s =
      invoke ⟨E, some cls, self, run E self fuel, fuel⟩ ⟨some (.prim .bool), [cls, n], wrParams ty, none, stmts⟩ [a, .rv (.ptr (.struct ty)) (.ptr q)] s := by
  have hst : self.lookup ty = none := hs _ (fun h => hty.clear (List.mem_append_right _ h))
  have hp : ty ≠ c!"path" := fun h => hty.clear (by simp [h])
  have hvi : viable E (some cls) self (wrParams ty) [a, .rv (.ptr (.struct ty)) (.ptr q)] = true := by
    have h1 : tyOf E (some cls) self (.name [c!"std", c!"string"]) = some .str := rfl
    have h2 : tyOf E (some cls) ((c!"path", ⟨.str, ⟨0, []⟩⟩) :: self) (.ptr (.name [ty])) = some (.ptr (.struct ty)) := by
      show (match tyOf E (some cls) _ (.name [ty]) with | some t => some (CTy.ptr t) | none => none) = _
      rw [hty.tyOf (by rw [lookup_cons_ne hp, hst])]
    have h3 : argFits false (.ptr (.struct ty)) (.rv (.ptr (.struct ty)) (.ptr q)) = true := by simp [argFits, convertible]
    simp only [wrParams, viable, Ty.noRef, Ty.isRef, h1, h2, ha.fits, h3, Bool.and_self]
  simp only [callId, M.bind_run, getVars_run, Res.ok_bind, hv, hn, hm, Option.isSome_none, Bool.or_self, Bool.false_eq_true, if_false, callOne,
    List.filter_cons, hvi, if_true, List.filter_nil]
  rw [run]
  simp only [hc, if_false]

/-- Its parameters. -/
theorem bind_nwr {ty : Str} {self : List (Str × Var)} {a : EV} {q : Place} {x : Str}
    (hty : IniName E cls ty) (hs : ∀ n, n ∉ iniMembers → self.lookup n = none) (ha : StrArg m x a) :
    bindParams E (some cls) self (wrParams ty) [a, .rv (.ptr (.struct ty)) (.ptr q)] ⟨m, [], files, out⟩ =
      .ok () ⟨m ++ [.val (.str x), .ptr q], [(c!"data", ⟨.ptr (.struct ty), ⟨m.length + 1, []⟩⟩), (c!"path", ⟨.str, ⟨m.length, []⟩⟩)], files, out⟩ := by
  have hst : self.lookup ty = none := hs _ (fun h => hty.clear (List.mem_append_right _ h))
  have hp : ty ≠ c!"path" := fun h => hty.clear (by simp [h])
  rw [wrParams, bindParams_val rfl (u := .str) rfl (ha.init [] files out),
    bindParams_val (u := .ptr (.struct ty)) rfl (v := .ptr q) (by
      show (match tyOf E (some cls) _ (.name [ty]) with | some t => some (CTy.ptr t) | none => none) = _
      rw [hty.tyOf (by rw [List.cons_append, lookup_cons_ne hp]; exact hst)]) (initFrom_load rfl)]
  simp [bindParams]

/-- The writers print what the model prints. -/
theorem nwr_call {prog : List Item} (hp : NWrProgram E cls prog) {self : List (Str × Var)}
    (hs : ∀ n, n ∉ iniMembers → self.lookup n = none) (hsd : self.lookup c!"m_delta_only" = some ⟨.prim .bool, ⟨am, []⟩⟩)
    (hsf : self.lookup c!"m_file" = some ⟨.ptr .file, ⟨af, []⟩⟩) {u : Bool}
    (fuel : Nat) : ∀ (v : Val) (ty : Str) (fu : Nat), nesting v < fuel → CTable.WT E.T u (.struct ty) v →
      NwrCall ⟨E, some cls, self, run E self fuel, fu⟩ am af prog delta ty v := by
  induction fuel with
  | zero => intro v ty fu h; omega
  | succ fuel ih =>
    intro v ty fu hd hwt s path a q h nm t ha hvar hq hdl hfi hf
    cases v with
    | struct fs =>
      show Sim (runNWr E.T E.I prog delta (nwrFields E.T E.I prog delta fs) ty path) _ _
      have hkd : nestingFields fs < fuel := by rw [nesting] at hd; omega
      cases hb : Run.nwrBody prog ty with
      | none => rw [runNWr, hb]; trivial
      | some b =>
        obtain ⟨dd, body⟩ := b
        obtain ⟨hty, hlp, hm, hok⟩ := hp.funs ty dd body hb
        have hdo : c!"do_wr_" ++ ty ∉ iniMembers := by simp [iniMembers]
        have hcall : callId ⟨E, some cls, self, run E self (fuel + 1), fu⟩ [c!"do_wr_" ++ ty] [a, .rv (.ptr (.struct ty)) (.ptr q)] s =
            invoke ⟨E, some cls, self, run E self fuel, fuel⟩ (nwrFun cls ty (Cpp.nwrBody ty dd body)) [a, .rv (.ptr (.struct ty)) (.ptr q)] s :=
          call_nwr hty hs hp.stfx hm hvar (hs _ hdo) ha
        have hbind := bind_nwr (files := s.files) (out := s.out) (q := q) hty hs ha
        have hC : NWCtx E cls am af ⟨E, some cls, self, run E self fuel, fuel⟩ := ⟨rfl, rfl, hs, hsd, hsf⟩
        have hmem : ∀ n t v, memberTy E.T ty n = some t → fs.lookup n = some v → CTable.WT E.T u t v := fun n t v h1 h2 => wt_member hwt h1 h2
        have hr : ∀ w ∈ body, NwrOk ⟨E, some cls, self, run E self fuel, fuel⟩ am af prog delta fs ty w := by
          intro w hw
          have := hok w hw
          obtain ⟨f1, rfl⟩ : ∃ f1, fuel = f1 + 1 := ⟨fuel - 1, by omega⟩
          cases w with
          | line _ _ _ => exact this
          | lineEnum _ _ =>
            obtain ⟨h1, h2, e, val, h3, h4, h5⟩ := this
            exact ⟨h1, h2, e, val, h3, h4, h5 _ _ _⟩
          | child n ty' sp =>
            refine ⟨this.1, this.2, fun v hl => ih v ty' _ ?_ (hmem n _ v this.2 hl)⟩
            have := nestingFields_lookup hl
            omega
          | vector _ | fixme _ | warn _ => trivial
        have h1 := run_nwrBody (out := s.out) (path := path) hC hty hlp hr (fun n t v h1 h2 => ⟨u, hmem n t v h1 h2⟩) hq hdl hfi hf hb
        rw [hcall]
        obtain ⟨m0, vs0, files, out⟩ := s
        cases hx : runNWr E.T E.I prog delta (nwrFields E.T E.I prog delta fs) ty path with
        | stuck => trivial
        | ub =>
          rw [hx] at h1
          exact invoke_ub hbind h1
        | ok ls =>
          rw [hx] at h1
          obtain ⟨m', vs', l, h2, h3, h4⟩ := h1
          show invoke _ _ _ _ = _
          rw [invoke_ok (f := nwrFun cls ty (Cpp.nwrBody ty dd body)) rfl (u := .prim .bool) rfl hbind h2 (initFrom_load (load_lv (peek_var h3) rfl))]
          simp only [h4]
    | _ => trivial


/-! ### `write_to_file` -/

/-- The overloads of `write_to_file`, one of which is called. -/
theorem writeIni_one {self : List (Str × Var)} (hs : ∀ n, n ∉ iniMembers → self.lookup n = none) {ns : List Str} (hnd : ns.Nodup)
    (hst : ∀ n ∈ ns, IniName E cls n) {n : Str} (hn : n ∈ ns) {t q : Place} :
    (ns.map (ini239_fun cls)).filter (fun f => viable E (some cls) self f.params [.lv .str t, .lv (.struct n) q]) = [ini239_fun cls n] := by
  have hvi : ∀ x ∈ ns, viable E (some cls) self (ini239_fun cls x).params [.lv .str t, .lv (.struct n) q] = decide (x = n) := by
    intro x hx
    have h1 := hst x hx
    have h3 : tyOf E (some cls) self (.name [c!"std", c!"string"]) = some .str := rfl
    have h4 : tyOf E (some cls) ((c!"filename", ⟨.str, ⟨0, []⟩⟩) :: self) (.name [x]) = some (.struct x) :=
      h1.tyOf (by rw [lookup_cons_ne (fun h => h1.clear (by simp [h]))]; exact hs _ (fun h => h1.clear (List.mem_append_right _ h)))
    simp only [ini239_fun, viable, Ty.noRef, Ty.isRef, h3, h4, argFits]
    by_cases h : x = n
    · subst h; simp
    · have h' : ¬ n = x := fun e => h e.symm
      simp [h, h']
  clear hst
  induction ns with
  | nil => cases hn
  | cons x ns ih =>
    obtain ⟨hx, hnd⟩ := List.nodup_cons.1 hnd
    rw [List.map_cons, List.filter_cons, hvi x (by simp)]
    by_cases h : x = n
    · subst h
      have h2 : (ns.map (ini239_fun cls)).filter (fun f => viable E (some cls) self f.params [.lv .str t, .lv (.struct x) q]) = [] := by
        rw [List.filter_eq_nil_iff]
        intro f hf
        obtain ⟨y, hy, rfl⟩ := List.mem_map.1 hf
        rw [hvi y (by simp [hy])]
        simpa using fun e : y = x => hx (e ▸ hy)
      rw [h2]
      simp
    · rw [if_neg (by simpa using h)]
      exact ih hnd ((List.mem_cons.1 hn).resolve_left fun e => h e.symm) fun y hy => hvi y (by simp [hy])

/-- The file is opened, or not. -/
theorem open_ini (hE : C.E = E) (hsf : C.self.lookup c!"m_file" = some ⟨.ptr .file, ⟨af, []⟩⟩) {m0 : List V} {n f : Str} {u q : Place} (ht : getAt m0 u = some (.str f))
    (haf : af < m0.length) (ts : List Stmt) :
    execs C ((ini239_fun cls n).body.take 2 ++ ts) ⟨m0, [(c!"struct_to_read", ⟨.struct n, q⟩), (c!"filename", ⟨.str, u⟩)], files, out⟩ =
      execs C ts ⟨m0.set af (if E.canWrite (cStr f) then .file files.length else .null) ++ [.val (.bool false)], [(c!"rv", ⟨.prim .bool, ⟨m0.length, []⟩⟩),
        (c!"struct_to_read", ⟨.struct n, q⟩), (c!"filename", ⟨.str, u⟩)], files ++ (if E.canWrite (cStr f) then [.wr (cStr f) []] else []), out⟩ := by
  have hw : cStr c!"w" = c!"w" := by decide
  have hpk : ∀ vars, peek u ⟨m0 ++ [.val (.bool false)], vars, files, out⟩ = .ok (.val (.str f)) ⟨m0 ++ [.val (.bool false)], vars, files, out⟩ :=
    fun vars => peek_at (getAt_append ht)
  have hpo : ∀ vars files (x : V), poke ⟨af, []⟩ x ⟨m0 ++ [.val (.bool false)], vars, files, out⟩ = .ok () ⟨m0.set af x ++ [.val (.bool false)], vars, files, out⟩ :=
    fun vars files x => by rw [poke_var (by simp; omega), List.set_append_left _ _ haf]
  show execs C (_ :: _ :: ts) _ = _
  rw [execs_cons (exec_declInit (u := .prim .bool) (x := .lst []) (v := .val (.bool false)) rfl (by rw [eval, evals]; rfl) rfl)]
  rw [execs_cons (s' := _)]
  cases hl : E.canWrite (cStr f) with
  | false => simp [exec, eval, evals, lookupId, List.lookup, hsf, dotCall, hpk, callId, stdCall, hw, cstrArg, hE, fopen, hl, assignE, load, V.isUndef, coerce, hpo]
  | true => simp [exec, eval, evals, lookupId, List.lookup, hsf, dotCall, hpk, callId, stdCall, hw, cstrArg, hE, fopen, hl, assignE, load, V.isUndef, coerce, hpo]

/-- The call of `write_to_file` on the name of a file and an object. -/
theorem callWriteIni {prog : List Item} (hp : NWrProgram E cls prog) {self : List (Str × Var)} (hs : ∀ n, n ∉ iniMembers → self.lookup n = none)
    {ns : List Str} (hnd : ns.Nodup) (hst : ∀ n ∈ ns, IniName E cls n) {n : Str} (hn : n ∈ ns)
    (hm : methods E (some cls) c!"write_to_file" = ns.map (ini239_fun cls)) {s : St} {u q : Place} {fuel : Nat} :
    callMethod E self (fuel + 1) cls c!"write_to_file" [.lv .str u, .lv (.struct n) q] s =
      invoke ⟨E, some cls, self, run E self fuel, fuel⟩ (ini239_fun cls n) [.lv .str u, .lv (.struct n) q] s := by
  rw [callMethod, hm, callOne, writeIni_one hs hnd hst hn]
  show run E self (fuel + 1) (ini239_fun cls n) [.lv .str u, .lv (.struct n) q] s = _
  rw [run]
  simp only [ini239_fun, if_neg hp.stfx]

theorem bindWriteIni {self : List (Str × Var)} (hs : ∀ n, n ∉ iniMembers → self.lookup n = none) {n : Str} (hsn : IniName E cls n) {m0 : List V} {u q : Place} :
    bindParams E (some cls) self (ini239_fun cls n).params [.lv .str u, .lv (.struct n) q] ⟨m0, [], files, out⟩ =
      .ok () ⟨m0, [(c!"struct_to_read", ⟨.struct n, q⟩), (c!"filename", ⟨.str, u⟩)], files, out⟩ := by
  rw [ini239_fun, bindParams_ref rfl, bindParams_ref (hsn.tyOf (by
    rw [List.cons_append, lookup_cons_ne (fun h => hsn.clear (by simp [h]))]; exact hs _ (fun h => hsn.clear (List.mem_append_right _ h))))]
  rfl

/-- `write_to_file` on a file that can not be opened. -/
theorem write_closed {prog : List Item} (hp : NWrProgram E cls prog) {self : List (Str × Var)} (hs : ∀ n, n ∉ iniMembers → self.lookup n = none)
    (hsf : self.lookup c!"m_file" = some ⟨.ptr .file, ⟨af, []⟩⟩)
    {ns : List Str} (hnd : ns.Nodup) (hst : ∀ n ∈ ns, IniName E cls n) {n : Str} (hn : n ∈ ns)
    (hm : methods E (some cls) c!"write_to_file" = ns.map (ini239_fun cls)) {s : St} {u q : Place} {f : Str}
    (ht : getAt s.mem u = some (.str f)) (haf : af < s.mem.length) (hcw : E.canWrite (cStr f) = false) {fuel : Nat} :
    callMethod E self (fuel + 1) cls c!"write_to_file" [.lv .str u, .lv (.struct n) q] s =
      .ok (.rv (.prim .bool) (.val (.bool false))) { s with mem := s.mem.set af .null } := by
  rw [callWriteIni hp hs hnd hst hn hm]
  obtain ⟨m0, vs0, files, out⟩ := s
  have hbind := bindWriteIni (files := files) (out := out) (m0 := m0) (u := u) (q := q) hs (hst n hn)
  generalize hC : (⟨E, some cls, self, run E self fuel, fuel⟩ : Ctx) = C
  have hE : C.E = E := by rw [← hC]
  have hself : C.self.lookup c!"m_file" = some ⟨.ptr .file, ⟨af, []⟩⟩ := by rw [← hC]; exact hsf
  have h1 := open_ini (cls := cls) (files := files) (out := out) (n := n) (q := q) hE hself ht haf ((ini239_fun cls n).body.drop 2)
  rw [List.take_append_drop, hcw] at h1
  simp only [Bool.false_eq_true, if_false, List.append_nil] at h1
  have h2 : execs C ((ini239_fun cls n).body.drop 2) ⟨m0.set af .null ++ [.val (.bool false)], [(c!"rv", ⟨.prim .bool, ⟨m0.length, []⟩⟩),
      (c!"struct_to_read", ⟨.struct n, q⟩), (c!"filename", ⟨.str, u⟩)], files, out⟩ =
      .ok (.ret (.lv (.prim .bool) ⟨m0.length, []⟩)) ⟨m0.set af .null ++ [.val (.bool false)], [(c!"rv", ⟨.prim .bool, ⟨m0.length, []⟩⟩),
      (c!"struct_to_read", ⟨.struct n, q⟩), (c!"filename", ⟨.str, u⟩)], files, out⟩ := by
    have hpk : ∀ vars, peek ⟨af, []⟩ ⟨m0.set af .null ++ [.val (.bool false)], vars, files, out⟩ = .ok .null ⟨m0.set af .null ++ [.val (.bool false)], vars, files, out⟩ :=
      fun vars => peek_var (by rw [List.getElem?_append_left (by simpa using haf), List.getElem?_set_self haf])
    show execs C (_ :: retRv) _ = _
    rw [execs_cons (s' := ⟨m0.set af .null ++ [.val (.bool false)], [(c!"rv", ⟨.prim .bool, ⟨m0.length, []⟩⟩),
      (c!"struct_to_read", ⟨.struct n, q⟩), (c!"filename", ⟨.str, u⟩)], files, out⟩), execs_retRv (x := ⟨.prim .bool, ⟨m0.length, []⟩⟩) (by simp [List.lookup])]
    simp [exec, eval, lookupId, List.lookup, hself, load, hpk, V.isUndef, binV, asBool]
  subst hC
  rw [invoke_ok (f := ini239_fun cls n) rfl (u := .prim .bool) rfl hbind (h1.trans h2) (v := .val (.bool false)) (initFrom_load (load_lv (peek_var (by simp)) rfl))]
  simp [List.take_left']

/-- `write_to_file` on a file that is opened. -/
theorem write_ini {prog : List Item} (hp : NWrProgram E cls prog) {self : List (Str × Var)} (hs : ∀ n, n ∉ iniMembers → self.lookup n = none)
    (hsd : self.lookup c!"m_delta_only" = some ⟨.prim .bool, ⟨am, []⟩⟩) (hsf : self.lookup c!"m_file" = some ⟨.ptr .file, ⟨af, []⟩⟩)
    {ns : List Str} (hnd : ns.Nodup) (hst : ∀ n ∈ ns, IniName E cls n) {n : Str} (hn : n ∈ ns)
    (hm : methods E (some cls) c!"write_to_file" = ns.map (ini239_fun cls)) {s : St} {u q : Place} {f : Str} {v : Val}
    (ht : getAt s.mem u = some (.str f)) (hq : getAt s.mem q = some v) (hdl : s.mem[am]? = some (.val (.bool delta))) (haf : af < s.mem.length)
    (hqf : af ≠ q.addr) (hmf : af ≠ am) {w : Bool} (hw : CTable.WT E.T w (.struct n) v) (hcw : E.canWrite (cStr f) = true) {fuel : Nat} (hd : nesting v ≤ fuel) :
    Sim (iniWrite E.T E.I prog delta n v) (callMethod E self (fuel + 2) cls c!"write_to_file" [.lv .str u, .lv (.struct n) q] s)
      fun text x => x = .ok (.rv (.prim .bool) (.val (.bool true)))
        ⟨s.mem.set af (.file s.files.length), s.vars, s.files ++ [.closed], s.out ++ [(cStr f, .text text)]⟩ := by
  rw [callWriteIni hp hs hnd hst hn hm]
  unfold iniWrite
  cases hrf : hasWriteFile prog n with
  | false => trivial
  | true =>
  rw [if_pos rfl]
  obtain ⟨m0, vs0, files, out⟩ := s
  simp only at ht hq hdl haf
  have hbind := bindWriteIni (files := files) (out := out) (m0 := m0) (u := u) (q := q) hs (hst n hn)
  have hwr := nwr_call (delta := delta) hp hs hsd hsf (fuel + 1) v n (fuel + 1) (by omega) hw
  generalize hC : (⟨E, some cls, self, run E self (fuel + 1), fuel + 1⟩ : Ctx) = C at *
  have hE : C.E = E := by rw [← hC]
  have hself : C.self.lookup c!"m_file" = some ⟨.ptr .file, ⟨af, []⟩⟩ := by rw [← hC]; exact hsf
  have h1 := open_ini (cls := cls) (files := files) (out := out) (n := n) (q := q) hE hself ht haf ((ini239_fun cls n).body.drop 2)
  rw [List.take_append_drop, hcw] at h1
  simp only [if_true] at h1
  obtain ⟨vs, hvs⟩ : ∃ vs, vs = [(c!"rv", (⟨.prim .bool, ⟨m0.length, []⟩⟩ : Var)), (c!"struct_to_read", ⟨.struct n, q⟩), (c!"filename", ⟨.str, u⟩)] := ⟨_, rfl⟩
  rw [← hvs] at h1
  have hmf' : ∀ (b : V), (m0.set af (.file files.length) ++ [b])[af]? = some (.file files.length) := fun b => by
    rw [List.getElem?_append_left (by simpa using haf), List.getElem?_set_self haf]
  have hcall := hwr ⟨m0.set af (.file files.length) ++ [.val (.bool false)], vs, files ++ [.wr (cStr f) []], out⟩ [] (.rv (.ptr (.prim .char)) (.cstr [])) q
    files.length (cStr f) [] .lit (by rw [hvs]; simp [List.lookup]) (getAt_append (by rw [getAt_set hqf, hq]))
    (by rw [List.getElem?_append_left (by simpa using (List.getElem?_eq_some_iff.1 hdl).1), List.getElem?_set_ne hmf, hdl]) (hmf' _) (by simp)
  rw [hE] at hcall
  have he : eval C (.call (.id [(c!"do_wr_" ++ n)]) [(.str c!""), (.addr (.id [c!"struct_to_read"]))])
      ⟨m0.set af (.file files.length) ++ [.val (.bool false)], vs, files ++ [.wr (cStr f) []], out⟩ =
      callId C [c!"do_wr_" ++ n] [.rv (.ptr (.prim .char)) (.cstr []), .rv (.ptr (.struct n)) (.ptr q)]
        ⟨m0.set af (.file files.length) ++ [.val (.bool false)], vs, files ++ [.wr (cStr f) []], out⟩ := by
    have hev : evals C [(.str c!""), (.addr (.id [c!"struct_to_read"]))] ⟨m0.set af (.file files.length) ++ [.val (.bool false)], vs, files ++ [.wr (cStr f) []], out⟩ =
        .ok [.rv (.ptr (.prim .char)) (.cstr []), .rv (.ptr (.struct n)) (.ptr q)]
          ⟨m0.set af (.file files.length) ++ [.val (.bool false)], vs, files ++ [.wr (cStr f) []], out⟩ := by
      have h0 : cStr c!"" = [] := by decide
      simp [evals, eval, h0, lookupId, hvs, List.lookup]
    rw [eval]
    simp only [M.bind_run, hev, Res.ok_bind]
  have hwhen : ∀ st, exec C (.when (.bin .ne (.id [c!"m_file"]) .null) st) ⟨m0.set af (.file files.length) ++ [.val (.bool false)], vs, files ++ [.wr (cStr f) []], out⟩ =
      scope (exec C st) ⟨m0.set af (.file files.length) ++ [.val (.bool false)], vs, files ++ [.wr (cStr f) []], out⟩ := by
    intro st
    have hpk : ∀ vars files', peek ⟨af, []⟩ ⟨m0.set af (.file files.length) ++ [.val (.bool false)], vars, files', out⟩ =
        .ok (.file files.length) ⟨m0.set af (.file files.length) ++ [.val (.bool false)], vars, files', out⟩ := fun vars files' => peek_var (hmf' _)
    simp [exec, eval, lookupId, hvs, List.lookup, hself, load, hpk, V.isUndef, binV, asBool]
  have hbody : (ini239_fun cls n).body.drop 2 = .when (.bin .ne (.id [c!"m_file"]) .null)
      (.block [.expr (.assign (.id [c!"rv"]) (.call (.id [(c!"do_wr_" ++ n)]) [(.str c!""), (.addr (.id [c!"struct_to_read"]))])),
        .expr (.call (.id [c!"std", c!"fclose"]) [(.id [c!"m_file"])])]) :: retRv := rfl
  refine hcall.bind (fun ls _ hx => ?_) (fun hx => ?_)
  · have h2 : exec C (.expr (.assign (.id [c!"rv"]) (.call (.id [(c!"do_wr_" ++ n)]) [(.str c!""), (.addr (.id [c!"struct_to_read"]))])))
        ⟨m0.set af (.file files.length) ++ [.val (.bool false)], vs, files ++ [.wr (cStr f) []], out⟩ =
        .ok .next ⟨m0.set af (.file files.length) ++ [.val (.bool true)], vs, files ++ [.wr (cStr f) (Run.fileText ls)], out⟩ := by
      have hlen : m0.length < (m0.set af (.file files.length) ++ [V.val (.bool false)]).length := by simp
      have hx' := he.trans hx
      have hfl : addText (files ++ [FileSt.wr (cStr f) []]) files.length (cStr f) [] (Run.fileText ls) = files ++ [.wr (cStr f) (Run.fileText ls)] := by simp [addText]
      simp only at hx'
      rw [hfl] at hx'
      refine exec_assignOk hx' (eval_id (x := ⟨.prim .bool, ⟨m0.length, []⟩⟩) (by rw [hvs]; simp [List.lookup])) (z := .lv (.prim .bool) ⟨m0.length, []⟩) ?_
      simp only [assignE, load, M.bind_run, M.pure_run, Res.ok_bind, coerce_self, M.opt_some, poke_var hlen]
      simp [List.set_append_right]
    have h3 : exec C (.expr (.call (.id [c!"std", c!"fclose"]) [(.id [c!"m_file"])]))
        ⟨m0.set af (.file files.length) ++ [.val (.bool true)], vs, files ++ [.wr (cStr f) (Run.fileText ls)], out⟩ =
        .ok .next ⟨m0.set af (.file files.length) ++ [.val (.bool true)], vs, files ++ [.closed], out ++ [(cStr f, .text (Run.fileText ls))]⟩ := by
      have hpk : ∀ vars files', peek ⟨af, []⟩ ⟨m0.set af (.file files.length) ++ [.val (.bool true)], vars, files', out⟩ =
          .ok (.file files.length) ⟨m0.set af (.file files.length) ++ [.val (.bool true)], vars, files', out⟩ := fun vars files' => peek_var (hmf' _)
      simp [exec, eval, evals, lookupId, hvs, List.lookup, hself, callId, stdCall, load, hpk, V.isUndef, fclose]
    have h4 : execs C (ini239_fun cls n).body ⟨m0, [(c!"struct_to_read", ⟨.struct n, q⟩), (c!"filename", ⟨.str, u⟩)], files, out⟩ =
        .ok (.ret (.lv (.prim .bool) ⟨m0.length, []⟩)) ⟨m0.set af (.file files.length) ++ [.val (.bool true)], vs, files ++ [.closed],
          out ++ [(cStr f, .text (Run.fileText ls))]⟩ := by
      have h5 : scope (scope (execs C [.expr (.assign (.id [c!"rv"]) (.call (.id [(c!"do_wr_" ++ n)]) [(.str c!""), (.addr (.id [c!"struct_to_read"]))])),
          .expr (.call (.id [c!"std", c!"fclose"]) [(.id [c!"m_file"])])])) ⟨m0.set af (.file files.length) ++ [.val (.bool false)], vs, files ++ [.wr (cStr f) []], out⟩ =
          .ok .next ⟨m0.set af (.file files.length) ++ [.val (.bool true)], vs, files ++ [.closed], out ++ [(cStr f, .text (Run.fileText ls))]⟩ := by
        have h6 := (execs_cons h2).trans (execs_one.trans h3)
        have h7 := scope_ok h6
        rw [List.take_of_length_le (by simp)] at h7
        have h8 := scope_ok h7
        rw [List.take_of_length_le (by simp)] at h8
        exact h8
      have h6 := hwhen (.block [.expr (.assign (.id [c!"rv"]) (.call (.id [(c!"do_wr_" ++ n)]) [(.str c!""), (.addr (.id [c!"struct_to_read"]))])),
        .expr (.call (.id [c!"std", c!"fclose"]) [(.id [c!"m_file"])])])
      rw [execs_block, h5] at h6
      rw [h1, hbody, execs_cons h6, execs_retRv (x := ⟨.prim .bool, ⟨m0.length, []⟩⟩) (by rw [hvs]; simp [List.lookup])]
    subst hC
    show invoke _ _ _ _ = _
    rw [invoke_ok (f := ini239_fun cls n) rfl (u := .prim .bool) rfl hbind h4 (v := .val (.bool true)) (initFrom_load (load_lv (peek_var (by simp)) rfl))]
    simp [List.take_left']
  · have h2 : exec C (.expr (.assign (.id [c!"rv"]) (.call (.id [(c!"do_wr_" ++ n)]) [(.str c!""), (.addr (.id [c!"struct_to_read"]))])))
        ⟨m0.set af (.file files.length) ++ [.val (.bool false)], vs, files ++ [.wr (cStr f) []], out⟩ = .ub := exec_assign_ub (he.trans hx)
    have h6 := hwhen (.block [.expr (.assign (.id [c!"rv"]) (.call (.id [(c!"do_wr_" ++ n)]) [(.str c!""), (.addr (.id [c!"struct_to_read"]))])),
      .expr (.call (.id [c!"std", c!"fclose"]) [(.id [c!"m_file"])])])
    rw [execs_block, scope_ub (scope_ub (by rw [execs, M.bind_run, h2]; rfl))] at h6
    subst hC
    refine invoke_ub hbind ?_
    rw [h1, hbody, execs, M.bind_run, h6]
    rfl

end
end Stfx.Cpp
