import Verif.Cpp.RunXmlWrFun
/-
The generated `write_to_file`, run as C++ code.
-/
set_option autoImplicit false
set_option linter.unusedSimpArgs false
namespace Stfx.Cpp
open Stfx.Run Stfx.Parser Stfx.Items Stfx.Gen

section
variable {E : Env} {cls : Str} {C : Ctx} {files : List FileSt} {out : List (Str × Saved)}

/-- Of functions with the parameters `std::string& filename, x& y`, one for each name `x`, the one for the argument is called. -/
theorem overload_one {g : Str → Fun} {y : Str} (hg : ∀ x, (g x).params = [(.ref (.name [c!"std", c!"string"]), c!"filename"), (.ref (.name [x]), y)])
    {self : List (Str × Var)} (hs : ∀ n, n ≠ c!"m_delta_only" → self.lookup n = none) {ns : List Str} (hnd : ns.Nodup)
    (hst : ∀ n ∈ ns, StructName E cls n ∧ n ≠ c!"filename") {n : Str} (hn : n ∈ ns) {t q : Place} :
    (ns.map g).filter (fun f => viable E (some cls) self f.params [.lv .str t, .lv (.struct n) q]) = [g n] := by
  have hvi : ∀ x ∈ ns, viable E (some cls) self (g x).params [.lv .str t, .lv (.struct n) q] = decide (x = n) := by
    intro x hx
    obtain ⟨h1, h2⟩ := hst x hx
    have h3 : tyOf E (some cls) self (.name [c!"std", c!"string"]) = some .str := rfl
    have h4 : tyOf E (some cls) ((c!"filename", ⟨.str, ⟨0, []⟩⟩) :: self) (.name [x]) = some (.struct x) :=
      h1.tyOf (by rw [lookup_cons_ne h2]; exact hs _ (fun h => h1.clear (by simp [h])))
    simp only [hg, viable, Ty.noRef, Ty.isRef, h3, h4, argFits]
    by_cases h : x = n
    · subst h; simp
    · have h' : ¬ n = x := fun e => h e.symm
      simp [h, h']
  clear hst
  induction ns with
  | nil => cases hn
  | cons x ns ih =>
    obtain ⟨hx, hnd⟩ := List.nodup_cons.1 hnd
    rw [List.map_cons, List.filter_cons, hvi x (by simp)]
    by_cases h : x = n
    · subst h
      have h2 : (ns.map g).filter (fun f => viable E (some cls) self f.params [.lv .str t, .lv (.struct x) q]) = [] := by
        rw [List.filter_eq_nil_iff]
        intro f hf
        obtain ⟨y, hy, rfl⟩ := List.mem_map.1 hf
        rw [hvi y (by simp [hy])]
        simpa using fun e : y = x => hx (e ▸ hy)
      rw [h2]
      simp
    · have hn' : n ∈ ns := (List.mem_cons.1 hn).resolve_left fun e => h e.symm
      rw [if_neg (by simp [h]), ih hnd hn' fun y hy => hvi y (by simp [hy])]

/-- `auto n = e;` -/
theorem exec_declAuto {n : Str} {e : Expr} {u : CTy} {v : V} {m : List V} {vars : List (Str × Var)}
    (he : eval C e ⟨m ++ [.val .undef], (n, ⟨.void, ⟨m.length, []⟩⟩) :: vars, files, out⟩ =
      .ok (.rv u v) ⟨m ++ [.val .undef], (n, ⟨.void, ⟨m.length, []⟩⟩) :: vars, files, out⟩) :
    exec C (.decl .auto n none (some e)) ⟨m, vars, files, out⟩ = .ok .next ⟨m ++ [v], (n, ⟨u, ⟨m.length, []⟩⟩) :: vars, files, out⟩ := by
  rw [exec, M.bind_run, declE]
  simp only [M.bind_run, getVars_run, Res.ok_bind, alloc_run, declare_run]
  show Res.bind (Res.bind (Res.bind (eval C e _) load) fun (x : CTy × V) (s : St) =>
    Res.ok () { s with vars := (n, ⟨x.1, ⟨m.length, []⟩⟩) :: vars, mem := s.mem.set m.length x.2 }) _ = _
  rw [he]
  simp only [Res.ok_bind, load_rv]
  show Res.ok _ _ = _
  simp

theorem do_wr_ne' {ty : Str} {n : Str} (h : n ∈ [c!"filename", c!"struct_to_read", c!"rv", c!"er", c!"doc_w", c!"ch", c!"el"]) : c!"do_wr_" ++ ty ≠ n := by
  intro e
  subst e
  simp at h

/-- `write_to_file`, called on the name of a file and an object. -/
theorem write_file {prog : List Item} (hp : WrProgram E cls prog) {self : List (Str × Var)} (hs : ∀ n, n ≠ c!"m_delta_only" → self.lookup n = none)
    {am : Nat} (hsd : self.lookup c!"m_delta_only" = some ⟨.prim .bool, ⟨am, []⟩⟩)
    {ns : List Str} (hnd : ns.Nodup) (hst : ∀ n ∈ ns, StructName E cls n ∧ n ≠ c!"filename") {n : Str} (hn : n ∈ ns) (hcn : cStr n = n)
    (hm : methods E (some cls) c!"write_to_file" = ns.map (xml164_fun cls)) {s : St} {t q : Place} {f : Str} {v : Val} {delta u : Bool}
    (ht : getAt s.mem t = some (.str f)) (hq : getAt s.mem q = some v) (hdl : s.mem[am]? = some (.val (.bool delta)))
    (hw : CTable.WT E.T u (.struct n) v) {fuel : Nat} (hd : nesting v ≤ fuel) :
    Sim (writeFile E.T E.L prog delta n v) (callMethod E self (fuel + 2) cls c!"write_to_file" [.lv .str t, .lv (.struct n) q] s)
      fun k x => x = .ok (.rv (.prim .bool) (.val (.bool (E.canSave (cStr f)))))
        { s with out := if E.canSave (cStr f) then s.out ++ [(cStr f, .doc [k])] else s.out } := by
  have hcall : callMethod E self (fuel + 2) cls c!"write_to_file" [.lv .str t, .lv (.struct n) q] s =
      invoke ⟨E, some cls, self, run E self (fuel + 1), fuel + 1⟩ (xml164_fun cls n) [.lv .str t, .lv (.struct n) q] s := by
    rw [callMethod, hm, callOne, overload_one (fun _ => rfl) hs hnd hst hn]
    show run E self (fuel + 1 + 1) (xml164_fun cls n) [.lv .str t, .lv (.struct n) q] s = _
    rw [run]
    simp only [xml164_fun, if_neg hp.stfx]
  rw [hcall]
  unfold writeFile
  cases hrf : hasWriteFile prog n with
  | false => trivial
  | true =>
  rw [if_pos rfl]
  obtain ⟨hsn, hne⟩ := hst n hn
  obtain ⟨m0, vs0, files, out⟩ := s
  simp only at ht hq hdl
  have hbind : bindParams E (some cls) self (xml164_fun cls n).params [.lv .str t, .lv (.struct n) q] ⟨m0, [], files, out⟩ =
      .ok () ⟨m0, [(c!"struct_to_read", ⟨.struct n, q⟩), (c!"filename", ⟨.str, t⟩)], files, out⟩ := by
    rw [xml164_fun, bindParams_ref rfl, bindParams_ref (hsn.tyOf (by
      rw [List.cons_append, lookup_cons_ne hne]; exact hs _ (fun h => hsn.clear (by simp [h]))))]
    rfl
  have hwr := wr_call (delta := delta) hp hs hsd (fuel + 1) v n (fuel + 1) (by omega) hw
  generalize hC : (⟨E, some cls, self, run E self (fuel + 1), fuel + 1⟩ : Ctx) = C at *
  have hE : C.E = E := by rw [← hC]
  generalize hvs : [(c!"el", (⟨.ptr .xmlEl, ⟨m0.length + 4, []⟩⟩ : Var)), (c!"ch", ⟨.ptr .xmlEl, ⟨m0.length + 3, []⟩⟩), (c!"doc_w", ⟨.xmlDoc, ⟨m0.length + 2, []⟩⟩),
    (c!"er", ⟨.xmlErr, ⟨m0.length + 1, []⟩⟩), (c!"rv", ⟨.prim .bool, ⟨m0.length, []⟩⟩),
    (c!"struct_to_read", ⟨.struct n, q⟩), (c!"filename", ⟨.str, t⟩)] = vs
  have hdo : vs.lookup (c!"do_wr_" ++ n) = none := by
    rw [← hvs, lookup_cons_ne (do_wr_ne' (by simp)), lookup_cons_ne (do_wr_ne' (by simp)), lookup_cons_ne (do_wr_ne' (by simp)), lookup_cons_ne (do_wr_ne' (by simp)),
      lookup_cons_ne (do_wr_ne' (by simp)), lookup_cons_ne (do_wr_ne' (by simp)), lookup_cons_ne (do_wr_ne' (by simp))]
    rfl
  have hstr : ∀ s : St, eval C (.str n) s = .ok (.rv (.ptr (.prim .char)) (.cstr n)) s := fun s => by rw [eval, hcn]; rfl
  -- the statements before the call
  have h1 : ∀ ts, execs C ((xml164_fun cls n).body.take 6 ++ ts) ⟨m0, [(c!"struct_to_read", ⟨.struct n, q⟩), (c!"filename", ⟨.str, t⟩)], files, out⟩ =
      execs C ts ⟨m0 ++ [.val (.bool false), .val .undef, .doc [.elem n [] []], .fresh (m0.length + 2) (.elem n [] []), .el (m0.length + 2) [0]], vs, files, out⟩ := by
    intro ts
    have hpk : ∀ vars (a b : V) (ks : List Node) (r : List V), peek ⟨m0.length + 2, []⟩ ⟨m0 ++ a :: b :: .doc ks :: r, vars, files, out⟩ =
        .ok (.doc ks) ⟨m0 ++ a :: b :: .doc ks :: r, vars, files, out⟩ := fun vars a b ks r => peek_var (by simp)
    have hpk3 : ∀ vars (a b c x : V) (r : List V), peek ⟨m0.length + 3, []⟩ ⟨m0 ++ a :: b :: c :: x :: r, vars, files, out⟩ =
        .ok x ⟨m0 ++ a :: b :: c :: x :: r, vars, files, out⟩ := fun vars a b ks x r => peek_var (by simp)
    have hpo : ∀ vars (a b c : V) (x : V) (r : List V), poke ⟨m0.length + 2, []⟩ x ⟨m0 ++ a :: b :: c :: r, vars, files, out⟩ = .ok () ⟨m0 ++ a :: b :: x :: r, vars, files, out⟩ :=
      fun vars a b c x r => by rw [poke_var (by simp)]; simp [List.set_append]
    show execs C (_ :: _ :: _ :: _ :: _ :: _ :: ts) _ = _
    rw [execs_cons (exec_declInit (u := .prim .bool) (x := .lst []) (v := .val (.bool false)) rfl (by rw [eval, evals]; rfl) rfl),
      execs_cons (exec_decl (u := .xmlErr) rfl), execs_cons (exec_decl (u := .xmlDoc) rfl)]
    simp only [List.append_assoc, List.cons_append, List.nil_append, List.length_append, List.length_cons, List.length_nil, initV]
    rw [execs_cons (s' := ⟨m0 ++ [.val (.bool false), .val .undef, .doc [], .fresh (m0.length + 2) (.elem n [] [])],
      [(c!"ch", ⟨.ptr .xmlEl, ⟨m0.length + 3, []⟩⟩), (c!"doc_w", ⟨.xmlDoc, ⟨m0.length + 2, []⟩⟩),
    (c!"er", ⟨.xmlErr, ⟨m0.length + 1, []⟩⟩), (c!"rv", ⟨.prim .bool, ⟨m0.length, []⟩⟩),
    (c!"struct_to_read", ⟨.struct n, q⟩), (c!"filename", ⟨.str, t⟩)], files, out⟩) (by
      rw [exec_declAuto (u := .ptr .xmlEl) (v := .fresh (m0.length + 2) (.elem n [] [])) (by
        simp [eval, evals, lookupId, List.lookup, dotCall, hpk, cstrArg, hcn, load])]
      simp)]
    rw [execs_cons (s' := ⟨m0 ++ [.val (.bool false), .val .undef, .doc [.elem n [] []], .fresh (m0.length + 2) (.elem n [] [])],
      [(c!"ch", ⟨.ptr .xmlEl, ⟨m0.length + 3, []⟩⟩), (c!"doc_w", ⟨.xmlDoc, ⟨m0.length + 2, []⟩⟩),
    (c!"er", ⟨.xmlErr, ⟨m0.length + 1, []⟩⟩), (c!"rv", ⟨.prim .bool, ⟨m0.length, []⟩⟩),
    (c!"struct_to_read", ⟨.struct n, q⟩), (c!"filename", ⟨.str, t⟩)], files, out⟩) (by
      simp [exec, eval, evals, lookupId, List.lookup, dotCall, hpk, hpk3, load, hpo, V.isUndef, hE])]
    rw [execs_cons (exec_declInit (u := .ptr .xmlEl) (x := .rv (.ptr .xmlEl) (.el (m0.length + 2) [0])) (v := .el (m0.length + 2) [0]) rfl
      (by simp [eval, evals, lookupId, List.lookup, dotCall, hpk, hE, Node.isElem, List.findIdx?_cons]) (initFrom_load rfl))]
    simp [← hvs]
  have hb : (xml164_fun cls n).body = (xml164_fun cls n).body.take 6 ++ (xml164_fun cls n).body.drop 6 := (List.take_append_drop _ _).symm
  have hargs : ∀ s : St, s.vars = vs → evals C [(.id [c!"el"]), (.addr (.id [c!"struct_to_read"]))] s =
      .ok [.lv (.ptr .xmlEl) ⟨m0.length + 4, []⟩, .rv (.ptr (.struct n)) (.ptr q)] s := by
    intro s h
    simp [evals, eval, lookupId, h, ← hvs, List.lookup]
  have h2 := hwr ⟨m0 ++ [.val (.bool false), .val .undef, .doc [.elem n [] []], .fresh (m0.length + 2) (.elem n [] []), .el (m0.length + 2) [0]], vs, files, out⟩
    (.lv (.ptr .xmlEl) ⟨m0.length + 4, []⟩) (m0.length + 2) [0] [.elem n [] []] n q rfl (fun vars => load_lv (peek_var (by simp)) rfl) (by simp) rfl
    (getAt_append hq) (by rw [List.getElem?_append_left (List.getElem?_eq_some_iff.1 hdl).1, hdl]) hdo
  rw [hE] at h2
  have hcb : Sim ((wrVal E.T E.L prog delta v).wr n >>= fun el => R.ok (Node.elem n el.attrs el.kids))
      (execs C (xml164_fun cls n).body ⟨m0, [(c!"struct_to_read", ⟨.struct n, q⟩), (c!"filename", ⟨.str, t⟩)], files, out⟩)
      fun k x => x = .ok (.ret (.lv (.prim .bool) ⟨m0.length, []⟩)) ⟨m0 ++ [.val (.bool (E.canSave (cStr f))), .err (E.canSave (cStr f)), .doc [k],
        .fresh (m0.length + 2) (.elem n [] []), .el (m0.length + 2) [0]], vs, files, if E.canSave (cStr f) then out ++ [(cStr f, .doc [k])] else out⟩ := by
    rw [hb, h1]
    show Sim _ (execs C (.expr (.call (.id [(c!"do_wr_" ++ n)]) [(.id [c!"el"]), (.addr (.id [c!"struct_to_read"]))]) :: _ :: _ :: retRv) _) _
    refine h2.bind (fun el _ hx => ?_) (fun hx => ?_)
    · rw [execs_cons (s' := ⟨m0 ++ [.val (.bool false), .val .undef, .doc [.elem n el.attrs el.kids], .fresh (m0.length + 2) (.elem n [] []), .el (m0.length + 2) [0]], vs, files, out⟩) (by
        rw [exec_call (hargs _ rfl), hx]
        simp [List.set_append, put, modNode])]
      have hpk : ∀ vars (a b x : V) (r : List V), peek ⟨m0.length + 2, []⟩ ⟨m0 ++ a :: b :: x :: r, vars, files, out⟩ =
          .ok x ⟨m0 ++ a :: b :: x :: r, vars, files, out⟩ := fun vars a b ks r => peek_var (by simp)
      have hpf : ∀ vars r, peek t ⟨m0 ++ r, vars, files, out⟩ = .ok (.val (.str f)) ⟨m0 ++ r, vars, files, out⟩ :=
        fun vars r => peek_at (getAt_append ht)
      have hpo : ∀ vars (a b x : V) (r : List V) (out : List (Str × Saved)), poke ⟨m0.length + 1, []⟩ x ⟨m0 ++ a :: b :: r, vars, files, out⟩ =
          .ok () ⟨m0 ++ a :: x :: r, vars, files, out⟩ :=
        fun vars a b x r out => by rw [poke_var (by simp)]; simp [List.set_append]
      have hpo0 : ∀ vars (a x : V) (r : List V) (out : List (Str × Saved)), poke ⟨m0.length, []⟩ x ⟨m0 ++ a :: r, vars, files, out⟩ =
          .ok () ⟨m0 ++ x :: r, vars, files, out⟩ :=
        fun vars a x r out => by rw [poke_var (by simp)]; simp [List.set_append]
      have hpk1 : ∀ vars (a x : V) (r : List V) (out : List (Str × Saved)), peek ⟨m0.length + 1, []⟩ ⟨m0 ++ a :: x :: r, vars, files, out⟩ =
          .ok x ⟨m0 ++ a :: x :: r, vars, files, out⟩ := fun vars a ks r out => peek_var (by simp)
      have hl1 : vs.lookup c!"er" = some ⟨.xmlErr, ⟨m0.length + 1, []⟩⟩ := by simp [← hvs, List.lookup]
      have hl2 : vs.lookup c!"rv" = some ⟨.prim .bool, ⟨m0.length, []⟩⟩ := by simp [← hvs, List.lookup]
      have hl3 : vs.lookup c!"doc_w" = some ⟨.xmlDoc, ⟨m0.length + 2, []⟩⟩ := by simp [← hvs, List.lookup]
      have hl4 : vs.lookup c!"filename" = some ⟨.str, t⟩ := by simp [← hvs, List.lookup]
      show _ = _
      rw [execs_cons (s' := ⟨m0 ++ [.val (.bool false), .err (E.canSave (cStr f)), .doc [.elem n el.attrs el.kids], .fresh (m0.length + 2) (.elem n [] []), .el (m0.length + 2) [0]], vs, files,
          if E.canSave (cStr f) then out ++ [(cStr f, .doc [.elem n el.attrs el.kids])] else out⟩) (by
        cases hcs : E.canSave (cStr f) <;>
          simp [exec, eval, evals, lookupId, hl1, hl3, hl4, dotCall, hpk, hpf, cstrArg, load, hE, hcs, assignE, coerce, hpo]),
        execs_cons (s' := ⟨m0 ++ [.val (.bool (E.canSave (cStr f))), .err (E.canSave (cStr f)), .doc [.elem n el.attrs el.kids], .fresh (m0.length + 2) (.elem n [] []), .el (m0.length + 2) [0]], vs, files,
          if E.canSave (cStr f) then out ++ [(cStr f, .doc [.elem n el.attrs el.kids])] else out⟩) (by
        simp [exec, eval, lookupId, hl1, hl2, load, hpk1, V.isUndef, binV, assignE, coerce, hpo0]), execs_retRv (x := ⟨.prim .bool, ⟨m0.length, []⟩⟩) hl2]
    · rw [execs, M.bind_run, exec_call (hargs _ rfl), hx]
      rfl
  cases hx : (wrVal E.T E.L prog delta v).wr n with
  | stuck => trivial
  | ub =>
    rw [hx] at hcb
    exact invoke_ub (f := xml164_fun cls n) (by subst hC; exact hbind) hcb
  | ok el =>
    rw [hx] at hcb
    have hcb : execs _ _ _ = _ := hcb
    show invoke _ _ _ _ = _
    subst hC
    rw [invoke_ok (f := xml164_fun cls n) rfl (u := .prim .bool) rfl hbind hcb
      (initFrom_load (load_lv (v := .val (.bool (E.canSave (cStr f)))) (peek_var (by simp)) rfl))]
    simp

end
end Stfx.Cpp
