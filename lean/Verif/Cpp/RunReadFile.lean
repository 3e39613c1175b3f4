import Verif.Cpp.RunXmlFun
/-
The generated `read_from_file`, run as C++ code.
-/
set_option autoImplicit false
set_option linter.unusedSimpArgs false
namespace Stfx.Cpp
open Stfx.Run Stfx.Parser Stfx.Items Stfx.Gen

section
variable {E : Env} {cls : Str} {C : Ctx} {files : List FileSt} {out : List (Str × Saved)}

/-! ### The entry points -/

theorem do_ne' {ty : Str} {n : Str} (h : n ∈ [c!"filename", c!"struct_to_fill", c!"rv", c!"er", c!"doc", c!"el"]) : c!"do_" ++ ty ≠ n := by
  intro e
  have h2 : (c!"do_" ++ ty).take 3 = n.take 3 := by rw [e]
  have h3 : (c!"do_" ++ ty).take 3 = c!"do_" := rfl
  rw [h3] at h2
  revert h2
  simp only [List.mem_cons, List.not_mem_nil, or_false] at h
  rcases h with rfl | rfl | rfl | rfl | rfl | rfl <;> decide

/-- The overloads of `read_from_file`, one of which is called. -/
theorem readFile_one {self : List (Str × Var)} (hs : ∀ n, n ≠ c!"m_delta_only" → self.lookup n = none) {ns : List Str} (hnd : ns.Nodup)
    (hst : ∀ n ∈ ns, StructName E cls n ∧ n ≠ c!"filename") {n : Str} (hn : n ∈ ns) {t q : Place} :
    (ns.map (xml106_fun cls)).filter (fun f => viable E (some cls) self f.params [.lv .str t, .lv (.struct n) q]) = [xml106_fun cls n] := by
  have hvi : ∀ x ∈ ns, viable E (some cls) self (xml106_fun cls x).params [.lv .str t, .lv (.struct n) q] = decide (x = n) := by
    intro x hx
    obtain ⟨h1, h2⟩ := hst x hx
    have h3 : tyOf E (some cls) self (.name [c!"std", c!"string"]) = some .str := rfl
    have h4 : tyOf E (some cls) ((c!"filename", ⟨.str, ⟨0, []⟩⟩) :: self) (.name [x]) = some (.struct x) :=
      h1.tyOf (by rw [lookup_cons_ne h2]; exact hs _ (fun h => h1.clear (by simp [h])))
    simp only [xml106_fun, viable, Ty.noRef, Ty.isRef, h3, h4, argFits]
    by_cases h : x = n
    · subst h; simp
    · have h' : ¬ n = x := fun e => h e.symm
      simp [h, h']
  clear hst
  induction ns with
  | nil => cases hn
  | cons x ns ih =>
    obtain ⟨hx, hnd⟩ := List.nodup_cons.1 hnd
    rw [List.map_cons, List.filter_cons, hvi x (by simp)]
    by_cases h : x = n
    · subst h
      have h2 : (ns.map (xml106_fun cls)).filter (fun f => viable E (some cls) self f.params [.lv .str t, .lv (.struct x) q]) = [] := by
        rw [List.filter_eq_nil_iff]
        intro f hf
        obtain ⟨y, hy, rfl⟩ := List.mem_map.1 hf
        rw [hvi y (by simp [hy])]
        simpa using fun e : y = x => hx (e ▸ hy)
      rw [h2]
      simp
    · have hn' : n ∈ ns := (List.mem_cons.1 hn).resolve_left fun e => h e.symm
      rw [if_neg (by simp [h]), ih hnd hn' fun y hy => hvi y (by simp [hy])]

/-- `read_from_file`, called on the name of a file and an object. -/
theorem read_file {prog : List Item} (hp : RdProgram E cls prog) {self : List (Str × Var)} (hs : ∀ n, n ≠ c!"m_delta_only" → self.lookup n = none)
    {ns : List Str} (hnd : ns.Nodup) (hst : ∀ n ∈ ns, StructName E cls n ∧ n ≠ c!"filename") {n : Str} (hn : n ∈ ns)
    (hm : methods E (some cls) c!"read_from_file" = ns.map (xml106_fun cls)) {s : St} {t q : Place} {f : Str} {old : Val}
    (ht : getAt s.mem t = some (.str f)) (hq : getAt s.mem q = some old) {fuel : Nat}
    (hd : ∀ ks, E.load (cStr f) = .ok ks → ∀ k ∈ ks, depth k ≤ fuel) :
    Sim (readFile E.T E.L prog n (E.load (cStr f)) old) (callMethod E self (fuel + 2) cls c!"read_from_file" [.lv .str t, .lv (.struct n) q] s)
      fun bv x => x = .ok (.rv (.prim .bool) (.val (.bool bv.1))) { s with mem := setAt s.mem q bv.2 } := by
  have hcall : callMethod E self (fuel + 2) cls c!"read_from_file" [.lv .str t, .lv (.struct n) q] s =
      invoke ⟨E, some cls, self, run E self (fuel + 1), fuel + 1⟩ (xml106_fun cls n) [.lv .str t, .lv (.struct n) q] s := by
    rw [callMethod, hm, callOne, readFile_one hs hnd hst hn]
    show run E self (fuel + 1 + 1) (xml106_fun cls n) [.lv .str t, .lv (.struct n) q] s = _
    rw [run]
    simp only [xml106_fun, if_neg hp.stfx]
  rw [hcall]
  unfold readFile
  cases hrf : hasReadFile prog n with
  | false => trivial
  | true =>
  rw [if_pos rfl]
  obtain ⟨hsn, hne⟩ := hst n hn
  obtain ⟨m0, vs0, files, out⟩ := s
  have hlt := getAt_lt hq
  have hltt := getAt_lt ht
  have hbind : bindParams E (some cls) self (xml106_fun cls n).params [.lv .str t, .lv (.struct n) q] ⟨m0, [], files, out⟩ =
      .ok () ⟨m0, [(c!"struct_to_fill", ⟨.struct n, q⟩), (c!"filename", ⟨.str, t⟩)], files, out⟩ := by
    rw [xml106_fun, bindParams_ref rfl, bindParams_ref (hsn.tyOf (by
      rw [List.cons_append, lookup_cons_ne hne]; exact hs _ (fun h => hsn.clear (by simp [h]))))]
    rfl
  generalize hC : (⟨E, some cls, self, run E self (fuel + 1), fuel + 1⟩ : Ctx) = C at *
  have hE : C.E = E := by rw [← hC]
  -- the statements before the test
  have h1 : ∀ ts, execs C ((xml106_fun cls n).body.take 4 ++ ts) ⟨m0, [(c!"struct_to_fill", ⟨.struct n, q⟩), (c!"filename", ⟨.str, t⟩)], files, out⟩ =
      execs C ts ⟨m0 ++ [.val (.bool false), .err (match E.load (cStr f) with | .ok _ => true | .error => false),
        .doc (match E.load (cStr f) with | .ok ks => ks | .error => [])],
        [(c!"doc", ⟨.xmlDoc, ⟨m0.length + 2, []⟩⟩), (c!"er", ⟨.xmlErr, ⟨m0.length + 1, []⟩⟩), (c!"rv", ⟨.prim .bool, ⟨m0.length, []⟩⟩),
          (c!"struct_to_fill", ⟨.struct n, q⟩), (c!"filename", ⟨.str, t⟩)], files, out⟩ := by
    intro ts
    have hpk : ∀ vars, peek t ⟨m0 ++ [.val (.bool false), .val .undef, .doc []], vars, files, out⟩ = .ok (.val (.str f)) ⟨m0 ++ [.val (.bool false), .val .undef, .doc []], vars, files, out⟩ :=
      fun vars => peek_at (getAt_append ht)
    have hpk2 : ∀ vars, peek ⟨m0.length + 2, []⟩ ⟨m0 ++ [.val (.bool false), .val .undef, .doc []], vars, files, out⟩ = .ok (.doc []) ⟨m0 ++ [.val (.bool false), .val .undef, .doc []], vars, files, out⟩ :=
      fun vars => peek_var (by simp)
    have hpo : ∀ vars (a b c : V) (x : V), poke ⟨m0.length + 2, []⟩ x ⟨m0 ++ [a, b, c], vars, files, out⟩ = .ok () ⟨m0 ++ [a, b, x], vars, files, out⟩ :=
      fun vars a b c x => by rw [poke_var (by simp)]; simp [List.set_append]
    have hpo2 : ∀ vars (a b c : V) (x : V), poke ⟨m0.length + 1, []⟩ x ⟨m0 ++ [a, b, c], vars, files, out⟩ = .ok () ⟨m0 ++ [a, x, c], vars, files, out⟩ :=
      fun vars a b c x => by rw [poke_var (by simp)]; simp [List.set_append]
    show execs C (_ :: _ :: _ :: _ :: ts) _ = _
    rw [execs_cons (exec_declInit (u := .prim .bool) (x := .lst []) (v := .val (.bool false)) rfl (by rw [eval, evals]; rfl) rfl),
      execs_cons (exec_decl (u := .xmlErr) rfl), execs_cons (exec_decl (u := .xmlDoc) rfl)]
    simp only [List.append_assoc, List.cons_append, List.nil_append, List.length_append, List.length_cons, List.length_nil, initV]
    rw [execs_cons (s' := _)]
    cases hl : E.load (cStr f) with
    | error => simp [exec, eval, evals, lookupId, List.lookup, dotCall, hpk, hpk2, cstrArg, hE, hl, assignE, load, V.isUndef, coerce, hpo, hpo2]
    | ok ks => simp [exec, eval, evals, lookupId, List.lookup, dotCall, hpk, hpk2, cstrArg, hE, hl, assignE, load, V.isUndef, coerce, hpo, hpo2]
  have hb : (xml106_fun cls n).body = (xml106_fun cls n).body.take 4 ++ (xml106_fun cls n).body.drop 4 := (List.take_append_drop _ _).symm
  have hret : ∀ {m : List V} {vs : List (Str × Var)} {b : Bool} {v : Val}, vs.lookup c!"rv" = some ⟨.prim .bool, ⟨m0.length, []⟩⟩ →
      m[m0.length]? = some (.val (.bool b)) → m.take m0.length = setAt m0 q v →
      execs C (xml106_fun cls n).body ⟨m0, [(c!"struct_to_fill", ⟨.struct n, q⟩), (c!"filename", ⟨.str, t⟩)], files, out⟩ = execs C retRv ⟨m, vs, files, out⟩ →
      invoke C (xml106_fun cls n) [.lv .str t, .lv (.struct n) q] ⟨m0, vs0, files, out⟩ =
        .ok (.rv (.prim .bool) (.val (.bool b))) ⟨setAt m0 q v, vs0, files, out⟩ := by
    intro m vs b v h2 h3 h4 h5
    rw [execs_retRv (x := ⟨.prim .bool, ⟨m0.length, []⟩⟩) h2] at h5
    subst hC
    rw [invoke_ok (f := xml106_fun cls n) rfl (u := .prim .bool) rfl hbind h5 (initFrom_load (load_lv (peek_var h3) rfl)), h4]
  cases hl : E.load (cStr f) with
  | error =>
    simp only [hl] at h1
    show invoke _ _ _ _ = _
    refine hret (m := m0 ++ [.val (.bool false), .err false, .doc []])
      (vs := [(c!"doc", ⟨.xmlDoc, ⟨m0.length + 2, []⟩⟩), (c!"er", ⟨.xmlErr, ⟨m0.length + 1, []⟩⟩), (c!"rv", ⟨.prim .bool, ⟨m0.length, []⟩⟩),
          (c!"struct_to_fill", ⟨.struct n, q⟩), (c!"filename", ⟨.str, t⟩)]) (by simp [List.lookup]) (by simp) (by simp [setAt_self hq]) ?_
    rw [hb, h1]
    show execs C (_ :: retRv) _ = _
    rw [execs_cons (s' := _)]
    simp [exec, eval, lookupId, List.lookup, load, peek_var, V.isUndef, binV, asBool]
  | ok ks =>
    simp only [hl] at h1
    -- the element
    have hw : ∃ w, exec C (.decl (.ptr (.name [c!"tinyxml2", c!"XMLElement"])) c!"el" none (some (.call (.mem (.id [c!"doc"]) c!"RootElement") [])))
          ⟨m0 ++ [.val (.bool false), .err true, .doc ks],
        [(c!"doc", ⟨.xmlDoc, ⟨m0.length + 2, []⟩⟩), (c!"er", ⟨.xmlErr, ⟨m0.length + 1, []⟩⟩), (c!"rv", ⟨.prim .bool, ⟨m0.length, []⟩⟩),
          (c!"struct_to_fill", ⟨.struct n, q⟩), (c!"filename", ⟨.str, t⟩)], files, out⟩ = .ok .next 
          ⟨m0 ++ [.val (.bool false), .err true, .doc ks] ++ [w],
        [(c!"el", ⟨.ptr .xmlEl, ⟨m0.length + 3, []⟩⟩), (c!"doc", ⟨.xmlDoc, ⟨m0.length + 2, []⟩⟩), (c!"er", ⟨.xmlErr, ⟨m0.length + 1, []⟩⟩), (c!"rv", ⟨.prim .bool, ⟨m0.length, []⟩⟩),
          (c!"struct_to_fill", ⟨.struct n, q⟩), (c!"filename", ⟨.str, t⟩)], files, out⟩ ∧ 
        (ks.find? Node.isElem = none ∧ w = .null ∨ ∃ i k, ks.find? Node.isElem = some k ∧ w = .el (m0.length + 2) [i] ∧ ks[i]? = some k) := by
      have h2 : ∀ (w : V), (match ks.findIdx? Node.isElem with | some i => V.el (m0.length + 2) [i] | none => .null) = w →
          exec C (.decl (.ptr (.name [c!"tinyxml2", c!"XMLElement"])) c!"el" none (some (.call (.mem (.id [c!"doc"]) c!"RootElement") [])))
          ⟨m0 ++ [.val (.bool false), .err true, .doc ks],
        [(c!"doc", ⟨.xmlDoc, ⟨m0.length + 2, []⟩⟩), (c!"er", ⟨.xmlErr, ⟨m0.length + 1, []⟩⟩), (c!"rv", ⟨.prim .bool, ⟨m0.length, []⟩⟩),
          (c!"struct_to_fill", ⟨.struct n, q⟩), (c!"filename", ⟨.str, t⟩)], files, out⟩ = .ok .next 
          ⟨m0 ++ [.val (.bool false), .err true, .doc ks] ++ [w],
        [(c!"el", ⟨.ptr .xmlEl, ⟨m0.length + 3, []⟩⟩), (c!"doc", ⟨.xmlDoc, ⟨m0.length + 2, []⟩⟩), (c!"er", ⟨.xmlErr, ⟨m0.length + 1, []⟩⟩), (c!"rv", ⟨.prim .bool, ⟨m0.length, []⟩⟩),
          (c!"struct_to_fill", ⟨.struct n, q⟩), (c!"filename", ⟨.str, t⟩)], files, out⟩ := by
        intro w hw
        rw [exec_declInit (u := .ptr .xmlEl) (x := .rv (.ptr .xmlEl) w) (v := w) rfl ?_ (initFrom_load rfl)]
        · simp
        · have hpk : ∀ vars w, peek ⟨m0.length + 2, []⟩ ⟨m0 ++ [.val (.bool false), .err true, .doc ks, w], vars, files, out⟩ = .ok (.doc ks) ⟨m0 ++ [.val (.bool false), .err true, .doc ks, w], vars, files, out⟩ :=
            fun vars w => peek_var (by simp)
          rw [← hw]
          cases hi : ks.findIdx? Node.isElem <;> simp [eval, evals, lookupId, List.lookup, dotCall, hpk, hi]
      rcases find_idx (q := Node.isElem) (ks := ks) with ⟨h3, h4⟩ | ⟨i, k, h3, h4, h5⟩
      · exact ⟨_, h2 _ rfl, .inl ⟨h3, by rw [h4]⟩⟩
      · exact ⟨_, h2 _ rfl, .inr ⟨i, k, h3, by rw [h4], h5⟩⟩
    obtain ⟨w, hw, hw2⟩ := hw
    generalize hvs : [(c!"el", (⟨.ptr .xmlEl, ⟨m0.length + 3, []⟩⟩ : Var)), (c!"doc", ⟨.xmlDoc, ⟨m0.length + 2, []⟩⟩), (c!"er", ⟨.xmlErr, ⟨m0.length + 1, []⟩⟩), (c!"rv", ⟨.prim .bool, ⟨m0.length, []⟩⟩),
          (c!"struct_to_fill", ⟨.struct n, q⟩), (c!"filename", ⟨.str, t⟩)] = vs at hw
    have hdo : vs.lookup (c!"do_" ++ n) = none := by
      rw [← hvs, lookup_cons_ne (do_ne' (by simp)), lookup_cons_ne (do_ne' (by simp)), lookup_cons_ne (do_ne' (by simp)), lookup_cons_ne (do_ne' (by simp)),
        lookup_cons_ne (do_ne' (by simp)), lookup_cons_ne (do_ne' (by simp))]
      rfl
    -- the rest of the body
    have h6 : ∀ (r : Res EV), callId C [c!"do_" ++ n] [.lv (.ptr .xmlEl) ⟨m0.length + 3, []⟩, .rv (.ptr (.struct n)) (.ptr q)]
        ⟨m0 ++ [.val (.bool false), .err true, .doc ks] ++ [w], vs, files, out⟩ = r →
        (r = .ub → invoke C (xml106_fun cls n) [.lv .str t, .lv (.struct n) q] ⟨m0, vs0, files, out⟩ = .ub) ∧
        (∀ v, r = .ok (.rv (.prim .bool) (.val (.bool true))) ⟨setAt (m0 ++ [.val (.bool false), .err true, .doc ks] ++ [w]) q v, vs, files, out⟩ →
          invoke C (xml106_fun cls n) [.lv .str t, .lv (.struct n) q] ⟨m0, vs0, files, out⟩ =
          .ok (.rv (.prim .bool) (.val (.bool true))) ⟨setAt m0 q v, vs0, files, out⟩) := by
      intro r hr
      have hwhen : ∀ st : Stmt, exec C (.when (.bin .eq (.id [c!"er"]) (.id [c!"tinyxml2", c!"XML_SUCCESS"])) st)
          ⟨m0 ++ [.val (.bool false), .err true, .doc ks],
        [(c!"doc", ⟨.xmlDoc, ⟨m0.length + 2, []⟩⟩), (c!"er", ⟨.xmlErr, ⟨m0.length + 1, []⟩⟩), (c!"rv", ⟨.prim .bool, ⟨m0.length, []⟩⟩),
          (c!"struct_to_fill", ⟨.struct n, q⟩), (c!"filename", ⟨.str, t⟩)], files, out⟩ = scope (exec C st) 
          ⟨m0 ++ [.val (.bool false), .err true, .doc ks],
        [(c!"doc", ⟨.xmlDoc, ⟨m0.length + 2, []⟩⟩), (c!"er", ⟨.xmlErr, ⟨m0.length + 1, []⟩⟩), (c!"rv", ⟨.prim .bool, ⟨m0.length, []⟩⟩),
          (c!"struct_to_fill", ⟨.struct n, q⟩), (c!"filename", ⟨.str, t⟩)], files, out⟩ := by
        intro st
        simp [exec, eval, lookupId, List.lookup, load, peek_var, V.isUndef, binV, asBool]
      have hargs : ∀ s : St, s.vars = vs → evals C [(.id [c!"el"]), (.addr (.id [c!"struct_to_fill"]))] s =
          .ok [.lv (.ptr .xmlEl) ⟨m0.length + 3, []⟩, .rv (.ptr (.struct n)) (.ptr q)] s := by
        intro s h
        simp [evals, eval, lookupId, h, ← hvs, List.lookup]
      have hev : eval C (.call (.id [(c!"do_" ++ n)]) [(.id [c!"el"]), (.addr (.id [c!"struct_to_fill"]))])
          ⟨m0 ++ [.val (.bool false), .err true, .doc ks] ++ [w], vs, files, out⟩ = r := by
        rw [eval]
        simp only [M.bind_run, hargs ⟨m0 ++ [.val (.bool false), .err true, .doc ks] ++ [w], vs, files, out⟩ rfl, Res.ok_bind, hr]
      constructor
      · intro h
        subst h
        refine invoke_ub (f := xml106_fun cls n) (by subst hC; exact hbind) ?_
        rw [hb, h1]
        show execs C (_ :: retRv) _ = _
        rw [execs, M.bind_run, hwhen, scope, exec, scope, execs_cons hw, execs_one, exec, M.bind_run, eval, M.bind_run, hev]
        rfl
      · intro v h
        subst h
        refine hret (m := setAt m0 q v ++ [.val (.bool true), .err true, .doc ks])
          (vs := [(c!"doc", ⟨.xmlDoc, ⟨m0.length + 2, []⟩⟩), (c!"er", ⟨.xmlErr, ⟨m0.length + 1, []⟩⟩), (c!"rv", ⟨.prim .bool, ⟨m0.length, []⟩⟩),
            (c!"struct_to_fill", ⟨.struct n, q⟩), (c!"filename", ⟨.str, t⟩)]) (by simp [List.lookup]) ?_ ?_ ?_
        · rw [List.getElem?_append_right (by simp)]; simp
        · rw [List.take_append_of_le_length (by simp), List.take_of_length_le (by simp)]
        rw [hb, h1]
        show execs C (_ :: retRv) _ = _
        have hset : setAt (m0 ++ [.val (.bool false), .err true, .doc ks] ++ [w]) q v = setAt m0 q v ++ [.val (.bool false), .err true, .doc ks, w] := by
          rw [List.append_assoc, setAt_append hlt]; rfl
        have hlen : (setAt m0 q v).length = m0.length := by simp
        rw [hset] at hev
        have has := exec_assign (a := .id [c!"rv"]) (t := .prim .bool) (z := .bool true) (old := .bool false) (q := ⟨m0.length, []⟩) _ hev rfl rfl
          (by simp [eval, lookupId, ← hvs, List.lookup]) (by
            unfold getAt
            rw [← hlen, List.getElem?_append_right (Nat.le_refl _)]
            simp [vGet])
        have hset2 : setAt (setAt m0 q v ++ [.val (.bool false), .err true, .doc ks, w]) ⟨m0.length, []⟩ (.bool true) =
            setAt m0 q v ++ [.val (.bool true), .err true, .doc ks, w] := by
          rw [setAt_eq (w := .bool false) (w' := .bool true) (by
            rw [← hlen, List.getElem?_append_right (Nat.le_refl _)]; simp) rfl, ← hlen, List.set_append_right _ _ (Nat.le_refl _)]
          simp
        rw [execs_cons (s' := _)]
        rw [hwhen, scope, exec, scope, execs_cons hw, execs_one, has, hset2]
        simp only [List.length_append, List.length_cons, List.length_nil]
        have htk : (setAt m0 q v ++ [V.val (.bool true), V.err true, V.doc ks, w]).take (m0.length + (0 + 1 + 1 + 1)) = setAt m0 q v ++ [.val (.bool true), .err true, .doc ks] := by
          rw [← hlen, List.take_length_add_append]; rfl
        have htk2 : (setAt m0 q v ++ [V.val (.bool true), V.err true, V.doc ks]).take (m0.length + (0 + 1 + 1 + 1)) = setAt m0 q v ++ [.val (.bool true), .err true, .doc ks] :=
          List.take_of_length_le (by simp)
        rw [htk, htk2]
    rcases hw2 with ⟨h7, rfl⟩ | ⟨i, k, h7, rfl, h8⟩
    · simp only [h7]
      cases hbd : Run.rdBody prog n with
      | none => trivial
      | some body =>
        have h9 := rd_callNull hp hs hbd (fuel := fuel) (fu := fuel + 1) (s := ⟨m0 ++ [.val (.bool false), .err true, .doc ks] ++ [.null], vs, files, out⟩)
          (a := .lv (.ptr .xmlEl) ⟨m0.length + 3, []⟩) (q := q) rfl
          (fun vars => load_lv (peek_var (by simp)) rfl) hdo
        rw [hC] at h9
        have h10 := h6 _ h9
        simp only
        cases hall : body.all fun r => r.member = none with
        | false => exact h10.1 (by rw [hall]; rfl)
        | true =>
          show invoke _ _ _ _ = _
          refine h10.2 old ?_
          rw [setAt_self (by rw [List.append_assoc]; exact getAt_append hq), hall]
          rfl
    · simp only [h7]
      have hkd := hd ks hl k (List.mem_of_getElem? h8)
      have h9 := rd_call hp hs (fuel + 1) k n (fuel + 1) (by omega) ⟨m0 ++ [.val (.bool false), .err true, .doc ks] ++ [.el (m0.length + 2) [i]], vs, files, out⟩
        (.lv (.ptr .xmlEl) ⟨m0.length + 3, []⟩) (m0.length + 2) [i] ks q old rfl (fun vars => load_lv (peek_var (by simp)) rfl) (by simp) (by rw [nodeAt, h8])
        (by rw [List.append_assoc]; exact getAt_append hq) hdo
      have h10 := h6 _ rfl
      rw [hC, hE] at h9
      cases hrd : (rdNode E.T E.L prog k).rd n old with
      | stuck => trivial
      | ub =>
        rw [hrd] at h9
        exact h10.1 h9
      | ok v =>
        rw [hrd] at h9
        exact h10.2 v h9
end
end Stfx.Cpp
