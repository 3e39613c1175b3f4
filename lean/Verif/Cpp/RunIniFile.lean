import Verif.Cpp.RunIniRd
/-
The generated `read_from_file` of the n_ini readers, run as C++ code.
-/
set_option autoImplicit false
set_option linter.unusedSimpArgs false
namespace Stfx.Cpp
open Stfx.Run Stfx.Parser Stfx.Items Stfx.Gen

section
variable {E : Env} {cls : Str} {C : Ctx} {files : List FileSt} {out : List (Str × Saved)} {al ak av : Nat}

/-- The overloads of `read_from_file`, one of which is called. -/
theorem readIni_one {self : List (Str × Var)} (hs : ∀ n, n ∉ iniMembers → self.lookup n = none) {ns : List Str} (hnd : ns.Nodup)
    (hst : ∀ n ∈ ns, IniName E cls n) {n : Str} (hn : n ∈ ns) {t q : Place} {k : Str} :
    (ns.map (ini120_fun k)).filter (fun f => viable E (some cls) self f.params [.lv .str t, .lv (.struct n) q]) = [ini120_fun k n] := by
  have hvi : ∀ x ∈ ns, viable E (some cls) self (ini120_fun k x).params [.lv .str t, .lv (.struct n) q] = decide (x = n) := by
    intro x hx
    have h1 := hst x hx
    have h3 : tyOf E (some cls) self (.name [c!"std", c!"string"]) = some .str := rfl
    have h4 : tyOf E (some cls) ((c!"filename", ⟨.str, ⟨0, []⟩⟩) :: self) (.name [x]) = some (.struct x) :=
      h1.tyOf (by rw [lookup_cons_ne (fun h => h1.clear (by simp [h]))]; exact hs _ (fun h => h1.clear (List.mem_append_right _ h)))
    simp only [ini120_fun, viable, Ty.noRef, Ty.isRef, h3, h4, argFits]
    by_cases h : x = n
    · subst h; simp
    · have h' : ¬ n = x := fun e => h e.symm
      simp [h, h']
  clear hst
  induction ns with
  | nil => cases hn
  | cons x ns ih =>
    obtain ⟨hx, hnd⟩ := List.nodup_cons.1 hnd
    rw [List.map_cons, List.filter_cons, hvi x (by simp)]
    by_cases h : x = n
    · subst h
      have h2 : (ns.map (ini120_fun k)).filter (fun f => viable E (some cls) self f.params [.lv .str t, .lv (.struct x) q]) = [] := by
        rw [List.filter_eq_nil_iff]
        intro f hf
        obtain ⟨y, hy, rfl⟩ := List.mem_map.1 hf
        rw [hvi y (by simp [hy])]
        simpa using fun e : y = x => hx (e ▸ hy)
      rw [h2]
      simp
    · have hn' : n ∈ ns := (List.mem_cons.1 hn).resolve_left fun e => h e.symm
      rw [if_neg (by simp [h]), ih hnd hn' fun y hy => hvi y (by simp [hy])]

theorem RdrMem.withCur {R : List V} {st : IniSt} (h : RdrMem al ak av R st) (cur : Option Str) : RdrMem al ak av R { st with cur := cur } :=
  ⟨h.lk, h.lv, h.kv, h.item, h.key, h.value⟩

theorem RdrMem.under {R : List V} {st : IniSt} (h : RdrMem al ak av R st) : HasUnder al R st.under := by
  obtain ⟨I, U, h1, _, h2⟩ := h.item
  exact ⟨I, U, h1, h2⟩

theorem Frame.getAt {R R' : List V} (h : Frame al ak av R R') {q : Place} (h1 : q.addr ≠ al) (h2 : q.addr ≠ ak) (h3 : q.addr ≠ av) :
    getAt R' q = getAt R q := by
  unfold Cpp.getAt
  rw [h.2 _ h1 h2 h3]

theorem RdrMem.append {R t : List V} {st : IniSt} (h : RdrMem al ak av R st) : RdrMem al ak av (R ++ t) st := by
  have hp := fun {a : Nat} {v : V} (h : R[a]? = some v) => show (R ++ t)[a]? = some v by
    rw [List.getElem?_append_left (List.getElem?_eq_some_iff.1 h).1, h]
  obtain ⟨I, U, h1, h2⟩ := h.item
  exact ⟨h.lk, h.lv, h.kv, ⟨I, U, hp h1, h2⟩, hp h.key, hp h.value⟩

/-- What surrounds the loop in `read_from_file`: the names of types are not hidden.  (Proof notion, models no code.) -/
structure FileTypes (E : Env) (cls : Str) : Prop where
  item : c!"read_item_S" ∈ E.nested
  itemM : methods E (some cls) c!"read_item_S" = []
  size : c!"size_t" ∉ E.nested
  sizeM : methods E (some cls) c!"size_t" = []
  sizeC : E.T.cls c!"size_t" = none
  sizeE : E.T.enm c!"size_t" = none
  bits : 32 ≤ E.T.longBits

theorem lookup_none {vars : List (Str × Var)} {k : Str} (h : ∀ n ∈ vars.map Prod.fst, n ≠ k) : vars.lookup k = none := by
  induction vars with
  | nil => rfl
  | cons p vars ih =>
    obtain ⟨n, x⟩ := p
    rw [lookup_cons_ne (Ne.symm (h n (by simp))), ih fun k hk => h k (by simp [hk])]

theorem FileTypes.itemTy (h : FileTypes E cls) {self : List (Str × Var)} (hs : ∀ n, n ∉ iniMembers → self.lookup n = none) (vars : List (Str × Var))
    (hv : ∀ n ∈ vars.map Prod.fst, n ≠ c!"read_item_S") : tyOf E (some cls) (vars ++ self) (.name [c!"read_item_S"]) = some .item := by
  have : (vars ++ self).lookup c!"read_item_S" = none := by
    rw [lookup_append, lookup_none hv, hs _ (by decide)]; rfl
  simp [tyOf, hidden, this, h.itemM, h.item]

theorem FileTypes.sizeTy (h : FileTypes E cls) {self : List (Str × Var)} (hs : ∀ n, n ∉ iniMembers → self.lookup n = none) (vars : List (Str × Var))
    (hv : ∀ n ∈ vars.map Prod.fst, n ≠ c!"size_t") : tyOf E (some cls) (vars ++ self) (.name [c!"size_t"]) = some (.prim .ulong) := by
  have : (vars ++ self).lookup c!"size_t" = none := by
    rw [lookup_append, lookup_none hv, hs _ (by decide)]; rfl
  simp [tyOf, hidden, this, h.sizeM, h.size, h.sizeC, h.sizeE]

/-- The block in `read_from_file` before the objects are read. -/
theorem load_block (hC : RdrCtx E cls C al ak av) (hF : FileTypes E cls) (hs : ∀ n, n ∉ iniMembers → C.self.lookup n = none)
    {m0 : List V} {st : IniSt} (hR : RdrMem al ak av m0 st) {text : Str} (hfu : text.length < C.fuel) {u : CTy} {q p : Place} (ts : List Stmt) :
    ∃ R b, execs C (.decl (.ptr (.name [c!"read_item_S"])) c!"current_lookup" none (some (.addr (.id [c!"m_lookup"]))) ::
        .decl (.prim .int) c!"buflen" none (some (.num c!"80")) :: .decl (.prim .char) c!"buf" (some (.bin .add (.id [c!"buflen"]) (.num c!"1"))) none ::
        loopStmt :: .expr (.call (.id [c!"std", c!"fclose"]) [(.id [c!"file"])]) :: ts)
        ⟨m0 ++ [.val (.bool false), .file files.length], [(c!"file", ⟨.ptr .file, ⟨m0.length + 1, []⟩⟩), (c!"rv", ⟨.prim .bool, ⟨m0.length, []⟩⟩),
          (c!"struct_to_fill", ⟨u, q⟩), (c!"filename", ⟨.str, p⟩)], files ++ [.rd text], out⟩ =
      execs C ts ⟨R ++ loopMem files.length al (st.load text).cur b, loopVs m0.length u q p, files ++ [.closed], out⟩ ∧
      RdrMem al ak av R (st.load text) ∧ Frame al ak av m0 R := by
  have hE := hC.env
  have hcls := hC.cls_
  have h1 := exec_loop (out := out) (u := u) (q := q) (p := p) (h := files.length) hC (by rw [hE]; exact hF.bits)
    (fun vars hv => by rw [hE, hcls]; exact hF.itemTy hs vars hv) (fun vars hv => by rw [hE, hcls]; exact hF.sizeTy hs vars hv) C.fuel text hfu m0 { st with cur := none }
    (.val .undef) (files ++ [.rd text]) (hR.withCur none) (fun s h => by cases h) (by simp)
  obtain ⟨R, b, h1, h2, h3⟩ := h1
  refine ⟨R, b, ?_, h2, h3⟩
  have hal := hR.al_lt
  have e1 : exec C (.decl (.ptr (.name [c!"read_item_S"])) c!"current_lookup" none (some (.addr (.id [c!"m_lookup"]))))
      ⟨m0 ++ [.val (.bool false), .file files.length], [(c!"file", ⟨.ptr .file, ⟨m0.length + 1, []⟩⟩), (c!"rv", ⟨.prim .bool, ⟨m0.length, []⟩⟩),
          (c!"struct_to_fill", ⟨u, q⟩), (c!"filename", ⟨.str, p⟩)], files ++ [.rd text], out⟩ =
      .ok .next ⟨m0 ++ [.val (.bool false), .file files.length, .ptr ⟨al, []⟩], [(c!"current_lookup", ⟨.ptr .item, ⟨m0.length + 2, []⟩⟩),
          (c!"file", ⟨.ptr .file, ⟨m0.length + 1, []⟩⟩), (c!"rv", ⟨.prim .bool, ⟨m0.length, []⟩⟩),
          (c!"struct_to_fill", ⟨u, q⟩), (c!"filename", ⟨.str, p⟩)], files ++ [.rd text], out⟩ := by
    rw [exec_declInit (u := .ptr .item) (x := .rv (.ptr .item) (.ptr ⟨al, []⟩)) (v := .ptr ⟨al, []⟩) ?_ ?_ (initFrom_load rfl)]
    · simp
    · show (match tyOf C.E C.cls _ (.name [c!"read_item_S"]) with | some t => some (CTy.ptr t) | none => none) = _
      rw [hE, hcls, hF.itemTy hs _ (by simp)]
    · rw [eval]
      simp only [M.bind_run]
      rw [eval_self (by simp [List.lookup]) hC.lookup]
      rfl
  have e2 : exec C (.decl (.prim .int) c!"buflen" none (some (.num c!"80")))
      ⟨m0 ++ [.val (.bool false), .file files.length, .ptr ⟨al, []⟩], [(c!"current_lookup", ⟨.ptr .item, ⟨m0.length + 2, []⟩⟩),
          (c!"file", ⟨.ptr .file, ⟨m0.length + 1, []⟩⟩), (c!"rv", ⟨.prim .bool, ⟨m0.length, []⟩⟩),
          (c!"struct_to_fill", ⟨u, q⟩), (c!"filename", ⟨.str, p⟩)], files ++ [.rd text], out⟩ =
      .ok .next ⟨m0 ++ [.val (.bool false), .file files.length, .ptr ⟨al, []⟩, .val (.num 80)], [(c!"buflen", ⟨.prim .int, ⟨m0.length + 3, []⟩⟩),
          (c!"current_lookup", ⟨.ptr .item, ⟨m0.length + 2, []⟩⟩),
          (c!"file", ⟨.ptr .file, ⟨m0.length + 1, []⟩⟩), (c!"rv", ⟨.prim .bool, ⟨m0.length, []⟩⟩),
          (c!"struct_to_fill", ⟨u, q⟩), (c!"filename", ⟨.str, p⟩)], files ++ [.rd text], out⟩ := by
    rw [exec_declInit (u := .prim .int) (x := .rv (.prim .int) (.val (.num 80))) (v := .val (.num 80)) rfl ?_ (initFrom_load rfl)]
    · simp
    · rw [eval]; rfl
  have e3 : exec C (.decl (.prim .char) c!"buf" (some (.bin .add (.id [c!"buflen"]) (.num c!"1"))) none)
      ⟨m0 ++ [.val (.bool false), .file files.length, .ptr ⟨al, []⟩, .val (.num 80)], [(c!"buflen", ⟨.prim .int, ⟨m0.length + 3, []⟩⟩),
          (c!"current_lookup", ⟨.ptr .item, ⟨m0.length + 2, []⟩⟩),
          (c!"file", ⟨.ptr .file, ⟨m0.length + 1, []⟩⟩), (c!"rv", ⟨.prim .bool, ⟨m0.length, []⟩⟩),
          (c!"struct_to_fill", ⟨u, q⟩), (c!"filename", ⟨.str, p⟩)], files ++ [.rd text], out⟩ =
      .ok .next ⟨m0 ++ loopMem files.length al none (.val .undef), loopVs m0.length u q p, files ++ [.rd text], out⟩ := by
    have hpk : ∀ vars, peek ⟨m0.length + 3, []⟩ ⟨m0 ++ [.val (.bool false), .file files.length, .ptr ⟨al, []⟩, .val (.num 80)], vars, files ++ [.rd text], out⟩ =
        .ok (.val (.num 80)) ⟨m0 ++ [.val (.bool false), .file files.length, .ptr ⟨al, []⟩, .val (.num 80)], vars, files ++ [.rd text], out⟩ :=
      fun vars => peek_var (by simp)
    simp [exec, declE, eval, lookupId, lookup_cons_eq, load, hpk, V.isUndef, binV, loopMem, loopVs, curPlace, inSigned]
  have e4 : exec C loopStmt ⟨m0 ++ loopMem files.length al none (.val .undef), loopVs m0.length u q p, files ++ [.rd text], out⟩ =
      .ok .next ⟨R ++ loopMem files.length al (st.load text).cur b, loopVs m0.length u q p, (files ++ [FileSt.rd text]).set files.length (.rd []), out⟩ := by
    rw [loopStmt, exec]
    exact h1
  have e5 : exec C (.expr (.call (.id [c!"std", c!"fclose"]) [(.id [c!"file"])]))
      ⟨R ++ loopMem files.length al (st.load text).cur b, loopVs m0.length u q p, (files ++ [FileSt.rd text]).set files.length (.rd []), out⟩ =
      .ok .next ⟨R ++ loopMem files.length al (st.load text).cur b, loopVs m0.length u q p, files ++ [.closed], out⟩ := by
    have hpk : ∀ vars files', peek ⟨m0.length + 1, []⟩ ⟨R ++ loopMem files.length al (st.load text).cur b, vars, files', out⟩ = .ok (.file files.length) ⟨R ++ loopMem files.length al (st.load text).cur b, vars, files', out⟩ :=
      fun vars files' => peek_var (by rw [List.getElem?_append_right (by rw [h3.1]; omega), h3.1]; simp [loopMem])
    simp [exec, eval, evals, lookupId, loopVs, List.lookup, callId, stdCall, load, hpk, V.isUndef, fclose, List.set_append_right]
  rw [execs_cons e1, execs_cons e2, execs_cons e3, execs_cons e4, execs_cons e5]

/-- `read_from_file`, called on the name of a file and an object. -/
theorem read_ini {prog : List Item} (hp : NRdProgram E cls prog) (hF : FileTypes E cls) {self : List (Str × Var)} (hs : ∀ n, n ∉ iniMembers → self.lookup n = none)
    (hl : self.lookup c!"m_lookup" = some ⟨.item, ⟨al, []⟩⟩) (hk : self.lookup c!"m_multiline_string_key" = some ⟨.str, ⟨ak, []⟩⟩)
    (hv : self.lookup c!"m_multiline_string_value" = some ⟨.str, ⟨av, []⟩⟩)
    {ns : List Str} (hnd : ns.Nodup) (hst : ∀ n ∈ ns, IniName E cls n) {n : Str} (hn : n ∈ ns)
    (hm : methods E (some cls) c!"read_from_file" = ns.map (ini120_fun cls)) {s : St} {t q : Place} {f : Str} {old : Val} {st : IniSt}
    (ht : getAt s.mem t = some (.str f)) (hq : getAt s.mem q = some old) (hR : RdrMem al ak av s.mem st)
    (hql : q.addr ≠ al) (hqk : q.addr ≠ ak) (hqv : q.addr ≠ av) {u : Bool} (hwt : CTable.WT E.T u (.struct n) old) {fuel : Nat}
    (hd : nesting old ≤ fuel) (htl : ∀ text, E.text (cStr f) = some text → text.length ≤ fuel) :
    Sim (iniRead E.T E.I prog n st (E.text (cStr f)) old) (callMethod E self (fuel + 2) cls c!"read_from_file" [.lv .str t, .lv (.struct n) q] s)
      fun r x => ∃ R, x = .ok (.rv (.prim .bool) (.val (.bool r.1.1))) ⟨setAt R q r.1.2, s.vars, s.files ++ (if (E.text (cStr f)).isSome then [.closed] else []), s.out⟩ ∧
        RdrMem al ak av R r.2 ∧ Frame al ak av s.mem R ∧ (E.text (cStr f) = none → R = s.mem) := by
  have hcall : callMethod E self (fuel + 2) cls c!"read_from_file" [.lv .str t, .lv (.struct n) q] s =
      invoke ⟨E, some cls, self, run E self (fuel + 1), fuel + 1⟩ (ini120_fun cls n) [.lv .str t, .lv (.struct n) q] s := by
    rw [callMethod, hm, callOne, readIni_one hs hnd hst hn]
    show run E self (fuel + 1 + 1) (ini120_fun cls n) [.lv .str t, .lv (.struct n) q] s = _
    rw [run]
    simp only [ini120_fun, if_neg hp.stfx]
  rw [hcall]
  unfold iniRead
  cases hrf : hasReadFile prog n with
  | false => trivial
  | true =>
  rw [if_pos rfl]
  have hsn := hst n hn
  obtain ⟨m0, vs0, files, out⟩ := s
  have hlt := getAt_lt hq
  have hbind : bindParams E (some cls) self (ini120_fun cls n).params [.lv .str t, .lv (.struct n) q] ⟨m0, [], files, out⟩ =
      .ok () ⟨m0, [(c!"struct_to_fill", ⟨.struct n, q⟩), (c!"filename", ⟨.str, t⟩)], files, out⟩ := by
    rw [ini120_fun, bindParams_ref rfl, bindParams_ref (hsn.tyOf (by
      rw [List.cons_append, lookup_cons_ne (fun h => hsn.clear (by simp [h]))]; exact hs _ (fun h => hsn.clear (List.mem_append_right _ h))))]
    rfl
  have hncall := fun under => nrd_call (al := al) (under := under) hp hs hl (u := u) (fuel + 1) old n (fuel + 1) (by omega) hwt
  obtain ⟨C, hC⟩ : ∃ C : Ctx, C = ⟨E, some cls, self, run E self (fuel + 1), fuel + 1⟩ := ⟨_, rfl⟩
  rw [← hC] at hncall ⊢
  have hE : C.E = E := by rw [hC]
  have hCself : C.self = self := by rw [hC]
  have hrc : RdrCtx E cls C al ak av := ⟨hE, by rw [hC], by rw [hCself, hl], by rw [hCself, hk], by rw [hCself, hv], fun n h => by rw [hCself]; exact hs n h⟩
  -- the statements before the test
  have h1 : ∀ ts, execs C ((ini120_fun cls n).body.take 3 ++ ts) ⟨m0, [(c!"struct_to_fill", ⟨.struct n, q⟩), (c!"filename", ⟨.str, t⟩)], files, out⟩ =
      execs C ts ⟨m0 ++ [.val (.bool false), if (E.text (cStr f)).isSome then .file files.length else .null],
        [(c!"file", ⟨.ptr .file, ⟨m0.length + 1, []⟩⟩), (c!"rv", ⟨.prim .bool, ⟨m0.length, []⟩⟩),
          (c!"struct_to_fill", ⟨.struct n, q⟩), (c!"filename", ⟨.str, t⟩)], files ++ (match E.text (cStr f) with | some text => [.rd text] | none => []), out⟩ := by
    intro ts
    have hpk : ∀ vars, peek t ⟨m0 ++ [.val (.bool false), .null], vars, files, out⟩ = .ok (.val (.str f)) ⟨m0 ++ [.val (.bool false), .null], vars, files, out⟩ :=
      fun vars => peek_at (getAt_append ht)
    have hpo : ∀ vars files (a b : V) (x : V), poke ⟨m0.length + 1, []⟩ x ⟨m0 ++ [a, b], vars, files, out⟩ = .ok () ⟨m0 ++ [a, x], vars, files, out⟩ :=
      fun vars files a b x => by rw [poke_var (by simp)]; simp [List.set_append]
    have hr : cStr c!"r" = c!"r" := by decide
    show execs C (_ :: _ :: _ :: ts) _ = _
    rw [execs_cons (exec_declInit (u := .prim .bool) (x := .lst []) (v := .val (.bool false)) rfl (by rw [eval, evals]; rfl) rfl),
      execs_cons (exec_declInit (u := .ptr .file) (x := .lst []) (v := .null) rfl (by rw [eval, evals]; rfl) rfl)]
    simp only [List.append_assoc, List.cons_append, List.nil_append, List.length_append, List.length_cons, List.length_nil]
    rw [execs_cons (s' := _)]
    cases hl : E.text (cStr f) with
    | none => simp [exec, eval, evals, lookupId, List.lookup, dotCall, hpk, callId, stdCall, hr, cstrArg, hE, fopen, hl, assignE, load, V.isUndef, coerce, hpo]
    | some text => simp [exec, eval, evals, lookupId, List.lookup, dotCall, hpk, callId, stdCall, hr, cstrArg, hE, fopen, hl, assignE, load, V.isUndef, coerce, hpo]
  have hb : (ini120_fun cls n).body = (ini120_fun cls n).body.take 3 ++ (ini120_fun cls n).body.drop 3 := (List.take_append_drop _ _).symm
  have hret : ∀ {m R : List V} {vs : List (Str × Var)} {fl : List FileSt} {b : Bool} {v : Val}, vs.lookup c!"rv" = some ⟨.prim .bool, ⟨m0.length, []⟩⟩ →
      m[m0.length]? = some (.val (.bool b)) → m.take m0.length = setAt R q v →
      execs C (ini120_fun cls n).body ⟨m0, [(c!"struct_to_fill", ⟨.struct n, q⟩), (c!"filename", ⟨.str, t⟩)], files, out⟩ = execs C retRv ⟨m, vs, fl, out⟩ →
      invoke C (ini120_fun cls n) [.lv .str t, .lv (.struct n) q] ⟨m0, vs0, files, out⟩ =
        .ok (.rv (.prim .bool) (.val (.bool b))) ⟨setAt R q v, vs0, fl, out⟩ := by
    intro m R vs fl b v h2 h3 h4 h5
    rw [execs_retRv (x := ⟨.prim .bool, ⟨m0.length, []⟩⟩) h2] at h5
    subst hC
    rw [invoke_ok (f := ini120_fun cls n) rfl (u := .prim .bool) rfl hbind h5 (initFrom_load (load_lv (peek_var h3) rfl)), h4]
  cases hx : E.text (cStr f) with
  | none =>
    simp only [hx, Option.isSome_none, Bool.false_eq_true, if_false, List.append_nil] at h1
    refine ⟨m0, ?_, hR, .rfl, fun _ => rfl⟩
    simp only [Option.isSome_none, Bool.false_eq_true, if_false, List.append_nil]
    refine hret (m := m0 ++ [.val (.bool false), .null]) (vs := [(c!"file", ⟨.ptr .file, ⟨m0.length + 1, []⟩⟩), (c!"rv", ⟨.prim .bool, ⟨m0.length, []⟩⟩),
          (c!"struct_to_fill", ⟨.struct n, q⟩), (c!"filename", ⟨.str, t⟩)]) (by simp [List.lookup]) (by simp) (by simp [setAt_self hq]) ?_
    rw [hb, h1]
    show execs C (_ :: retRv) _ = _
    rw [execs_cons (s' := _)]
    simp [exec, eval, lookupId, List.lookup, load, peek_var, V.isUndef, binV, asBool]
  | some text =>
    simp only [hx, Option.isSome_some, if_true] at h1
    obtain ⟨R, b, h2, h3, h4⟩ := load_block (files := files) (out := out) (u := .struct n) (q := q) (p := t) (text := text) hrc hF (by rw [hCself]; exact hs) hR
      (by rw [hC]; exact Nat.lt_succ_of_le (htl text hx)) [.expr (.assign (.id [c!"rv"]) (.call (.id [(c!"do_rd_" ++ n)]) [(.str c!""), (.id [c!"struct_to_fill"])]))]
    have hobj : getAt R q = some old := by rw [h4.getAt hql hqk hqv, hq]
    have hR0 : R.length = m0.length := h4.1
    have hc := hncall (st.load text).under ⟨R ++ loopMem files.length al (st.load text).cur b, loopVs m0.length (.struct n) q t, files ++ [.closed], out⟩ []
      (.rv (.ptr (.prim .char)) (.cstr [])) q .lit (by simp [loopVs, List.lookup]) (getAt_append hobj) h3.under.append hql
    have he : eval C (.call (.id [(c!"do_rd_" ++ n)]) [(.str c!""), (.id [c!"struct_to_fill"])])
        ⟨R ++ loopMem files.length al (st.load text).cur b, loopVs m0.length (.struct n) q t, files ++ [.closed], out⟩ =
        callId C [c!"do_rd_" ++ n] [.rv (.ptr (.prim .char)) (.cstr []), .lv (.struct n) q]
          ⟨R ++ loopMem files.length al (st.load text).cur b, loopVs m0.length (.struct n) q t, files ++ [.closed], out⟩ := by
      have hev : evals C [(.str c!""), (.id [c!"struct_to_fill"])] ⟨R ++ loopMem files.length al (st.load text).cur b, loopVs m0.length (.struct n) q t, files ++ [.closed], out⟩ =
          .ok [.rv (.ptr (.prim .char)) (.cstr []), .lv (.struct n) q] ⟨R ++ loopMem files.length al (st.load text).cur b, loopVs m0.length (.struct n) q t, files ++ [.closed], out⟩ := by
        have h0 : cStr c!"" = [] := by decide
        simp [evals, eval, h0, lookupId, loopVs, List.lookup]
      rw [eval]
      simp only [M.bind_run, hev, Res.ok_bind]
    have hwhen : ∀ {r : Res Flow}, scope (scope (execs C (.decl (.ptr (.name [c!"read_item_S"])) c!"current_lookup" none (some (.addr (.id [c!"m_lookup"]))) ::
        .decl (.prim .int) c!"buflen" none (some (.num c!"80")) :: .decl (.prim .char) c!"buf" (some (.bin .add (.id [c!"buflen"]) (.num c!"1"))) none ::
        loopStmt :: .expr (.call (.id [c!"std", c!"fclose"]) [(.id [c!"file"])]) ::
          [.expr (.assign (.id [c!"rv"]) (.call (.id [(c!"do_rd_" ++ n)]) [(.str c!""), (.id [c!"struct_to_fill"])]))])))
        ⟨m0 ++ [.val (.bool false), .file files.length], [(c!"file", ⟨.ptr .file, ⟨m0.length + 1, []⟩⟩), (c!"rv", ⟨.prim .bool, ⟨m0.length, []⟩⟩),
          (c!"struct_to_fill", ⟨.struct n, q⟩), (c!"filename", ⟨.str, t⟩)], files ++ [.rd text], out⟩ = r →
        ∃ w, (ini120_fun cls n).body.drop 3 = w :: retRv ∧ exec C w ⟨m0 ++ [.val (.bool false), .file files.length], [(c!"file", ⟨.ptr .file, ⟨m0.length + 1, []⟩⟩), (c!"rv", ⟨.prim .bool, ⟨m0.length, []⟩⟩),
          (c!"struct_to_fill", ⟨.struct n, q⟩), (c!"filename", ⟨.str, t⟩)], files ++ [.rd text], out⟩ = r := by
      intro r hr
      refine ⟨_, rfl, ?_⟩
      rw [exec]
      have hcond : (eval C (.bin .ne (.id [c!"file"]) .null) >>= asBool) ⟨m0 ++ [.val (.bool false), .file files.length], [(c!"file", ⟨.ptr .file, ⟨m0.length + 1, []⟩⟩), (c!"rv", ⟨.prim .bool, ⟨m0.length, []⟩⟩),
          (c!"struct_to_fill", ⟨.struct n, q⟩), (c!"filename", ⟨.str, t⟩)], files ++ [.rd text], out⟩ = .ok true ⟨m0 ++ [.val (.bool false), .file files.length], [(c!"file", ⟨.ptr .file, ⟨m0.length + 1, []⟩⟩), (c!"rv", ⟨.prim .bool, ⟨m0.length, []⟩⟩),
          (c!"struct_to_fill", ⟨.struct n, q⟩), (c!"filename", ⟨.str, t⟩)], files ++ [.rd text], out⟩ := by
        simp [eval, lookupId, List.lookup, load, peek_var, V.isUndef, binV, asBool]
      rw [M.bind_run, hcond, Res.ok_bind, if_pos rfl, ← hr, execs_block]
      rfl
    rw [hE] at hc
    refine hc.bind (fun r _ h => ?_) (fun h => ?_)
    · obtain ⟨rv, v⟩ := r
      refine ⟨R, ?_, h3, h4, fun h => by cases h⟩
      simp only [Option.isSome_some, if_true]
      rw [setAt_append (by rw [hR0]; exact hlt)] at h
      have h5 : exec C (.expr (.assign (.id [c!"rv"]) (.call (.id [(c!"do_rd_" ++ n)]) [(.str c!""), (.id [c!"struct_to_fill"])])))
          ⟨R ++ loopMem files.length al (st.load text).cur b, loopVs m0.length (.struct n) q t, files ++ [.closed], out⟩ =
          .ok .next ⟨setAt R q v ++ ([.val (.bool rv), .file files.length] ++ [.ptr (curPlace al (st.load text).cur), .val (.num 80), b]),
            loopVs m0.length (.struct n) q t, files ++ [.closed], out⟩ := by
        refine exec_assignOk (he.trans h) (eval_id (x := ⟨.prim .bool, ⟨m0.length, []⟩⟩) (by simp [loopVs, List.lookup])) (z := .lv (.prim .bool) ⟨m0.length, []⟩) ?_
        have hlt' : m0.length < (setAt R q v ++ loopMem files.length al (st.load text).cur b).length := by simp [loopMem]; omega
        simp only [assignE, load, M.bind_run, M.pure_run, Res.ok_bind, coerce_self, M.opt_some, poke_var hlt']
        rw [List.set_append_right _ _ (by simp; omega)]
        simp [loopMem, hR0]
      have h6 := h2.trans (execs_one.trans h5)
      have h7 : scope (scope (execs C (.decl (.ptr (.name [c!"read_item_S"])) c!"current_lookup" none (some (.addr (.id [c!"m_lookup"]))) ::
        .decl (.prim .int) c!"buflen" none (some (.num c!"80")) :: .decl (.prim .char) c!"buf" (some (.bin .add (.id [c!"buflen"]) (.num c!"1"))) none ::
        loopStmt :: .expr (.call (.id [c!"std", c!"fclose"]) [(.id [c!"file"])]) ::
          [.expr (.assign (.id [c!"rv"]) (.call (.id [(c!"do_rd_" ++ n)]) [(.str c!""), (.id [c!"struct_to_fill"])]))])))
        ⟨m0 ++ [.val (.bool false), .file files.length], [(c!"file", ⟨.ptr .file, ⟨m0.length + 1, []⟩⟩), (c!"rv", ⟨.prim .bool, ⟨m0.length, []⟩⟩),
          (c!"struct_to_fill", ⟨.struct n, q⟩), (c!"filename", ⟨.str, t⟩)], files ++ [.rd text], out⟩ =
          .ok .next ⟨setAt R q v ++ [.val (.bool rv), .file files.length], [(c!"file", ⟨.ptr .file, ⟨m0.length + 1, []⟩⟩), (c!"rv", ⟨.prim .bool, ⟨m0.length, []⟩⟩),
          (c!"struct_to_fill", ⟨.struct n, q⟩), (c!"filename", ⟨.str, t⟩)], files ++ [.closed], out⟩ := by
        have h8 := scope_ok h6
        simp only [← List.append_assoc] at h8
        rw [List.take_left' (by simp [hR0])] at h8
        rw [scope_ok h8, List.take_of_length_le (by simp [hR0])]
      obtain ⟨w, hw1, hw2⟩ := hwhen h7
      refine hret (m := setAt R q v ++ [.val (.bool rv), .file files.length]) (vs := [(c!"file", ⟨.ptr .file, ⟨m0.length + 1, []⟩⟩), (c!"rv", ⟨.prim .bool, ⟨m0.length, []⟩⟩),
          (c!"struct_to_fill", ⟨.struct n, q⟩), (c!"filename", ⟨.str, t⟩)]) (by simp [List.lookup]) ?_ (List.take_left' (by simp [hR0])) ?_
      · rw [List.getElem?_append_right (by simp [hR0])]; simp [hR0]
      · rw [hb, h1, hw1, execs_cons hw2]
    · obtain ⟨w, hw1, hw2⟩ := hwhen (scope_ub (scope_ub (h2.trans (execs_one.trans (exec_assign_ub (he.trans h))))))
      subst hC
      refine invoke_ub hbind ?_
      rw [hb, h1, hw1, execs, M.bind_run, hw2]
      rfl

end
end Stfx.Cpp
