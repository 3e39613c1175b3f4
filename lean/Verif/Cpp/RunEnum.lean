import Verif.Cpp.RunLemmas
import Verif.Run.Check
/-
The enum functions of the generated files, run as C++ code.
-/
set_option autoImplicit false
set_option linter.unusedSimpArgs false
namespace Stfx.Cpp
open Stfx.Run Stfx.Parser Stfx.Items

/-- The names an enumerator means where the tables of `s_from_e` and `s_to_e` are initialised.  (Proof notion, models no code.) -/
def Enumerators (E : Env) (e : EnumS) (val : EnumVals) : Prop :=
  if e.isClass then e.name ≠ c!"tinyxml2"
  else ∀ l ∈ e.enums, E.enumerator l.name = some (e.name, val l.name)

/-- The enum is that of the headers and its name means it.  (Proof notion, models no code.) -/
structure EnumOK (E : Env) (e : EnumS) (val : EnumVals) : Prop where
  enm : E.T.enm e.name = some (e, val)
  cls : E.T.cls e.name = none
  nested : e.name ∉ E.nested
  vals : Enumerators E e val
  named : ∀ l ∈ e.enums, cStr l.name = l.name

/-- Names that are not hidden by variables.  (Proof notion, models no code.) -/
def Clear (e : EnumS) (vars : List (Str × Var)) : Prop := e.isClass = false → ∀ l ∈ e.enums, vars.lookup l.name = none

theorem eval_enumId {E : Env} {e : EnumS} {val : EnumVals} {C : Ctx} {s : St} {l : EnumLine} (h : EnumOK E e val) (hC : C.E = E)
    (hs : C.self = []) (hc : C.cls = none) (hv : Clear e s.vars) (hl : l ∈ e.enums) :
    eval C (enumId e l) s = .ok (.rv (.enum e.name) (.val (.num (val l.name)))) s := by
  have hv' := h.vals
  unfold Enumerators at hv'
  unfold enumId
  cases hk : e.isClass
  · rw [hk] at hv'
    have h1 := hv hk l hl
    have h2 := hv' l hl
    simp [eval, lookupId, h1, hs, hC, h2, hc, methods]
  · rw [hk] at hv'
    have h1 : e.enums.any (fun l' => l'.name = l.name) = true := List.any_eq_true.2 ⟨l, hl, by simp⟩
    rw [if_pos rfl] at hv'
    have h2 := h.enm
    simp only [if_true, eval, lookupId, hC, h2, h1, hv', false_and, if_false]

theorem evals_from {E : Env} {e : EnumS} {val : EnumVals} {C : Ctx} {s : St} (h : EnumOK E e val) (hC : C.E = E)
    (hs : C.self = []) (hc : C.cls = none) (hv : Clear e s.vars) (ls : List EnumLine) (hl : ∀ l ∈ ls, l ∈ e.enums) :
    evals C (ls.map (fromElem e)) s = .ok (ls.map fun l => .lst [.rv (.enum e.name) (.val (.num (val l.name))),
      .rv (.ptr (.prim .char)) (.cstr l.name)]) s := by
  induction ls with
  | nil => rfl
  | cons l ls ih =>
    have h1 := eval_enumId h hC hs hc hv (hl l (by simp))
    have h2 := ih fun l' hl' => hl l' (by simp [hl'])
    have h3 := h.named l (hl l (by simp))
    simp [evals, eval, fromElem, h1, h2, h3]

theorem evals_to {E : Env} {e : EnumS} {val : EnumVals} {C : Ctx} {s : St} (h : EnumOK E e val) (hC : C.E = E)
    (hs : C.self = []) (hc : C.cls = none) (hv : Clear e s.vars) (ls : List EnumLine) (hl : ∀ l ∈ ls, l ∈ e.enums) :
    evals C (ls.map (toElem e)) s = .ok (ls.map fun l => .lst [.rv (.ptr (.prim .char)) (.cstr l.name),
      .rv (.enum e.name) (.val (.num (val l.name)))]) s := by
  induction ls with
  | nil => rfl
  | cons l ls ih =>
    have h1 := eval_enumId h hC hs hc hv (hl l (by simp))
    have h2 := ih fun l' hl' => hl l' (by simp [hl'])
    have h3 := h.named l (hl l (by simp))
    simp [evals, eval, toElem, h1, h2, h3]

/-- Of entries with the same key a map keeps the first. -/
theorem mapInit_from {n : Str} {val : EnumVals} {s : St} (ls : List EnumLine) (m : List (Str × Val)) :
    ∃ m', mapInit (.enum n) .str (ls.map fun l => .lst [.rv (.enum n) (.val (.num (val l.name))),
      .rv (.ptr (.prim .char)) (.cstr l.name)]) m s = .ok m' s ∧
      ∀ x, m'.lookup (intText x) = (m.lookup (intText x)).or ((ls.find? fun l => val l.name = x).map fun l => .str l.name) := by
  induction ls generalizing m with
  | nil => exact ⟨m, rfl, fun x => by simp⟩
  | cons l ls ih =>
    by_cases hk : (m.lookup (intText (val l.name))).isSome
    · obtain ⟨m', h1, h2⟩ := ih m
      refine ⟨m', ?_, fun x => ?_⟩
      · simp only [List.map_cons, mapInit, M.bind_run, load_rv, coerce_self, Option.bind_some, keyOf, M.opt_some, M.pure_run,
          Res.ok_bind]
        simp [coerce, hk, h1]
      · rw [h2 x]
        by_cases hx : val l.name = x
        · subst hx
          obtain ⟨v, hv⟩ := Option.isSome_iff_exists.1 hk
          simp [hv]
        · simp [hx]
    · obtain ⟨m', h1, h2⟩ := ih (m ++ [(intText (val l.name), .str l.name)])
      refine ⟨m', ?_, fun x => ?_⟩
      · simp only [List.map_cons, mapInit, M.bind_run, load_rv, coerce_self, Option.bind_some, keyOf, M.opt_some, M.pure_run,
          Res.ok_bind]
        simp [coerce, hk, h1]
      · rw [h2 x, lookup_append]
        by_cases hx : val l.name = x
        · subst hx
          simp only [Option.not_isSome_iff_eq_none] at hk
          simp [hk]
        · have : intText x ≠ intText (val l.name) := fun h => hx (intText_inj h).symm
          rw [lookup_cons_ne this]
          simp [hx]

theorem mapInit_to {n : Str} {val : EnumVals} {s : St} (ls : List EnumLine) (m : List (Str × Val)) :
    ∃ m', mapInit .str (.enum n) (ls.map fun l => .lst [.rv (.ptr (.prim .char)) (.cstr l.name),
      .rv (.enum n) (.val (.num (val l.name)))]) m s = .ok m' s ∧
      ∀ x, m'.lookup x = (m.lookup x).or ((ls.find? fun l => l.name = x).map fun l => .num (val l.name)) := by
  induction ls generalizing m with
  | nil => exact ⟨m, rfl, fun x => by simp⟩
  | cons l ls ih =>
    by_cases hk : (m.lookup l.name).isSome
    · obtain ⟨m', h1, h2⟩ := ih m
      refine ⟨m', ?_, fun x => ?_⟩
      · simp [mapInit, coerce, keyOf, hk, h1]
      · rw [h2 x]
        by_cases hx : l.name = x
        · subst hx
          obtain ⟨v, hv⟩ := Option.isSome_iff_exists.1 hk
          simp [hv]
        · simp [hx]
    · obtain ⟨m', h1, h2⟩ := ih (m ++ [(l.name, .num (val l.name))])
      refine ⟨m', ?_, fun x => ?_⟩
      · simp [mapInit, coerce, keyOf, hk, h1]
      · rw [h2 x, lookup_append]
        by_cases hx : l.name = x
        · subst hx
          simp only [Option.not_isSome_iff_eq_none] at hk
          simp [hk]
        · rw [lookup_cons_ne (fun h => hx h.symm)]
          simp [hx]

theorem tyOf_enum {E : Env} {e : EnumS} {val : EnumVals} (h : EnumOK E e val) {vars : List (Str × Var)}
    (hv : vars.lookup e.name = none) : tyOf E none vars (.name [e.name]) = some (.enum e.name) := by
  rw [tyOf_name (by simp [hidden, hv, methods]) h.nested]
  simp [h.cls, h.enm]

/-- `s_from_e` as C++ code. -/
theorem run_sFrom {E : Env} {e : EnumS} {val : EnumVals} (h : EnumOK E e val) (hn : e.name ≠ c!"e")
    (hl : e.isClass = false → ∀ l ∈ e.enums, l.name ≠ c!"e" ∧ l.name ≠ e.name ++ c!"_to_string")
    {self : List (Str × Var)} {fuel : Nat} {a : EV} {x : Int} {s : St}
    (ha : ∀ vars, load a { s with vars := vars } = .ok (.enum e.name, .val (.num x)) { s with vars := vars }) (hx : inSigned 32 x) :
    run E self (fuel + 1) (sFromFun e) [a] s = .ok (.rv .str (.val (.str (sFromE e val x)))) s := by
  obtain ⟨mem, vars, files, out⟩ := s
  simp only at ha
  have t1 : c!"e" ≠ e.name ++ c!"_to_string" := ne_of_len (by simp)
  have t2 : c!"rv" ≠ e.name ++ c!"_to_string" := ne_of_len (by simp)
  obtain ⟨mp, hm, hlook⟩ := mapInit_from (n := e.name) (val := val) (s := ⟨mem ++ [.val (.num x)] ++ [.val .undef],
     [(e.name ++ c!"_to_string", ⟨.map (.enum e.name) .str, ⟨(mem ++ [V.val (.num x)]).length, []⟩⟩), (c!"e", ⟨.enum e.name, ⟨mem.length, []⟩⟩)], files, out⟩)
      e.enums []
  have hb : ∀ C : Ctx, C.E = E → C.self = [] → C.cls = none → execs C (sFromFun e).body ⟨mem ++ [.val (.num x)], [(c!"e", ⟨.enum e.name, ⟨mem.length, []⟩⟩)], files, out⟩ =
      .ok (.ret (.lv .str ⟨(mem ++ [V.val (.num x)] ++ [V.val (.struct mp)]).length, []⟩)) ⟨mem ++ [.val (.num x)] ++ [.val (.struct mp)] ++ [.val (.str (sFromE e val x))],
        [(c!"rv", ⟨.str, ⟨(mem ++ [V.val (.num x)] ++ [V.val (.struct mp)]).length, []⟩⟩), (e.name ++ c!"_to_string", ⟨.map (.enum e.name) .str, ⟨(mem ++ [V.val (.num x)]).length, []⟩⟩), (c!"e", ⟨.enum e.name, ⟨mem.length, []⟩⟩)], files, out⟩ := by
    intro C h1 h2 h3
    show execs C (_ :: _ :: retRv) _ = _
    rw [execs_cons (exec_declInit (u := .map (.enum e.name) .str) (v := .val (.struct mp)) ?_ ?_ (initFrom_map hm))]
    · rw [execs_cons (exec_declInit (u := .str) (x := if (mp.lookup (intText x)).isSome then .lv .str ⟨(mem ++ [V.val (.num x)]).length, [intText x]⟩
          else .rv .str (.val (.str (intText x))))
          (v := .val (.str (sFromE e val x))) rfl ?_ ?_)]
      · exact execs_retRv (x := ⟨.str, ⟨_, []⟩⟩) lookup_cons_eq
      · have q1 : (mp.lookup (intText x)).isSome = true ∨ (mp.lookup (intText x)) = none := by
          cases mp.lookup (intText x) <;> simp
        rcases q1 with q1 | q1
        · obtain ⟨y, q2⟩ := Option.isSome_iff_exists.1 q1
          simp [eval, evals, lookupId, lookup_cons_ne, lookup_cons_eq, t1, t2, t1.symm, t2.symm, dotCall, load, peek, V.isUndef, coerce_self, keyOf, q2, binV,
            asBool, indexE]
        · simp [eval, evals, lookupId, lookup_cons_ne, lookup_cons_eq, t1, t2, t1.symm, t2.symm, dotCall, load, peek, V.isUndef, coerce_self, keyOf, q1, binV,
            asBool, callId, castV, stdCall, wrapSigned_id (bits := 32) (by decide) hx]
      · have q3 := hlook x
        simp only [List.lookup_nil, Option.none_or] at q3
        unfold sFromE
        cases q4 : e.enums.find? fun l => val l.name = x with
        | none =>
          rw [q4] at q3
          simp [q3, initFrom, coerce_self]
        | some l =>
          rw [q4] at q3
          simp only [Option.map_some] at q3
          simp [q3, initFrom, load, peek, vGet, V.isUndef, coerce_self, List.getElem?_append]
    · rw [h1, h2, h3, List.append_nil]
      exact tyOf_map (tyOf_enum h (by rw [lookup_cons_ne hn]; rfl)) rfl
    · rw [eval, M.bind_run, evals_from h h1 h2 h3 ?_ _ (fun _ h => h)]
      rfl
      · exact fun hk l hl' => by rw [lookup_cons_ne (hl hk l hl').2, lookup_cons_ne (hl hk l hl').1]; rfl
  rw [run]
  simp only [show (sFromFun e).name = [c!"stfx", c!"s_from_e"] from rfl, if_true]
  rw [invoke_ok (t := .name [c!"std", c!"string"]) (u := .str) (v := .val (.str (sFromE e val x))) rfl rfl
    ((bindParams_val (t := .name [e.name]) rfl (tyOf_enum h rfl) (initFrom_load (ha []))).trans rfl) (hb _ rfl rfl rfl)
    (initFrom_load (load_lv (peek_var (by simp)) rfl))]
  simp


/-- What `s_to_e` leaves: the enum object and its return value.  (Proof notion, models no code.) -/
def toEnd (r : ToERes) (m : List V) (p : Place) (aR : Nat) : Option (List V) :=
  match r with
  | .ok rv none => some (m.set aR (.val (.bool rv)))
  | .ok rv (some i) => some ((setAt m p (.num i)).set aR (.val (.bool rv)))
  | .ub => none

theorem exec_sTo {E : Env} {e : EnumS} {val : EnumVals} (h : EnumOK E e val) {C : Ctx} (h1 : C.E = E) (h2 : C.self = []) (h3 : C.cls = none)
    {m : List V} {vs : List (Str × Var)} {files : List FileSt} {out : List (Str × Saved)} {x : Str} {p : Place} {old : Val}
    {aS aR aM : Nat} {mp : List (Str × Val)} (hi : e.name ≠ c!"i")
    (hv0 : vs.lookup e.name = none)
    (hv1 : vs.lookup (c!"string_to_" ++ e.name) = some ⟨.map .str (.enum e.name), ⟨aM, []⟩⟩)
    (hv2 : vs.lookup c!"rv" = some ⟨.prim .bool, ⟨aR, []⟩⟩) (hv3 : vs.lookup c!"e" = some ⟨.enum e.name, p⟩)
    (hv4 : vs.lookup c!"s" = some ⟨.str, ⟨aS, []⟩⟩)
    (hS : m[aS]? = some (.val (.str x))) (hR : m[aR]? = some (.val (.bool false))) (hM : m[aM]? = some (.val (.struct mp)))
    (hp : getAt m p = some old) (d1 : p.addr ≠ aR)
    (hlook : mp.lookup x = ((e.enums.find? fun l => l.name = x).map fun l => .num (val l.name))) :
    execs C (base186_tree e.name) ⟨m, vs, files, out⟩ =
      match toEnd (sToE e val x) m p aR with
      | some m' => .ok .next ⟨m', vs, files, out⟩
      | none => .ub := by
  unfold base186_tree
  generalize c!"string_to_" ++ e.name = mn at *
  have hset : m.set aR (.val (.bool false)) = m := by
    obtain ⟨hlt, hg⟩ := List.getElem?_eq_some_iff.1 hR
    rw [← hg, List.set_getElem_self]
  unfold sToE
  cases q4 : e.enums.find? fun l => l.name = x with
  | some l =>
    rw [q4] at hlook
    simp only [Option.map_some] at hlook
    simp only [toEnd]
    have q5 : getAt m ⟨aM, [x]⟩ = some (.num (val l.name)) := by
      have := getAt_member (m := m) (a := aM) (p := []) (n := x) (fs := mp) (by simp [getAt, hM, vGet])
      simpa [hlook] using this
    have hR' : aR < (setAt m p (.num (val l.name))).length := by simpa using (List.getElem?_eq_some_iff.1 hR).1
    simp [exec, execs, eval, evals, lookupId, hv1, hv2, hv3, hv4, dotCall, load, peek_var hS, peek_var hM, V.isUndef, coerce_self, keyOf, hlook,
      binV, asBool, scope, List.take_of_length_le, lookup_cons_ne, lookup_cons_eq, indexE, assignE, peek_at q5, poke_at hp, poke_var hR']
  | none =>
    rw [q4] at hlook
    simp only [Option.map_none] at hlook
    cases q7 : stoSigned 32 x with
    | throws =>
      have hS' : (m ++ [.val .undef])[aS]? = some (.val (.str x)) := by
        rw [List.getElem?_append_left (List.getElem?_eq_some_iff.1 hS).1, hS]
      simp [exec, execs, eval, evals, lookupId, hv1, hv2, hv3, hv4, dotCall, load, peek_var hS, peek_var hM, V.isUndef, coerce_self, keyOf, hlook,
        binV, asBool, scope, List.take_of_length_le, lookup_cons_ne, lookup_cons_eq, toEnd, hset, declE, callId, stdCall, strArg, tyOf_prim, peek_var hS', q7, stoV, catching]
    | val i =>
      have hS' : (m ++ [.val .undef])[aS]? = some (.val (.str x)) := by
        rw [List.getElem?_append_left (List.getElem?_eq_some_iff.1 hS).1, hS]
      have hv7 : ((c!"i", (⟨.prim .int, ⟨m.length, []⟩⟩ : Var)) :: vs).lookup e.name = none := by rw [lookup_cons_ne hi, hv0]
      have hv6 : tyOf E none ((c!"i", ⟨.prim .int, ⟨m.length, []⟩⟩) :: vs) (.name [e.name]) = some (.enum e.name) := by
        exact tyOf_enum h hv7
      have q8 := getAt_append (r := [.val (.num i)]) hp
      have hset' : (setAt m p (.num i)).set aR (.val (.bool false)) = setAt m p (.num i) := by
        rw [← setAt_set (fun h => d1 h.symm), hset]
      cases q9 : holds e val i with
      | true =>
        simp [exec, execs, eval, evals, lookupId, hv1, hv2, hv3, hv4, dotCall, load, peek_var hS, peek_var hM, V.isUndef, coerce_self, keyOf, hlook,
          binV, asBool, scope, List.take_of_length_le, lookup_cons_ne, lookup_cons_eq, toEnd, hset, declE, callId, stdCall, strArg, tyOf_prim, peek_var hS', q7, stoV, catching, poke_var, initFrom, List.set_append_right,
          hv6, hv7, h2, h3, methods, peek_var, h.enm, h1, q9, assignE, poke_at q8, setAt_append (getAt_lt hp), hset']
      | false =>
        simp [exec, execs, eval, evals, lookupId, hv1, hv2, hv3, hv4, dotCall, load, peek_var hS, peek_var hM, V.isUndef, coerce_self, keyOf, hlook,
          binV, asBool, scope, List.take_of_length_le, lookup_cons_ne, lookup_cons_eq, toEnd, hset, declE, callId, stdCall, strArg, tyOf_prim, peek_var hS', q7, stoV, catching, poke_var, initFrom, List.set_append_right,
          hv6, hv7, h2, h3, methods, peek_var, h.enm, h1, q9, assignE, poke_at q8, setAt_append (getAt_lt hp), hset']

/-- `s_to_e` as C++ code. -/
theorem run_sTo {E : Env} {e : EnumS} {val : EnumVals} (h : EnumOK E e val)
    (hn : e.name ≠ c!"e" ∧ e.name ≠ c!"s" ∧ e.name ≠ c!"rv" ∧ e.name ≠ c!"i")
    (hl : e.isClass = false → ∀ l ∈ e.enums, l.name ≠ c!"e" ∧ l.name ≠ c!"s" ∧ l.name ≠ c!"rv" ∧ l.name ≠ c!"string_to_" ++ e.name)
    {self : List (Str × Var)} {fuel : Nat} {a : EV} {x : Str} {p : Place} {old : Val} {s : St}
    (ha : ∀ vars, initFrom .str a { s with vars := vars } = .ok (.val (.str x)) { s with vars := vars })
    (hp : getAt s.mem p = some old) :
    run E self (fuel + 1) (sToFun e) [a, .lv (.enum e.name) p] s =
      match sToE e val x with
      | .ok rv none => .ok (.rv (.prim .bool) (.val (.bool rv))) s
      | .ok rv (some i) => .ok (.rv (.prim .bool) (.val (.bool rv))) { s with mem := setAt s.mem p (.num i) }
      | .ub => .ub := by
  obtain ⟨mem, vars, files, out⟩ := s
  simp only at ha hp
  have t1 : c!"e" ≠ c!"string_to_" ++ e.name := ne_of_len (by simp)
  have t2 : c!"rv" ≠ c!"string_to_" ++ e.name := ne_of_len (by simp)
  have t3 : c!"s" ≠ c!"string_to_" ++ e.name := ne_of_len (by simp)
  have t4 : c!"i" ≠ c!"string_to_" ++ e.name := ne_of_len (by simp)
  have t5 : e.name ≠ c!"string_to_" ++ e.name := ne_of_len (by simp; omega)
  obtain ⟨n1, n2, n3, n4⟩ := hn
  have hpl := getAt_lt hp
  rw [run]
  simp only [show (sToFun e).name = [c!"stfx", c!"s_to_e"] from rfl, if_true]
  have hbp : ∀ C : Ctx, C.E = E → C.self = [] → C.cls = none → bindParams C.E C.cls C.self (sToFun e).params [a, .lv (.enum e.name) p] ⟨mem, [], files, out⟩ =
      .ok () ⟨mem ++ [.val (.str x)], [(c!"e", ⟨.enum e.name, p⟩), (c!"s", ⟨.str, ⟨mem.length, []⟩⟩)], files, out⟩ := by
    intro C h1 h2 h3
    rw [h1, h2, h3]
    refine (bindParams_val (t := .name [c!"std", c!"string"]) rfl rfl (ha [])).trans ?_
    rw [bindParams_ref]
    rfl
    exact tyOf_enum h (by rw [List.append_nil, lookup_cons_ne n2]; rfl)
  generalize hvs : ([(c!"string_to_" ++ e.name, ⟨.map .str (.enum e.name), ⟨mem.length + 2, []⟩⟩), (c!"rv", ⟨.prim .bool, ⟨mem.length + 1, []⟩⟩),
    (c!"e", ⟨.enum e.name, p⟩), (c!"s", ⟨.str, ⟨mem.length, []⟩⟩)] : List (Str × Var)) = vs
  obtain ⟨mp, hm, hlook⟩ := mapInit_to (n := e.name) (val := val) (s := ⟨mem ++ [.val (.str x)] ++ [.val (.bool false)] ++ [.val .undef],
     vs, files, out⟩) e.enums []
  have hv0 : vs.lookup e.name = none := by
    subst hvs
    rw [lookup_cons_ne t5, lookup_cons_ne n3, lookup_cons_ne n1, lookup_cons_ne n2]; rfl
  have hv1 : vs.lookup (c!"string_to_" ++ e.name) = some ⟨.map .str (.enum e.name), ⟨mem.length + 2, []⟩⟩ := by
    subst hvs; exact lookup_cons_eq
  have hv2 : vs.lookup c!"rv" = some ⟨.prim .bool, ⟨mem.length + 1, []⟩⟩ := by
    subst hvs; rw [lookup_cons_ne t2]; rfl
  have hv3 : vs.lookup c!"e" = some ⟨.enum e.name, p⟩ := by
    subst hvs; rw [lookup_cons_ne t1]; rfl
  have hv4 : vs.lookup c!"s" = some ⟨.str, ⟨mem.length, []⟩⟩ := by
    subst hvs; rw [lookup_cons_ne t3]; rfl
  have hb : ∀ C : Ctx, C.E = E → C.self = [] → C.cls = none → execs C (sToFun e).body ⟨mem ++ [.val (.str x)], [(c!"e", ⟨.enum e.name, p⟩), (c!"s", ⟨.str, ⟨mem.length, []⟩⟩)], files, out⟩ =
      match sToE e val x with
      | .ok rv none => .ok (.ret (.lv (.prim .bool) ⟨mem.length + 1, []⟩)) ⟨mem ++ [.val (.str x)] ++ [.val (.bool rv)] ++ [.val (.struct mp)], vs, files, out⟩
      | .ok rv (some i) => .ok (.ret (.lv (.prim .bool) ⟨mem.length + 1, []⟩)) ⟨setAt mem p (.num i) ++ [.val (.str x)] ++ [.val (.bool rv)] ++ [.val (.struct mp)], vs, files, out⟩
      | .ub => .ub := by
    intro C h1 h2 h3
    show execs C (_ :: _ :: (base186_tree e.name ++ retRv)) _ = _
    rw [execs_cons (exec_declInit (u := .prim .bool) (x := .lst [.rv (.prim .bool) (.val (.bool false))]) (v := .val (.bool false)) rfl rfl rfl)]
    rw [execs_cons (exec_declInit (u := .map .str (.enum e.name)) (v := .val (.struct mp)) (x := .lst (e.enums.map fun l =>
      .lst [.rv (.ptr (.prim .char)) (.cstr l.name), .rv (.enum e.name) (.val (.num (val l.name)))])) ?_ ?_ ?_)]
    rotate_left
    · rw [h1, h2, h3, List.append_nil]
      exact tyOf_map rfl (tyOf_enum h (by rw [lookup_cons_ne n3, lookup_cons_ne n1, lookup_cons_ne n2]; rfl))
    · rw [eval, M.bind_run, evals_to h h1 h2 h3 ?_ _ (fun _ h => h)]
      rfl
      · intro hk l hl'
        obtain ⟨l1, l2, l3, l4⟩ := hl hk l hl'
        rw [lookup_cons_ne l4, lookup_cons_ne l3, lookup_cons_ne l1, lookup_cons_ne l2]; rfl
    · refine initFrom_map ?_
      simp only [List.length_append, List.length_cons, List.length_nil, Nat.zero_add, Nat.add_assoc]
      rw [hvs]
      exact hm
    simp only [List.length_append, List.length_cons, List.length_nil, Nat.zero_add, Nat.add_assoc, Nat.reduceAdd]
    rw [hvs]
    have q3 := hlook x
    simp only [List.lookup_nil, Option.none_or] at q3
    have hx := exec_sTo h h1 h2 h3 (m := mem ++ [.val (.str x)] ++ [.val (.bool false)] ++ [.val (.struct mp)]) (files := files) (out := out)
      n4 hv0 hv1 hv2 hv3 hv4 (by simp [List.getElem?_append]) (by simp [List.getElem?_append]) (by simp [List.getElem?_append])
      (getAt_append (getAt_append (getAt_append hp))) (by omega) q3
    cases hs : sToE e val x with
    | ok rv o =>
      cases o with
      | none =>
        rw [hs] at hx
        simp only [toEnd] at hx
        rw [execs_append hx, execs_retRv hv2]
        simp [List.set_append_right, List.set_append_left]
      | some i =>
        rw [hs] at hx
        simp only [toEnd] at hx
        rw [execs_append hx, execs_retRv hv2]
        have hpl1 : p.addr < mem.length + 1 := by omega
        have hpl2 : p.addr < mem.length + 1 + 1 := by omega
        simp [List.set_append_right, List.set_append_left, setAt_append, hpl]
    | ub =>
      rw [hs] at hx
      exact execs_append_ub hx
  cases hs : sToE e val x with
  | ok rv o =>
    rw [hs] at hb
    cases o with
    | none =>
      rw [invoke_ok (t := .prim .bool) (u := .prim .bool) (v := .val (.bool rv)) rfl rfl (hbp _ rfl rfl rfl) (hb _ rfl rfl rfl)
        (initFrom_load (load_lv (peek_var (by simp)) rfl))]
      simp
    | some i =>
      rw [invoke_ok (t := .prim .bool) (u := .prim .bool) (v := .val (.bool rv)) rfl rfl (hbp _ rfl rfl rfl) (hb _ rfl rfl rfl)
        (initFrom_load (load_lv (peek_var (by simp)) rfl))]
      simp only [List.append_assoc]
      rw [List.take_left' (by simp)]
  | ub =>
    rw [hs] at hb
    rw [invoke_ub (hbp _ rfl rfl rfl) (hb _ rfl rfl rfl)]

/-! ### Which of the overloaded functions is called -/

/-- The type of an argument.  C++ [expr.type].  (Proof notion, models no code.) -/
def EV.ty : EV → Option CTy
  | .lv t _ | .rv t _ => some t
  | .lst _ => none

theorem tyOf_enum_inv {E : Env} {cls : Option Str} {vars : List (Str × Var)} {m n : Str}
    (h : tyOf E cls vars (.name [m]) = some (.enum n)) : m = n := by
  unfold tyOf at h
  repeat' split at h
  all_goals first
    | (injection h with h; injection h)
    | (cases h; rfl)
    | cases h

theorem argFits_enum {r : Bool} {t : CTy} {n : Str} {a : EV} (ha : a.ty = some (.enum n)) :
    argFits r t a = true ↔ t = .enum n := by
  have hc : convertible (.enum n) t = true ↔ t = .enum n := by
    unfold convertible
    split
    · next h => simp [← h]
    · next h =>
      have : ¬ t = .enum n := fun h' => h h'.symm
      simp [this]
  cases a with
  | lv u p =>
    cases ha
    cases r
    · exact hc
    · simp [argFits, eq_comm]
  | rv u v =>
    cases ha
    exact hc
  | lst vs => cases ha

/-- The functions of the enums are in the program, and no others with their names.  (Proof notion, models no code.) -/
structure EnumFuns (E : Env) (es : List EnumS) : Prop where
  from_ : (E.prog.filter fun f => f.name = [c!"stfx", c!"s_from_e"]) = es.map sFromFun
  to_ : (E.prog.filter fun f => f.name = [c!"stfx", c!"s_to_e"]) = es.map sToFun
  distinct : (es.map EnumS.name).Nodup

theorem filter_one {es : List EnumS} {e : EnumS} (hd : (es.map EnumS.name).Nodup) (he : e ∈ es) {q : EnumS → Bool}
    (hq : ∀ e' ∈ es, q e' = true ↔ e'.name = e.name) : es.filter q = [e] := by
  induction es with
  | nil => cases he
  | cons x es ih =>
    rw [List.map_cons, List.nodup_cons] at hd
    have hx := hq x (by simp)
    rcases List.mem_cons.1 he with rfl | he'
    · have h1 : es.filter q = [] := by
        rw [List.filter_eq_nil_iff]
        intro y hy h
        exact hd.1 (List.mem_map.2 ⟨y, hy, (hq y (by simp [hy])).1 h⟩)
      rw [List.filter_cons_of_pos (hx.2 rfl), h1]
    · have h1 : ¬ q x = true := fun h => hd.1 (hx.1 h ▸ List.mem_map.2 ⟨e, he', rfl⟩)
      rw [List.filter_cons_of_neg h1]
      exact ih hd.2 he' fun y hy => hq y (by simp [hy])

theorem viable_one {E : Env} {es : List EnumS} {e : EnumS} (hd : (es.map EnumS.name).Nodup) (he : e ∈ es) {F : EnumS → Fun} {args : List EV}
    (hv : ∀ e' ∈ es, viable E none [] (F e').params args = true ↔ e'.name = e.name) :
    ((es.map F).filter fun f => viable E none [] f.params args) = [F e] := by
  have := filter_one hd he (q := fun e' => viable E none [] (F e').params args) (fun e' h => hv e' h)
  rw [List.filter_map]
  exact congrArg (List.map F) this

/-- A call of `stfx::s_from_e`. -/
theorem call_sFrom {E : Env} {es : List EnumS} (hf : EnumFuns E es) {e : EnumS} (he : e ∈ es) {val : EnumVals} (h : EnumOK E e val)
    {C : Ctx} (hC : C.E = E) {a : EV} (ha : a.ty = some (.enum e.name)) :
    callId C [c!"stfx", c!"s_from_e"] [a] = C.call (sFromFun e) [a] := by
  funext s
  simp only [callId, M.bind_run, getVars_run, Res.ok_bind]
  rw [if_neg (by decide), if_pos trivial, callOne, hC, hf.from_, viable_one hf.distinct he]
  intro e' he'
  constructor
  · intro hv
    simp only [sFromFun, viable] at hv
    split at hv
    · next u hu =>
      rw [Bool.and_true, argFits_enum ha] at hv
      subst hv
      exact tyOf_enum_inv hu
    · cases hv
  · intro hn
    have := tyOf_enum h (vars := []) rfl
    simp only [sFromFun, viable, Ty.noRef, hn, this, argFits_enum ha, Bool.and_true]

/-- A call of `stfx::s_to_e`. -/
theorem call_sTo {E : Env} {es : List EnumS} (hf : EnumFuns E es) {e : EnumS} (he : e ∈ es) {val : EnumVals} (h : EnumOK E e val)
    (hn : e.name ≠ c!"s") {C : Ctx} (hC : C.E = E) {a b : EV} (ha : argFits false .str a = true) (hb : b.ty = some (.enum e.name)) :
    callId C [c!"stfx", c!"s_to_e"] [a, b] = C.call (sToFun e) [a, b] := by
  funext s
  simp only [callId, M.bind_run, getVars_run, Res.ok_bind]
  rw [if_neg (by decide), if_pos trivial, callOne, hC, hf.to_, viable_one hf.distinct he]
  have hs : ∀ e' : EnumS, viable E none [] (sToFun e').params [a, b] =
      match tyOf E none [(c!"s", ⟨.str, ⟨0, []⟩⟩)] (.name [e'.name]) with
      | some u => argFits true u b
      | none => false := by
    intro e'
    simp only [sToFun, viable, Ty.noRef, Ty.isRef, show tyOf E none [] (.name [c!"std", c!"string"]) = some .str from rfl, ha, Bool.true_and]
    split
    · next u hu => rw [hu]; simp
    · next hu => rw [hu]
  intro e' he'
  rw [hs]
  constructor
  · intro hv
    split at hv
    · next u hu =>
      rw [argFits_enum hb] at hv
      subst hv
      exact tyOf_enum_inv hu
    · cases hv
  · intro hm
    have := tyOf_enum h (vars := [(c!"s", ⟨.str, ⟨0, []⟩⟩)]) (by rw [lookup_cons_ne hn]; rfl)
    simp only [hm, this, argFits_enum hb]

/-! ### Arguments -/

/-- The argument is an enum with the value `x`: a value or an object.  (Proof notion, models no code.) -/
inductive EnumArg (m : List V) (n : Str) (x : Int) : EV → Prop where
  | rv : EnumArg m n x (.rv (.enum n) (.val (.num x)))
  | lv {p : Place} : getAt m p = some (.num x) → EnumArg m n x (.lv (.enum n) p)

/-- The argument is a text: a `std::string` or a C string, a value or an object.  (Proof notion, models no code.) -/
inductive StrArg (m : List V) (x : Str) : EV → Prop where
  | rv : StrArg m x (.rv .str (.val (.str x)))
  | lit : StrArg m x (.rv (.ptr (.prim .char)) (.cstr x))
  | lv {p : Place} : getAt m p = some (.str x) → StrArg m x (.lv .str p)
  | var {a : Nat} : m[a]? = some (.cstr x) → StrArg m x (.lv (.ptr (.prim .char)) ⟨a, []⟩)

theorem EnumArg.ty {m : List V} {n : Str} {x : Int} {a : EV} (h : EnumArg m n x a) : a.ty = some (.enum n) := by
  cases h <;> rfl

theorem EnumArg.load {m : List V} {n : Str} {x : Int} {a : EV} (h : EnumArg m n x a) (vars : List (Str × Var)) (files : List FileSt)
    (out : List (Str × Saved)) : load a ⟨m, vars, files, out⟩ = .ok (.enum n, .val (.num x)) ⟨m, vars, files, out⟩ := by
  cases h with
  | rv => rfl
  | lv h => exact load_lv (peek_at h) rfl

theorem StrArg.fits {m : List V} {x : Str} {a : EV} (h : StrArg m x a) : argFits false .str a = true := by
  cases h <;> rfl

theorem StrArg.init {m : List V} {x : Str} {a : EV} (h : StrArg m x a) (vars : List (Str × Var)) (files : List FileSt)
    (out : List (Str × Saved)) : initFrom .str a ⟨m, vars, files, out⟩ = .ok (.val (.str x)) ⟨m, vars, files, out⟩ := by
  cases h with
  | rv => rfl
  | lit => rfl
  | lv h => exact initFrom_load (load_lv (peek_at h) rfl)
  | var h => simp [initFrom, Cpp.load, peek_var h, V.isUndef, coerce]

end Stfx.Cpp
