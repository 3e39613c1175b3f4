import Verif.Cpp.RunXml
import Verif.Run.IniFile
/-
The loop over the lines of a file in the generated n_ini readers, run as C++ code.
-/
set_option autoImplicit false
set_option linter.unusedSimpArgs false
namespace Stfx.Cpp
open Stfx.Run Stfx.Parser Stfx.Items Stfx.Gen

/-! ### The pieces of a file -/

theorem pieces_takeLine {n : Nat} (s : Str) : ∀ (b : Nat) (acc : Str), 1 ≤ b → (s ≠ [] ∨ acc ≠ []) →
    pieces n b acc s = (acc ++ (takeLine b s).1) :: pieces n n [] (takeLine b s).2 := by
  induction s with
  | nil =>
    intro b acc hb h
    obtain ⟨b, rfl⟩ : ∃ b', b = b' + 1 := ⟨b - 1, by omega⟩
    have : acc ≠ [] := by simpa using h
    simp [pieces, takeLine, this]
  | cons c s ih =>
    intro b acc hb _
    obtain ⟨b, rfl⟩ : ∃ b', b = b' + 1 := ⟨b - 1, by omega⟩
    rw [pieces, takeLine]
    by_cases hc : c = '\n'
    · simp [hc]
    · rw [if_neg hc, if_neg hc]
      cases b with
      | zero => simp [takeLine]
      | succ b =>
        rw [if_neg (by omega), Nat.add_sub_cancel, ih _ _ (by omega) (by simp)]
        simp

theorem filePieces_nil : filePieces [] = [] := rfl

theorem filePieces_cons (c : Char) (s : Str) :
    filePieces (c :: s) = (takeLine 79 (c :: s)).1 :: filePieces (takeLine 79 (c :: s)).2 := by
  unfold filePieces
  rw [pieces_takeLine _ _ _ (by omega) (by simp)]
  rfl

theorem takeLine_length (n : Nat) (s : Str) : (takeLine n s).1.length ≤ n := by
  induction n generalizing s with
  | zero => simp [takeLine]
  | succ n ih =>
    cases s with
    | nil => simp [takeLine]
    | cons c s =>
      rw [takeLine]
      split
      · simp
      · simpa using ih s

theorem takeLine_rest (n : Nat) (c : Char) (s : Str) : (takeLine (n + 1) (c :: s)).2.length ≤ s.length := by
  induction n generalizing c s with
  | zero => rw [takeLine]; split <;> simp [takeLine]
  | succ n ih =>
    rw [takeLine]
    split
    · simp
    · cases s with
      | nil => simp [takeLine]
      | cons d s => exact Nat.le_trans (ih d s) (by simp)

/-! ### The members of the reader -/

/-- A `read_item_S` object, process_items_ini.cpp:96-100.  (Proof notion, models no code.) -/
def itemVal (I U : List (Str × Val)) : Val := .struct [(c!"items", .struct I), (c!"under", .struct U)]

/-- The map has these items.  (Proof notion, models no code.) -/
def RepItems (I : List (Str × Val)) (m : Items) : Prop := ∀ k, I.lookup k = (m.lookup k).map Val.str

/-- The map has these sections.  (Proof notion, models no code.) -/
def RepUnder (U : List (Str × Val)) (u : List (Str × Items)) : Prop :=
  ∀ s, match u.lookup s with
    | none => U.lookup s = none
    | some m => ∃ I, U.lookup s = some (itemVal I []) ∧ RepItems I m

/-- The members of a reader are in memory: `m_lookup` at `al`, `m_multiline_string_key` at `ak`, `m_multiline_string_value` at `av`,
process_items_ini.cpp:101-103.  (Proof notion, models no code.) -/
structure RdrMem (al ak av : Nat) (R : List V) (st : IniSt) : Prop where
  lk : al ≠ ak
  lv : al ≠ av
  kv : ak ≠ av
  item : ∃ I U, R[al]? = some (.val (itemVal I U)) ∧ RepItems I st.items ∧ RepUnder U st.under
  key : R[ak]? = some (.val (.str st.key))
  value : R[av]? = some (.val (.str st.value))

/-- Only the members of the reader may differ.  (Proof notion, models no code.) -/
def Frame (al ak av : Nat) (R R' : List V) : Prop :=
  R'.length = R.length ∧ ∀ b, b ≠ al → b ≠ ak → b ≠ av → R'[b]? = R[b]?

theorem Frame.rfl {al ak av : Nat} {R : List V} : Frame al ak av R R := ⟨Eq.refl _, fun _ _ _ _ => Eq.refl _⟩

theorem Frame.trans {al ak av : Nat} {R R' R'' : List V} (h : Frame al ak av R R') (h' : Frame al ak av R' R'') : Frame al ak av R R'' :=
  ⟨h'.1.trans h.1, fun b h1 h2 h3 => (h'.2 b h1 h2 h3).trans (h.2 b h1 h2 h3)⟩

theorem Frame.set {al ak av : Nat} {R : List V} {a : Nat} {v : V} (h : a = al ∨ a = ak ∨ a = av) : Frame al ak av R (R.set a v) := by
  refine ⟨by simp, fun b h1 h2 h3 => List.getElem?_set_ne fun e => ?_⟩
  subst e
  rcases h with h | h | h
  · exact h1 h
  · exact h2 h
  · exact h3 h

/-- What `current_lookup` points to.  (Proof notion, models no code.) -/
def curPlace (al : Nat) : Option Str → Place
  | none => ⟨al, []⟩
  | some s => ⟨al, [c!"under", s]⟩

/-- `current_lookup` points to a section that is there.  (Proof notion, models no code.) -/
def CurOk (st : IniSt) : Prop := ∀ s, st.cur = some s → (st.under.lookup s).isSome = true

theorem RdrMem.al_lt {al ak av : Nat} {R : List V} {st : IniSt} (h : RdrMem al ak av R st) : al < R.length := by
  obtain ⟨I, U, h, _⟩ := h.item
  exact (List.getElem?_eq_some_iff.1 h).1
theorem RdrMem.ak_lt {al ak av : Nat} {R : List V} {st : IniSt} (h : RdrMem al ak av R st) : ak < R.length :=
  (List.getElem?_eq_some_iff.1 h.key).1
theorem RdrMem.av_lt {al ak av : Nat} {R : List V} {st : IniSt} (h : RdrMem al ak av R st) : av < R.length :=
  (List.getElem?_eq_some_iff.1 h.value).1

/-- Change `m_lookup`. -/
theorem RdrMem.setItem {al ak av : Nat} {R : List V} {st st' : IniSt} (h : RdrMem al ak av R st) {I U : List (Str × Val)}
    (hI : RepItems I st'.items) (hU : RepUnder U st'.under) (hk : st'.key = st.key) (hv : st'.value = st.value) :
    RdrMem al ak av (R.set al (.val (itemVal I U))) st' where
  lk := h.lk
  lv := h.lv
  kv := h.kv
  item := ⟨I, U, List.getElem?_set_self h.al_lt, hI, hU⟩
  key := by rw [List.getElem?_set_ne h.lk, h.key, hk]
  value := by rw [List.getElem?_set_ne h.lv, h.value, hv]

/-- Change `m_multiline_string_key`. -/
theorem RdrMem.setKey {al ak av : Nat} {R : List V} {st : IniSt} (h : RdrMem al ak av R st) (k : Str) :
    RdrMem al ak av (R.set ak (.val (.str k))) { st with key := k } where
  lk := h.lk
  lv := h.lv
  kv := h.kv
  item := by
    obtain ⟨I, U, h1, h2⟩ := h.item
    exact ⟨I, U, by rw [List.getElem?_set_ne (fun e => h.lk e.symm), h1], h2⟩
  key := List.getElem?_set_self h.ak_lt
  value := by rw [List.getElem?_set_ne h.kv, h.value]

/-- Change `m_multiline_string_value`. -/
theorem RdrMem.setValue {al ak av : Nat} {R : List V} {st : IniSt} (h : RdrMem al ak av R st) (v : Str) :
    RdrMem al ak av (R.set av (.val (.str v))) { st with value := v } where
  lk := h.lk
  lv := h.lv
  kv := h.kv
  item := by
    obtain ⟨I, U, h1, h2⟩ := h.item
    exact ⟨I, U, by rw [List.getElem?_set_ne (fun e => h.lv e.symm), h1], h2⟩
  key := by rw [List.getElem?_set_ne (fun e => h.kv e.symm), h.key]
  value := List.getElem?_set_self h.av_lt

/-! ### Maps -/

/-- The map after `m[k]`, where a new value is `x`.  (Proof notion, models no code.) -/
def withKey (k : Str) (x : Val) (fs : List (Str × Val)) : List (Str × Val) :=
  if (fs.lookup k).isSome then fs else fs ++ [(k, x)]

theorem withKey_lookup {k j : Str} {x : Val} {fs : List (Str × Val)} :
    (withKey k x fs).lookup j = if j = k then some ((fs.lookup k).getD x) else fs.lookup j := by
  unfold withKey
  cases h : fs.lookup k with
  | some y =>
    simp only [Option.isSome_some, if_true, Option.getD_some]
    split
    · subst_vars; exact h
    · rfl
  | none =>
    simp only [Option.isSome_none, Bool.false_eq_true, if_false, Option.getD_none]
    rw [lookup_append]
    by_cases hj : j = k
    · subst hj; rw [h, if_pos rfl, lookup_cons_eq]; rfl
    · rw [if_neg hj, lookup_cons_ne hj]
      cases fs.lookup j <;> rfl

theorem set_withKey_lookup {k j : Str} {x y : Val} {fs : List (Str × Val)} :
    (setField k y (withKey k x fs)).lookup j = if j = k then some y else fs.lookup j := by
  rw [lookup_setField, withKey_lookup, if_pos rfl, withKey_lookup]
  split <;> simp

theorem RepItems.put {I : List (Str × Val)} {m : Items} (h : RepItems I m) (k v : Str) :
    RepItems (setField k (.str v) (withKey k (.str []) I)) (Run.put k v m) := by
  intro j
  rw [set_withKey_lookup, put_lookup, h j]
  split <;> rfl

theorem RepItems.nil : RepItems [] [] := fun _ => rfl

theorem RepUnder.miss {U : List (Str × Val)} {u : List (Str × Items)} (h : RepUnder U u) {s : Str} (hs : u.lookup s = none) : U.lookup s = none := by
  have := h s; rwa [hs] at this

theorem RepUnder.hit {U : List (Str × Val)} {u : List (Str × Items)} (h : RepUnder U u) {s : Str} {m : Items} (hs : u.lookup s = some m) :
    ∃ I, U.lookup s = some (itemVal I []) ∧ RepItems I m := by
  have := h s; rwa [hs] at this

theorem RepUnder.put {U U' : List (Str × Val)} {u : List (Str × Items)} (h : RepUnder U u) {s : Str} {I : List (Str × Val)} {m : Items}
    (hI : RepItems I m) (hU : ∀ j, U'.lookup j = if j = s then some (itemVal I []) else U.lookup j) : RepUnder U' (Run.put s m u) := by
  intro j
  rw [put_lookup]
  by_cases hj : j = s
  · rw [if_pos hj]
    exact ⟨I, by rw [hU, if_pos hj], hI⟩
  · have := h j
    rw [if_neg hj]
    revert this
    cases u.lookup j with
    | none => intro this; show U'.lookup j = _; rw [hU, if_neg hj, this]
    | some m => intro this; obtain ⟨I', h1, h2⟩ := this; exact ⟨I', by rw [hU, if_neg hj, h1], h2⟩

/-! ### Statements -/

/-- The members of the reader in scope.  (Proof notion, models no code.) -/
structure RdrCtx (E : Env) (cls : Str) (C : Ctx) (al ak av : Nat) : Prop where
  env : C.E = E
  cls_ : C.cls = some cls
  lookup : C.self.lookup c!"m_lookup" = some ⟨.item, ⟨al, []⟩⟩
  key : C.self.lookup c!"m_multiline_string_key" = some ⟨.str, ⟨ak, []⟩⟩
  value : C.self.lookup c!"m_multiline_string_value" = some ⟨.str, ⟨av, []⟩⟩
  other : ∀ n, n ∉ [c!"m_lookup", c!"m_multiline_string_key", c!"m_multiline_string_value", c!"m_delta_only", c!"m_file"] → C.self.lookup n = none

section
variable {E : Env} {cls : Str} {C : Ctx} {al ak av : Nat} {files : List FileSt} {out : List (Str × Saved)} {m : List V} {vs : List (Str × Var)}

theorem eval_id {n : Str} {x : Var} {s : St} (h : s.vars.lookup n = some x) : eval C (.id [n]) s = .ok (.lv x.ty x.at_) s := by
  rw [eval, lookupId_var h]

theorem eval_self {n : Str} {x : Var} {s : St} (h : s.vars.lookup n = none) (hs : C.self.lookup n = some x) :
    eval C (.id [n]) s = .ok (.lv x.ty x.at_) s := by
  simp [eval, lookupId, h, hs]

/-- The value of an expression that changes nothing is a string.  (Proof notion, models no code.) -/
def IsStr (C : Ctx) (e : Expr) (s : St) (k : Str) : Prop :=
  ∃ y, eval C e s = .ok y s ∧ load y s = .ok (.str, .val (.str k)) s

/-- `current_lookup->items[k]` and relatives. -/
theorem eval_slot {a K : Expr} {q : Place} {fs : List (Str × Val)} {k : Str} {t : CTy} {x : Val}
    (ha : eval C a ⟨m, vs, files, out⟩ = .ok (.lv (.map .str t) q) ⟨m, vs, files, out⟩)
    (hq : getAt m q = some (.struct fs)) (hk : IsStr C K ⟨m, vs, files, out⟩ k) (hx : initV C.E.T t = .val x) :
    eval C (.index a K) ⟨m, vs, files, out⟩ =
      .ok (.lv t ⟨q.addr, q.path ++ [k]⟩) ⟨setAt m q (.struct (withKey k x fs)), vs, files, out⟩ := by
  obtain ⟨y, h1, h2⟩ := hk
  rw [eval]
  simp only [M.bind_run, ha, Res.ok_bind, h1, indexE, h2, coerce_self, Option.bind_some, keyOf, M.opt_some, M.pure_run, peek_at hq]
  unfold withKey
  cases hl : fs.lookup k with
  | some y => simp [setAt_self hq]
  | none => simp [hx, poke_at hq]

/-- `m[k] = v` on a map of strings. -/
theorem exec_store {a K v : Expr} {q : Place} {fs : List (Str × Val)} {k w : Str}
    (ha : eval C a ⟨m, vs, files, out⟩ = .ok (.lv (.map .str .str) q) ⟨m, vs, files, out⟩)
    (hq : getAt m q = some (.struct fs)) (hk : IsStr C K ⟨m, vs, files, out⟩ k)
    {y : EV} (hy : eval C v ⟨m, vs, files, out⟩ = .ok y ⟨m, vs, files, out⟩)
    (hw : ∀ x, load y ⟨setAt m q x, vs, files, out⟩ = .ok (.str, .val (.str w)) ⟨setAt m q x, vs, files, out⟩) :
    exec C (.expr (.assign (.index a K) v)) ⟨m, vs, files, out⟩ =
      .ok .next ⟨setAt m q (.struct (setField k (.str w) (withKey k (.str []) fs))), vs, files, out⟩ := by
  have hl : (withKey k (.str []) fs).lookup k = some ((fs.lookup k).getD (.str [])) := by rw [withKey_lookup, if_pos rfl]
  have hg : getAt (setAt m q (.struct (withKey k (.str []) fs))) ⟨q.addr, q.path ++ [k]⟩ = some ((fs.lookup k).getD (.str [])) := by
    rw [getAt_member (p := q.path) (getAt_setAt hq), hl]
  rw [exec, eval]
  simp only [M.bind_run, hy, Res.ok_bind, eval_slot (t := .str) (x := .str []) ha hq hk rfl, assignE, hw, coerce_self, M.opt_some, M.pure_run, poke_at hg]
  rw [setAt_member (p := q.path) (getAt_setAt hq) hl, setAt_setAt hq]

/-- Only the object at `al` may differ.  (Proof notion, models no code.) -/
def Only (al : Nat) (R R' : List V) : Prop := R'.length = R.length ∧ ∀ b, b ≠ al → R'[b]? = R[b]?

theorem Only.frame {R R' : List V} (h : Only al R R') : Frame al ak av R R' := ⟨h.1, fun b hb _ _ => h.2 b hb⟩

theorem Only.setAt {R : List V} {p : List Str} {x : Val} : Only al R (setAt R ⟨al, p⟩ x) :=
  ⟨by simp, fun _ hb => setAt_ne (p := ⟨al, p⟩) fun e => hb e.symm⟩

theorem CurOk.some {st : IniSt} (h : CurOk st) {s : Str} (hs : st.cur = some s) : ∃ m, st.under.lookup s = some m :=
  Option.isSome_iff_exists.1 (h s hs)

/-- The items of the current section. -/
theorem RdrMem.cur {R : List V} {st : IniSt} (h : RdrMem al ak av R st) (hc : CurOk st) :
    ∃ fs, getAt R ⟨(curPlace al st.cur).addr, (curPlace al st.cur).path ++ [c!"items"]⟩ = some (.struct fs) ∧
      ∀ k w, RdrMem al ak av (Cpp.setAt R ⟨(curPlace al st.cur).addr, (curPlace al st.cur).path ++ [c!"items"]⟩
        (.struct (setField k (.str w) (withKey k (.str []) fs)))) (st.store k w) := by
  obtain ⟨I, U, h1, h2, h3⟩ := h.item
  cases hs : st.cur with
  | none =>
    refine ⟨I, by simp [getAt, curPlace, h1, itemVal, vGet, List.lookup], fun k w => ?_⟩
    have hset : Cpp.setAt R ⟨(curPlace al none).addr, (curPlace al none).path ++ [c!"items"]⟩ (.struct (setField k (.str w) (withKey k (.str []) I))) =
        R.set al (.val (itemVal (setField k (.str w) (withKey k (.str []) I)) U)) := by
      simp [Cpp.setAt, curPlace, h1, itemVal, vSet, List.lookup, setField]
    have hst : st.store k w = { st with items := put k w st.items } := by unfold IniSt.store; rw [hs]
    rw [hset, hst]
    exact h.setItem (h2.put k w) h3 rfl rfl
  | some s =>
    obtain ⟨ms, hms⟩ := hc.some hs
    obtain ⟨J, hJ, hJ2⟩ := h3.hit hms
    refine ⟨J, by simp [getAt, curPlace, h1, itemVal, vGet, List.lookup, hJ], fun k w => ?_⟩
    have hset : Cpp.setAt R ⟨(curPlace al (some s)).addr, (curPlace al (some s)).path ++ [c!"items"]⟩ (.struct (setField k (.str w) (withKey k (.str []) J))) =
        R.set al (.val (itemVal I (setField s (itemVal (setField k (.str w) (withKey k (.str []) J)) []) U))) := by
      simp [Cpp.setAt, curPlace, h1, itemVal, vSet, List.lookup, setField, hJ]
    have hst : st.store k w = { st with under := put s (put k w ms) st.under } := by unfold IniSt.store; rw [hs]; simp [hms]
    rw [hset, hst]
    refine h.setItem h2 (h3.put (hJ2.put k w) fun j => ?_) rfl rfl
    rw [lookup_setField, hJ]
    rfl

/-- `current_lookup->items[k] = w;` -/
theorem rdr_store {R t : List V} {st : IniSt} (hC : RdrCtx E cls C al ak av) (h : RdrMem al ak av R st) (hc : CurOk st) {K v : Expr} {ac : Nat}
    (hcur : vs.lookup c!"current_lookup" = some ⟨.ptr .item, ⟨ac, []⟩⟩) (hac : (R ++ t)[ac]? = some (.ptr (curPlace al st.cur)))
    {k w : Str} (hk : IsStr C K ⟨R ++ t, vs, files, out⟩ k) {y : EV} (hy : eval C v ⟨R ++ t, vs, files, out⟩ = .ok y ⟨R ++ t, vs, files, out⟩)
    (hw : ∀ R', Only al R R' → load y ⟨R' ++ t, vs, files, out⟩ = .ok (.str, .val (.str w)) ⟨R' ++ t, vs, files, out⟩) :
    ∃ R', exec C (.expr (.assign (.index (.arrow (.id [c!"current_lookup"]) c!"items") K) v)) ⟨R ++ t, vs, files, out⟩ =
      .ok .next ⟨R' ++ t, vs, files, out⟩ ∧ RdrMem al ak av R' (st.store k w) ∧ Only al R R' := by
  obtain ⟨fs, h1, h2⟩ := h.cur hc
  have haddr : (curPlace al st.cur).addr = al := by cases st.cur <;> rfl
  have ha : eval C (.arrow (.id [c!"current_lookup"]) c!"items") ⟨R ++ t, vs, files, out⟩ =
      .ok (.lv (.map .str .str) ⟨(curPlace al st.cur).addr, (curPlace al st.cur).path ++ [c!"items"]⟩) ⟨R ++ t, vs, files, out⟩ := by
    rw [eval]
    simp [eval_id (s := ⟨R ++ t, vs, files, out⟩) hcur, arrowMem, load, peek_var hac, V.isUndef, memTy]
  have hlt : (⟨(curPlace al st.cur).addr, (curPlace al st.cur).path ++ [c!"items"]⟩ : Place).addr < R.length := by rw [haddr]; exact h.al_lt
  have ho : ∀ x, Only al R (Cpp.setAt R ⟨(curPlace al st.cur).addr, (curPlace al st.cur).path ++ [c!"items"]⟩ x) := by
    intro x; rw [haddr]; exact Only.setAt
  refine ⟨_, ?_, h2 k w, ho _⟩
  rw [exec_store ha (getAt_append h1) hk hy (fun x => by rw [setAt_append hlt]; exact hw _ (ho x)), setAt_append hlt]

/-- `m_lookup.under[key] = new_item;` makes a new section. -/
theorem rdr_section {R t : List V} {st : IniSt} (hC : RdrCtx E cls C al ak av) (h : RdrMem al ak av R st) (hl : vs.lookup c!"m_lookup" = none)
    {K v : Expr} {k : Str} (hk : IsStr C K ⟨R ++ t, vs, files, out⟩ k) {y : EV} (hy : eval C v ⟨R ++ t, vs, files, out⟩ = .ok y ⟨R ++ t, vs, files, out⟩)
    (hw : ∀ R', Only al R R' → load y ⟨R' ++ t, vs, files, out⟩ = .ok (.item, .val (itemVal [] [])) ⟨R' ++ t, vs, files, out⟩) :
    ∃ R', exec C (.expr (.assign (.index (.mem (.id [c!"m_lookup"]) c!"under") K) v)) ⟨R ++ t, vs, files, out⟩ =
      .ok .next ⟨R' ++ t, vs, files, out⟩ ∧ RdrMem al ak av R' { st with under := put k [] st.under, cur := some k } ∧ Only al R R' := by
  obtain ⟨I, U, h1, h2, h3⟩ := h.item
  have ha : eval C (.mem (.id [c!"m_lookup"]) c!"under") ⟨R ++ t, vs, files, out⟩ =
      .ok (.lv (.map .str .item) ⟨al, [c!"under"]⟩) ⟨R ++ t, vs, files, out⟩ := by
    rw [eval, M.bind_run, eval_self hl hC.lookup]
    simp [dotMem, memTy]
  have hq : getAt R ⟨al, [c!"under"]⟩ = some (.struct U) := by simp [getAt, h1, itemVal, vGet, List.lookup]
  have hlk : (withKey k (itemVal [] []) U).lookup k = some ((U.lookup k).getD (itemVal [] [])) := by rw [withKey_lookup, if_pos rfl]
  have hset : ∀ W, Cpp.setAt R ⟨al, [c!"under"]⟩ (.struct W) = R.set al (.val (itemVal I W)) := by
    intro W; simp [Cpp.setAt, h1, itemVal, vSet, List.lookup, setField]
  have hset2 : ∀ W, Cpp.setAt (R ++ t) ⟨al, [c!"under"]⟩ (.struct W) = R.set al (.val (itemVal I W)) ++ t := by
    intro W; rw [setAt_append h.al_lt, hset]
  have hon : ∀ W, Only al R (R.set al (.val (itemVal I W))) := fun W => ⟨by simp, fun b hb => List.getElem?_set_ne fun e => hb e.symm⟩
  have hg : getAt (R.set al (.val (itemVal I (withKey k (itemVal [] []) U))) ++ t) ⟨al, [c!"under"] ++ [k]⟩ = some ((U.lookup k).getD (itemVal [] [])) := by
    rw [← hset2, getAt_member (p := [c!"under"]) (getAt_setAt (getAt_append hq)), hlk]
  refine ⟨_, ?_, h.setItem (I := I) (U := setField k (itemVal [] []) (withKey k (itemVal [] []) U)) h2 (h3.put RepItems.nil fun j => by rw [set_withKey_lookup]) rfl rfl, hon _⟩
  rw [exec, eval]
  simp only [M.bind_run, hy, Res.ok_bind, eval_slot (t := .item) (x := itemVal [] []) ha (getAt_append hq) hk rfl, hset2, assignE, hw _ (hon _), coerce_self, M.opt_some,
    M.pure_run, poke_at hg]
  rw [setAt_member (p := [c!"under"]) (by rw [← hset2]; exact getAt_setAt (getAt_append hq)) hlk, ← hset2, setAt_setAt (getAt_append hq), hset2]

/-! ### A line -/

theorem find_takeWhile (c : Char) (s : Str) :
    (s.findIdx? (· = c) = none ∧ s.takeWhile (· ≠ c) = s) ∨ ∃ i, s.findIdx? (· = c) = some i ∧ i < s.length ∧ s.take i = s.takeWhile (· ≠ c) := by
  induction s with
  | nil => exact .inl ⟨rfl, rfl⟩
  | cons d s ih =>
    by_cases hd : d = c
    · exact .inr ⟨0, by simp [List.findIdx?_cons, hd], by simp, by simp [hd]⟩
    · rcases ih with ⟨h1, h2⟩ | ⟨i, h1, h2, h3⟩
      · exact .inl ⟨by simp [List.findIdx?_cons, hd, h1], by rw [List.takeWhile_cons_of_pos (by simpa using hd), h2]⟩
      · exact .inr ⟨i + 1, by simp [List.findIdx?_cons, hd, h1], by simp; omega, by rw [List.takeWhile_cons_of_pos (by simpa using hd), List.take_succ_cons, h3]⟩

theorem cStr_length (s : Str) : (cStr s).length ≤ s.length := (List.takeWhile_prefix _).length_le

/-- `std::string line{buf};`, process_items_ini.cpp:132.  (Proof notion, models no code.) -/
def lineDecl : Stmt := .decl (.name [c!"std", c!"string"]) c!"line" none (some (.braces [(.id [c!"buf"])]))
/-- `size_t pos = line.find('%');`, process_items_ini.cpp:133.  (Proof notion, models no code.) -/
def posDecl : Stmt := .decl (.name [c!"size_t"]) c!"pos" none (some (.call (.mem (.id [c!"line"]) c!"find") [(.chr c!"%")]))
/-- Leave out the comment, process_items_ini.cpp:134-137.  (Proof notion, models no code.) -/
def cutStmt : Stmt := .when (.bin .ne (.id [c!"pos"]) (.id [c!"std", c!"string", c!"npos"]))
  (.block [.expr (.assign (.id [c!"line"]) (.call (.mem (.id [c!"line"]) c!"substr") [(.num c!"0"), (.id [c!"pos"])]))])

/-- The text of the line. -/
theorem exec_line {A : List V} {b : Str} {ab size : Nat} (hbuf : vs.lookup c!"buf" = some ⟨.buf size, ⟨ab, []⟩⟩) (hA : A[ab]? = some (.val (.str b))) :
    exec C lineDecl ⟨A, vs, files, out⟩ = .ok .next ⟨A ++ [.val (.str (cStr b))], (c!"line", ⟨.str, ⟨A.length, []⟩⟩) :: vs, files, out⟩ := by
  have hA' : (A ++ [V.val .undef])[ab]? = some (.val (.str b)) := by
    rw [List.getElem?_append_left (List.getElem?_eq_some_iff.1 hA).1, hA]
  refine exec_declInit (u := .str) (x := .lst [.lv (.buf size) ⟨ab, []⟩]) rfl ?_ ?_
  · simp [eval, evals, lookupId, List.lookup, hbuf]
  · simp [initFrom, load, peek_var hA', V.isUndef, coerce]

/-- The comment is left out. -/
theorem execs_cut {A : List V} {l : Str} {ts : List Stmt} (hb : 32 ≤ C.E.T.longBits) (hl : l.length ≤ 79)
    (hty : tyOf C.E C.cls ((c!"line", ⟨.str, ⟨A.length, []⟩⟩) :: vs ++ C.self) (.name [c!"size_t"]) = some (.prim .ulong)) :
    ∃ pos, execs C (posDecl :: cutStmt :: ts) ⟨A ++ [.val (.str l)], (c!"line", ⟨.str, ⟨A.length, []⟩⟩) :: vs, files, out⟩ =
      execs C ts ⟨A ++ [.val (.str (l.takeWhile (· ≠ '%')))] ++ [.val (.num pos)],
        (c!"pos", ⟨.prim .ulong, ⟨A.length + 1, []⟩⟩) :: (c!"line", ⟨.str, ⟨A.length, []⟩⟩) :: vs, files, out⟩ := by
  have hpow : (2 : Int) ^ 32 ≤ 2 ^ C.E.T.longBits := by
    have := Nat.pow_le_pow_right (n := 2) (by omega) hb
    exact_mod_cast this
  have h32 : (2 : Int) ^ 32 = 4294967296 := by decide
  have hn : npos C.E.T = 2 ^ C.E.T.longBits - 1 := rfl
  have hpk : ∀ x y vars, peek ⟨A.length, []⟩ ⟨A ++ [x, y], vars, files, out⟩ = .ok x ⟨A ++ [x, y], vars, files, out⟩ := fun x y vars => peek_var (by simp)
  have hpk2 : ∀ x y vars, peek ⟨A.length + 1, []⟩ ⟨A ++ [x, y], vars, files, out⟩ = .ok y ⟨A ++ [x, y], vars, files, out⟩ := fun x y vars => peek_var (by simp)
  have hpo : ∀ x y z vars, poke ⟨A.length, []⟩ z ⟨A ++ [x, y], vars, files, out⟩ = .ok () ⟨A ++ [z, y], vars, files, out⟩ := fun x y z vars => by
    rw [poke_var (by simp)]; simp
  rcases find_takeWhile '%' l with ⟨h1, h2⟩ | ⟨i, h1, h2, h3⟩
  · refine ⟨npos C.E.T, ?_⟩
    rw [posDecl, execs_cons (exec_declInit (u := .prim .ulong) (x := .rv (.prim .ulong) (.val (.num (npos C.E.T)))) (v := .val (.num (npos C.E.T))) hty ?_ (initFrom_load rfl))]
    · rw [execs_cons (s' := _)]
      rw [h2]
      simp [cutStmt, exec, eval, lookupId, List.lookup, load, hpk2, V.isUndef, binV, neq, asBool]
    · simp [eval, evals, lookupId, List.lookup, dotCall, hpk, h1]
  · refine ⟨i, ?_⟩
    rw [posDecl, execs_cons (exec_declInit (u := .prim .ulong) (x := .rv (.prim .ulong) (.val (.num i))) (v := .val (.num i)) hty ?_ (initFrom_load rfl))]
    · rw [execs_cons (s' := _)]
      rw [← h3]
      have hne : (i : Int) ≠ npos C.E.T := by rw [hn]; omega
      have htk : ∀ x y : V, (A ++ [x, y]).take (A.length + 2) = A ++ [x, y] := fun x y => List.take_of_length_le (by simp)
      simp [htk, cutStmt, exec, execs, eval, evals, lookupId, List.lookup, load, hpk, hpk2, V.isUndef, binV, neq, asBool, hne, scope, dotCall, assignE, coerce, hpo]
    · simp [eval, evals, lookupId, List.lookup, dotCall, hpk, h1]

/-- An empty line is skipped, process_items_ini.cpp:138-139.  (Proof notion, models no code.) -/
def skipStmt : Stmt := .when (.bin .eq (.call (.mem (.id [c!"line"]) c!"length") []) (.num c!"0")) (.cont)

theorem exec_skip {A : List V} {al : Nat} {l : Str} (hline : vs.lookup c!"line" = some ⟨.str, ⟨al, []⟩⟩) (hA : A[al]? = some (.val (.str l))) :
    exec C skipStmt ⟨A, vs, files, out⟩ = .ok (if l = [] then .cont else .next) ⟨A, vs, files, out⟩ := by
  cases l with
  | nil => simp [skipStmt, exec, eval, evals, lookupId, hline, dotCall, peek_var hA, binV, load, asBool, scope]
  | cons c l =>
    have : ¬ ((l.length : Int) + 1 = 0) := by omega
    simp [skipStmt, exec, eval, evals, lookupId, hline, dotCall, peek_var hA, binV, load, asBool, scope, this]

/-- A pending value is stored, process_items_ini.cpp:141-146.  (Proof notion, models no code.) -/
def flushStmt : Stmt :=
  .when (.bin .and (.bin .ne (.call (.mem (.id [c!"m_multiline_string_key"]) c!"length") []) (.num c!"0")) (.bin .ne (.index (.id [c!"line"]) (.num c!"0")) (.chr c!" ")))
    (.block [
      .expr (.assign (.index (.arrow (.id [c!"current_lookup"]) c!"items") (.id [c!"m_multiline_string_key"])) (.id [c!"m_multiline_string_value"])),
      .expr (.assign (.id [c!"m_multiline_string_key"]) (.str c!"")),
      .expr (.assign (.id [c!"m_multiline_string_value"]) (.str c!""))])

theorem eval_line0 {A : List V} {a : Nat} {c : Char} {l : Str} (hline : vs.lookup c!"line" = some ⟨.str, ⟨a, []⟩⟩) (hA : A[a]? = some (.val (.str (c :: l)))) :
    eval C (.index (.id [c!"line"]) (.num c!"0")) ⟨A, vs, files, out⟩ = .ok (.rv (.prim .char) (.val (.str [c]))) ⟨A, vs, files, out⟩ := by
  have : ¬ (0 = (l.length : Int) + 1) := by omega
  simp [eval, lookupId, hline, indexE, load, peek_var hA, this]

theorem exec_setStr {A : List V} {n : Str} {x : Var} {e : Expr} {z : Str} (hn : vs.lookup n = none) (hs : C.self.lookup n = some x) (hx : x.ty = .str)
    {a : Nat} (ha : x.at_ = ⟨a, []⟩) (hlt : a < A.length) {y : EV} (hy : eval C e ⟨A, vs, files, out⟩ = .ok y ⟨A, vs, files, out⟩)
    {u : CTy} {w : V} (hw : load y ⟨A, vs, files, out⟩ = .ok (u, w) ⟨A, vs, files, out⟩) (hz : coerce u w .str = some (.val (.str z))) :
    exec C (.expr (.assign (.id [n]) e)) ⟨A, vs, files, out⟩ = .ok .next ⟨A.set a (.val (.str z)), vs, files, out⟩ := by
  rw [exec, eval]
  simp [hy, eval_self (s := ⟨A, vs, files, out⟩) hn hs, assignE, hw, hx, hz, ha, poke_var hlt]

theorem IsStr.self {A : List V} {n : Str} {a : Nat} (hn : vs.lookup n = none) (hs : C.self.lookup n = some ⟨.str, ⟨a, []⟩⟩) {k : Str}
    (hA : A[a]? = some (.val (.str k))) : IsStr C (.id [n]) ⟨A, vs, files, out⟩ k :=
  ⟨_, eval_self hn hs, load_lv (peek_var hA) rfl⟩

theorem IsStr.var {A : List V} {n : Str} {a : Nat} (hn : vs.lookup n = some ⟨.str, ⟨a, []⟩⟩) {k : Str}
    (hA : A[a]? = some (.val (.str k))) : IsStr C (.id [n]) ⟨A, vs, files, out⟩ k :=
  ⟨_, eval_id hn, load_lv (peek_var hA) rfl⟩

theorem CurOk.store {st : IniSt} (h : CurOk st) (k v : Str) : CurOk (st.store k v) := by
  intro s hs
  unfold IniSt.store at hs ⊢
  cases hc : st.cur with
  | none => rw [hc] at hs; simp only [hc] at hs; cases hs
  | some s' =>
    rw [hc] at hs
    simp only [hc] at hs ⊢
    rw [put_lookup]
    split
    · rfl
    · exact h s (by rw [hc]; exact hs)

theorem store_cur {st : IniSt} (k v : Str) : (st.store k v).cur = st.cur := by
  unfold IniSt.store
  cases h : st.cur <;> simp [h]

theorem exec_flush {R t : List V} {st : IniSt} (hC : RdrCtx E cls C al ak av) (h : RdrMem al ak av R st) (hc : CurOk st) {ac ali : Nat} {c : Char} {l : Str}
    (hline : vs.lookup c!"line" = some ⟨.str, ⟨ali, []⟩⟩) (hli : R.length ≤ ali) (hA : (R ++ t)[ali]? = some (.val (.str (c :: l))))
    (hcur : vs.lookup c!"current_lookup" = some ⟨.ptr .item, ⟨ac, []⟩⟩) (hac : (R ++ t)[ac]? = some (.ptr (curPlace al st.cur)))
    (hk : vs.lookup c!"m_multiline_string_key" = none) (hv : vs.lookup c!"m_multiline_string_value" = none) :
    ∃ R', exec C flushStmt ⟨R ++ t, vs, files, out⟩ = .ok .next ⟨R' ++ t, vs, files, out⟩ ∧ RdrMem al ak av R' (st.flush c) ∧ CurOk (st.flush c) ∧
      (st.flush c).cur = st.cur ∧ Frame al ak av R R' := by
  have hap := fun {R : List V} {a : Nat} {v : V} (h : R[a]? = some v) => show (R ++ t)[a]? = some v by
    rw [List.getElem?_append_left (List.getElem?_eq_some_iff.1 h).1, h]
  have hcond : (eval C (.bin .and (.bin .ne (.call (.mem (.id [c!"m_multiline_string_key"]) c!"length") []) (.num c!"0")) (.bin .ne (.index (.id [c!"line"]) (.num c!"0")) (.chr c!" ")))
      >>= asBool) ⟨R ++ t, vs, files, out⟩ = .ok (decide (st.key ≠ [] ∧ c ≠ ' ')) ⟨R ++ t, vs, files, out⟩ := by
    have h0 := eval_line0 (C := C) (files := files) (out := out) hline hA
    have h1 : eval C (.call (.mem (.id [c!"m_multiline_string_key"]) c!"length") []) ⟨R ++ t, vs, files, out⟩ =
        .ok (.rv (.prim .ulong) (.val (.num st.key.length))) ⟨R ++ t, vs, files, out⟩ := by
      rw [eval]
      simp [eval_self (s := ⟨R ++ t, vs, files, out⟩) hk hC.key, evals, dotCall, peek_var (hap h.key)]
    have h2 : (st.key.length : Int) = 0 ↔ st.key = [] := by
      rw [← List.length_eq_zero_iff]; omega
    generalize Expr.call (.mem (.id [c!"m_multiline_string_key"]) c!"length") [] = X at h1 ⊢
    generalize Expr.index (.id [c!"line"]) (.num c!"0") = Y at h0 ⊢
    by_cases hkey : st.key = []
    · simp [eval, h1, load, binV, asBool, hkey]
    · have h3 : ¬ ((st.key.length : Int) = 0) := fun e => hkey (h2.1 e)
      simp [eval, h1, h0, load, binV, asBool, hkey, h3, neq]
  by_cases hf : st.key ≠ [] ∧ c ≠ ' '
  · have hst : st.flush c = { st.store st.key st.value with key := [], value := [] } := by unfold IniSt.flush; rw [if_pos hf]
    obtain ⟨R1, h1, h2, h3⟩ := rdr_store (files := files) (out := out) (vs := vs) (t := t) hC h hc (K := .id [c!"m_multiline_string_key"]) (v := .id [c!"m_multiline_string_value"])
      hcur hac (IsStr.self hk hC.key (hap h.key)) (eval_self hv hC.value) (w := st.value) (fun R' hR' => load_lv (peek_var (hap (by rw [hR'.2 _ (fun e => h.lv e.symm), h.value]))) rfl)
    have hl1 : (R1 ++ t).length = (R ++ t).length := by simp [h3.1]
    have e1 := exec_setStr (C := C) (files := files) (out := out) (A := R1 ++ t) (z := []) (e := .str c!"") hk hC.key rfl rfl (by rw [List.length_append]; exact Nat.lt_add_right _ h2.ak_lt) (y := .rv (.ptr (.prim .char)) (.cstr [])) (by simp [eval, cStr]) rfl rfl
    have e2 := exec_setStr (C := C) (files := files) (out := out) (A := (R1 ++ t).set ak (.val (.str []))) (z := []) (e := .str c!"") hv hC.value rfl rfl (by rw [List.length_set, List.length_append]; exact Nat.lt_add_right _ h2.av_lt) (y := .rv (.ptr (.prim .char)) (.cstr [])) (by simp [eval, cStr]) rfl rfl
    have e3 : ((R1 ++ t).set ak (.val (.str []))).set av (.val (.str [])) = (R1.set ak (.val (.str []))).set av (.val (.str [])) ++ t := by
      rw [List.set_append_left _ _ h2.ak_lt, List.set_append_left _ _ (by simpa using h2.av_lt)]
    refine ⟨(R1.set ak (.val (.str []))).set av (.val (.str [])), ?_, ?_, ?_, ?_, ?_⟩
    · rw [flushStmt, exec, M.bind_run, hcond, Res.ok_bind, decide_eq_true hf, if_pos rfl, scope, exec, scope, execs_cons h1, execs_cons e1, execs_cons e2, e3]
      simp only [execs, M.pure_run]
      have hlen : ((R1.set ak (.val (.str []))).set av (.val (.str [])) ++ t).length = (R ++ t).length := by simp [h3.1]
      simp only [List.take_of_length_le (Nat.le_of_eq hlen)]
    · rw [hst]
      exact (h2.setKey []).setValue []
    · rw [hst]
      intro s hs
      exact hc.store _ _ s hs
    · rw [hst]
      exact store_cur _ _
    · exact (h3.frame.trans (.set (.inr (.inl rfl)))).trans (.set (.inr (.inr rfl)))
  · have hst : st.flush c = st := by unfold IniSt.flush; rw [if_neg hf]
    refine ⟨R, ?_, by rw [hst]; exact h, by rw [hst]; exact hc, by rw [hst], .rfl⟩
    rw [flushStmt, exec, M.bind_run, hcond, Res.ok_bind, decide_eq_false hf, if_neg (by simp)]
    rfl

/-! ### Regular expressions -/

/-- `regex = "…";` -/
theorem exec_regex {A B : List V} {x y : V} {z : Str} (hr : vs.lookup c!"regex" = some ⟨.regex, ⟨A.length + 1, []⟩⟩) :
    exec C (.expr (.assign (.id [c!"regex"]) (.str z))) ⟨A ++ [x, y] ++ B, vs, files, out⟩ = .ok .next ⟨A ++ [x, .regex (cStr z)] ++ B, vs, files, out⟩ := by
  simp [exec, eval, lookupId, hr, assignE, load, coerce, poke_var]

/-- `std::regex_search(line, res, regex) == true` -/
theorem eval_search {A B : List V} {x : V} {z l : Str} {a : Nat} {g : Option (List Str)} (hr : vs.lookup c!"regex" = some ⟨.regex, ⟨A.length + 1, []⟩⟩)
    (hs : vs.lookup c!"res" = some ⟨.smatch, ⟨A.length, []⟩⟩) (hl : vs.lookup c!"line" = some ⟨.str, ⟨a, []⟩⟩) (hA : A[a]? = some (.val (.str l)))
    (hg : regexGroups z l = some g) :
    (eval C (.bin .eq (.call (.id [c!"std", c!"regex_search"]) [(.id [c!"line"]), (.id [c!"res"]), (.id [c!"regex"])]) (.bool true)) >>= asBool)
        ⟨A ++ [x, .regex z] ++ B, vs, files, out⟩ =
      .ok g.isSome ⟨A ++ [.smatch (g.getD []), .regex z] ++ B, vs, files, out⟩ := by
  have ha := (List.getElem?_eq_some_iff.1 hA).1
  have h1 : ∀ x y : V, peek ⟨a, []⟩ ⟨A ++ [x, y] ++ B, vs, files, out⟩ = .ok (.val (.str l)) ⟨A ++ [x, y] ++ B, vs, files, out⟩ := fun x y => peek_var (by
    rw [List.append_assoc, List.getElem?_append_left ha, hA])
  have h2 : ∀ x y : V, peek ⟨A.length + 1, []⟩ ⟨A ++ [x, y] ++ B, vs, files, out⟩ = .ok y ⟨A ++ [x, y] ++ B, vs, files, out⟩ := fun x y => peek_var (by simp)
  have h3 : ∀ x y w : V, poke ⟨A.length, []⟩ w ⟨A ++ [x, y] ++ B, vs, files, out⟩ = .ok () ⟨A ++ [w, y] ++ B, vs, files, out⟩ := fun x y w => by
    rw [poke_var (by simp)]; simp
  have hc : eval C (.call (.id [c!"std", c!"regex_search"]) [(.id [c!"line"]), (.id [c!"res"]), (.id [c!"regex"])]) ⟨A ++ [x, .regex z] ++ B, vs, files, out⟩ =
      .ok (.rv (.prim .bool) (.val (.bool g.isSome))) ⟨A ++ [.smatch (g.getD []), .regex z] ++ B, vs, files, out⟩ := by
    rw [eval]
    simp only [evals, M.bind_run, eval_id (s := ⟨A ++ [x, .regex z] ++ B, vs, files, out⟩) hl, eval_id (s := ⟨A ++ [x, .regex z] ++ B, vs, files, out⟩) hs,
      eval_id (s := ⟨A ++ [x, .regex z] ++ B, vs, files, out⟩) hr, Res.ok_bind, M.pure_run]
    rw [show ∀ a b c, callId C [c!"std", c!"regex_search"] [a, b, c] = regexSearch a b c from fun _ _ _ => rfl]
    simp only [regexSearch, strArg, M.bind_run, load_lv (t := .str) (h1 _ _) rfl, load_lv (t := .regex) (h2 x (.regex z)) rfl, Res.ok_bind, coerce_self, M.pure_run, hg, M.opt_some]
    cases g <;> simp only [h3, M.bind_run, Res.ok_bind, M.pure_run, Option.isSome, Option.getD]
  rw [M.bind_run, eval]
  · simp only [M.bind_run, hc, Res.ok_bind, load_rv]
    cases g <;> simp [eval, binV, neq, asBool]
  · intro h; cases h
  · intro h; cases h

/-- `res[1].str()`, `res[2].str()` -/
theorem eval_group {A B : List V} {y : V} {gs : List Str} {g : Str} {i : Str} {j : Nat} (hs : vs.lookup c!"res" = some ⟨.smatch, ⟨A.length, []⟩⟩)
    (hi : i = c!"1" ∧ j = 0 ∨ i = c!"2" ∧ j = 1) (hg : gs[j]? = some g) :
    eval C (.call (.mem (.index (.id [c!"res"]) (.num i)) c!"str") []) ⟨A ++ [.smatch gs, y] ++ B, vs, files, out⟩ =
      .ok (.rv .str (.val (.str g))) ⟨A ++ [.smatch gs, y] ++ B, vs, files, out⟩ := by
  have h2 : peek ⟨A.length, []⟩ ⟨A ++ [.smatch gs, y] ++ B, vs, files, out⟩ = .ok (.smatch gs) ⟨A ++ [.smatch gs, y] ++ B, vs, files, out⟩ := peek_var (by simp)
  rw [eval]
  simp only [M.bind_run]
  rw [eval]
  simp only [M.bind_run, eval_id (s := ⟨A ++ [.smatch gs, y] ++ B, vs, files, out⟩) hs, Res.ok_bind]
  rcases hi with ⟨rfl, rfl⟩ | ⟨rfl, rfl⟩
  · rw [eval, if_neg (by decide), if_pos rfl]
    simp only [M.pure_run, Res.ok_bind, indexE, M.bind_run, load_rv, h2]
    rw [if_pos (by decide)]
    rw [show (1 : Int).toNat - 1 = 0 from rfl, hg]
    rfl
  · rw [eval, if_neg (by decide), if_neg (by decide), if_pos rfl]
    simp only [M.pure_run, Res.ok_bind, indexE, M.bind_run, load_rv, h2]
    rw [if_pos (by decide)]
    rw [show (2 : Int).toNat - 1 = 1 from rfl, hg]
    rfl

/-! ### The kinds of lines -/

/-- `std::regex_search(line, res, regex) == true`, process_items_ini.cpp:154, 170, 180.  (Proof notion, models no code.) -/
def searchE : Expr := .bin .eq (.call (.id [c!"std", c!"regex_search"]) [(.id [c!"line"]), (.id [c!"res"]), (.id [c!"regex"])]) (.bool true)

/-- The text of a group, process_items_ini.cpp:156, 172, 173, 182.  (Proof notion, models no code.) -/
def groupE (i : Str) : Expr := .call (.mem (.index (.id [c!"res"]) (.num i)) c!"str") []

/-- A heading, process_items_ini.cpp:154-160.  (Proof notion, models no code.) -/
def headStmt : Stmt := .when searchE
  (.block [
    .decl (.name [c!"std", c!"string"]) c!"key" none (some (groupE c!"1")),
    .decl (.name [c!"read_item_S"]) c!"new_item" none none,
    .expr (.assign (.index (.mem (.id [c!"m_lookup"]) c!"under") (.id [c!"key"])) (.id [c!"new_item"])),
    .expr (.assign (.id [c!"current_lookup"]) (.addr (.index (.mem (.id [c!"m_lookup"]) c!"under") (.id [c!"key"]))))])

/-- A line with one word, process_items_ini.cpp:179-184.  (Proof notion, models no code.) -/
def wordStmt : Stmt := .when searchE
  (.block [
    .expr (.assign (.id [c!"m_multiline_string_key"]) (groupE c!"1")),
    .expr (.assign (.id [c!"m_multiline_string_value"]) (.str c!"\n"))])

/-- Any other line, process_items_ini.cpp:170-185.  (Proof notion, models no code.) -/
def otherStmt : Stmt := .ite searchE
  (.block [
    .decl (.name [c!"std", c!"string"]) c!"key" none (some (groupE c!"1")),
    .decl (.name [c!"std", c!"string"]) c!"value" none (some (groupE c!"2")),
    .expr (.assign (.index (.arrow (.id [c!"current_lookup"]) c!"items") (.id [c!"key"])) (.id [c!"value"]))])
  (.block [
    .expr (.assign (.id [c!"regex"]) (.str c!"(\\w+)")),
    wordStmt])

/-- The line, process_items_ini.cpp:150-187.  (Proof notion, models no code.) -/
def switchStmt : Stmt := .switch (.index (.id [c!"line"]) (.num c!"0")) [
  .case (.chr c!"["),
  .expr (.assign (.id [c!"regex"]) (.str c!"\\[(.+)\\]")),
  headStmt,
  .brk,
  .case (.chr c!" "),
  .expr (.plusAssign (.id [c!"m_multiline_string_value"]) (.id [c!"line"])),
  .brk,
  .default,
  .expr (.assign (.id [c!"regex"]) (.str c!"(\\w+) (.+)")),
  otherStmt,
  .brk]

/-- The variables outside of the loop.  (Proof notion, models no code.) -/
def loopVs (n0 : Nat) (u : CTy) (q p : Place) : List (Str × Var) :=
  [(c!"buf", ⟨.buf 81, ⟨n0 + 4, []⟩⟩), (c!"buflen", ⟨.prim .int, ⟨n0 + 3, []⟩⟩), (c!"current_lookup", ⟨.ptr .item, ⟨n0 + 2, []⟩⟩),
    (c!"file", ⟨.ptr .file, ⟨n0 + 1, []⟩⟩), (c!"rv", ⟨.prim .bool, ⟨n0, []⟩⟩), (c!"struct_to_fill", ⟨u, q⟩), (c!"filename", ⟨.str, p⟩)]

/-- The variables in the loop.  (Proof notion, models no code.) -/
def lineVs (n0 : Nat) (u : CTy) (q p : Place) : List (Str × Var) :=
  (c!"regex", ⟨.regex, ⟨n0 + 8, []⟩⟩) :: (c!"res", ⟨.smatch, ⟨n0 + 7, []⟩⟩) :: (c!"pos", ⟨.prim .ulong, ⟨n0 + 6, []⟩⟩) ::
    (c!"line", ⟨.str, ⟨n0 + 5, []⟩⟩) :: loopVs n0 u q p

/-- The values of the variables outside of the loop.  (Proof notion, models no code.) -/
def loopMem (h : Nat) (al : Nat) (cur : Option Str) (b : V) : List V :=
  [.val (.bool false), .file h, .ptr (curPlace al cur), .val (.num 80), b]

variable {u : CTy} {q p : Place} {h : Nat} {b : V}

/-- `&m_lookup.under[key]` -/
theorem eval_section {R t : List V} {st : IniSt} (hC : RdrCtx E cls C al ak av) (h : RdrMem al ak av R st) (hl : vs.lookup c!"m_lookup" = none)
    {K : Expr} {k : Str} (hk : IsStr C K ⟨R ++ t, vs, files, out⟩ k) {m : Items} (hm : st.under.lookup k = some m) :
    eval C (.addr (.index (.mem (.id [c!"m_lookup"]) c!"under") K)) ⟨R ++ t, vs, files, out⟩ =
      .ok (.rv (.ptr .item) (.ptr ⟨al, [c!"under", k]⟩)) ⟨R ++ t, vs, files, out⟩ := by
  obtain ⟨I, U, h1, h2, h3⟩ := h.item
  have ha : eval C (.mem (.id [c!"m_lookup"]) c!"under") ⟨R ++ t, vs, files, out⟩ =
      .ok (.lv (.map .str .item) ⟨al, [c!"under"]⟩) ⟨R ++ t, vs, files, out⟩ := by
    rw [eval, M.bind_run, eval_self hl hC.lookup]
    simp [dotMem, memTy]
  have hq : getAt R ⟨al, [c!"under"]⟩ = some (.struct U) := by simp [getAt, h1, itemVal, vGet, List.lookup]
  obtain ⟨J, hJ, _⟩ := h3.hit hm
  have hw : withKey k (itemVal [] []) U = U := by unfold withKey; simp [hJ]
  rw [eval, M.bind_run, eval_slot (t := .item) (x := itemVal [] []) ha (getAt_append hq) hk rfl, hw, setAt_self (getAt_append hq)]
  rfl

/-- A heading. -/
theorem exec_head {R : List V} {st : IniSt} (hC : RdrCtx E cls C al ak av) (hR : RdrMem al ak av R st) (hc : CurOk st) {l : Str} {pos : Int} {x : V}
    (hty : ∀ vars, (∀ n ∈ vars.map Prod.fst, n ≠ c!"read_item_S") → tyOf C.E C.cls (vars ++ C.self) (.name [c!"read_item_S"]) = some .item) :
    ∃ R' t', exec C headStmt ⟨R ++ loopMem h al st.cur b ++ [.val (.str l), .val (.num pos)] ++ [x, .regex c!"\\[(.+)\\]"], lineVs R.length u q p, files, out⟩ =
      .ok .next ⟨R' ++ loopMem h al (match search matchSection l with | some k => some k | none => st.cur) b ++ t', lineVs R.length u q p, files, out⟩ ∧ t'.length = 4 ∧
      RdrMem al ak av R' (match search matchSection l with
        | some k => { st with under := put k [] st.under, cur := some k }
        | none => st) ∧ Frame al ak av R R' := by
  have hs := eval_search (C := C) (files := files) (out := out) (vs := lineVs R.length u q p) (A := R ++ loopMem h al st.cur b ++ [.val (.str l), .val (.num pos)]) (B := [])
    (x := x) (z := c!"\\[(.+)\\]") (l := l) (a := R.length + 5) (g := (search matchSection l).map fun k => [k]) (by simp [loopMem]; rfl) (by simp [loopMem]; rfl) rfl
    (by simp [loopMem]) rfl
  simp only [List.append_nil] at hs
  rw [headStmt, exec]
  rw [← searchE] at hs
  simp only [M.bind_run] at hs ⊢
  rw [hs, Res.ok_bind]
  cases hm : search matchSection l with
  | none =>
    exact ⟨R, [.val (.str l), .val (.num pos), .smatch [], .regex c!"\\[(.+)\\]"], by simp, rfl, hR, .rfl⟩
  | some k =>
    simp only [Option.map_some, Option.isSome_some, if_true, Option.getD_some]
    -- std::string key = res[1].str();
    have e1 : exec C (.decl (.name [c!"std", c!"string"]) c!"key" none (some (groupE c!"1")))
        ⟨R ++ loopMem h al st.cur b ++ [.val (.str l), .val (.num pos)] ++ [.smatch [k], .regex c!"\\[(.+)\\]"], lineVs R.length u q p, files, out⟩ =
        .ok .next ⟨R ++ (loopMem h al st.cur b ++ [.val (.str l), .val (.num pos), .smatch [k], .regex c!"\\[(.+)\\]", .val (.str k)]),
          (c!"key", ⟨.str, ⟨R.length + 9, []⟩⟩) :: lineVs R.length u q p, files, out⟩ := by
      have := exec_declInit (C := C) (files := files) (out := out) (vars := lineVs R.length u q p) (u := .str) (t := .name [c!"std", c!"string"]) (n := c!"key")
        (m := R ++ loopMem h al st.cur b ++ [.val (.str l), .val (.num pos)] ++ [.smatch [k], .regex c!"\\[(.+)\\]"]) rfl
        (eval_group (i := c!"1") (j := 0) (g := k) (by simp [loopMem]; rfl) (.inl ⟨rfl, rfl⟩) rfl) (initFrom_load rfl)
      rw [← groupE] at this
      simpa [loopMem] using this
    -- read_item_S new_item;
    have e2 : exec C (.decl (.name [c!"read_item_S"]) c!"new_item" none none)
        ⟨R ++ (loopMem h al st.cur b ++ [.val (.str l), .val (.num pos), .smatch [k], .regex c!"\\[(.+)\\]", .val (.str k)]),
          (c!"key", ⟨.str, ⟨R.length + 9, []⟩⟩) :: lineVs R.length u q p, files, out⟩ =
        .ok .next ⟨R ++ (loopMem h al st.cur b ++ [.val (.str l), .val (.num pos), .smatch [k], .regex c!"\\[(.+)\\]", .val (.str k), .val (itemVal [] [])]),
          (c!"new_item", ⟨.item, ⟨R.length + 10, []⟩⟩) :: (c!"key", ⟨.str, ⟨R.length + 9, []⟩⟩) :: lineVs R.length u q p, files, out⟩ := by
      have := exec_decl (C := C) (files := files) (out := out) (vars := (c!"key", ⟨.str, ⟨R.length + 9, []⟩⟩) :: lineVs R.length u q p)
        (u := .item) (t := .name [c!"read_item_S"]) (n := c!"new_item")
        (m := R ++ (loopMem h al st.cur b ++ [.val (.str l), .val (.num pos), .smatch [k], .regex c!"\\[(.+)\\]", .val (.str k)]))
        (hty _ (by simp [lineVs, loopVs]))
      simpa [loopMem, initV, itemVal] using this
    obtain ⟨R1, e3, hR1, ho⟩ := rdr_section (files := files) (out := out)
      (t := loopMem h al st.cur b ++ [.val (.str l), .val (.num pos), .smatch [k], .regex c!"\\[(.+)\\]", .val (.str k), .val (itemVal [] [])])
      (vs := (c!"new_item", ⟨.item, ⟨R.length + 10, []⟩⟩) :: (c!"key", ⟨.str, ⟨R.length + 9, []⟩⟩) :: lineVs R.length u q p) hC hR rfl
      (K := .id [c!"key"]) (k := k) (v := .id [c!"new_item"]) (IsStr.var rfl (by simp [loopMem])) (eval_id rfl)
      (fun R' hR' => load_lv (peek_var (by rw [← hR'.1]; simp [loopMem])) rfl)
    have e4 : exec C (.expr (.assign (.id [c!"current_lookup"]) (.addr (.index (.mem (.id [c!"m_lookup"]) c!"under") (.id [c!"key"])))))
        ⟨R1 ++ (loopMem h al st.cur b ++ [.val (.str l), .val (.num pos), .smatch [k], .regex c!"\\[(.+)\\]", .val (.str k), .val (itemVal [] [])]),
          (c!"new_item", ⟨.item, ⟨R.length + 10, []⟩⟩) :: (c!"key", ⟨.str, ⟨R.length + 9, []⟩⟩) :: lineVs R.length u q p, files, out⟩ =
        .ok .next ⟨R1 ++ (loopMem h al (some k) b ++ [.val (.str l), .val (.num pos), .smatch [k], .regex c!"\\[(.+)\\]", .val (.str k), .val (itemVal [] [])]),
          (c!"new_item", ⟨.item, ⟨R.length + 10, []⟩⟩) :: (c!"key", ⟨.str, ⟨R.length + 9, []⟩⟩) :: lineVs R.length u q p, files, out⟩ := by
      rw [exec, eval, M.bind_run, M.bind_run, eval_section hC hR1 rfl (K := .id [c!"key"]) (k := k) (m := []) (IsStr.var rfl (by rw [← ho.1]; simp [loopMem]))
        (by rw [put_lookup, if_pos rfl]), Res.ok_bind, M.bind_run, eval_id rfl]
      simp only [Res.ok_bind, assignE, M.bind_run, load_rv, coerce_self, M.opt_some, M.pure_run]
      rw [poke_var (by rw [← ho.1]; simp [loopMem])]
      simp [← ho.1, loopMem, curPlace]
    refine ⟨R1, [.val (.str l), .val (.num pos), .smatch [k], .regex c!"\\[(.+)\\]"], ?_, rfl, hR1, ho.frame⟩
    rw [scope, exec, scope, execs_cons e1, execs_cons e2, execs_cons e3, execs_cons e4, execs]
    simp [loopMem, ← ho.1, List.take_length_add_append]

/-- A line with one word. -/
theorem exec_word {R : List V} {st : IniSt} (hC : RdrCtx E cls C al ak av) (hR : RdrMem al ak av R st) {l : Str} {pos : Int} {x : V} :
    ∃ R' t', exec C wordStmt ⟨R ++ loopMem h al st.cur b ++ [.val (.str l), .val (.num pos)] ++ [x, .regex c!"(\\w+)"], lineVs R.length u q p, files, out⟩ =
      .ok .next ⟨R' ++ loopMem h al st.cur b ++ t', lineVs R.length u q p, files, out⟩ ∧ t'.length = 4 ∧
      RdrMem al ak av R' (match search matchWord l with
        | some k => { st with key := k, value := c!"\n" }
        | none => st) ∧ Frame al ak av R R' := by
  have hs := eval_search (C := C) (files := files) (out := out) (vs := lineVs R.length u q p) (A := R ++ loopMem h al st.cur b ++ [.val (.str l), .val (.num pos)]) (B := [])
    (x := x) (z := c!"(\\w+)") (l := l) (a := R.length + 5) (g := (search matchWord l).map fun k => [k]) (by simp [loopMem]; rfl) (by simp [loopMem]; rfl) rfl
    (by simp [loopMem]) rfl
  simp only [List.append_nil] at hs
  rw [wordStmt, exec]
  rw [← searchE] at hs
  simp only [M.bind_run] at hs ⊢
  rw [hs, Res.ok_bind]
  cases hm : search matchWord l with
  | none =>
    exact ⟨R, [.val (.str l), .val (.num pos), .smatch [], .regex c!"(\\w+)"], by simp, rfl, hR, .rfl⟩
  | some k =>
    simp only [Option.map_some, Option.isSome_some, if_true, Option.getD_some]
    have e1 := exec_setStr (C := C) (files := files) (out := out) (vs := lineVs R.length u q p) (z := k) (e := groupE c!"1")
      (A := R ++ loopMem h al st.cur b ++ [.val (.str l), .val (.num pos)] ++ [.smatch [k], .regex c!"(\\w+)"])
      (n := c!"m_multiline_string_key") rfl hC.key rfl rfl (by simp; have := hR.ak_lt; omega)
      (by have := eval_group (C := C) (files := files) (out := out) (A := R ++ loopMem h al st.cur b ++ [.val (.str l), .val (.num pos)]) (B := []) (y := .regex c!"(\\w+)") (gs := [k]) (g := k)
            (i := c!"1") (j := 0) (vs := lineVs R.length u q p) (by simp [loopMem]; rfl) (.inl ⟨rfl, rfl⟩) rfl
          rwa [List.append_nil] at this) rfl rfl
    have e2 := exec_setStr (C := C) (files := files) (out := out) (vs := lineVs R.length u q p) (z := c!"\n") (e := .str c!"\n")
      (A := (R ++ loopMem h al st.cur b ++ [V.val (.str l), V.val (.num pos)] ++ [V.smatch [k], V.regex c!"(\\w+)"]).set ak (.val (.str k)))
      (n := c!"m_multiline_string_value") rfl hC.value rfl rfl (by simp; have := hR.av_lt; omega) (y := .rv (.ptr (.prim .char)) (.cstr c!"\n")) (by simp [eval, cStr]) rfl rfl
    have e3 : ∀ t, ((R ++ t).set ak (.val (.str k))).set av (.val (.str c!"\n")) = (R.set ak (.val (.str k))).set av (.val (.str c!"\n")) ++ t := by
      intro t
      rw [List.set_append_left _ _ hR.ak_lt, List.set_append_left _ _ (by simpa using hR.av_lt)]
    refine ⟨(R.set ak (.val (.str k))).set av (.val (.str c!"\n")), [.val (.str l), .val (.num pos), .smatch [k], .regex c!"(\\w+)"], ?_, rfl,
      (hR.setKey k).setValue c!"\n", (Frame.set (.inr (.inl rfl))).trans (.set (.inr (.inr rfl)))⟩
    rw [scope, exec, scope, execs_cons e1, execs_cons e2, execs]
    simp only [List.append_assoc, e3, M.pure_run]
    congr 2
    rw [List.take_of_length_le (by simp), List.take_of_length_le (by simp)]
    simp

/-- Any other line. -/
theorem exec_other {R : List V} {st : IniSt} (hC : RdrCtx E cls C al ak av) (hR : RdrMem al ak av R st) (hc : CurOk st) {l : Str} {pos : Int} {x : V} :
    ∃ R' t', exec C otherStmt ⟨R ++ loopMem h al st.cur b ++ [.val (.str l), .val (.num pos)] ++ [x, .regex c!"(\\w+) (.+)"], lineVs R.length u q p, files, out⟩ =
      .ok .next ⟨R' ++ loopMem h al st.cur b ++ t', lineVs R.length u q p, files, out⟩ ∧ t'.length = 4 ∧
      RdrMem al ak av R' (match search matchItem l with
        | some (k, v) => st.store k v
        | none =>
          match search matchWord l with
          | some k => { st with key := k, value := c!"\n" }
          | none => st) ∧ Frame al ak av R R' := by
  have hs := eval_search (C := C) (files := files) (out := out) (vs := lineVs R.length u q p) (A := R ++ loopMem h al st.cur b ++ [.val (.str l), .val (.num pos)]) (B := [])
    (x := x) (z := c!"(\\w+) (.+)") (l := l) (a := R.length + 5) (g := (search matchItem l).map fun k => [k.1, k.2]) (by simp [loopMem]; rfl) (by simp [loopMem]; rfl) rfl
    (by simp [loopMem]) rfl
  simp only [List.append_nil] at hs
  rw [otherStmt, exec]
  rw [← searchE] at hs
  simp only [M.bind_run] at hs ⊢
  rw [hs, Res.ok_bind]
  cases hm : search matchItem l with
  | none =>
    simp only [Option.map_none, Option.isSome_none, Bool.false_eq_true, if_false, Option.getD_none]
    have e1 := exec_regex (C := C) (files := files) (out := out) (vs := lineVs R.length u q p) (A := R ++ loopMem h al st.cur b ++ [.val (.str l), .val (.num pos)])
      (x := .smatch []) (y := .regex c!"(\\w+) (.+)") (B := []) (z := c!"(\\w+)") (by simp [loopMem]; rfl)
    simp only [List.append_nil] at e1
    obtain ⟨R', t', e2, ht, hR', hf⟩ := exec_word (files := files) (out := out) (h := h) (b := b) (u := u) (q := q) (p := p) hC hR (l := l) (pos := pos) (x := .smatch [])
    refine ⟨R', t', ?_, ht, hR', hf⟩
    rw [scope, exec, scope, execs_cons e1]
    rw [show cStr c!"(\\w+)" = c!"(\\w+)" from rfl, execs_cons e2, execs]
    simp only [M.pure_run]
    congr 2
    rw [List.take_of_length_le (by simp [ht, hf.1]), List.take_of_length_le (by simp [ht, hf.1])]
  | some kv =>
    obtain ⟨k, v⟩ := kv
    simp only [Option.map_some, Option.isSome_some, if_true, Option.getD_some]
    have e1 : exec C (.decl (.name [c!"std", c!"string"]) c!"key" none (some (groupE c!"1")))
        ⟨R ++ loopMem h al st.cur b ++ [.val (.str l), .val (.num pos)] ++ [.smatch [k, v], .regex c!"(\\w+) (.+)"], lineVs R.length u q p, files, out⟩ =
        .ok .next ⟨R ++ loopMem h al st.cur b ++ [.val (.str l), .val (.num pos)] ++ [.smatch [k, v], .regex c!"(\\w+) (.+)"] ++ [.val (.str k)],
          (c!"key", ⟨.str, ⟨R.length + 9, []⟩⟩) :: lineVs R.length u q p, files, out⟩ := by
      have := exec_declInit (C := C) (files := files) (out := out) (vars := lineVs R.length u q p) (u := .str) (t := .name [c!"std", c!"string"]) (n := c!"key")
        (m := R ++ loopMem h al st.cur b ++ [.val (.str l), .val (.num pos)] ++ [.smatch [k, v], .regex c!"(\\w+) (.+)"]) rfl
        (eval_group (i := c!"1") (j := 0) (g := k) (by simp [loopMem]; rfl) (.inl ⟨rfl, rfl⟩) rfl) (initFrom_load rfl)
      rw [← groupE] at this
      simpa [loopMem] using this
    have e2 : exec C (.decl (.name [c!"std", c!"string"]) c!"value" none (some (groupE c!"2")))
        ⟨R ++ loopMem h al st.cur b ++ [.val (.str l), .val (.num pos)] ++ [.smatch [k, v], .regex c!"(\\w+) (.+)"] ++ [.val (.str k)],
          (c!"key", ⟨.str, ⟨R.length + 9, []⟩⟩) :: lineVs R.length u q p, files, out⟩ =
        .ok .next ⟨R ++ (loopMem h al st.cur b ++ [.val (.str l), .val (.num pos), .smatch [k, v], .regex c!"(\\w+) (.+)", .val (.str k), .val (.str v)]),
          (c!"value", ⟨.str, ⟨R.length + 10, []⟩⟩) :: (c!"key", ⟨.str, ⟨R.length + 9, []⟩⟩) :: lineVs R.length u q p, files, out⟩ := by
      have := exec_declInit (C := C) (files := files) (out := out) (vars := (c!"key", ⟨.str, ⟨R.length + 9, []⟩⟩) :: lineVs R.length u q p) (u := .str) (t := .name [c!"std", c!"string"]) (n := c!"value")
        (m := R ++ loopMem h al st.cur b ++ [.val (.str l), .val (.num pos)] ++ [.smatch [k, v], .regex c!"(\\w+) (.+)"] ++ [.val (.str k)]) rfl
        (by rw [List.append_assoc]; exact eval_group (i := c!"2") (j := 1) (g := v) (by simp [loopMem]; rfl) (.inr ⟨rfl, rfl⟩) rfl) (initFrom_load rfl)
      rw [← groupE] at this
      simpa [loopMem] using this
    obtain ⟨R1, e3, hR1, ho⟩ := rdr_store (files := files) (out := out)
      (t := loopMem h al st.cur b ++ [.val (.str l), .val (.num pos), .smatch [k, v], .regex c!"(\\w+) (.+)", .val (.str k), .val (.str v)])
      (vs := (c!"value", ⟨.str, ⟨R.length + 10, []⟩⟩) :: (c!"key", ⟨.str, ⟨R.length + 9, []⟩⟩) :: lineVs R.length u q p) hC hR hc
      (K := .id [c!"key"]) (k := k) (v := .id [c!"value"]) (ac := R.length + 2) rfl (by simp [loopMem]) (IsStr.var rfl (by simp [loopMem])) (eval_id rfl)
      (w := v) (fun R' hR' => load_lv (peek_var (by rw [← hR'.1]; simp [loopMem])) rfl)
    refine ⟨R1, [.val (.str l), .val (.num pos), .smatch [k, v], .regex c!"(\\w+) (.+)"], ?_, rfl, hR1, ho.frame⟩
    rw [scope, exec, scope, execs_cons e1, execs_cons e2, execs_cons e3, execs]
    simp [loopMem, ← ho.1, List.take_length_add_append]

theorem curOk_line {st : IniSt} (hc : CurOk st) (l : Str) : CurOk (st.line l) := by
  unfold IniSt.line
  cases l with
  | nil => exact hc
  | cons c l =>
    dsimp only
    split
    · cases search matchSection (c :: l) with
      | none => exact hc
      | some k =>
        intro s hs
        cases hs
        show ((put k [] st.under).lookup k).isSome = true
        rw [put_lookup, if_pos rfl]; rfl
    · split
      · exact hc
      · cases search matchItem (c :: l) with
        | some kv => exact hc.store _ _
        | none =>
          cases search matchWord (c :: l) with
          | some k => exact hc
          | none => exact hc

/-- The body of `switch`, process_items_ini.cpp:150-187.  (Proof notion, models no code.) -/
def switchBody : List Stmt := [
  .case (.chr c!"["),
  .expr (.assign (.id [c!"regex"]) (.str c!"\\[(.+)\\]")),
  headStmt,
  .brk,
  .case (.chr c!" "),
  .expr (.plusAssign (.id [c!"m_multiline_string_value"]) (.id [c!"line"])),
  .brk,
  .default,
  .expr (.assign (.id [c!"regex"]) (.str c!"(\\w+) (.+)")),
  otherStmt,
  .brk]

theorem execSw_label {f : Stmt → Bool} {a : Stmt} {ss : List Stmt} {on : Bool} (h : a.isLabel = true) :
    execSw C f (a :: ss) on = execSw C f ss (on || f a) := by
  rw [execSw, if_pos h]

theorem execSw_off {f : Stmt → Bool} {a : Stmt} {ss : List Stmt} (h : a.isLabel = false) : execSw C f (a :: ss) false = execSw C f ss false := by
  rw [execSw, if_neg (by simp [h]), if_neg (by simp)]

theorem execSw_on {f : Stmt → Bool} {a : Stmt} {ss : List Stmt} (h : a.isLabel = false) {s s' : St} (he : exec C a s = .ok .next s') :
    execSw C f (a :: ss) true s = execSw C f ss true s' := by
  rw [execSw, if_neg (by simp [h]), if_pos rfl, M.bind_run, he]
  rfl

theorem execSw_brk {f : Stmt → Bool} {ss : List Stmt} {s : St} : execSw C f (.brk :: ss) true s = .ok .brk s := by
  rw [execSw, if_neg (by simp [Stmt.isLabel]), if_pos rfl, M.bind_run, exec]
  rfl

theorem exec_switch {R : List V} {st : IniSt} (hC : RdrCtx E cls C al ak av) (hR : RdrMem al ak av R st) (hc : CurOk st) {c : Char} {l : Str} {pos : Int}
    (hty : ∀ vars, (∀ n ∈ vars.map Prod.fst, n ≠ c!"read_item_S") → tyOf C.E C.cls (vars ++ C.self) (.name [c!"read_item_S"]) = some .item) :
    ∃ R' t', exec C switchStmt ⟨R ++ loopMem h al st.cur b ++ [.val (.str (c :: l)), .val (.num pos)] ++ [.smatch [], .regex []], lineVs R.length u q p, files, out⟩ =
      .ok .next ⟨R' ++ loopMem h al (st.line (c :: l)).cur b ++ t', lineVs R.length u q p, files, out⟩ ∧ t'.length = 4 ∧
      RdrMem al ak av R' (st.line (c :: l)) ∧ Frame al ak av R R' := by
  have h0 := eval_line0 (C := C) (files := files) (out := out) (vs := lineVs R.length u q p) (c := c) (l := l) (a := R.length + 5)
    (A := R ++ loopMem h al st.cur b ++ [.val (.str (c :: l)), .val (.num pos)] ++ [.smatch [], .regex []]) rfl (by simp [loopMem])
  have hr : ∀ z, exec C (.expr (.assign (.id [c!"regex"]) (.str z)))
      ⟨R ++ loopMem h al st.cur b ++ [.val (.str (c :: l)), .val (.num pos)] ++ [.smatch [], .regex []], lineVs R.length u q p, files, out⟩ =
      .ok .next ⟨R ++ loopMem h al st.cur b ++ [.val (.str (c :: l)), .val (.num pos)] ++ [.smatch [], .regex (cStr z)], lineVs R.length u q p, files, out⟩ := by
    intro z
    have := exec_regex (C := C) (files := files) (out := out) (vs := lineVs R.length u q p) (A := R ++ loopMem h al st.cur b ++ [.val (.str (c :: l)), .val (.num pos)])
      (x := .smatch []) (y := .regex []) (B := []) (z := z) (by simp [loopMem]; rfl)
    simpa only [List.append_nil] using this
  -- from the label on
  have hsw : ∀ (s' : St), execSw C (jumpTo [c] switchBody) switchBody false
        ⟨R ++ loopMem h al st.cur b ++ [.val (.str (c :: l)), .val (.num pos)] ++ [.smatch [], .regex []], lineVs R.length u q p, files, out⟩ = .ok .brk s' →
      exec C switchStmt ⟨R ++ loopMem h al st.cur b ++ [.val (.str (c :: l)), .val (.num pos)] ++ [.smatch [], .regex []], lineVs R.length u q p, files, out⟩ =
        .ok .next { s' with vars := lineVs R.length u q p, mem := s'.mem.take (R.length + 9) } := by
    intro s' hs
    rw [switchStmt, exec]
    simp only [M.bind_run, h0, Res.ok_bind, load_rv]
    rw [if_neg (by decide), M.bind_run, ← switchBody, scope_ok hs]
    simp [loopMem]
  have hany : ∀ x, switchBody.any (Stmt.isCase x) = (decide (c!"[" = x) || decide (c!" " = x)) := by
    intro x; simp [switchBody, Stmt.isCase, headStmt, otherStmt]
  by_cases hb : c = '['
  · subst hb
    obtain ⟨R', t', e, ht, hR', hf⟩ := exec_head (files := files) (out := out) (h := h) (b := b) (u := u) (q := q) (p := p) hC hR hc (l := '[' :: l) (pos := pos) (x := .smatch []) hty
    have hl : st.line ('[' :: l) = (match search matchSection ('[' :: l) with
        | some k => { st with under := put k [] st.under, cur := some k }
        | none => st) := by unfold IniSt.line; rfl
    have hcur : (st.line ('[' :: l)).cur = (match search matchSection ('[' :: l) with | some k => some k | none => st.cur) := by
      rw [hl]; cases search matchSection ('[' :: l) <;> rfl
    refine ⟨R', t', ?_, ht, by rw [hl]; exact hR', hf⟩
    rw [hsw (s' := ⟨R' ++ loopMem h al (st.line ('[' :: l)).cur b ++ t', lineVs R.length u q p, files, out⟩)]
    · simp only
      rw [List.take_of_length_le (by simp [loopMem, ht, hf.1])]
    · have hj : jumpTo c!"[" switchBody = Stmt.isCase c!"[" := by unfold jumpTo; rw [hany]; rfl
      rw [hj, hcur, switchBody, execSw_label rfl]
      show execSw C _ _ true _ = _
      rw [execSw_on rfl (hr _)]
      rw [show cStr c!"\\[(.+)\\]" = c!"\\[(.+)\\]" from rfl, execSw_on rfl e, execSw_brk]
  · by_cases hsp : c = ' '
    · subst hsp
      have hl : st.line (' ' :: l) = { st with value := st.value ++ ' ' :: l } := by unfold IniSt.line; rfl
      have hav := hR.av_lt
      refine ⟨R.set av (.val (.str (st.value ++ ' ' :: l))), [.val (.str (' ' :: l)), .val (.num pos), .smatch [], .regex []], ?_, rfl, by rw [hl]; exact hR.setValue _, .set (.inr (.inr rfl))⟩
      rw [hsw (s' := ⟨R.set av (.val (.str (st.value ++ ' ' :: l))) ++ loopMem h al st.cur b ++ [.val (.str (' ' :: l)), .val (.num pos)] ++ [.smatch [], .regex []], lineVs R.length u q p, files, out⟩)]
      · simp only [hl]
        rw [List.take_of_length_le (by simp [loopMem])]
        simp
      · have hj : jumpTo c!" " switchBody = Stmt.isCase c!" " := by unfold jumpTo; rw [hany]; rfl
        rw [hj, switchBody, execSw_label rfl]
        show execSw C _ _ false _ = _
        rw [execSw_off rfl, execSw_off rfl, execSw_off rfl, execSw_label rfl]
        show execSw C _ _ true _ = _
        have e : exec C (.expr (.plusAssign (.id [c!"m_multiline_string_value"]) (.id [c!"line"])))
            ⟨R ++ loopMem h al st.cur b ++ [.val (.str (' ' :: l)), .val (.num pos)] ++ [.smatch [], .regex []], lineVs R.length u q p, files, out⟩ =
            .ok .next ⟨R.set av (.val (.str (st.value ++ ' ' :: l))) ++ loopMem h al st.cur b ++ [.val (.str (' ' :: l)), .val (.num pos)] ++ [.smatch [], .regex []], lineVs R.length u q p, files, out⟩ := by
          rw [exec, eval]
          simp only [M.bind_run]
          rw [eval_id (x := ⟨.str, ⟨R.length + 5, []⟩⟩) rfl, Res.ok_bind, M.bind_run, eval_self rfl hC.value, Res.ok_bind]
          simp only [plusE, strArg, M.bind_run]
          rw [load_lv (t := .str) (v := .val (.str (' ' :: l))) (peek_var (by simp [loopMem])) rfl]
          simp only [Res.ok_bind, coerce_self, M.pure_run, M.bind_run]
          rw [peek_var (v := .val (.str st.value)) (by rw [List.append_assoc, List.append_assoc, List.getElem?_append_left hav, hR.value])]
          simp only [Res.ok_bind, M.bind_run]
          rw [poke_var (by simp; omega)]
          simp [List.set_append_left, hav]
        rw [execSw_on rfl e, execSw_brk]
    · obtain ⟨R', t', e, ht, hR', hf⟩ := exec_other (files := files) (out := out) (h := h) (b := b) (u := u) (q := q) (p := p) hC hR hc (l := c :: l) (pos := pos) (x := .smatch [])
      have hl : st.line (c :: l) = (match search matchItem (c :: l) with
        | some (k, v) => st.store k v
        | none =>
          match search matchWord (c :: l) with
          | some k => { st with key := k, value := c!"\n" }
          | none => st) := by unfold IniSt.line; simp only [if_neg hb, if_neg hsp]; rfl
      have hcur : (st.line (c :: l)).cur = st.cur := by
        rw [hl]
        cases search matchItem (c :: l) with
        | some kv => exact store_cur _ _
        | none => cases search matchWord (c :: l) <;> rfl
      refine ⟨R', t', ?_, ht, by rw [hl]; exact hR', hf⟩
      rw [hcur, hsw (s' := ⟨R' ++ loopMem h al st.cur b ++ t', lineVs R.length u q p, files, out⟩)]
      · simp only
        rw [List.take_of_length_le (by simp [loopMem, ht, hf.1])]
      · have hj : jumpTo [c] switchBody = Stmt.isDefault := by
          unfold jumpTo
          rw [hany, if_neg (by simpa using ⟨fun e => hb (Eq.symm e), fun e => hsp (Eq.symm e)⟩)]
        rw [hj, switchBody, execSw_label rfl]
        show execSw C _ _ false _ = _
        rw [execSw_off rfl, execSw_off rfl, execSw_off rfl, execSw_label rfl]
        show execSw C _ _ false _ = _
        rw [execSw_off rfl, execSw_off rfl, execSw_label rfl]
        show execSw C _ _ true _ = _
        rw [execSw_on rfl (hr _)]
        rw [show cStr c!"(\\w+) (.+)" = c!"(\\w+) (.+)" from rfl, execSw_on rfl e, execSw_brk]

/-- The body of the loop, process_items_ini.cpp:130-188.  (Proof notion, models no code.) -/
def pieceStmts : List Stmt := [
  lineDecl, posDecl, cutStmt, skipStmt, flushStmt,
  .decl (.name [c!"std", c!"smatch"]) c!"res" none none,
  .decl (.name [c!"std", c!"regex"]) c!"regex" none none,
  switchStmt]

/-- The text of a file is read piece by piece: one piece. -/
theorem exec_piece {R : List V} {st : IniSt} (hC : RdrCtx E cls C al ak av) (hR : RdrMem al ak av R st) (hc : CurOk st) {b : Str} (hb : b.length ≤ 79)
    (h32 : 32 ≤ C.E.T.longBits)
    (hty : ∀ vars, (∀ n ∈ vars.map Prod.fst, n ≠ c!"read_item_S") → tyOf C.E C.cls (vars ++ C.self) (.name [c!"read_item_S"]) = some .item)
    (hsz : ∀ vars, (∀ n ∈ vars.map Prod.fst, n ≠ c!"size_t") → tyOf C.E C.cls (vars ++ C.self) (.name [c!"size_t"]) = some (.prim .ulong)) :
    ∃ R' f, scope (exec C (.block pieceStmts)) ⟨R ++ loopMem h al st.cur (.val (.str b)), loopVs R.length u q p, files, out⟩ =
      .ok f ⟨R' ++ loopMem h al (st.piece b).cur (.val (.str b)), loopVs R.length u q p, files, out⟩ ∧ (f = .next ∨ f = .cont) ∧
      RdrMem al ak av R' (st.piece b) ∧ CurOk (st.piece b) ∧ Frame al ak av R R' := by
  have e1 := exec_line (C := C) (files := files) (out := out) (vs := loopVs R.length u q p) (A := R ++ loopMem h al st.cur (.val (.str b))) (b := b) (ab := R.length + 4) (size := 81) rfl
    (by simp [loopMem])
  obtain ⟨pos, e2⟩ := execs_cut (C := C) (files := files) (out := out) (vs := loopVs R.length u q p) (A := R ++ loopMem h al st.cur (.val (.str b))) (l := cStr b)
    (ts := [skipStmt, flushStmt, .decl (.name [c!"std", c!"smatch"]) c!"res" none none, .decl (.name [c!"std", c!"regex"]) c!"regex" none none, switchStmt])
    h32 (Nat.le_trans (cStr_length b) hb) (hsz _ (by simp [loopVs]))
  have hlen : (R ++ loopMem h al st.cur (.val (.str b))).length = R.length + 5 := by simp [loopMem]
  rw [hlen] at e1 e2
  have hbody : ∀ s, scope (exec C (.block pieceStmts)) s = scope (scope (execs C pieceStmts)) s := by intro s; rw [exec]
  rw [hbody]
  have hrun : execs C pieceStmts ⟨R ++ loopMem h al st.cur (.val (.str b)), loopVs R.length u q p, files, out⟩ = _ :=
    (execs_cons e1).trans e2
  have e3 := exec_skip (C := C) (files := files) (out := out)
    (vs := (c!"pos", ⟨.prim .ulong, ⟨R.length + 5 + 1, []⟩⟩) :: (c!"line", ⟨.str, ⟨R.length + 5, []⟩⟩) :: loopVs R.length u q p)
    (A := R ++ loopMem h al st.cur (.val (.str b)) ++ [.val (.str ((cStr b).takeWhile (· ≠ '%')))] ++ [.val (.num pos)]) (al := R.length + 5)
    (l := (cStr b).takeWhile (· ≠ '%')) rfl (by simp [loopMem])
  unfold IniSt.piece
  cases hl : (cStr b).takeWhile (· ≠ '%') with
  | nil =>
    refine ⟨R, .cont, ?_, .inr rfl, hR, hc, .rfl⟩
    rw [hl] at hrun e3
    rw [if_pos rfl] at e3
    have : execs C pieceStmts ⟨R ++ loopMem h al st.cur (.val (.str b)), loopVs R.length u q p, files, out⟩ =
        .ok .cont ⟨R ++ loopMem h al st.cur (.val (.str b)) ++ [.val (.str [])] ++ [.val (.num pos)],
          (c!"pos", ⟨.prim .ulong, ⟨R.length + 5 + 1, []⟩⟩) :: (c!"line", ⟨.str, ⟨R.length + 5, []⟩⟩) :: loopVs R.length u q p, files, out⟩ := by
      rw [hrun, execs, M.bind_run, e3, Res.ok_bind]; rfl
    rw [scope_ok (scope_ok this)]
    simp [loopMem, List.take_length_add_append]
  | cons c l =>
    rw [hl] at hrun e3
    rw [if_neg (by simp)] at e3
    obtain ⟨R1, e4, hR1, hc1, hcur1, hf1⟩ := exec_flush (files := files) (out := out) (R := R) (t := loopMem h al st.cur (.val (.str b)) ++ [.val (.str (c :: l)), .val (.num pos)])
      (vs := (c!"pos", ⟨.prim .ulong, ⟨R.length + 5 + 1, []⟩⟩) :: (c!"line", ⟨.str, ⟨R.length + 5, []⟩⟩) :: loopVs R.length u q p) hC hR hc
      (ac := R.length + 2) (ali := R.length + 5) (c := c) (l := l) rfl (by omega) (by simp [loopMem]) rfl (by simp [loopMem]) rfl rfl
    have e5 := exec_decl (C := C) (files := files) (out := out) (vars := (c!"pos", ⟨.prim .ulong, ⟨R.length + 5 + 1, []⟩⟩) :: (c!"line", ⟨.str, ⟨R.length + 5, []⟩⟩) :: loopVs R.length u q p)
      (u := .smatch) (t := .name [c!"std", c!"smatch"]) (n := c!"res") (m := R1 ++ (loopMem h al st.cur (.val (.str b)) ++ [.val (.str (c :: l)), .val (.num pos)])) rfl
    have e6 := exec_decl (C := C) (files := files) (out := out) (vars := (c!"res", ⟨.smatch, ⟨R.length + 7, []⟩⟩) :: (c!"pos", ⟨.prim .ulong, ⟨R.length + 5 + 1, []⟩⟩) :: (c!"line", ⟨.str, ⟨R.length + 5, []⟩⟩) :: loopVs R.length u q p)
      (u := .regex) (t := .name [c!"std", c!"regex"]) (n := c!"regex") (m := R1 ++ (loopMem h al st.cur (.val (.str b)) ++ [.val (.str (c :: l)), .val (.num pos)]) ++ [.smatch []]) rfl
    obtain ⟨R2, t2, e7, ht2, hR2, hf2⟩ := exec_switch (files := files) (out := out) (h := h) (b := .val (.str b)) (u := u) (q := q) (p := p) hC hR1 hc1 (c := c) (l := l) (pos := pos) hty
    have hl5 : (R1 ++ (loopMem h al st.cur (.val (.str b)) ++ [V.val (.str (c :: l)), V.val (.num pos)])).length = R.length + 7 := by simp [loopMem, hf1.1]
    have hl6 : (R1 ++ (loopMem h al st.cur (.val (.str b)) ++ [V.val (.str (c :: l)), V.val (.num pos)]) ++ [V.smatch []]).length = R.length + 8 := by simp [loopMem, hf1.1]
    rw [hl5] at e5
    rw [hl6] at e6
    rw [hcur1, hf1.1] at e7
    have hend : execs C pieceStmts ⟨R ++ loopMem h al st.cur (.val (.str b)), loopVs R.length u q p, files, out⟩ =
        .ok .next ⟨R2 ++ loopMem h al ((st.flush c).line (c :: l)).cur (.val (.str b)) ++ t2, lineVs R.length u q p, files, out⟩ := by
      rw [hrun, execs_cons e3]
      simp only [initV, List.append_assoc, List.cons_append, List.nil_append] at e4 e5 e6 e7 ⊢
      rw [execs_cons e4, execs_cons e5, execs_cons e6]
      rw [show (c!"regex", _) :: _ = lineVs R.length u q p from rfl, execs_cons e7, execs]
      rfl
    refine ⟨R2, .next, ?_, .inl rfl, hR2, curOk_line hc1 _, hf1.trans hf2⟩
    rw [scope_ok (scope_ok hend)]
    simp only
    rw [List.take_append_of_le_length (by simp [loopMem, hf1.1, hf2.1]), List.take_of_length_le (by simp [loopMem, hf1.1, hf2.1]),
      List.take_of_length_le (by simp [loopMem, hf1.1, hf2.1])]

/-! ### The loop -/

/-- `nullptr != std::fgets(buf, buflen, file)`, process_items_ini.cpp:130.  (Proof notion, models no code.) -/
def getsE : Expr := .bin .ne .null (.call (.id [c!"std", c!"fgets"]) [(.id [c!"buf"]), (.id [c!"buflen"]), (.id [c!"file"])])

theorem eval_gets {R : List V} {cur : Option Str} {b : V} :
    (eval C getsE >>= asBool) ⟨R ++ loopMem h al cur b, loopVs R.length u q p, files, out⟩ =
      (((fgets (.lv (.buf 81) ⟨R.length + 4, []⟩) (.prim .int, .val (.num 80)) (.ptr .file, .file h) >>= load) >>= fun v => binV .ne .null .null v.1 v.2) >>= asBool)
        ⟨R ++ loopMem h al cur b, loopVs R.length u q p, files, out⟩ := by
  rw [M.bind_run, M.bind_run, M.bind_run, M.bind_run, getsE, eval]
  · simp only [M.bind_run]
    rw [eval, M.pure_run, Res.ok_bind, load_rv, Res.ok_bind]
    simp only [M.bind_run]
    rw [eval]
    simp only [M.bind_run, evals]
    rw [eval_id (x := ⟨.buf 81, ⟨R.length + 4, []⟩⟩) rfl, Res.ok_bind]
    simp only [M.bind_run]
    rw [eval_id (x := ⟨.prim .int, ⟨R.length + 3, []⟩⟩) rfl, Res.ok_bind]
    simp only [M.bind_run]
    rw [eval_id (x := ⟨.ptr .file, ⟨R.length + 1, []⟩⟩) rfl, Res.ok_bind]
    simp only [M.pure_run, Res.ok_bind, M.bind_run]
    rw [show ∀ a b c, callId C [c!"std", c!"fgets"] [a, b, c] = (do let x ← load b; let f ← load c; fgets a x f) from fun _ _ _ => rfl]
    simp only [M.bind_run]
    rw [load_lv (v := .val (.num 80)) (peek_var (by simp [loopMem])) rfl, Res.ok_bind]
    simp only [M.bind_run]
    rw [load_lv (v := .file h) (peek_var (by simp [loopMem])) rfl, Res.ok_bind]
  · intro h; cases h
  · intro h; cases h

/-- At the end of the file. -/
theorem eval_gets_end {R : List V} {cur : Option Str} {b : V} (hf : files[h]? = some (.rd [])) :
    (eval C getsE >>= asBool) ⟨R ++ loopMem h al cur b, loopVs R.length u q p, files, out⟩ =
      .ok false ⟨R ++ loopMem h al cur b, loopVs R.length u q p, files, out⟩ := by
  rw [eval_gets]
  simp [fgets, hf, binV, asBool]

/-- Before the end of the file. -/
theorem eval_gets_more {R : List V} {cur : Option Str} {b : V} {c : Char} {text : Str} (hf : files[h]? = some (.rd (c :: text))) :
    (eval C getsE >>= asBool) ⟨R ++ loopMem h al cur b, loopVs R.length u q p, files, out⟩ =
      .ok true ⟨R ++ loopMem h al cur (.val (.str (takeLine 79 (c :: text)).1)), loopVs R.length u q p, files.set h (.rd (takeLine 79 (c :: text)).2), out⟩ := by
  rw [eval_gets]
  have := takeLine_length 79 (c :: text)
  have hlt : (takeLine 79 (c :: text)).1.length < 81 := by omega
  simp only [fgets, hf, M.bind_run]
  rw [show ((80 : Int).toNat - 1) = 79 from rfl, if_pos (by decide), if_pos hlt, poke_var (by simp [loopMem])]
  rw [show (R ++ loopMem h al cur b).set (R.length + 4) (.val (.str (takeLine 79 (c :: text)).1)) = R ++ loopMem h al cur (.val (.str (takeLine 79 (c :: text)).1)) by simp [loopMem]]
  rfl

/-- The loop, process_items_ini.cpp:130-188.  (Proof notion, models no code.) -/
def loopStmt : Stmt := .while getsE (.block pieceStmts)

theorem exec_loop (hC : RdrCtx E cls C al ak av) (h32 : 32 ≤ C.E.T.longBits)
    (hty : ∀ vars, (∀ n ∈ vars.map Prod.fst, n ≠ c!"read_item_S") → tyOf C.E C.cls (vars ++ C.self) (.name [c!"read_item_S"]) = some .item)
    (hsz : ∀ vars, (∀ n ∈ vars.map Prod.fst, n ≠ c!"size_t") → tyOf C.E C.cls (vars ++ C.self) (.name [c!"size_t"]) = some (.prim .ulong)) (n : Nat) :
    ∀ (text : Str), text.length < n → ∀ (R : List V) (st : IniSt) (b : V) (files : List FileSt), RdrMem al ak av R st → CurOk st → files[h]? = some (.rd text) →
      ∃ R' b', loop (eval C getsE >>= asBool) (scope (exec C (.block pieceStmts))) n ⟨R ++ loopMem h al st.cur b, loopVs R.length u q p, files, out⟩ =
        .ok .next ⟨R' ++ loopMem h al ((filePieces text).foldl IniSt.piece st).cur b', loopVs R.length u q p, files.set h (.rd []), out⟩ ∧
        RdrMem al ak av R' ((filePieces text).foldl IniSt.piece st) ∧ Frame al ak av R R' := by
  induction n with
  | zero => intro text ht; omega
  | succ n ih =>
    intro text ht R st b files hR hc hf
    cases text with
    | nil =>
      refine ⟨R, b, ?_, hR, .rfl⟩
      have hset : files.set h (.rd []) = files := by
        have hlt := (List.getElem?_eq_some_iff.1 hf).1
        rw [List.getElem?_eq_getElem hlt, Option.some.injEq] at hf
        rw [← hf, List.set_getElem_self]
      rw [loop, M.bind_run, eval_gets_end hf, hset]
      rfl
    | cons c text =>
      have hp := filePieces_cons c text
      obtain ⟨R1, f, e, hfl, hR1, hc1, hf1⟩ := exec_piece (files := files.set h (.rd (takeLine 79 (c :: text)).2)) (out := out) (u := u) (q := q) (p := p) (h := h) hC hR hc
        (b := (takeLine 79 (c :: text)).1) (takeLine_length 79 _) h32 hty hsz
      obtain ⟨R2, b2, e2, hR2, hf2⟩ := ih (takeLine 79 (c :: text)).2 (by have : (takeLine 79 (c :: text)).2.length ≤ text.length := takeLine_rest 78 c text; rw [List.length_cons] at ht; omega) R1 _ (.val (.str (takeLine 79 (c :: text)).1))
        (files.set h (.rd (takeLine 79 (c :: text)).2)) hR1 hc1 (List.getElem?_set_self (List.getElem?_eq_some_iff.1 hf).1)
      rw [hf1.1, List.set_set] at e2
      rw [hp]
      refine ⟨R2, b2, ?_, hR2, hf1.trans hf2⟩
      rw [loop, M.bind_run, eval_gets_more hf, Res.ok_bind, if_pos rfl, M.bind_run, e, Res.ok_bind]
      rcases hfl with rfl | rfl <;> exact e2

end
end Stfx.Cpp
