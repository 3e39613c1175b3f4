import Verif.Run.XmlLeaf
/-
Files: writing an object and reading it back, for whole objects.
-/
set_option autoImplicit false
namespace Stfx.Run
open Stfx.Items Stfx.Parser Stfx.Gen

/-- All simple and enum members anywhere in an object satisfy `P`.  (Proof notion, models no code.) -/
inductive Leaves (T : CTable) (P : MTy → Val → Prop) : MTy → Val → Prop
  | leaf {ty : MTy} {v : Val} : ty.isLeaf = true → P ty v → Leaves T P ty v
  | struct {c : Str} {ms : List CMember} {fs : List (Str × Val)} : T.cls c = some ms →
      (∀ m ∈ ms, ∀ v, fs.lookup m.name = some v → Leaves T P m.ty v) → Leaves T P (.struct c) (.struct fs)
  | vec {c : Str} {vs : List Val} : (∀ v ∈ vs, Leaves T P (.struct c) v) → Leaves T P (.vec c) (.vec vs)

/-- The same with the default of each member: `P` is given the member type, its value in a default object of its struct,
and its value.  (Proof notion, models no code.) -/
inductive LeavesD (T : CTable) (P : MTy → Val → Val → Prop) : MTy → Val → Val → Prop
  | leaf {ty : MTy} {d v : Val} : ty.isLeaf = true → P ty d v → LeavesD T P ty d v
  | struct {c : Str} {ms : List CMember} {d : Val} {ds fs : List (Str × Val)} : T.cls c = some ms →
      T.dflt c = .struct ds →
      (∀ m ∈ ms, ∀ d' v', ds.lookup m.name = some d' → fs.lookup m.name = some v' → LeavesD T P m.ty d' v') →
      LeavesD T P (.struct c) d (.struct fs)
  | vec {c : Str} {d : Val} {vs : List Val} : (∀ v ∈ vs, LeavesD T P (.struct c) (T.dflt c) v) → LeavesD T P (.vec c) d (.vec vs)

/-- An object with all its vectors empty.  (Proof notion, models no code.) -/
inductive Fresh (T : CTable) : MTy → Val → Prop
  | leaf {ty : MTy} {v : Val} : ty.isLeaf = true → Fresh T ty v
  | struct {c : Str} {ms : List CMember} {fs : List (Str × Val)} : T.cls c = some ms →
      fs.map Prod.fst = ms.map CMember.name → (∀ m ∈ ms, ∀ v, fs.lookup m.name = some v → Fresh T m.ty v) →
      Fresh T (.struct c) (.struct fs)
  | vec {c : Str} : Fresh T (.vec c) (.vec [])

/-- Vectors of default objects are empty: the grammar has no initialisers for vectors.  (Proof notion, models no code.) -/
def CTable.FreshDefaults (T : CTable) : Prop := ∀ c ms, T.cls c = some ms → Fresh T (.struct c) (T.dflt c)

/-- Only simple and enum members have initialisers.  (Proof notion, models no code.) -/
def CTable.NoStructInit (T : CTable) : Prop :=
  ∀ c ms, T.cls c = some ms → ∀ m ∈ ms, m.ty.isLeaf = false → m.init = none

/-- Relation between a default, a target and a value, member by member.  (Proof notion, models no code.) -/
inductive Over (T : CTable) (P : MTy → Val → Val → Val → Prop) : MTy → Val → Val → Val → Prop
  | leaf {ty : MTy} {d t v : Val} : ty.isLeaf = true → P ty d t v → Over T P ty d t v
  | struct {c : Str} {ms : List CMember} {d : Val} {ds ts fs : List (Str × Val)} : T.cls c = some ms →
      T.dflt c = .struct ds → ts.map Prod.fst = ms.map CMember.name → fs.map Prod.fst = ms.map CMember.name →
      (∀ m ∈ ms, ∀ d' t' v', ds.lookup m.name = some d' → ts.lookup m.name = some t' → fs.lookup m.name = some v' →
        Over T P m.ty d' t' v') →
      Over T P (.struct c) d (.struct ts) (.struct fs)
  | vec {c : Str} {d : Val} {vs : List Val} : (∀ v ∈ vs, Over T P (.struct c) (T.dflt c) (T.dflt c) v) →
      Over T P (.vec c) d (.vec []) (.vec vs)

section
variable {T : CTable} {L : Lib} {k : Kind} {g delta : Bool}

/-- If each leaf survives, so does the object. -/
theorem trip_of_over {P : MTy → Val → Val → Val → Prop}
    (hP : ∀ ty d t v, ty.isLeaf = true → P ty d t v → leafTrip T L k g delta ty d t v = .ok v) {ty : MTy} {d t v : Val}
    (h : Over T P ty d t v) : Trip T L k g delta ty d t v v := by
  induction h with
  | leaf hl hp => exact .leaf hl (hP _ _ _ _ hl hp)
  | struct hc hds hts hfs _ ih =>
    refine .struct hc hds hts hfs hfs ?_
    intro m hm d' t' v' w' h1 h2 h3 h4
    rw [h3] at h4
    injection h4 with h4
    subst h4
    exact ih m hm d' t' v' h1 h2 h3
  | vec _ ih =>
    refine .vec (ts := []) rfl ?_
    intro i v w h1 h2
    rw [h1] at h2
    injection h2 with h2
    subst h2
    exact ih v (List.mem_of_getElem? h1)

theorem Leaves.inv_struct {P : MTy → Val → Prop} {c : Str} {fs : List (Str × Val)}
    (h : Leaves T P (.struct c) (.struct fs)) {ms : List CMember} (hc : T.cls c = some ms) :
    ∀ m ∈ ms, ∀ v, fs.lookup m.name = some v → Leaves T P m.ty v := by
  cases h with
  | leaf hl _ => cases hl
  | struct hc' h =>
    rw [hc] at hc'
    cases hc'
    exact h

theorem Leaves.inv_vec {P : MTy → Val → Prop} {c : Str} {vs : List Val} (h : Leaves T P (.vec c) (.vec vs)) :
    ∀ v ∈ vs, Leaves T P (.struct c) v := by
  cases h with
  | leaf hl _ => cases hl
  | vec h => exact h

theorem Leaves.inv_leaf {P : MTy → Val → Prop} {ty : MTy} {v : Val} (h : Leaves T P ty v) (hl : ty.isLeaf = true) :
    P ty v := by
  cases h with
  | leaf _ h => exact h
  | struct _ _ => cases hl
  | vec _ => cases hl

theorem Leaves.imp {P Q : MTy → Val → Prop} {ty : MTy} {v : Val} (h : Leaves T P ty v) (hpq : ∀ ty v, P ty v → Q ty v) :
    Leaves T Q ty v := by
  induction h with
  | leaf hl hp => exact .leaf hl (hpq _ _ hp)
  | struct hc _ ih => exact .struct hc ih
  | vec _ ih => exact .vec ih

/-- The object the compiler makes by default: its members. -/
theorem dflt_struct (hg : T.Good) {c : Str} {ms : List CMember} (hc : T.cls c = some ms) :
    ∃ ds, T.dflt c = .struct ds ∧ ds.map Prod.fst = ms.map CMember.name ∧
      ∀ m ∈ ms, ds.lookup m.name = some (T.memberDflt m) := by
  refine ⟨_, hg.dflt c ms hc, by simp [Function.comp_def], ?_⟩
  have hnd := hg.nodup c ms hc
  intro m hm
  clear hc
  induction ms with
  | nil => cases hm
  | cons a ms ih =>
    rw [List.map_cons, List.nodup_cons] at hnd
    rcases List.mem_cons.1 hm with rfl | h
    · simp
    · have hne : m.name ≠ a.name := fun he => hnd.1 (by rw [← he]; exact List.mem_map_of_mem h)
      have hb : (m.name == a.name) = false := by simpa using hne
      rw [List.map_cons, List.lookup_cons, hb]
      exact ih hnd.2 h

/-- Over a fresh target, with conditions on the value only. -/
theorem over_of_fresh (hg : T.Good) (hfd : T.FreshDefaults) {Q : MTy → Val → Prop} {ty : MTy} {v : Val}
    (hv : CTable.WT T false ty v) :
    ∀ {d t : Val}, Leaves T Q ty v → Fresh T ty t →
    Over T (fun ty _ _ v => CTable.WT T false ty v ∧ Q ty v) ty d t v := by
  induction hv with
  | undef h _ _ _ => cases h
  | @simple ty v h =>
    intro d t hl _
    exact .leaf rfl ⟨.simple h, hl.inv_leaf rfl⟩
  | @enum n e val i h1 h2 h3 =>
    intro d t hl _
    exact .leaf rfl ⟨.enum h1 h2 h3, hl.inv_leaf rfl⟩
  | @struct c ms fs hc hn _ ih =>
    intro d t hl hf
    obtain ⟨ds, h1, _, _⟩ := dflt_struct hg hc
    cases hf with
    | leaf hl' => cases hl'
    | @struct _ ms' ts hc' htn hts =>
      rw [hc] at hc'
      cases hc'
      refine .struct hc h1 htn hn ?_
      intro m hm d' t' v' _ a2 a3
      exact ih m hm v' a3 (hl.inv_struct hc m hm v' a3) (hts m hm t' a2)
  | @vec c vs hvs ih =>
    intro d t hl hf
    cases hf with
    | leaf hl' => cases hl'
    | vec =>
      refine .vec ?_
      intro v hv
      have hcls : ∃ ms, T.cls c = some ms := by
        cases hvs v hv with
        | undef h _ _ _ => cases h
        | struct h _ _ => exact ⟨_, h⟩
      obtain ⟨ms, hms⟩ := hcls
      exact ih v hv (hl.inv_vec v hv) (hfd c ms hms)

theorem LeavesD.inv_struct {P : MTy → Val → Val → Prop} {c : Str} {d : Val} {ds fs : List (Str × Val)}
    (h : LeavesD T P (.struct c) d (.struct fs)) {ms : List CMember} (hc : T.cls c = some ms) (hd : T.dflt c = .struct ds) :
    ∀ m ∈ ms, ∀ d' v', ds.lookup m.name = some d' → fs.lookup m.name = some v' → LeavesD T P m.ty d' v' := by
  cases h with
  | leaf hl _ => cases hl
  | struct hc' hd' h =>
    rw [hc] at hc'
    cases hc'
    rw [hd] at hd'
    cases hd'
    exact h

theorem LeavesD.inv_vec {P : MTy → Val → Val → Prop} {c : Str} {d : Val} {vs : List Val}
    (h : LeavesD T P (.vec c) d (.vec vs)) : ∀ v ∈ vs, LeavesD T P (.struct c) (T.dflt c) v := by
  cases h with
  | leaf hl _ => cases hl
  | vec h => exact h

theorem LeavesD.inv_leaf {P : MTy → Val → Val → Prop} {ty : MTy} {d v : Val} (h : LeavesD T P ty d v)
    (hl : ty.isLeaf = true) : P ty d v := by
  cases h with
  | leaf _ h => exact h
  | struct _ _ _ => cases hl
  | vec _ => cases hl

/-- Over a default target, if only leaves have initialisers. -/
theorem over_of_default (hg : T.Good) (hni : T.NoStructInit) {Q : MTy → Val → Val → Prop} {ty : MTy} {v : Val}
    (hv : CTable.WT T false ty v) :
    ∀ {d : Val}, (ty.isLeaf = false → d = T.dfltTy ty) → LeavesD T Q ty d v →
    Over T (fun ty d t v => t = d ∧ CTable.WT T false ty v ∧ Q ty d v) ty d d v := by
  induction hv with
  | undef h _ _ _ => cases h
  | @simple ty v h =>
    intro d _ hl
    exact .leaf rfl ⟨rfl, .simple h, hl.inv_leaf rfl⟩
  | @enum n e val i h1 h2 h3 =>
    intro d _ hl
    exact .leaf rfl ⟨rfl, .enum h1 h2 h3, hl.inv_leaf rfl⟩
  | @struct c ms fs hc hn _ ih =>
    intro d hd hl
    obtain ⟨ds, h1, h2, h3⟩ := dflt_struct hg hc
    have : d = .struct ds := by rw [hd rfl]; exact h1
    subst this
    refine .struct hc h1 h2 hn ?_
    intro m hm d' t' v' a1 a2 a3
    rw [a1] at a2
    cases a2
    refine ih m hm v' a3 ?_ (hl.inv_struct hc h1 m hm d' v' a1 a3)
    intro hnl
    rw [h3 m hm] at a1
    cases a1
    unfold CTable.memberDflt
    rw [hni c ms hc m hm hnl]
  | @vec c vs _ ih =>
    intro d hd hl
    have : d = .vec [] := hd rfl
    subst this
    refine .vec ?_
    intro v hv
    exact ih v hv (fun _ => rfl) (hl.inv_vec v hv)

/-! ### Files -/

/-- Writing an object to a file and reading that file into another object. -/
theorem file_trip {prog : List Item} (hc : Code T prog k g) {n : Str} (hr : hasReadFile prog n = true)
    (hw : hasWriteFile prog n = true) {d t v w : Val} (h : Trip T L k g delta (.struct n) d t v w) :
    ∃ root, writeFile T L prog delta n v = .ok root ∧
      (depth root ≤ L.maxDepth → readFile T L prog n (loadSaved L root) t = .ok (true, w)) := by
  obtain ⟨el, h1, h2⟩ := trip_ok hc h
  refine ⟨.elem n el.attrs el.kids, ?_, ?_⟩
  · unfold writeFile
    rw [if_pos hw, h1]
    rfl
  · intro hd
    unfold readFile loadSaved
    rw [if_pos hr, if_pos hd]
    have : ([reload (.elem n el.attrs el.kids)].find? Node.isElem) = some (reload (.elem n el.attrs el.kids)) := by
      rw [List.find?_cons, reload_isElem]
      rfl
    simp only [this, h2 n, R.ok_bind]

/-- A file nested deeper than the parser allows is not read. -/
theorem file_too_deep {prog : List Item} {n : Str} (hr : hasReadFile prog n = true) {root : Node} {t : Val}
    (hd : L.maxDepth < depth root) : readFile T L prog n (loadSaved L root) t = .ok (false, t) := by
  unfold readFile loadSaved
  rw [if_pos hr, if_neg (by omega)]

end
end Stfx.Run
