import Verif.Run.XmlRead
import Verif.Run.Samples
/-
Property theorems C34-C36: reading an XML document into an object.

`fs` are header files, `prog` the structs file generated from them, `T` the classes the compiler makes of the headers and
`L` the parts of tinyxml2 that are left open.  `t` is the object before reading (its members may be uninitialised), `w`
the object afterwards.
-/
set_option autoImplicit false
namespace Stfx.Run
open Stfx.Items Stfx.Parser Stfx.Gen Stfx.Lexer

section
variable {T : CTable} {L : Lib} {prog : List Item} {k : Kind} {fs : List (Str × Header)} {out : OutSpec}

theorem first_lt {nm : Str} {as : List (Str × Str)} {ks : List Node} {n : Str} {el : Node} (h : first ks n = some el) :
    sizeOf el < sizeOf (Node.elem nm as ks) := by
  have := List.sizeOf_lt_of_mem (List.mem_of_find?_eq_some h)
  simp only [Node.elem.sizeOf_spec]
  omega

theorem isElem_elim {el : Node} (h : el.isElem = true) : ∃ nm as ks, el = .elem nm as ks := by
  cases el <;> simp [Node.isElem] at h
  exact ⟨_, _, _, rfl⟩

/-! ### C34 -/

/-- A member with this name and type occurs in an element: simple and enum members of attribute XML as an attribute, all
others as a child element.  (Specification notion, models no code.) -/
def Occurs (k : Kind) (ty : MTy) (n : Str) : Node → Prop
  | .elem _ as ks => if k = .attrib ∧ ty.isLeaf = true then n ∈ as.map Prod.fst else ∃ el ∈ ks, el.named n = true
  | _ => False

/-- Members that do not occur in the element are the same in the objects `t` and `w`; and likewise inside the struct
members that do occur.  (Specification notion, models no code.) -/
inductive MissingKept (T : CTable) (k : Kind) : Str → Node → Val → Val → Prop
  | mk {c : Str} {ms : List CMember} {node : Node} {ts ws : List (Str × Val)} : T.cls c = some ms →
      ts.map Prod.fst = ms.map CMember.name → ws.map Prod.fst = ms.map CMember.name →
      (∀ m ∈ ms, ∀ t w, ts.lookup m.name = some t → ws.lookup m.name = some w → ¬ Occurs k m.ty m.name node → w = t) →
      (∀ m ∈ ms, ∀ t w, ts.lookup m.name = some t → ws.lookup m.name = some w → ∀ c' el, m.ty = .struct c' →
        first node.kids m.name = some el → MissingKept T k c' el t w) →
      MissingKept T k c node (.struct ts) (.struct ws)

theorem first_none_of {ks : List Node} {n : Str} (h : ¬ ∃ el ∈ ks, el.named n = true) : first ks n = none := by
  unfold first
  rw [List.find?_eq_none]
  intro el hel hn
  exact h ⟨el, hel, hn⟩

theorem lookup_none_of {as : List (Str × Str)} {n : Str} (h : n ∉ as.map Prod.fst) : as.lookup n = none := by
  rw [List.lookup_eq_none_iff]
  intro p hp
  simp only [bne_iff_ne, ne_eq]
  rintro rfl
  exact h (List.mem_map_of_mem hp)

theorem rd_missing_kept (hc : RdCode T prog k) : ∀ (node : Node) (c : Str) (t w : Val),
    CTable.WT T true (.struct c) t → (rdNode T L prog node).rd c t = .ok w → MissingKept T k c node t w
  | .text s, _, _, _, _, h => by cases h
  | .comment, _, _, _, _, h => by cases h
  | .misc, _, _, _, _, h => by cases h
  | .elem nm as ks, c, t, w, ht, h => by
    obtain ⟨ms, ts, rfl, hcls, hts, hty⟩ := wt_struct ht
    obtain ⟨ws, rfl, hws, hm⟩ := (rd_iff hc hcls hts).1 h
    refine .mk hcls hts hws ?_ ?_
    · intro m hmm t' w' h1 h2 hno
      obtain ⟨t1, w1, a1, a2, a3⟩ := hm m hmm
      rw [h1] at a1
      rw [h2] at a2
      cases a1
      cases a2
      unfold Occurs at hno
      dsimp only at hno
      cases hmt : m.ty with
      | struct c' =>
        rw [hmt, if_neg (by simp [MTy.isLeaf])] at hno
        rw [memberRead_struct hmt, first_none_of hno] at a3
        cases a3
        rfl
      | vec c' =>
        rw [hmt, if_neg (by simp [MTy.isLeaf])] at hno
        rcases memberRead_vec_ok hmt a3 with ⟨_, rfl⟩ | ⟨el, _, _, hf, _⟩
        · rfl
        · rw [first_none_of hno] at hf
          cases hf
      | simple ty =>
        have hl : m.ty.isLeaf = true := by rw [hmt]; rfl
        rcases hc.kind with rfl | rfl
        · rw [if_neg (by simp)] at hno
          rw [memberRead_elem hcls hc.good hmm hl, first_none_of hno] at a3
          cases a3
          rfl
        · rw [if_pos ⟨rfl, hl⟩] at hno
          rw [memberRead_attr hcls hc.good hmm hl, lookup_none_of hno, hmt] at a3
          simp only [readLeaf, readSimple, assign] at a3
          split at a3
          · cases a3
          · cases a3; rfl
      | enum e =>
        have hl : m.ty.isLeaf = true := by rw [hmt]; rfl
        rcases hc.kind with rfl | rfl
        · rw [if_neg (by simp)] at hno
          rw [memberRead_elem hcls hc.good hmm hl, first_none_of hno] at a3
          cases a3
          rfl
        · rw [if_pos ⟨rfl, hl⟩] at hno
          rw [memberRead_attr hcls hc.good hmm hl, lookup_none_of hno, hmt] at a3
          cases a3
          rfl
    · intro m hmm t' w' h1 h2 c' el hmt hf
      obtain ⟨t1, w1, a1, a2, a3⟩ := hm m hmm
      rw [h1] at a1
      rw [h2] at a2
      cases a1
      cases a2
      have hf' : first ks m.name = some el := hf
      have hlt := first_lt (nm := nm) (as := as) hf'
      rw [memberRead_struct hmt, hf'] at a3
      exact rd_missing_kept hc el c' t' w' (hmt ▸ hty m hmm t' h1) a3
termination_by node => sizeOf node
decreasing_by all_goals assumption

/-- C34 for all readings that have a defined result: members that do not occur keep their value, at every level of
nesting.  Missing: for attribute XML a missing member of type short or long is undefined behaviour (`C34_refuted`). -/
theorem C34_missing_kept_partial (hG : Generated fs k out prog) (hk : k = .xml ∨ k = .attrib)
    (hT : Compiled (fs.flatMap fun f => f.2.decls) T) {n : Str} (hn : TopStruct (fs.flatMap fun f => f.2.decls) n)
    {t w : Val} (ht : CTable.WT T true (.struct n) t) {ks : List Node} {root : Node}
    (hroot : ks.find? Node.isElem = some root) {b : Bool} (h : readFile T L prog n (.ok ks) t = .ok (b, w)) :
    b = true ∧ MissingKept T k n root t w := by
  obtain ⟨hc, hr⟩ := hG.rdCode hk hT
  obtain ⟨hb, h'⟩ := (readFile_root (hr n hn) hroot).1 h
  exact ⟨hb, rd_missing_kept hc root n t w ht h'⟩

/-- An element without what there is of member `m`.  (Specification notion, models no code.) -/
def Node.without (m : Str) : Node → Node
  | .elem nm as ks => .elem nm (as.filter fun p => p.1 ≠ m) (ks.filter fun el => !el.named m)
  | x => x

theorem first_without {ks : List Node} {n m : Str} :
    first (ks.filter fun el => !el.named m) n = if n = m then none else first ks n := by
  unfold first
  by_cases h : n = m
  · subst h
    rw [if_pos rfl, List.find?_eq_none]
    intro el hel
    have := (List.mem_filter.1 hel).2
    simpa using this
  · rw [if_neg h, List.find?_filter]
    congr 1
    funext el
    cases hn : el.named n with
    | false => simp
    | true =>
      have : el.named m = false := by
        cases hm : el.named m with
        | false => rfl
        | true => exact absurd (named_unique hn hm) h
      simp [this]

theorem lookup_without {as : List (Str × Str)} {n m : Str} :
    (as.filter fun p => p.1 ≠ m).lookup n = if n = m then none else as.lookup n := by
  by_cases h : n = m
  · subst h
    rw [if_pos rfl]
    refine lookup_none_of ?_
    rw [List.mem_map]
    rintro ⟨p, hp, rfl⟩
    have := (List.mem_filter.1 hp).2
    simp at this
  · rw [if_neg h]
    induction as with
    | nil => rfl
    | cons p as ih =>
      obtain ⟨a, s⟩ := p
      by_cases ha : a = m
      · subst ha
        have hb : (n == a) = false := by simpa using h
        rw [List.filter_cons_of_neg (by simp), ih, List.lookup_cons, hb]
      · rw [List.filter_cons_of_pos (by simpa using ha), List.lookup_cons, List.lookup_cons, ih]

/-- Reading of a member depends on what there is of it. -/
theorem memberRead_congr (hc : RdCode T prog k) {c : Str} {ms : List CMember} (hcls : T.cls c = some ms) {m : CMember}
    (hm : m ∈ ms) {as as' : List (Str × Str)} {ks ks' : List Node} (ha : as.lookup m.name = as'.lookup m.name)
    (hk : first ks m.name = first ks' m.name) (t : Val) :
    memberRead T L prog k c as ks m t = memberRead T L prog k c as' ks' m t := by
  cases hmt : m.ty with
  | struct c' => rw [memberRead_struct hmt, memberRead_struct hmt, hk]
  | vec c' =>
    unfold memberRead
    rw [hmt]
    simp only [lineRd, rdAct, firstKid_map, hk]
  | simple ty =>
    have hl : m.ty.isLeaf = true := by rw [hmt]; rfl
    rcases hc.kind with rfl | rfl
    · rw [memberRead_elem hcls hc.good hm hl, memberRead_elem hcls hc.good hm hl, hk]
    · rw [memberRead_attr hcls hc.good hm hl, memberRead_attr hcls hc.good hm hl, ha]
  | enum e =>
    have hl : m.ty.isLeaf = true := by rw [hmt]; rfl
    rcases hc.kind with rfl | rfl
    · rw [memberRead_elem hcls hc.good hm hl, memberRead_elem hcls hc.good hm hl, hk]
    · rw [memberRead_attr hcls hc.good hm hl, memberRead_attr hcls hc.good hm hl, ha]

/-- A member of which there is nothing keeps its value, unless its type is one of those the readers of attribute XML do
not handle. -/
theorem memberRead_absent (hc : RdCode T prog k) {c : Str} {ms : List CMember} (hcls : T.cls c = some ms) {m : CMember}
    (hm : m ∈ ms) {as : List (Str × Str)} {ks : List Node} (ha : as.lookup m.name = none)
    (hk : first ks m.name = none) (hnl : ¬ LostIfMissing k m.ty) (t : Val) :
    memberRead T L prog k c as ks m t = .ok t := by
  cases hmt : m.ty with
  | struct c' => rw [memberRead_struct hmt, hk]
  | vec c' =>
    unfold memberRead
    rw [hmt]
    simp only [lineRd, rdAct, firstKid_map, hk, Option.map_none]
  | simple ty =>
    have hl : m.ty.isLeaf = true := by rw [hmt]; rfl
    rcases hc.kind with rfl | rfl
    · rw [memberRead_elem hcls hc.good hm hl, hk]
    · rw [memberRead_attr hcls hc.good hm hl, ha, hmt]
      rw [hmt] at hnl
      have : viaLocal ty = false := by
        cases ty <;> first | rfl | (exfalso; exact hnl ⟨rfl, by simp⟩)
      simp [readLeaf, readSimple, assign, this]
  | enum e =>
    have hl : m.ty.isLeaf = true := by rw [hmt]; rfl
    rcases hc.kind with rfl | rfl
    · rw [memberRead_elem hcls hc.good hm hl, hk]
    · rw [memberRead_attr hcls hc.good hm hl, ha, hmt]
      rfl

/-- C34, removing a member from a file: the file is read as before, except that this member keeps its value.  Missing:
members of attribute XML of type short, unsigned short, long, unsigned long. -/
theorem C34_removed_partial (hG : Generated fs k out prog) (hk : k = .xml ∨ k = .attrib)
    (hT : Compiled (fs.flatMap fun f => f.2.decls) T) {n : Str} (hn : TopStruct (fs.flatMap fun f => f.2.decls) n)
    {ts ws : List (Str × Val)} (ht : CTable.WT T true (.struct n) (.struct ts)) {root : Node}
    (hroot : root.isElem = true) (h : readFile T L prog n (.ok [root]) (.struct ts) = .ok (true, .struct ws))
    {ms : List CMember} (hcls : T.cls n = some ms) {m : CMember} (hm : m ∈ ms) (hnl : ¬ LostIfMissing k m.ty) :
    ∃ ws', readFile T L prog n (.ok [root.without m.name]) (.struct ts) = .ok (true, .struct ws') ∧
      ws'.lookup m.name = ts.lookup m.name ∧ ws'.map Prod.fst = ws.map Prod.fst ∧
      ∀ x, x ≠ m.name → ws'.lookup x = ws.lookup x := by
  obtain ⟨hc, hr⟩ := hG.rdCode hk hT
  obtain ⟨nm, as, ks, rfl⟩ := isElem_elim hroot
  obtain ⟨_, h⟩ := (readFile_root (hr n hn) (root := .elem nm as ks) rfl).1 h
  obtain ⟨ms', ts', e1, e2, hts, _⟩ := wt_struct ht
  cases e1
  rw [hcls] at e2
  cases e2
  obtain ⟨ws1, e3, hws, hall⟩ := (rd_iff hc hcls hts).1 h
  cases e3
  have hnd := hc.good.nodup n ms hcls
  obtain ⟨t0, _, ht0, _, _⟩ := hall m hm
  -- the object with the old member
  obtain ⟨ws', b1, b2, b3, b4⟩ := modifyField_ok (n := m.name) (f := fun _ => .ok t0)
    (lookup_isSome (fs := ws) (by rw [hws]; exact List.mem_map_of_mem hm)).choose_spec rfl
  refine ⟨ws', ?_, by rw [b3, ht0], b2, b4⟩
  refine (readFile_root (hr n hn) (root := (Node.elem nm as ks).without m.name) rfl).2 ⟨rfl, ?_⟩
  refine (rd_iff hc hcls hts).2 ⟨ws', rfl, b2.trans hws, ?_⟩
  intro m' hm'
  obtain ⟨t1, w1, a1, a2, a3⟩ := hall m' hm'
  by_cases he : m'.name = m.name
  · have hmm : m' = m := by
      have h1 := find_member hnd hm
      have h2 := find_member hnd hm'
      rw [he, h1] at h2
      injection h2 with h2
      exact h2.symm
    subst hmm
    rw [ht0] at a1
    cases a1
    exact ⟨t0, t0, ht0, b3, memberRead_absent hc hcls hm (by rw [lookup_without, if_pos rfl])
      (by rw [first_without, if_pos rfl]) hnl t0⟩
  · refine ⟨t1, w1, a1, by rw [b4 _ he]; exact a2, ?_⟩
    rw [← a3]
    exact memberRead_congr hc hcls hm' (by rw [lookup_without, if_neg he]) (by rw [first_without, if_neg he]) t1

/-- C34 for element XML, all types. -/
theorem C34_removed_element (hG : Generated fs .xml out prog)
    (hT : Compiled (fs.flatMap fun f => f.2.decls) T) {n : Str} (hn : TopStruct (fs.flatMap fun f => f.2.decls) n)
    {ts ws : List (Str × Val)} (ht : CTable.WT T true (.struct n) (.struct ts)) {root : Node}
    (hroot : root.isElem = true) (h : readFile T L prog n (.ok [root]) (.struct ts) = .ok (true, .struct ws))
    {ms : List CMember} (hcls : T.cls n = some ms) {m : CMember} (hm : m ∈ ms) :
    ∃ ws', readFile T L prog n (.ok [root.without m.name]) (.struct ts) = .ok (true, .struct ws') ∧
      ws'.lookup m.name = ts.lookup m.name ∧ ws'.map Prod.fst = ws.map Prod.fst ∧
      ∀ x, x ≠ m.name → ws'.lookup x = ws.lookup x := by
  refine C34_removed_partial hG (Or.inl rfl) hT hn ht hroot h hcls hm ?_
  intro hl
  cases hmt : m.ty <;> rw [hmt] at hl <;> simp [LostIfMissing] at hl

end

/-- A file with all members of a shape.  (Specification notion, models no code.) -/
def shapeRoot : Node :=
  .elem c!"Shape" [(c!"name", c!"n"), (c!"id", c!"8"), (c!"color", c!"green")] [
    .elem c!"at" [(c!"x", c!"4")] [], .elem c!"pts" [] [.elem c!"Point" [(c!"y", c!"9")] [], .comment]]

/-- C34 as stated is false: a file without the member of type long. -/
theorem C34_refuted : ¬ ∀ (fs : List (Str × Header)) (out : OutSpec) (prog : List Item) (T : CTable) (L : Lib) (n : Str)
    (ts ws : List (Str × Val)) (root : Node) (m : Str), Generated fs .attrib out prog →
    Compiled (fs.flatMap fun f => f.2.decls) T → TopStruct (fs.flatMap fun f => f.2.decls) n →
    CTable.WT T false (.struct n) (.struct ts) → root.isElem = true →
    readFile T L prog n (.ok [root]) (.struct ts) = .ok (true, .struct ws) →
    ∃ ws', readFile T L prog n (.ok [root.without m]) (.struct ts) = .ok (true, .struct ws') ∧
      ws'.lookup m = ts.lookup m := by
  intro h
  obtain ⟨ws', h1, _⟩ := h shapeFiles plainOut _ shapeData.table someLib c!"Shape"
    (shapeVal c!"abc" 3 0 (pointVal 1 7) []).fields (shapeVal c!"n" 8 5 (pointVal 4 7) [pointVal 1 9]).fields shapeRoot c!"id"
    (shape_generated _ _) shape_compiled shape_top (wtb_sound _ _ (by decide +kernel)) rfl (by decide +kernel)
  have h2 : readFile shapeData.table someLib (progOf shapeFiles .attrib plainOut) c!"Shape" (.ok [shapeRoot.without c!"id"])
    (.struct (shapeVal c!"abc" 3 0 (pointVal 1 7) []).fields) = .ub := by decide +kernel
  rw [h2] at h1
  cases h1

/-- Non-vacuity of `C34_missing_kept_partial`: `at.y` is missing, and what follows for it. -/
example : MissingKept shapeData.table .attrib c!"Shape" shapeRoot (shapeVal c!"abc" 3 0 (pointVal 1 7) [])
    (shapeVal c!"n" 8 5 (pointVal 4 7) [pointVal 1 9]) :=
  (C34_missing_kept_partial (L := someLib) (b := true) (ks := [shapeRoot]) (shape_generated .attrib plainOut) (Or.inr rfl)
    shape_compiled shape_top (wtb_sound _ _ (by decide +kernel)) rfl (by decide +kernel)).2
/-- Non-vacuity of `C34_removed_partial`. -/
example : ∃ ws', readFile shapeData.table someLib (progOf shapeFiles .attrib plainOut) c!"Shape"
      (.ok [shapeRoot.without c!"pts"]) (.struct (shapeVal c!"abc" 3 0 (pointVal 1 7) [pointVal 5 5]).fields) =
        .ok (true, .struct ws') ∧ ws'.lookup c!"pts" = some (.vec [pointVal 5 5]) := by
  obtain ⟨ws', h1, h2, _⟩ := C34_removed_partial (L := someLib) (shape_generated .attrib plainOut) (Or.inr rfl)
    shape_compiled shape_top (ts := (shapeVal c!"abc" 3 0 (pointVal 1 7) [pointVal 5 5]).fields)
    (ws := (shapeVal c!"n" 8 5 (pointVal 4 7) [pointVal 5 5, pointVal 1 9]).fields)
    (wtb_sound _ _ (by decide +kernel)) (root := shapeRoot) rfl (by decide +kernel) (ms := _) rfl
    (m := ⟨c!"pts", .vec c!"Point", none⟩) (by decide +kernel) (by simp [LostIfMissing])
  exact ⟨ws', h1, h2⟩
/-- Non-vacuity of `C34_removed_element`, with a member of type long. -/
example : ∃ ws', readFile shapeData.table someLib (progOf shapeFiles .xml plainOut) c!"Shape"
      (.ok [(Node.elem c!"Shape" [] [.elem c!"id" [] [.text c!"8"]]).without c!"id"])
      (.struct (shapeVal c!"abc" 3 0 (pointVal 1 7) []).fields) = .ok (true, .struct ws') ∧ ws'.lookup c!"id" = some (.num 3) := by
  obtain ⟨ws', h1, h2, _⟩ := C34_removed_element (L := someLib) (shape_generated .xml plainOut)
    shape_compiled shape_top (ts := (shapeVal c!"abc" 3 0 (pointVal 1 7) []).fields)
    (ws := (shapeVal c!"abc" 8 0 (pointVal 1 7) []).fields)
    (wtb_sound _ _ (by decide +kernel)) (root := .elem c!"Shape" [] [.elem c!"id" [] [.text c!"8"]]) rfl (by decide +kernel)
    (ms := _) rfl (m := ⟨c!"id", .simple .long, some (.num 3)⟩) (by decide +kernel)
  exact ⟨ws', h1, h2⟩

/-! ### C35 -/

section
variable {T : CTable} {L : Lib} {prog : List Item} {k : Kind} {fs : List (Str × Header)} {out : OutSpec}

/-- The elements in the file for a vector member.  (Specification notion, models no code.) -/
def Node.elements (n : Str) (node : Node) : List Node :=
  match first node.kids n with
  | some el => el.kids.filter Node.isElem
  | none => []

/-- Every vector member, also inside struct members, has the elements in the file, in order, behind those it had.  Each new
element is what its reader makes of a default object.  (Specification notion, models no code.) -/
inductive Appended (T : CTable) (L : Lib) (prog : List Item) : Str → Node → Val → Val → Prop
  | mk {c : Str} {ms : List CMember} {node : Node} {ts ws : List (Str × Val)} : T.cls c = some ms →
      ts.map Prod.fst = ms.map CMember.name → ws.map Prod.fst = ms.map CMember.name →
      (∀ m ∈ ms, ∀ t w, ts.lookup m.name = some t → ws.lookup m.name = some w → ∀ c', m.ty = .vec c' →
        ∃ old new, t = .vec old ∧ w = .vec (old ++ new) ∧
          All2 (fun el x => (rdNode T L prog el).rd c' (T.dflt c') = .ok x) (node.elements m.name) new) →
      (∀ m ∈ ms, ∀ t w, ts.lookup m.name = some t → ws.lookup m.name = some w → ∀ c' el, m.ty = .struct c' →
        first node.kids m.name = some el → Appended T L prog c' el t w) →
      Appended T L prog c node (.struct ts) (.struct ws)

theorem rd_appended (hc : RdCode T prog k) : ∀ (node : Node) (c : Str) (t w : Val),
    CTable.WT T true (.struct c) t → (rdNode T L prog node).rd c t = .ok w → Appended T L prog c node t w
  | .text s, _, _, _, _, h => by cases h
  | .comment, _, _, _, _, h => by cases h
  | .misc, _, _, _, _, h => by cases h
  | .elem nm as ks, c, t, w, ht, h => by
    obtain ⟨ms, ts, rfl, hcls, hts, hty⟩ := wt_struct ht
    obtain ⟨ws, rfl, hws, hm⟩ := (rd_iff hc hcls hts).1 h
    refine .mk hcls hts hws ?_ ?_
    · intro m hmm t' w' h1 h2 c' hmt
      obtain ⟨t1, w1, a1, a2, a3⟩ := hm m hmm
      rw [h1] at a1
      rw [h2] at a2
      cases a1
      cases a2
      have hwt := hty m hmm t' h1
      rw [hmt] at hwt
      unfold Node.elements
      rcases memberRead_vec_ok hmt a3 with ⟨hf, rfl⟩ | ⟨el, old, new, hf, rfl, rfl, hmap⟩
      · cases hwt with
        | undef _ _ h _ => exact absurd rfl (h c')
        | @vec _ vs _ =>
          refine ⟨vs, [], rfl, by simp, ?_⟩
          simp only [Node.kids, hf]
          exact .nil
      · refine ⟨old, new, rfl, rfl, ?_⟩
        simp only [Node.kids, hf]
        exact mapM_inv hmap
    · intro m hmm t' w' h1 h2 c' el hmt hf
      obtain ⟨t1, w1, a1, a2, a3⟩ := hm m hmm
      rw [h1] at a1
      rw [h2] at a2
      cases a1
      cases a2
      have hf' : first ks m.name = some el := hf
      have hlt := first_lt (nm := nm) (as := as) hf'
      rw [memberRead_struct hmt, hf'] at a3
      exact rd_appended hc el c' t' w' (hmt ▸ hty m hmm t' h1) a3
termination_by node => sizeOf node
decreasing_by all_goals assumption

/-- C35: reading appends to vectors. -/
theorem C35_appended (hG : Generated fs k out prog) (hk : k = .xml ∨ k = .attrib)
    (hT : Compiled (fs.flatMap fun f => f.2.decls) T) {n : Str} (hn : TopStruct (fs.flatMap fun f => f.2.decls) n)
    {t w : Val} (ht : CTable.WT T true (.struct n) t) {ks : List Node} {root : Node}
    (hroot : ks.find? Node.isElem = some root) {b : Bool} (h : readFile T L prog n (.ok ks) t = .ok (b, w)) :
    Appended T L prog n root t w := by
  obtain ⟨hc, hr⟩ := hG.rdCode hk hT
  exact rd_appended hc root n t w ht ((readFile_root (hr n hn) hroot).1 h).2

/-- What two readings of one file do to the vectors of an object: the second appends the same as the first.
(Specification notion, models no code.) -/
inductive Doubled (T : CTable) : MTy → Val → Val → Val → Prop
  | leaf {ty : MTy} {t t1 t2 : Val} : ty.isLeaf = true → Doubled T ty t t1 t2
  | struct {c : Str} {ms : List CMember} {ts ts1 ts2 : List (Str × Val)} : T.cls c = some ms →
      ts1.map Prod.fst = ts.map Prod.fst → ts2.map Prod.fst = ts.map Prod.fst →
      (∀ m ∈ ms, ∀ t t1 t2, ts.lookup m.name = some t → ts1.lookup m.name = some t1 → ts2.lookup m.name = some t2 →
        Doubled T m.ty t t1 t2) → Doubled T (.struct c) (.struct ts) (.struct ts1) (.struct ts2)
  | vec {c : Str} {old new : List Val} : Doubled T (.vec c) (.vec old) (.vec (old ++ new)) (.vec (old ++ new ++ new))

/-- Objects nothing was appended to. -/
theorem Doubled.same {u : Bool} {ty : MTy} {t : Val} (h : CTable.WT T u ty t) : Doubled T ty t t t := by
  induction h with
  | @undef ty _ h1 h2 _ =>
    cases ty with
    | simple _ => exact .leaf rfl
    | enum _ => exact .leaf rfl
    | struct n => exact absurd rfl (h1 n)
    | vec n => exact absurd rfl (h2 n)
  | simple _ => exact .leaf rfl
  | enum _ _ _ => exact .leaf rfl
  | struct h1 _ _ ih =>
    refine .struct h1 rfl rfl ?_
    intro m hm t t1 t2 e1 e2 e3
    rw [e1] at e2 e3
    cases e2
    cases e3
    exact ih m hm t e1
  | @vec n vs _ _ =>
    have := Doubled.vec (T := T) (c := n) (old := vs) (new := [])
    simpa using this

theorem rd_doubled (hc : RdCode T prog k) : ∀ (node : Node) (c : Str) (t t1 t2 : Val),
    CTable.WT T true (.struct c) t → (rdNode T L prog node).rd c t = .ok t1 →
    (rdNode T L prog node).rd c t1 = .ok t2 → Doubled T (.struct c) t t1 t2
  | .text s, _, _, _, _, _, h, _ => by cases h
  | .comment, _, _, _, _, _, h, _ => by cases h
  | .misc, _, _, _, _, _, h, _ => by cases h
  | .elem nm as ks, c, t, t1, t2, ht, h, h' => by
    obtain ⟨ms, ts, rfl, hcls, hts, hty⟩ := wt_struct ht
    obtain ⟨ts1, rfl, hts1, hm⟩ := (rd_iff hc hcls hts).1 h
    obtain ⟨ts2, rfl, hts2, hm'⟩ := (rd_iff hc hcls hts1).1 h'
    refine .struct hcls (hts1.trans hts.symm) (hts2.trans hts.symm) ?_
    intro m hmm a a1 a2 e e1 e2
    obtain ⟨_, _, b1, b2, b3⟩ := hm m hmm
    obtain ⟨_, _, b1', b2', b3'⟩ := hm' m hmm
    rw [e] at b1
    rw [e1] at b2 b1'
    rw [e2] at b2'
    cases b1
    cases b2
    cases b1'
    cases b2'
    have hwt := hty m hmm a e
    cases hmt : m.ty with
    | simple _ => exact .leaf rfl
    | enum _ => exact .leaf rfl
    | struct c' =>
      rw [memberRead_struct hmt] at b3 b3'
      cases hf : first ks m.name with
      | none =>
        rw [hf] at b3 b3'
        cases b3
        cases b3'
        exact .same (hmt ▸ hwt)
      | some el =>
        rw [hf] at b3 b3'
        have hlt := first_lt (nm := nm) (as := as) hf
        exact rd_doubled hc el c' a a1 a2 (hmt ▸ hwt) b3 b3'
    | vec c' =>
      rcases memberRead_vec_ok hmt b3 with ⟨hf, rfl⟩ | ⟨el, old, new, hf, rfl, rfl, hmap⟩
      · rcases memberRead_vec_ok hmt b3' with ⟨_, rfl⟩ | ⟨_, _, _, hf', _⟩
        · exact .same (hmt ▸ hwt)
        · rw [hf] at hf'
          cases hf'
      · rcases memberRead_vec_ok hmt b3' with ⟨hf', _⟩ | ⟨el', old', new', hf', e3, rfl, hmap'⟩
        · rw [hf] at hf'
          cases hf'
        · rw [hf] at hf'
          cases hf'
          rw [hmap] at hmap'
          cases hmap'
          cases e3
          exact .vec
termination_by node => sizeOf node
decreasing_by all_goals assumption

/-- C35: reading a file twice doubles what it appends. -/
theorem C35_doubled (hG : Generated fs k out prog) (hk : k = .xml ∨ k = .attrib)
    (hT : Compiled (fs.flatMap fun f => f.2.decls) T) {n : Str} (hn : TopStruct (fs.flatMap fun f => f.2.decls) n)
    {t t1 t2 : Val} (ht : CTable.WT T true (.struct n) t) {ks : List Node} {root : Node}
    (hroot : ks.find? Node.isElem = some root) {b b' : Bool} (h : readFile T L prog n (.ok ks) t = .ok (b, t1))
    (h' : readFile T L prog n (.ok ks) t1 = .ok (b', t2)) : Doubled T (.struct n) t t1 t2 := by
  obtain ⟨hc, hr⟩ := hG.rdCode hk hT
  exact rd_doubled hc root n t t1 t2 ht ((readFile_root (hr n hn) hroot).1 h).2 ((readFile_root (hr n hn) hroot).1 h').2

end

/-- Non-vacuity of C35. -/
example : Appended shapeData.table someLib (progOf shapeFiles .attrib plainOut) c!"Shape" shapeRoot
    (shapeVal c!"abc" 3 0 (pointVal 1 7) [pointVal 5 5]) (shapeVal c!"n" 8 5 (pointVal 4 7) [pointVal 5 5, pointVal 1 9]) :=
  C35_appended (L := someLib) (b := true) (ks := [shapeRoot]) (shape_generated .attrib plainOut) (Or.inr rfl)
    shape_compiled shape_top (wtb_sound _ _ (by decide +kernel)) rfl (by decide +kernel)
example : Doubled shapeData.table (.struct c!"Shape") (shapeVal c!"abc" 3 0 (pointVal 1 7) [pointVal 5 5])
    (shapeVal c!"n" 8 5 (pointVal 4 7) [pointVal 5 5, pointVal 1 9])
    (shapeVal c!"n" 8 5 (pointVal 4 7) [pointVal 5 5, pointVal 1 9, pointVal 1 9]) :=
  C35_doubled (L := someLib) (b := true) (b' := true) (ks := [shapeRoot]) (shape_generated .attrib plainOut) (Or.inr rfl)
    shape_compiled shape_top (wtb_sound _ _ (by decide +kernel)) rfl (by decide +kernel) (by decide +kernel)

/-! ### C36 -/

section
variable {T : CTable} {L : Lib} {prog : List Item} {k : Kind} {fs : List (Str × Header)} {out : OutSpec}

/-- Two elements say the same of all members: they may differ in attributes and child elements with other names, in the
order of attributes, in all but the first of several children of one name, in text and comments between elements and in
their own names; and likewise inside the elements of members.  (Specification notion, models no code.) -/
inductive SameFor (T : CTable) (k : Kind) : MTy → Node → Node → Prop
  /-- elements of simple and enum members, in element XML -/
  | leaf {ty : MTy} {x y : Node} : ty.isLeaf = true → x.kids = y.kids → SameFor T k ty x y
  | struct {c n n' : Str} {ms : List CMember} {as as' : List (Str × Str)} {ks ks' : List Node} : T.cls c = some ms →
      (∀ m ∈ ms, k = .attrib → m.ty.isLeaf = true → as.lookup m.name = as'.lookup m.name) →
      (∀ m ∈ ms, ¬ (k = .attrib ∧ m.ty.isLeaf = true) → (first ks m.name).isSome = (first ks' m.name).isSome) →
      (∀ m ∈ ms, ¬ (k = .attrib ∧ m.ty.isLeaf = true) → ∀ x y, first ks m.name = some x → first ks' m.name = some y →
        SameFor T k m.ty x y) →
      SameFor T k (.struct c) (.elem n as ks) (.elem n' as' ks')
  | vec {c : Str} {x y : Node} : (x.kids.filter Node.isElem).length = (y.kids.filter Node.isElem).length →
      (∀ (i : Nat) (a b : Node), (x.kids.filter Node.isElem)[i]? = some a → (y.kids.filter Node.isElem)[i]? = some b →
        SameFor T k (.struct c) a b) → SameFor T k (.vec c) x y

theorem foldlM_congr {α β : Type} {f g : β → α → R β} {l : List α} (h : ∀ a ∈ l, ∀ b, f b a = g b a) (b : β) :
    l.foldlM f b = l.foldlM g b := by
  induction l generalizing b with
  | nil => rfl
  | cons a l ih =>
    rw [foldlM_cons, foldlM_cons, h a List.mem_cons_self]
    congr 1
    funext b'
    exact ih (fun a ha => h a (List.mem_cons_of_mem _ ha)) b'

theorem modifyField_congr {n : Str} {f g : Val → R Val} (h : ∀ t, f t = g t) (fs : List (Str × Val)) :
    modifyField n f fs = modifyField n g fs := by
  have : f = g := funext h
  rw [this]

/-- If each member is read alike, so is the struct. -/
theorem rd_congr (hc : RdCode T prog k) {c : Str} {ms : List CMember} (hcls : T.cls c = some ms) {n n' : Str}
    {as as' : List (Str × Str)} {ks ks' : List Node}
    (h : ∀ m ∈ ms, ∀ t, memberRead T L prog k c as ks m t = memberRead T L prog k c as' ks' m t) (t : Val) :
    (rdNode T L prog (.elem n as ks)).rd c t = (rdNode T L prog (.elem n' as' ks')).rd c t := by
  obtain ⟨ls, hp, hr⟩ := hc.fn c ms hcls
  rw [rdNode_elem, rdNode_elem]
  dsimp only
  cases t with
  | struct ts =>
    unfold runRd
    rw [hr]
    dsimp only
    congr 1
    refine foldlM_congr ?_ ts
    intro r hrm b
    obtain ⟨p, hpm, rfl⟩ := List.mem_map.1 hrm
    obtain ⟨m, hm, rfl⟩ := List.mem_map.1 (hp.mem_iff.1 hpm)
    unfold rdStep
    rw [lineRd_member]
    exact modifyField_congr (h m hm) b
  | _ => rfl

/-- Elements that say the same are read alike.  (Specification notion, models no code.) -/
def ReadAlike (T : CTable) (L : Lib) (prog : List Item) : MTy → Node → Node → Prop
  | .struct c, x, y => ∀ t, (rdNode T L prog x).rd c t = (rdNode T L prog y).rd c t
  | .vec c, x, y => ∀ t, ((x.kids.filter Node.isElem).mapM fun k => (rdNode T L prog k).rd c t) =
      (y.kids.filter Node.isElem).mapM fun k => (rdNode T L prog k).rd c t
  | _, x, y => x.kids = y.kids

theorem readAlike (hc : RdCode T prog k) {ty : MTy} {x y : Node} (h : SameFor T k ty x y) : ReadAlike T L prog ty x y := by
  induction h with
  | @leaf ty x y hl h =>
    cases ty with
    | simple _ => exact h
    | enum _ => exact h
    | struct _ => cases hl
    | vec _ => cases hl
  | @struct c n n' ms as as' ks ks' hcls ha hs hk ih =>
    intro t
    refine rd_congr hc hcls ?_ t
    intro m hm t
    by_cases hl : m.ty.isLeaf = true
    · rcases hc.kind with rfl | rfl
      · rw [memberRead_elem hcls hc.good hm hl, memberRead_elem hcls hc.good hm hl]
        have hs := hs m hm (by simp)
        have ih := ih m hm (by simp)
        cases h1 : first ks m.name with
        | none =>
          rw [h1] at hs
          cases h2 : first ks' m.name with
          | none => rfl
          | some y => rw [h2] at hs; cases hs
        | some x =>
          rw [h1] at hs
          cases h2 : first ks' m.name with
          | none => rw [h2] at hs; cases hs
          | some y =>
            have : x.kids = y.kids := by
              have := ih x y h1 h2
              cases hmt : m.ty with
              | simple _ => rw [hmt] at this; exact this
              | enum _ => rw [hmt] at this; exact this
              | struct _ => rw [hmt] at hl; cases hl
              | vec _ => rw [hmt] at hl; cases hl
            simp only [this]
      · rw [memberRead_attr hcls hc.good hm hl, memberRead_attr hcls hc.good hm hl, ha m hm rfl hl]
    · have hs := hs m hm (fun h => hl h.2)
      have ih := ih m hm (fun h => hl h.2)
      cases hmt : m.ty with
      | simple _ => rw [hmt] at hl; exact absurd rfl hl
      | enum _ => rw [hmt] at hl; exact absurd rfl hl
      | struct c' =>
        rw [memberRead_struct hmt, memberRead_struct hmt]
        cases h1 : first ks m.name with
        | none =>
          rw [h1] at hs
          cases h2 : first ks' m.name with
          | none => rfl
          | some y => rw [h2] at hs; cases hs
        | some x =>
          rw [h1] at hs
          cases h2 : first ks' m.name with
          | none => rw [h2] at hs; cases hs
          | some y =>
            have := ih x y h1 h2
            rw [hmt] at this
            exact this t
      | vec c' =>
        cases t with
        | vec ts =>
          rw [memberRead_vec hmt, memberRead_vec hmt]
          cases h1 : first ks m.name with
          | none =>
            rw [h1] at hs
            cases h2 : first ks' m.name with
            | none => rfl
            | some y => rw [h2] at hs; cases hs
          | some x =>
            rw [h1] at hs
            cases h2 : first ks' m.name with
            | none => rw [h2] at hs; cases hs
            | some y =>
              have := ih x y h1 h2
              rw [hmt] at this
              dsimp only
              rw [this (T.dflt c')]
        | _ =>
          unfold memberRead
          rw [hmt]
          simp only [lineRd, rdAct, firstKid_map]
          cases h1 : first ks m.name <;> cases h2 : first ks' m.name <;> rw [h1, h2] at hs <;> first | rfl | cases hs
  | @vec c x y hlen hi ih =>
    intro t
    have h2 := all2_of_getElem (P := fun a b => ReadAlike T L prog (.struct c) a b) hlen.symm ih
    clear hlen hi ih
    generalize x.kids.filter Node.isElem = xs at h2 ⊢
    generalize y.kids.filter Node.isElem = ys at h2 ⊢
    induction h2 with
    | nil => rfl
    | cons h1 _ ih => rw [mapM_cons, mapM_cons, ih, h1 t]

/-- C36: files that say the same of all members are read alike, whether into an object or with undefined behaviour. -/
theorem C36_same (hG : Generated fs k out prog) (hk : k = .xml ∨ k = .attrib)
    (hT : Compiled (fs.flatMap fun f => f.2.decls) T) {n : Str} {root root' : Node} (h : SameFor T k (.struct n) root root')
    (t : Val) : readFile T L prog n (.ok [root]) t = readFile T L prog n (.ok [root']) t := by
  obtain ⟨hc, _⟩ := hG.rdCode hk hT
  have he : root.isElem = true ∧ root'.isElem = true := by
    cases h with
    | leaf h _ => cases h
    | struct _ _ _ _ => exact ⟨rfl, rfl⟩
  have hrd : (rdNode T L prog root).rd n t = (rdNode T L prog root').rd n t := readAlike hc h t
  unfold readFile
  simp only [List.find?_cons, he.1, he.2, hrd]

/-- Every element says the same as itself. -/
theorem same_of_members {c n n' : Str} {ms : List CMember} {as as' : List (Str × Str)} {ks ks' : List Node}
    (hcls : T.cls c = some ms) (ha : ∀ m ∈ ms, as.lookup m.name = as'.lookup m.name)
    (hk : ∀ m ∈ ms, first ks m.name = first ks' m.name)
    (hs : ∀ m ∈ ms, ∀ x, first ks m.name = some x → SameFor T k m.ty x x) :
    SameFor T k (.struct c) (.elem n as ks) (.elem n' as' ks') := by
  refine .struct hcls (fun m hm _ _ => ha m hm) (fun m hm _ => by rw [hk m hm]) ?_
  intro m hm _ x y hx hy
  rw [← hk m hm, hx] at hy
  cases hy
  exact hs m hm x hx

/-- C36 in terms of members: reading depends on nothing but the attributes and first child elements with their names. -/
theorem C36_members (hG : Generated fs k out prog) (hk : k = .xml ∨ k = .attrib)
    (hT : Compiled (fs.flatMap fun f => f.2.decls) T) {c n n' : Str} {ms : List CMember} (hcls : T.cls c = some ms)
    {as as' : List (Str × Str)} {ks ks' : List Node} (ha : ∀ m ∈ ms, as.lookup m.name = as'.lookup m.name)
    (hks : ∀ m ∈ ms, first ks m.name = first ks' m.name) (t : Val) :
    (rdNode T L prog (.elem n as ks)).rd c t = (rdNode T L prog (.elem n' as' ks')).rd c t := by
  obtain ⟨hc, _⟩ := hG.rdCode hk hT
  exact rd_congr hc hcls (fun m hm t => memberRead_congr hc hcls hm (ha m hm) (hks m hm) t) t

theorem readFile_congr {n : Str} {x y : Node} (hx : x.isElem = true) (hy : y.isElem = true)
    (h : ∀ t, (rdNode T L prog x).rd n t = (rdNode T L prog y).rd n t) (t : Val) :
    readFile T L prog n (.ok [x]) t = readFile T L prog n (.ok [y]) t := by
  unfold readFile
  simp only [List.find?_cons, hx, hy, h t]

theorem lookup_insert {as bs : List (Str × Str)} {x s n : Str} (h : n ≠ x) :
    (as ++ (x, s) :: bs).lookup n = (as ++ bs).lookup n := by
  have hb : (n == x) = false := by simpa using h
  induction as with
  | nil => simp [List.lookup_cons, hb]
  | cons p as ih =>
    rw [List.cons_append, List.cons_append]
    obtain ⟨a, s'⟩ := p
    simp [List.lookup_cons, ih]

theorem first_insert {as bs : List Node} {x : Node} {n : Str} (h : x.named n = false) :
    first (as ++ x :: bs) n = first (as ++ bs) n := by
  unfold first
  rw [List.find?_append, List.find?_append, List.find?_cons, h]

/-- C36: an attribute whose name is not that of a member. -/
theorem C36_unknown_attribute (hG : Generated fs k out prog) (hk : k = .xml ∨ k = .attrib)
    (hT : Compiled (fs.flatMap fun f => f.2.decls) T) {c n : Str} {ms : List CMember} (hcls : T.cls c = some ms)
    {as bs : List (Str × Str)} {ks : List Node} {x s : Str} (hx : x ∉ ms.map CMember.name) (t : Val) :
    readFile T L prog c (.ok [.elem n (as ++ (x, s) :: bs) ks]) t = readFile T L prog c (.ok [.elem n (as ++ bs) ks]) t := by
  refine readFile_congr rfl rfl (fun t => C36_members hG hk hT hcls ?_ (fun _ _ => rfl) t) t
  intro m hm
  exact lookup_insert (by rintro rfl; exact hx (List.mem_map_of_mem hm))

/-- C36: a child that is not an element with the name of a member. -/
theorem C36_unknown_child (hG : Generated fs k out prog) (hk : k = .xml ∨ k = .attrib)
    (hT : Compiled (fs.flatMap fun f => f.2.decls) T) {c n : Str} {ms : List CMember} (hcls : T.cls c = some ms)
    {as : List (Str × Str)} {ks ks' : List Node} {x : Node} (hx : ∀ m ∈ ms, x.named m.name = false) (t : Val) :
    readFile T L prog c (.ok [.elem n as (ks ++ x :: ks')]) t = readFile T L prog c (.ok [.elem n as (ks ++ ks')]) t :=
  readFile_congr rfl rfl (fun t => C36_members hG hk hT hcls (fun _ _ => rfl) (fun m hm => first_insert (hx m hm)) t) t

theorem lookup_perm {as bs : List (Str × Str)} (h : as.Perm bs) (hnd : (as.map Prod.fst).Nodup) (n : Str) :
    as.lookup n = bs.lookup n := by
  induction h with
  | nil => rfl
  | cons p _ ih =>
    rw [List.map_cons, List.nodup_cons] at hnd
    obtain ⟨a, s⟩ := p
    rw [List.lookup_cons, List.lookup_cons, ih hnd.2]
  | swap p q l =>
    obtain ⟨a, s⟩ := p
    obtain ⟨b, s'⟩ := q
    have hne : b ≠ a := by
      intro he
      subst he
      simp at hnd
    rw [List.lookup_cons, List.lookup_cons, List.lookup_cons, List.lookup_cons]
    cases h1 : n == a <;> cases h2 : n == b <;> try rfl
    rw [beq_iff_eq] at h1 h2
    exact absurd (h2.symm.trans h1) hne
  | trans h1 _ ih1 ih2 => rw [ih1 hnd, ih2 ((h1.map Prod.fst).nodup_iff.1 hnd)]

/-- C36: the order of attributes.  (XML has no two attributes with one name in an element.) -/
theorem C36_attribute_order (hG : Generated fs k out prog) (hk : k = .xml ∨ k = .attrib)
    (hT : Compiled (fs.flatMap fun f => f.2.decls) T) {c n : Str} {ms : List CMember} (hcls : T.cls c = some ms)
    {as bs : List (Str × Str)} (hp : as.Perm bs) (hnd : (as.map Prod.fst).Nodup) {ks : List Node} (t : Val) :
    readFile T L prog c (.ok [.elem n as ks]) t = readFile T L prog c (.ok [.elem n bs ks]) t :=
  readFile_congr rfl rfl (fun t => C36_members hG hk hT hcls (fun m _ => lookup_perm hp hnd m.name) (fun _ _ => rfl) t) t

end

/-- `shapeRoot` with other attributes, elements, comments and text.  (Specification notion, models no code.) -/
def shapeRoot' : Node :=
  .elem c!"other" [(c!"color", c!"green"), (c!"x", c!"?"), (c!"id", c!"8"), (c!"name", c!"n")] [
    .text c!"text", .elem c!"pts" [(c!"n", c!"1")] [.text c!"!", .elem c!"P" [(c!"y", c!"9"), (c!"z", c!"0")] [.comment]],
    .elem c!"name" [] [], .elem c!"at" [(c!"x", c!"4")] [.elem c!"x" [] []], .elem c!"at" [(c!"x", c!"5")] []]

/-- Non-vacuity of C36: extra content at all levels. -/
example (t : Val) : readFile shapeData.table someLib (progOf shapeFiles .attrib plainOut) c!"Shape" (.ok [shapeRoot]) t =
    readFile shapeData.table someLib (progOf shapeFiles .attrib plainOut) c!"Shape" (.ok [shapeRoot']) t := by
  refine C36_same (shape_generated .attrib plainOut) (Or.inr rfl) shape_compiled ?_ t
  have hp : ∀ as bs : List (Str × Str), ∀ ks ks' : List Node, ∀ n n', as.lookup c!"x" = bs.lookup c!"x" →
      as.lookup c!"y" = bs.lookup c!"y" →
      SameFor shapeData.table .attrib (.struct c!"Point") (.elem n as ks) (.elem n' bs ks') := by
    intro as bs ks ks' n n' h1 h2
    have hl : ∀ m ∈ [(⟨c!"x", .simple .int, some (.num 1)⟩ : CMember), ⟨c!"y", .simple .unsignedInt, some (.num 7)⟩],
        m.ty.isLeaf = true := by decide
    refine .struct (ms := _) rfl ?_ ?_ ?_
    · intro m hm _ _
      simp only [List.mem_cons, List.not_mem_nil, or_false] at hm
      rcases hm with rfl | rfl
      · exact h1
      · exact h2
    · intro m hm h; exact absurd ⟨rfl, hl m hm⟩ h
    · intro m hm h; exact absurd ⟨rfl, hl m hm⟩ h
  refine .struct (ms := _) rfl (by decide +kernel) (by decide +kernel) ?_
  intro m hm hno x y hx hy
  simp only [List.mem_cons, List.not_mem_nil, or_false] at hm
  rcases hm with rfl | rfl | rfl | rfl | rfl
  · exact absurd ⟨rfl, rfl⟩ hno
  · exact absurd ⟨rfl, rfl⟩ hno
  · exact absurd ⟨rfl, rfl⟩ hno
  · have hx' : Node.elem c!"at" [(c!"x", c!"4")] [] = x := by
      injection hx
    have hy' : Node.elem c!"at" [(c!"x", c!"4")] [.elem c!"x" [] []] = y := by
      injection hy
    subst hx' hy'
    exact hp _ _ _ _ _ _ rfl rfl
  · have hx' : Node.elem c!"pts" [] [.elem c!"Point" [(c!"y", c!"9")] [], .comment] = x := by
      injection hx
    have hy' : Node.elem c!"pts" [(c!"n", c!"1")]
      [.text c!"!", .elem c!"P" [(c!"y", c!"9"), (c!"z", c!"0")] [.comment]] = y := by
      injection hy
    subst hx' hy'
    refine .vec rfl ?_
    intro i a b ha hb
    cases i with
    | zero => cases ha; cases hb; exact hp _ _ _ _ _ _ rfl rfl
    | succ i => cases ha
/-- Non-vacuity of the other forms. -/
example (t : Val) : readFile shapeData.table someLib (progOf shapeFiles .xml plainOut) c!"Shape"
      (.ok [.elem c!"Shape" [] ([] ++ .elem c!"q" [] [] :: [.elem c!"id" [] [.text c!"4"]])]) t =
    readFile shapeData.table someLib (progOf shapeFiles .xml plainOut) c!"Shape"
      (.ok [.elem c!"Shape" [] [.elem c!"id" [] [.text c!"4"]]]) t :=
  C36_unknown_child (shape_generated .xml plainOut) (Or.inl rfl) shape_compiled (ms := _) rfl (by decide +kernel) t
example (t : Val) : readFile shapeData.table someLib (progOf shapeFiles .attrib plainOut) c!"Shape"
      (.ok [.elem c!"Shape" ([(c!"id", c!"1")] ++ (c!"q", c!"1") :: []) []]) t =
    readFile shapeData.table someLib (progOf shapeFiles .attrib plainOut) c!"Shape"
      (.ok [.elem c!"Shape" ([(c!"id", c!"1")] ++ []) []]) t :=
  C36_unknown_attribute (shape_generated .attrib plainOut) (Or.inr rfl) shape_compiled (ms := _) rfl (by decide +kernel) t
example (t : Val) : readFile shapeData.table someLib (progOf shapeFiles .attrib plainOut) c!"Shape"
      (.ok [.elem c!"Shape" [(c!"id", c!"1"), (c!"name", c!"x")] []]) t =
    readFile shapeData.table someLib (progOf shapeFiles .attrib plainOut) c!"Shape"
      (.ok [.elem c!"Shape" [(c!"name", c!"x"), (c!"id", c!"1")] []]) t :=
  C36_attribute_order (shape_generated .attrib plainOut) (Or.inr rfl) shape_compiled (ms := _) rfl (.swap _ _ _)
    (by decide +kernel) t

end Stfx.Run
