import Verif.Run.XmlCode
/-
What becomes of an object that is written to an XML file and read back into another object.
-/
set_option autoImplicit false
namespace Stfx.Run
open Stfx.Items Stfx.Parser Stfx.Gen

/-! ### Lists -/

/-- Two lists of the same length, related element by element.  (Proof notion, models no code.) -/
inductive All2 {α β : Type} (P : α → β → Prop) : List α → List β → Prop
  | nil : All2 P [] []
  | cons {a : α} {b : β} {as : List α} {bs : List β} : P a b → All2 P as bs → All2 P (a :: as) (b :: bs)

theorem All2.imp {α β : Type} {P Q : α → β → Prop} {as : List α} {bs : List β} (h : All2 P as bs)
    (hpq : ∀ a b, a ∈ as → P a b → Q a b) : All2 Q as bs := by
  induction h with
  | nil => exact .nil
  | cons h1 _ ih => exact .cons (hpq _ _ List.mem_cons_self h1) (ih fun a b ha => hpq a b (List.mem_cons_of_mem _ ha))

theorem All2.and {α β : Type} {P Q : α → β → Prop} {as : List α} {bs : List β} (h : All2 P as bs) (h' : All2 Q as bs) :
    All2 (fun a b => P a b ∧ Q a b) as bs := by
  induction h with
  | nil => exact .nil
  | cons h1 _ ih => cases h' with | cons h2 h3 => exact .cons ⟨h1, h2⟩ (ih h3)

theorem All2.left {α β : Type} {P : α → β → Prop} {as : List α} {bs : List β} (h : All2 P as bs) {a : α} (ha : a ∈ as) :
    ∃ b ∈ bs, P a b := by
  induction h with
  | nil => cases ha
  | @cons a' b' as' bs' h1 _ ih =>
    rcases List.mem_cons.1 ha with rfl | ha
    · exact ⟨b', List.mem_cons_self, h1⟩
    · obtain ⟨b, hb, hp⟩ := ih ha
      exact ⟨b, List.mem_cons_of_mem _ hb, hp⟩

theorem mapM_cons {α β : Type} (f : α → R β) (a : α) (l : List α) :
    (a :: l).mapM f = f a >>= fun b => l.mapM f >>= fun bs => .ok (b :: bs) := by
  rw [List.mapM_cons]; rfl

theorem mapM_nil {α β : Type} (f : α → R β) : ([] : List α).mapM f = .ok [] := rfl

theorem mapM_all2 {α β : Type} {f : α → R β} {P : α → β → Prop} {l : List α}
    (h : ∀ a ∈ l, ∃ b, f a = .ok b ∧ P a b) : ∃ bs, l.mapM f = .ok bs ∧ All2 P l bs := by
  induction l with
  | nil => exact ⟨[], rfl, .nil⟩
  | cons a l ih =>
    obtain ⟨b, h1, h2⟩ := h a List.mem_cons_self
    obtain ⟨bs, h3, h4⟩ := ih fun a ha => h a (List.mem_cons_of_mem _ ha)
    exact ⟨b :: bs, by rw [mapM_cons, h1, R.ok_bind, h3, R.ok_bind], .cons h2 h4⟩

theorem All2.mapM {α β : Type} {f : α → R β} {l : List α} {bs : List β} (h : All2 (fun a b => f a = .ok b) l bs) :
    l.mapM f = .ok bs := by
  induction h with
  | nil => rfl
  | cons h1 _ ih => rw [mapM_cons, h1, R.ok_bind, ih, R.ok_bind]

theorem mapM_map {α β γ : Type} (f : β → R γ) (g : α → β) (l : List α) : (l.map g).mapM f = l.mapM fun a => f (g a) := by
  induction l with
  | nil => rfl
  | cons a l ih => rw [List.map_cons, mapM_cons, mapM_cons, ih]

theorem foldlM_cons {α β : Type} (f : β → α → R β) (a : α) (l : List α) (b : β) :
    (a :: l).foldlM f b = f b a >>= fun b' => l.foldlM f b' := by
  rw [List.foldlM_cons]

/-! ### The closures -/

section
variable {T : CTable} {L : Lib} {prog : List Item} {delta : Bool}

theorem rdKids_map (ks : List Node) : rdKids T L prog ks = ks.map (rdNode T L prog) := by
  induction ks with
  | nil => rfl
  | cons k ks ih => rw [rdKids, ih]; rfl

@[simp] theorem rdNode_node (k : Node) : (rdNode T L prog k).node = k := by cases k <;> rfl

theorem firstKid_map (ks : List Node) (n : Str) :
    firstKid (ks.map (rdNode T L prog)) n = (first ks n).map (rdNode T L prog) := by
  unfold firstKid first
  induction ks with
  | nil => rfl
  | cons k ks ih =>
    rw [List.map_cons, List.find?_cons, List.find?_cons, rdNode_node]
    cases k.named n <;> simp [ih]

theorem rdNode_elem (n : Str) (as : List (Str × Str)) (ks : List Node) :
    rdNode T L prog (.elem n as ks) =
      { node := .elem n as ks
        rd := runRd T L prog as (ks.map (rdNode T L prog))
        items := ((ks.filter Node.isElem).map fun k => (rdNode T L prog k).rd) } := by
  rw [rdNode, rdKids_map]
  congr 1
  rw [List.filter_map, List.map_map]
  congr 1
  congr 1
  funext k
  simp

theorem wrFields_lookup (fs : List (Str × Val)) (n : Str) :
    (wrFields T L prog delta fs).lookup n = (fs.lookup n).map (wrVal T L prog delta) := by
  induction fs with
  | nil => rfl
  | cons p fs ih =>
    obtain ⟨m, v⟩ := p
    rw [wrFields]
    by_cases h : n = m
    · subst h; simp
    · have hb : (n == m) = false := by simpa using h
      simp [List.lookup_cons, hb, ih]

theorem wrVals_map (vs : List Val) : wrVals T L prog delta vs = vs.map (wrVal T L prog delta) := by
  induction vs with
  | nil => rfl
  | cons v vs ih => rw [wrVals, ih]; rfl

@[simp] theorem wrVal_val (v : Val) : (wrVal T L prog delta v).val = v := by cases v <;> rfl

end

/-! ### What becomes of a leaf -/

/-- Text of a simple or enum member.  (Proof notion, models no code.) -/
def leafText (T : CTable) (L : Lib) (k : Kind) : MTy → Val → R Str
  | .simple ty, v => simpleText L k ty v
  | .enum n, v => enumText T (some (.enum n)) v
  | _, _ => .stuck

/-- Reading of a simple or enum member.  (Proof notion, models no code.) -/
def readLeaf (T : CTable) (L : Lib) : MTy → Val → Option Str → R Val
  | .simple ty, old, s => readSimple L ty old s
  | .enum n, old, s => readEnum T (some (.enum n)) old s
  | _, _, _ => .stuck

/-- The text the reader finds for a text that was written: white space of elements is lost.  (Proof notion, models no code.) -/
def back (k : Kind) (s : Str) : Option Str := if k = .xml ∧ blank s = true then none else some (nl s)

/-- Writing a simple or enum member with value `v` and default `d`, and reading it into one with value `t`.
(Proof notion, models no code.) -/
def leafTrip (T : CTable) (L : Lib) (k : Kind) (g delta : Bool) (ty : MTy) (d t v : Val) : R Val :=
  guard g delta (if g then some d else none) v >>= fun
    | true => leafText T L k ty v >>= fun s => readLeaf T L ty t (back k s)
    | false => if k = .xml then .ok t else readLeaf T L ty t none

/-- See the definition before it.  (Proof notion, models no code.) -/
def MTy.isLeaf : MTy → Bool
  | .simple _ | .enum _ => true
  | _ => false

/-- `w` is what becomes of an object `t` (member default: `d`) when an object `v` is written and read into it: leaves are
converted, structs member by member, and vectors appended with elements that start as default objects.  (Proof notion, models no code.) -/
inductive Trip (T : CTable) (L : Lib) (k : Kind) (g delta : Bool) : MTy → Val → Val → Val → Val → Prop
  | leaf {ty : MTy} {d t v w : Val} : ty.isLeaf = true → leafTrip T L k g delta ty d t v = .ok w →
      Trip T L k g delta ty d t v w
  | struct {c : Str} {ms : List CMember} {d : Val} {ds ts fs ws : List (Str × Val)} : T.cls c = some ms →
      T.dflt c = .struct ds → ts.map Prod.fst = ms.map CMember.name → fs.map Prod.fst = ms.map CMember.name →
      ws.map Prod.fst = ms.map CMember.name →
      (∀ m ∈ ms, ∀ d' t' v' w', ds.lookup m.name = some d' → ts.lookup m.name = some t' → fs.lookup m.name = some v' →
        ws.lookup m.name = some w' → Trip T L k g delta m.ty d' t' v' w') →
      Trip T L k g delta (.struct c) d (.struct ts) (.struct fs) (.struct ws)
  | vec {c : Str} {d : Val} {ts vs ws : List Val} : ws.length = vs.length →
      (∀ (i : Nat) (v w : Val), vs[i]? = some v → ws[i]? = some w → Trip T L k g delta (.struct c) (T.dflt c) (T.dflt c) v w) →
      Trip T L k g delta (.vec c) d (.vec ts) (.vec vs) (.vec (ts ++ ws))

/-! ### The code of a schema -/

/-- The program has reader and writer functions for the structs of the table, made from their members.  (Proof notion, models no code.) -/
structure Code (T : CTable) (prog : List Item) (k : Kind) (g : Bool) : Prop where
  kind : k = .xml ∨ k = .attrib
  good : T.Good
  fn : ∀ c ms, T.cls c = some ms → ∃ ls : List (Str × MTy), ls.Perm (ms.map fun m => (m.name, m.ty)) ∧
    rdBody prog c = some (ls.map (lineRd k)) ∧ wrBody prog c = some (g, ls.map (lineWr k g))

/-- The tables stfx generates from describe the structs the compiler sees.  (Proof notion, models no code.) -/
structure Describes (T : CTable) (S : SMap StructS) : Prop where
  good : T.Good
  lines : ∀ c ms, T.cls c = some ms → ∃ s, S.find? c = some s ∧ Resolved s ∧
    (lines s).Perm (ms.map fun m => (m.name, m.ty))

theorem code_of_gen {T : CTable} {S : SMap StructS} (hd : Describes T S) {k : Kind} (hk : k = .xml ∨ k = .attrib)
    {stamp fc fh : Str} {inputs : List Str} {out : OutSpec} (ho : out.onlyRead = false)
    (hn : ∀ k s, (k, s) ∈ S → s.name = k) : Code T (structsCpp k stamp fc fh inputs out S) k (!out.noDelta) := by
  refine ⟨hk, hd.good, fun c ms hc => ?_⟩
  obtain ⟨s, hs, hr, hp⟩ := hd.lines c ms hc
  refine ⟨lines s, hp, ?_, ?_⟩
  · rw [rdBody_gen hk hn, hs]
    simp only [Option.map_some, lines, List.map_append, List.map_map, Function.comp_def]
    congr 2
    exact List.map_congr_left fun co hco => rdComplex_line (hr co hco)
  · rw [wrBody_gen hk ho hn, hs]
    simp only [Option.map_some, lines, List.map_append, List.map_map, Function.comp_def]
    congr 3
    exact List.map_congr_left fun co hco => wrComplex_line (hr co hco)

theorem find_member {ms : List CMember} (hnd : (ms.map CMember.name).Nodup) {m : CMember} (hm : m ∈ ms) :
    ms.find? (fun m' => m'.name = m.name) = some m := by
  induction ms with
  | nil => cases hm
  | cons a ms ih =>
    rw [List.map_cons, List.nodup_cons] at hnd
    rw [List.find?_cons]
    rcases List.mem_cons.1 hm with rfl | h
    · simp
    · have hne : a.name ≠ m.name := fun he => hnd.1 (by rw [he]; exact List.mem_map_of_mem h)
      simp only [hne, decide_false]
      exact ih hnd.2 h

theorem memberTy_of {T : CTable} {c : Str} {ms : List CMember} (hc : T.cls c = some ms)
    (hnd : (ms.map CMember.name).Nodup) {m : CMember} (hm : m ∈ ms) : memberTy T c m.name = some m.ty := by
  unfold memberTy
  rw [hc]
  simp only [find_member hnd hm, Option.map_some]

/-! ### Elements under construction -/

/-- The statement for member `n` emitted this.  (Proof notion, models no code.) -/
def Emit.owned (n : Str) : Emit → Prop
  | .none => True
  | .attr m _ => m = n
  | .kid k => k.named n = true

/-- See the definition before it.  (Proof notion, models no code.) -/
def Emit.text : Emit → Option Str
  | .attr _ s => some s
  | _ => .none

/-- See the definition before it.  (Proof notion, models no code.) -/
def Emit.node : Emit → Option Node
  | .kid k => some k
  | _ => .none

theorem named_unique {n m : Str} {k : Node} (h1 : k.named n = true) (h2 : k.named m = true) : n = m := by
  cases k <;> simp_all [Node.named]

theorem add_other {n m : Str} {e : Emit} (h : e.owned m) (hne : n ≠ m) (el : El) :
    (el.add e).attrs.lookup n = el.attrs.lookup n ∧ first (el.add e).kids n = first el.kids n := by
  cases e with
  | none => exact ⟨rfl, rfl⟩
  | attr a s =>
    cases h
    exact ⟨setAttr_other s hne _, rfl⟩
  | kid k =>
    refine ⟨rfl, ?_⟩
    have : k.named n = false := by
      cases hk : k.named n with
      | false => rfl
      | true => exact absurd (named_unique hk h) hne
    simp [El.add, first, List.find?_append, this]

theorem foldl_other {n : Str} {ls : List (Str × MTy)} {es : List Emit} (h : All2 (fun p e => Emit.owned p.1 e) ls es)
    (hn : n ∉ ls.map Prod.fst) (el : El) :
    (es.foldl El.add el).attrs.lookup n = el.attrs.lookup n ∧ first (es.foldl El.add el).kids n = first el.kids n := by
  induction h generalizing el with
  | nil => exact ⟨rfl, rfl⟩
  | cons h1 _ ih =>
    rw [List.map_cons, List.mem_cons, not_or] at hn
    rw [List.foldl_cons]
    obtain ⟨a, b⟩ := ih hn.2 (el.add _)
    obtain ⟨a', b'⟩ := add_other h1 hn.1 el
    exact ⟨a.trans a', b.trans b'⟩

theorem foldl_emits {ls : List (Str × MTy)} {es : List Emit} (h : All2 (fun p e => Emit.owned p.1 e) ls es)
    (hnd : (ls.map Prod.fst).Nodup) (el : El)
    (h0 : ∀ n ∈ ls.map Prod.fst, el.attrs.lookup n = none ∧ first el.kids n = none) :
    All2 (fun p e => (es.foldl El.add el).attrs.lookup p.1 = e.text ∧ first (es.foldl El.add el).kids p.1 = e.node) ls es := by
  induction h generalizing el with
  | nil => exact .nil
  | @cons p e ls es h1 h2 ih =>
    rw [List.map_cons, List.nodup_cons] at hnd
    rw [List.foldl_cons]
    refine .cons ?_ (ih hnd.2 (el.add e) ?_)
    · obtain ⟨a, b⟩ := foldl_other h2 hnd.1 (el.add e)
      rw [a, b]
      obtain ⟨z1, z2⟩ := h0 p.1 (by simp)
      cases e with
      | none => exact ⟨z1, z2⟩
      | attr m s =>
        cases h1
        exact ⟨setAttr_self _ _ _, z2⟩
      | kid k =>
        have h1 : k.named p.1 = true := h1
        refine ⟨z1, ?_⟩
        unfold first at z2
        simp [El.add, first, List.find?_append, z2, h1, Emit.node]
    · intro n hn
      have hne : n ≠ p.1 := by rintro rfl; exact hnd.1 hn
      obtain ⟨a, b⟩ := add_other h1 hne el
      obtain ⟨z1, z2⟩ := h0 n (by rw [List.map_cons]; exact List.mem_cons_of_mem _ hn)
      exact ⟨a.trans z1, b.trans z2⟩

/-! ### Reading all members -/

theorem lineRd_member (k : Kind) (p : Str × MTy) : (lineRd k p).member = some p.1 := by
  obtain ⟨n, ty⟩ := p
  cases ty <;> cases k <;> rfl

theorem foldl_read {T : CTable} {L : Lib} {c : Str} {attrs : List (Str × Str)} {kids : List Kid} {k : Kind}
    {ls : List (Str × MTy)} {ts ws : List (Str × Val)} (hnd : (ls.map Prod.fst).Nodup)
    (h : ∀ p ∈ ls, ∃ t w, ts.lookup p.1 = some t ∧ ws.lookup p.1 = some w ∧
      rdAct T L c attrs kids (lineRd k p) t = .ok w) :
    ∃ fs, (ls.map (lineRd k)).foldlM (rdStep T L c attrs kids) ts = .ok fs ∧ fs.map Prod.fst = ts.map Prod.fst ∧
      (∀ n ∈ ls.map Prod.fst, fs.lookup n = ws.lookup n) ∧ ∀ n, n ∉ ls.map Prod.fst → fs.lookup n = ts.lookup n := by
  induction ls generalizing ts with
  | nil => exact ⟨ts, rfl, rfl, by simp, fun _ _ => rfl⟩
  | cons p ls ih =>
    rw [List.map_cons, List.nodup_cons] at hnd
    obtain ⟨t, w, h1, h2, h3⟩ := h p List.mem_cons_self
    obtain ⟨fs1, g1, g2, g3, g4⟩ := modifyField_ok h1 h3
    obtain ⟨fs, f1, f2, f3, f4⟩ := ih (ts := fs1) hnd.2 (by
      intro q hq
      obtain ⟨t', w', a1, a2, a3⟩ := h q (List.mem_cons_of_mem _ hq)
      refine ⟨t', w', ?_, a2, a3⟩
      rw [g4 q.1 (by rintro he; exact hnd.1 (he ▸ List.mem_map_of_mem hq))]
      exact a1)
    refine ⟨fs, ?_, f2.trans g2, ?_, ?_⟩
    · rw [List.map_cons, foldlM_cons]
      unfold rdStep
      rw [lineRd_member]
      dsimp only
      rw [g1, R.ok_bind]
      exact f1
    · intro n hn
      rw [List.map_cons, List.mem_cons] at hn
      by_cases hm : n ∈ ls.map Prod.fst
      · exact f3 n hm
      · rcases hn with rfl | hn
        · rw [f4 p.1 hm, g3, h2]
        · exact absurd hn hm
    · intro n hn
      rw [List.map_cons, List.mem_cons, not_or] at hn
      rw [f4 n hn.2, g4 n hn.1]

/-! ### The round trip -/

section
variable {T : CTable} {L : Lib} {prog : List Item} {k : Kind} {g delta : Bool}

/-- What the functions do for a member of each type.  (Proof notion, models no code.) -/
def TripOk (T : CTable) (L : Lib) (prog : List Item) (k : Kind) (g delta : Bool) : MTy → Val → Val → Val → Val → Prop
  | .struct c, _, t, v, w => ∃ el, (wrVal T L prog delta v).wr c = .ok el ∧
      ∀ nm, (rdNode T L prog (reload (.elem nm el.attrs el.kids))).rd c t = .ok w
  | .vec c, _, t, v, w => ∃ els ts ws, ((wrVal T L prog delta v).items.mapM fun wr => wr c) = .ok els ∧ t = .vec ts ∧
      w = .vec (ts ++ ws) ∧
      ∀ nm, ((rdNode T L prog (reload (.elem nm [] (els.map fun el => .elem c el.attrs el.kids)))).items.mapM
        fun rd => rd c (T.dflt c)) = .ok ws
  | .simple ty, d, t, v, w => leafTrip T L k g delta (.simple ty) d t v = .ok w
  | .enum n, d, t, v, w => leafTrip T L k g delta (.enum n) d t v = .ok w

/-- The leaf statements in terms of `leafText` and `readLeaf`. -/
theorem wrAct_leaf (hk : k = .xml ∨ k = .attrib) {c n : Str} {ty : MTy} (hl : ty.isLeaf = true)
    (hm : memberTy T c n = some ty) {dd : List (Str × Val)} {fs : List (Str × Val)} {v : Val}
    (hv : fs.lookup n = some v) :
    wrAct T L delta c dd (wrFields T L prog delta fs) (lineWr k g (n, ty)) =
      guard g delta (dd.lookup n) v >>= fun
        | true => leafText T L k ty v >>= fun s =>
            .ok (if k = .xml then .kid (.elem n [] [.text s]) else .attr n s)
        | false => .ok .none := by
  cases ty with
  | simple ty =>
    rcases hk with rfl | rfl
    · simp only [lineWr, if_pos, wrAct, field, wrFields_lookup, hv, Option.map_some, R.ok_bind, wrVal_val, leafText]
      congr 1
      funext b
      cases b <;> rfl
    · simp only [lineWr, wrAct, field, wrFields_lookup, hv, Option.map_some, R.ok_bind, wrVal_val, leafText,
        show ¬ (Kind.attrib = Kind.xml) by decide, if_false]
      congr 1
      funext b
      cases b <;> rfl
  | enum e =>
    rcases hk with rfl | rfl
    · simp only [lineWr, if_pos, wrAct, field, wrFields_lookup, hv, Option.map_some, R.ok_bind, wrVal_val, leafText, hm]
      congr 1
      funext b
      cases b <;> rfl
    · simp only [lineWr, wrAct, field, wrFields_lookup, hv, Option.map_some, R.ok_bind, wrVal_val, leafText, hm,
        show ¬ (Kind.attrib = Kind.xml) by decide, if_false]
      congr 1
      funext b
      cases b <;> rfl
  | struct _ => cases hl
  | vec _ => cases hl

/-- Reading a leaf from an attribute. -/
theorem rdAct_attr {c n : Str} {ty : MTy} (hl : ty.isLeaf = true) (hm : memberTy T c n = some ty)
    {attrs : List (Str × Str)} {kids : List Kid} {t : Val} :
    rdAct T L c attrs kids (lineRd .attrib (n, ty)) t = readLeaf T L ty t (attrs.lookup n) := by
  cases ty with
  | simple ty => rfl
  | enum e => simp only [lineRd, rdAct, hm, readLeaf, show ¬ (Kind.attrib = Kind.xml) by decide, if_false]
  | struct _ => cases hl
  | vec _ => cases hl

/-- Reading a leaf from a missing element. -/
theorem rdAct_elem_none {c n : Str} {ty : MTy} (hl : ty.isLeaf = true) {attrs : List (Str × Str)} {kids : List Kid}
    (hf : firstKid kids n = none) {t : Val} : rdAct T L c attrs kids (lineRd .xml (n, ty)) t = .ok t := by
  cases ty with
  | simple ty => simp only [lineRd, if_pos, rdAct, hf]
  | enum e => simp only [lineRd, if_pos, rdAct, hf]
  | struct _ => cases hl
  | vec _ => cases hl

/-- Reading a leaf from an element that was written. -/
theorem rdAct_elem {c n : Str} {ty : MTy} (hl : ty.isLeaf = true) (hm : memberTy T c n = some ty)
    {attrs : List (Str × Str)} {kids : List Kid} {s : Str}
    (hf : firstKid kids n = some (rdNode T L prog (reload (.elem n [] [.text s])))) {t : Val} :
    rdAct T L c attrs kids (lineRd .xml (n, ty)) t = readLeaf T L ty t (back .xml s) := by
  have hb : getText (reload (.elem n [] [.text s])).kids = back .xml s ∧
      queryText (reload (.elem n [] [.text s])).kids = back .xml s := by
    cases h : blank s <;> simp [reload, reloadKids, Node.isBlank, h, Node.kids, getText, queryText, back]
  cases ty with
  | simple ty =>
    simp only [lineRd, if_pos, rdAct, hf, rdNode_node, hb.1, hb.2, readLeaf, ite_self]
  | enum e => simp only [lineRd, if_pos, rdAct, hf, rdNode_node, hb.1, hm, readLeaf]
  | struct _ => cases hl
  | vec _ => cases hl

theorem line_ok (hk : k = .xml ∨ k = .attrib) {c : Str} {m : CMember} (hm : memberTy T c m.name = some m.ty)
    {ds fs : List (Str × Val)} {d t v w : Val} (hd : ds.lookup m.name = some d) (hv : fs.lookup m.name = some v)
    (h : TripOk T L prog k g delta m.ty d t v w) :
    ∃ e, wrAct T L delta c (if g then ds else []) (wrFields T L prog delta fs) (lineWr k g (m.name, m.ty)) = .ok e ∧
      e.owned m.name ∧ ∀ (attrs : List (Str × Str)) (nodes : List Node), attrs.lookup m.name = e.text.map nl →
        first nodes m.name = e.node.map reload →
        rdAct T L c attrs (nodes.map (rdNode T L prog)) (lineRd k (m.name, m.ty)) t = .ok w := by
  have leaf : m.ty.isLeaf = true → leafTrip T L k g delta m.ty d t v = .ok w →
    ∃ e, wrAct T L delta c (if g then ds else []) (wrFields T L prog delta fs) (lineWr k g (m.name, m.ty)) = .ok e ∧
      e.owned m.name ∧ ∀ (attrs : List (Str × Str)) (nodes : List Node), attrs.lookup m.name = e.text.map nl →
        first nodes m.name = e.node.map reload →
        rdAct T L c attrs (nodes.map (rdNode T L prog)) (lineRd k (m.name, m.ty)) t = .ok w := by
    intro hl h
    rw [wrAct_leaf hk hl hm hv]
    have hlook : (if g then ds else []).lookup m.name = if g then some d else none := by cases g <;> simp [hd]
    rw [hlook]
    unfold leafTrip at h
    rw [R.bind_eq_ok] at h
    obtain ⟨b, h1, h2⟩ := h
    rw [h1, R.ok_bind]
    cases b with
    | true =>
      simp only at h2 ⊢
      rw [R.bind_eq_ok] at h2
      obtain ⟨s, h3, h4⟩ := h2
      rw [h3, R.ok_bind]
      refine ⟨_, rfl, ?_, ?_⟩
      · rcases hk with rfl | rfl
        · simp [Emit.owned, Node.named]
        · simp [Emit.owned]
      · intro attrs nodes ha hn
        rcases hk with rfl | rfl
        · simp only [if_pos, Emit.node, Option.map_some] at hn
          rw [rdAct_elem (prog := prog) hl hm (s := s) (by rw [firstKid_map, hn]; rfl)]
          exact h4
        · simp only [show ¬ (Kind.attrib = Kind.xml) by decide, if_false, Emit.text, Option.map_some] at ha
          rw [rdAct_attr hl hm, ha]
          simpa [back] using h4
    | false =>
      simp only at h2 ⊢
      refine ⟨.none, rfl, trivial, ?_⟩
      intro attrs nodes ha hn
      rcases hk with rfl | rfl
      · rw [if_pos rfl] at h2
        simp only [Emit.node, Option.map_none] at hn
        rw [rdAct_elem_none hl (by rw [firstKid_map, hn]; rfl)]
        exact h2
      · simp only [show ¬ (Kind.attrib = Kind.xml) by decide, if_false] at h2
        simp only [Emit.text, Option.map_none] at ha
        rw [rdAct_attr hl hm, ha]
        exact h2
  cases hty : m.ty with
  | simple ty => rw [← hty]; exact leaf (by rw [hty]; rfl) (by rw [hty] at h ⊢; exact h)
  | enum n => rw [← hty]; exact leaf (by rw [hty]; rfl) (by rw [hty] at h ⊢; exact h)
  | struct c' =>
    rw [hty] at h
    obtain ⟨el, h1, h2⟩ := h
    refine ⟨.kid (.elem m.name el.attrs el.kids), ?_, by simp [Emit.owned, Node.named], ?_⟩
    · simp only [lineWr, wrAct, field, wrFields_lookup, hv, Option.map_some, R.ok_bind, h1]
      rfl
    · intro attrs nodes _ hn
      simp only [Emit.node, Option.map_some] at hn
      simp only [lineRd, rdAct, firstKid_map, hn, Option.map_some]
      exact h2 m.name
  | vec c' =>
    rw [hty] at h
    obtain ⟨els, ts, ws, h1, rfl, rfl, h4⟩ := h
    refine ⟨.kid (.elem m.name [] (els.map fun el => .elem c' el.attrs el.kids)), ?_, by simp [Emit.owned, Node.named], ?_⟩
    · simp only [lineWr, wrAct, field, wrFields_lookup, hv, Option.map_some, R.ok_bind, h1]
      rfl
    · intro attrs nodes _ hn
      simp only [Emit.node, Option.map_some] at hn
      simp only [lineRd, rdAct, firstKid_map, hn, Option.map_some]
      rw [h4 m.name]
      rfl

theorem all2_of_getElem {α β : Type} {P : α → β → Prop} {as : List α} {bs : List β} (hl : bs.length = as.length)
    (h : ∀ (i : Nat) (a : α) (b : β), as[i]? = some a → bs[i]? = some b → P a b) : All2 P as bs := by
  induction as generalizing bs with
  | nil => cases bs with
    | nil => exact .nil
    | cons b bs => cases hl
  | cons a as ih => cases bs with
    | nil => cases hl
    | cons b bs =>
      exact .cons (h 0 a b rfl rfl) (ih (by simpa using hl) fun i a' b' ha hb => h (i + 1) a' b' (by simpa using ha) (by simpa using hb))

/-- Writing and reading an object does what `Trip` says. -/
theorem trip_ok (hc : Code T prog k g) {ty : MTy} {d t v w : Val} (h : Trip T L k g delta ty d t v w) :
    TripOk T L prog k g delta ty d t v w := by
  induction h with
  | @leaf ty d t v w hl h =>
    cases ty with
    | simple ty => exact h
    | enum n => exact h
    | struct _ => cases hl
    | vec _ => cases hl
  | @struct c ms d ds ts fs ws hcls hds hts hfs hws _ ih =>
    obtain ⟨ls, hp, hr, hw⟩ := hc.fn c ms hcls
    have hnd := hc.good.nodup c ms hcls
    have hnames : (ls.map Prod.fst).Perm (ms.map CMember.name) := by
      have := hp.map Prod.fst
      simpa [Function.comp_def] using this
    have hlnd : (ls.map Prod.fst).Nodup := hnames.nodup_iff.2 hnd
    have hdn : ds.map Prod.fst = ms.map CMember.name := by
      have := hc.good.dflt c ms hcls
      rw [hds] at this
      injection this with this
      rw [this]
      simp [Function.comp_def]
    -- each line
    have hline : ∀ p ∈ ls, ∃ e, wrAct T L delta c (if g then ds else []) (wrFields T L prog delta fs) (lineWr k g p) = .ok e ∧
        (e.owned p.1 ∧ ∃ t w, ts.lookup p.1 = some t ∧ ws.lookup p.1 = some w ∧
          ∀ (attrs : List (Str × Str)) (nodes : List Node), attrs.lookup p.1 = e.text.map nl →
            first nodes p.1 = e.node.map reload →
            rdAct T L c attrs (nodes.map (rdNode T L prog)) (lineRd k p) t = .ok w) := by
      intro p hpm
      obtain ⟨m, hm, rfl⟩ := List.mem_map.1 (hp.mem_iff.1 hpm)
      have hmn : m.name ∈ ms.map CMember.name := List.mem_map_of_mem hm
      obtain ⟨d', hd'⟩ := lookup_isSome (hdn ▸ hmn)
      obtain ⟨t', ht'⟩ := lookup_isSome (hts ▸ hmn)
      obtain ⟨v', hv'⟩ := lookup_isSome (hfs ▸ hmn)
      obtain ⟨w', hw'⟩ := lookup_isSome (hws ▸ hmn)
      obtain ⟨e, h1, h2, h3⟩ := line_ok hc.kind (memberTy_of hcls hnd hm) hd' hv' (ih m hm d' t' v' w' hd' ht' hv' hw')
      exact ⟨e, h1, h2, t', w', ht', hw', h3⟩
    obtain ⟨es, hes, hall⟩ := mapM_all2 hline
    have hown := hall.imp (Q := fun p e => Emit.owned p.1 e) fun _ _ _ h => h.1
    have hem := foldl_emits hown hlnd ⟨[], []⟩ (by intro n _; exact ⟨rfl, rfl⟩)
    refine ⟨es.foldl El.add ⟨[], []⟩, ?_, ?_⟩
    · rw [wrVal]
      dsimp only
      unfold runWr
      rw [hw]
      dsimp only
      rw [mapM_map, hds]
      rw [show (Val.struct ds).fields = ds from rfl]
      rw [hes]
      rfl
    · intro nm
      generalize es.foldl El.add ⟨[], []⟩ = el at hem
      have hread : ∀ p ∈ ls, ∃ t w, ts.lookup p.1 = some t ∧ ws.lookup p.1 = some w ∧
          rdAct T L c (el.attrs.map fun p => (p.1, nl p.2)) ((reloadKids el.kids).map (rdNode T L prog)) (lineRd k p) t =
            .ok w := by
        intro p hpm
        obtain ⟨e, _, ⟨_, t', w', a1, a2, a3⟩, b1, b2⟩ := (hall.and hem).left hpm
        exact ⟨t', w', a1, a2, a3 _ _ (by rw [lookup_map_snd, b1]) (by rw [first_reload, b2])⟩
      obtain ⟨fs', f1, f2, f3, _⟩ := foldl_read hlnd hread
      rw [reload, rdNode_elem]
      dsimp only
      unfold runRd
      rw [hr]
      dsimp only
      rw [f1, R.ok_bind]
      congr 2
      refine fields_ext (by rw [f2, hts, hws]) (by rw [f2, hts]; exact hnd) ?_
      intro n hn
      refine f3 n (hnames.mem_iff.2 ?_)
      rw [← hts, ← f2]
      exact hn
  | @vec c d ts vs ws hlen htr ih =>
    have h2 := all2_of_getElem (P := fun v w => TripOk T L prog k g delta (.struct c) (T.dflt c) (T.dflt c) v w) hlen ih
    clear hlen htr ih
    have h3 : ∃ els, (vs.mapM fun v => (wrVal T L prog delta v).wr c) = .ok els ∧
        (els.mapM fun el => (rdNode T L prog (reload (.elem c el.attrs el.kids))).rd c (T.dflt c)) = .ok ws := by
      induction h2 with
      | nil => exact ⟨[], rfl, rfl⟩
      | cons h1 _ ih =>
        obtain ⟨el, a1, a2⟩ := h1
        obtain ⟨els, b1, b2⟩ := ih
        exact ⟨el :: els, by rw [mapM_cons, a1, R.ok_bind, b1, R.ok_bind],
          by rw [mapM_cons, a2 c, R.ok_bind, b2, R.ok_bind]⟩
    obtain ⟨els, e1, e2⟩ := h3
    refine ⟨els, ts, ws, ?_, rfl, rfl, ?_⟩
    · rw [wrVal, wrVals_map]
      simp only [List.map_map, mapM_map, Function.comp_def]
      exact e1
    · intro nm
      rw [reload, rdNode_elem]
      dsimp only
      rw [elems_reload]
      have : ((els.map fun el => Node.elem c el.attrs el.kids).filter Node.isElem) =
          els.map fun el => Node.elem c el.attrs el.kids := by
        rw [List.filter_eq_self]
        intro a ha
        obtain ⟨el, _, rfl⟩ := List.mem_map.1 ha
        rfl
      rw [this]
      simp only [List.map_map, mapM_map, Function.comp_def]
      exact e2

end
end Stfx.Run
