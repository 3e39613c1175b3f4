import Verif.Run.XmlRead
/-
What the writer functions write, member by member, and what reading it back gives.
-/
set_option autoImplicit false
namespace Stfx.Run
open Stfx.Items Stfx.Parser Stfx.Gen Stfx.Lexer

/-- The name of an element.  (Proof notion, models no code.) -/
def Node.name : Node → Str
  | .elem n _ _ => n
  | _ => []

theorem named_name {n : Str} {x : Node} (h : x.named n = true) : x.name = n := by
  cases x <;> simp [Node.named] at h
  exact h

/-- Attributes `as` and children `ks` are what a writer makes of a struct (of the elements of a vector).  (Proof notion, models no code.) -/
inductive Wrote (T : CTable) (L : Lib) (k : Kind) (g delta : Bool) : MTy → Val → List (Str × Str) → List Node → Prop
  | struct {c : Str} {ms : List CMember} {ds fs : List (Str × Val)} {as : List (Str × Str)} {ks : List Node} :
      T.cls c = some ms → T.dflt c = .struct ds → fs.map Prod.fst = ms.map CMember.name →
      (as.map Prod.fst).Nodup → (ks.map Node.name).Nodup →
      (∀ a ∈ as.map Prod.fst, ∃ m ∈ ms, m.name = a) → (∀ x ∈ ks, ∃ m ∈ ms, x.named m.name = true) →
      -- simple and enum members
      (∀ m ∈ ms, m.ty.isLeaf = true → ∀ d v, ds.lookup m.name = some d → fs.lookup m.name = some v →
        (guard g delta (if g then some d else none) v = .ok true ∧ ∃ s, leafText T L k m.ty v = .ok s ∧
          as.lookup m.name = (if k = .xml then none else some s) ∧
          first ks m.name = (if k = .xml then some (.elem m.name [] [.text s]) else none)) ∨
        (guard g delta (if g then some d else none) v = .ok false ∧ as.lookup m.name = none ∧ first ks m.name = none)) →
      -- struct and vector members
      (∀ m ∈ ms, m.ty.isLeaf = false → as.lookup m.name = none ∧ ∃ as' ks', first ks m.name = some (.elem m.name as' ks')) →
      (∀ m ∈ ms, m.ty.isLeaf = false → ∀ v as' ks', fs.lookup m.name = some v →
        first ks m.name = some (.elem m.name as' ks') → Wrote T L k g delta m.ty v as' ks') →
      Wrote T L k g delta (.struct c) (.struct fs) as ks
  | vec {c : Str} {vs : List Val} {ks : List Node} : ks.length = vs.length →
      (∀ x ∈ ks, ∃ as' ks', x = .elem c as' ks') →
      (∀ (i : Nat) (v : Val) (n : Str) (as' : List (Str × Str)) (ks' : List Node), vs[i]? = some v →
        ks[i]? = some (.elem n as' ks') → Wrote T L k g delta (.struct c) v as' ks') →
      Wrote T L k g delta (.vec c) (.vec vs) [] ks

section
variable {T : CTable} {L : Lib} {prog : List Item} {k : Kind} {g delta : Bool}

/-- The name of the attribute a statement sets.  (Proof notion, models no code.) -/
def Emit.attrName : Emit → Option Str
  | .attr n _ => some n
  | _ => .none

theorem foldl_kids (es : List Emit) (el : El) : (es.foldl El.add el).kids = el.kids ++ es.filterMap Emit.node := by
  induction es generalizing el with
  | nil => simp
  | cons e es ih =>
    rw [List.foldl_cons, ih]
    cases e with
    | none => rfl
    | attr _ _ => rfl
    | kid x => simp [El.add, Emit.node]

theorem foldl_attrs {ls : List (Str × MTy)} {es : List Emit} (h : All2 (fun p e => Emit.owned p.1 e) ls es)
    (hnd : (ls.map Prod.fst).Nodup) (el : El) (h0 : ∀ n ∈ ls.map Prod.fst, n ∉ el.attrs.map Prod.fst) :
    (es.foldl El.add el).attrs.map Prod.fst = el.attrs.map Prod.fst ++ es.filterMap Emit.attrName := by
  induction h generalizing el with
  | nil => simp
  | @cons p e ls es h1 _ ih =>
    rw [List.map_cons, List.nodup_cons] at hnd
    rw [List.foldl_cons]
    cases e with
    | none => exact ih hnd.2 el fun n hn => h0 n (List.mem_cons_of_mem _ hn)
    | kid x => exact ih hnd.2 (el.add (.kid x)) fun n hn => h0 n (List.mem_cons_of_mem _ hn)
    | attr a s =>
      cases h1
      have ha : (setAttr p.1 s el.attrs).map Prod.fst = el.attrs.map Prod.fst ++ [p.1] := by
        rw [setAttr_names, if_neg (h0 p.1 List.mem_cons_self)]
      rw [ih hnd.2 _ ?_]
      · simp only [El.add, ha, List.filterMap_cons, Emit.attrName]
        simp
      · intro n hn
        simp only [El.add, ha, List.mem_append, List.mem_singleton, not_or]
        exact ⟨h0 n (List.mem_cons_of_mem _ hn), by rintro rfl; exact hnd.1 hn⟩

theorem attrNames_sublist {ls : List (Str × MTy)} {es : List Emit} (h : All2 (fun p e => Emit.owned p.1 e) ls es) :
    (es.filterMap Emit.attrName).Sublist (ls.map Prod.fst) := by
  induction h with
  | nil => exact .slnil
  | @cons p e ls es h1 _ ih =>
    cases e with
    | none => exact .cons _ ih
    | kid x => exact .cons _ ih
    | attr a s => cases h1; exact .cons₂ _ ih

theorem kidNames_sublist {ls : List (Str × MTy)} {es : List Emit} (h : All2 (fun p e => Emit.owned p.1 e) ls es) :
    ((es.filterMap Emit.node).map Node.name).Sublist (ls.map Prod.fst) := by
  induction h with
  | nil => exact .slnil
  | @cons p e ls es h1 _ ih =>
    cases e with
    | none => exact .cons _ ih
    | attr a s => exact .cons _ ih
    | kid x =>
      have : x.name = p.1 := named_name h1
      simp only [List.filterMap_cons, Emit.node, List.map_cons, this]
      exact .cons₂ _ ih

theorem All2.mem_right {α β : Type} {P : α → β → Prop} {as : List α} {bs : List β} (h : All2 P as bs) {b : β} (hb : b ∈ bs) :
    ∃ a ∈ as, P a b := by
  induction h with
  | nil => cases hb
  | cons h1 _ ih =>
    rcases List.mem_cons.1 hb with rfl | hb
    · exact ⟨_, List.mem_cons_self, h1⟩
    · obtain ⟨a, ha, hp⟩ := ih hb
      exact ⟨a, List.mem_cons_of_mem _ ha, hp⟩

/-- Each statement emits something for its own member. -/
theorem wrAct_owned (hk : k = .xml ∨ k = .attrib) {c : Str} {dd : List (Str × Val)} {ws : List (Str × WVal)} {p : Str × MTy}
    {e : Emit} (h : wrAct T L delta c dd ws (lineWr k g p) = .ok e) : e.owned p.1 := by
  obtain ⟨n, ty⟩ := p
  have key : ∀ (r : R WVal) (f : WVal → R Bool) (s : WVal → R Str) (mk : Str → Emit), (∀ s, (mk s).owned n) →
      (r >>= fun w => f w >>= fun b => if b then s w >>= fun s => pure (mk s) else pure .none) = .ok e → e.owned n := by
    intro r f s mk hmk h
    rw [R.bind_eq_ok] at h
    obtain ⟨w, _, h⟩ := h
    rw [R.bind_eq_ok] at h
    obtain ⟨b, _, h⟩ := h
    cases b with
    | false => injection h with h; subst h; trivial
    | true =>
      rw [if_pos rfl, R.bind_eq_ok] at h
      obtain ⟨x, _, h⟩ := h
      injection h with h
      subst h
      exact hmk x
  cases ty with
  | simple ty =>
    rcases hk with rfl | rfl
    · exact key _ _ _ _ (fun s => by simp [Emit.owned, Node.named]) h
    · exact key _ _ _ _ (fun s => by simp [Emit.owned]) h
  | enum n =>
    rcases hk with rfl | rfl
    · exact key _ _ _ _ (fun s => by simp [Emit.owned, Node.named]) h
    · exact key _ _ _ _ (fun s => by simp [Emit.owned]) h
  | struct t =>
    simp only [lineWr, wrAct] at h
    rw [R.bind_eq_ok] at h
    obtain ⟨w, _, h⟩ := h
    rw [R.bind_eq_ok] at h
    obtain ⟨el, _, h⟩ := h
    injection h with h
    subst h
    simp [Emit.owned, Node.named]
  | vec t =>
    simp only [lineWr, wrAct] at h
    rw [R.bind_eq_ok] at h
    obtain ⟨w, _, h⟩ := h
    rw [R.bind_eq_ok] at h
    obtain ⟨el, _, h⟩ := h
    injection h with h
    subst h
    simp [Emit.owned, Node.named]

/-- `Wrote` for what the functions return.  (Proof notion, models no code.) -/
def WroteBy (T : CTable) (L : Lib) (prog : List Item) (k : Kind) (g delta : Bool) : MTy → Val → Prop
  | .struct c, v => ∀ el, (wrVal T L prog delta v).wr c = .ok el → Wrote T L k g delta (.struct c) v el.attrs el.kids
  | .vec c, v => ∀ els, ((wrVal T L prog delta v).items.mapM fun wr => wr c) = .ok els →
      Wrote T L k g delta (.vec c) v [] (els.map fun el => .elem c el.attrs el.kids)
  | _, _ => True

/-- What a writer function returns is as `Wrote` says. -/
theorem wrote (hc : Code T prog k g) {ty : MTy} {v : Val} (hv : CTable.WT T false ty v) :
    WroteBy T L prog k g delta ty v := by
  induction hv with
  | undef h _ _ _ => cases h
  | simple _ => trivial
  | enum _ _ _ => trivial
  | @struct c ms fs hcls hfs _ ih =>
    intro el hel
    obtain ⟨ls, hp, hr, hw⟩ := hc.fn c ms hcls
    have hnd := hc.good.nodup c ms hcls
    have hnames : (ls.map Prod.fst).Perm (ms.map CMember.name) := by
      have := hp.map Prod.fst
      simpa [Function.comp_def] using this
    have hlnd : (ls.map Prod.fst).Nodup := hnames.nodup_iff.2 hnd
    obtain ⟨ds, hds, hdn, _⟩ := dflt_struct hc.good hcls
    rw [wrVal] at hel
    dsimp only at hel
    unfold runWr at hel
    rw [hw] at hel
    dsimp only at hel
    rw [mapM_map, hds, show (Val.struct ds).fields = ds from rfl, R.bind_eq_ok] at hel
    obtain ⟨es, hes, hel⟩ := hel
    injection hel with hel
    have hall := mapM_inv hes
    have hown := hall.imp (Q := fun p e => Emit.owned p.1 e) fun p e _ h => wrAct_owned hc.kind h
    have hem := foldl_emits hown hlnd ⟨[], []⟩ (by intro n _; exact ⟨rfl, rfl⟩)
    have hat := foldl_attrs hown hlnd ⟨[], []⟩ (by intro n _ h; cases h)
    have hki := foldl_kids es ⟨[], []⟩
    rw [hel] at hem hat hki
    simp only [List.map_nil, List.nil_append] at hat hki
    have hline : ∀ m ∈ ms, ∃ e, wrAct T L delta c (if g then ds else []) (wrFields T L prog delta fs)
        (lineWr k g (m.name, m.ty)) = .ok e ∧ el.attrs.lookup m.name = e.text ∧ first el.kids m.name = e.node := by
      intro m hm
      obtain ⟨e, _, h1, h2⟩ := (hall.and hem).left (hp.mem_iff.2 (List.mem_map.2 ⟨m, hm, rfl⟩))
      exact ⟨e, h1, h2⟩
    refine .struct hcls hds hfs ?_ ?_ ?_ ?_ ?_ ?_ ?_
    · rw [hat]; exact hlnd.sublist (attrNames_sublist hown)
    · rw [hki]; exact hlnd.sublist (kidNames_sublist hown)
    · intro a ha
      rw [hat] at ha
      obtain ⟨m, hm, h⟩ := List.mem_map.1 (hnames.mem_iff.1 ((attrNames_sublist hown).subset ha))
      exact ⟨m, hm, h⟩
    · intro x hx
      rw [hki] at hx
      obtain ⟨e, he, hn⟩ := List.mem_filterMap.1 hx
      obtain ⟨p, hpm, ho⟩ := hown.mem_right he
      obtain ⟨m, hm, rfl⟩ := List.mem_map.1 (hp.mem_iff.1 hpm)
      refine ⟨m, hm, ?_⟩
      cases e with
      | none => cases hn
      | attr _ _ => cases hn
      | kid y => cases hn; exact ho
    · intro m hm hl d v hd hv
      obtain ⟨e, h1, h2, h3⟩ := hline m hm
      rw [wrAct_leaf hc.kind hl (memberTy_of hcls hnd hm) hv] at h1
      have hlook : (if g then ds else []).lookup m.name = if g then some d else none := by cases g <;> simp [hd]
      rw [hlook, R.bind_eq_ok] at h1
      obtain ⟨b, hb, h1⟩ := h1
      cases b with
      | true =>
        left
        dsimp only at h1
        rw [R.bind_eq_ok] at h1
        obtain ⟨s, hs, h1⟩ := h1
        injection h1 with h1
        subst h1
        refine ⟨hb, s, hs, ?_, ?_⟩
        · rw [h2]
          split <;> rfl
        · rw [h3]
          split <;> rfl
      | false =>
        right
        injection h1 with h1
        subst h1
        exact ⟨hb, h2, h3⟩
    · intro m hm hl
      obtain ⟨e, h1, h2, h3⟩ := hline m hm
      rw [h2, h3]
      cases hmt : m.ty with
      | simple _ => rw [hmt] at hl; cases hl
      | enum _ => rw [hmt] at hl; cases hl
      | struct c' =>
        rw [hmt] at h1
        simp only [lineWr, wrAct] at h1
        rw [R.bind_eq_ok] at h1
        obtain ⟨w, _, h1⟩ := h1
        rw [R.bind_eq_ok] at h1
        obtain ⟨el', _, h1⟩ := h1
        injection h1 with h1
        subst h1
        exact ⟨rfl, _, _, rfl⟩
      | vec c' =>
        rw [hmt] at h1
        simp only [lineWr, wrAct] at h1
        rw [R.bind_eq_ok] at h1
        obtain ⟨w, _, h1⟩ := h1
        rw [R.bind_eq_ok] at h1
        obtain ⟨el', _, h1⟩ := h1
        injection h1 with h1
        subst h1
        exact ⟨rfl, _, _, rfl⟩
    · intro m hm hl v as' ks' hv hf
      obtain ⟨e, h1, _, h3⟩ := hline m hm
      rw [h3] at hf
      have ih := ih m hm v hv
      cases hmt : m.ty with
      | simple _ => rw [hmt] at hl; cases hl
      | enum _ => rw [hmt] at hl; cases hl
      | struct c' =>
        rw [hmt] at h1 ih
        simp only [lineWr, wrAct] at h1
        rw [R.bind_eq_ok] at h1
        obtain ⟨w, hw', h1⟩ := h1
        rw [R.bind_eq_ok] at h1
        obtain ⟨el', hel', h1⟩ := h1
        injection h1 with h1
        subst h1
        injection hf with hf
        injection hf with _ hf1 hf2
        subst hf1 hf2
        simp only [field, wrFields_lookup, hv, Option.map_some] at hw'
        injection hw' with hw'
        subst hw'
        exact ih el' hel'
      | vec c' =>
        rw [hmt] at h1 ih
        simp only [lineWr, wrAct] at h1
        rw [R.bind_eq_ok] at h1
        obtain ⟨w, hw', h1⟩ := h1
        rw [R.bind_eq_ok] at h1
        obtain ⟨els', hel', h1⟩ := h1
        injection h1 with h1
        subst h1
        injection hf with hf
        injection hf with _ hf1 hf2
        subst hf1 hf2
        simp only [field, wrFields_lookup, hv, Option.map_some] at hw'
        injection hw' with hw'
        subst hw'
        exact ih els' hel'
  | @vec c vs hvs ih =>
    intro els hels
    rw [wrVal, wrVals_map] at hels
    simp only [List.map_map, mapM_map, Function.comp_def] at hels
    have hall := mapM_inv hels
    have hlen : els.length = vs.length := by
      clear ih hvs hels
      induction hall with
      | nil => rfl
      | cons _ _ ih => simp [ih]
    refine .vec (by simpa using hlen) ?_ ?_
    · intro x hx
      obtain ⟨el, _, rfl⟩ := List.mem_map.1 hx
      exact ⟨_, _, rfl⟩
    · intro i v n as' ks' h1 h2
      rw [List.getElem?_map] at h2
      cases he : els[i]? with
      | none => rw [he] at h2; cases h2
      | some el =>
        rw [he] at h2
        injection h2 with h2
        injection h2 with _ h2 h3
        subst h2 h3
        refine ih v (List.mem_of_getElem? h1) el ?_
        clear ih hvs hels hlen
        induction hall generalizing i with
        | nil => cases h1
        | cons h _ ih =>
          cases i with
          | zero => cases h1; cases he; exact h
          | succ i => exact ih i (by simpa using h1) (by simpa using he)

/-- Files that are written. -/
theorem writeFile_wrote (hc : Code T prog k g) {n : Str} {v : Val} (hv : CTable.WT T false (.struct n) v) {root : Node}
    (h : writeFile T L prog delta n v = .ok root) :
    ∃ as ks, root = .elem n as ks ∧ Wrote T L k g delta (.struct n) v as ks := by
  unfold writeFile at h
  split at h
  · rw [R.bind_eq_ok] at h
    obtain ⟨el, h1, h2⟩ := h
    injection h2 with h2
    exact ⟨_, _, h2.symm, wrote hc hv el h1⟩
  · cases h

/-! ### The way back -/

/-- Reading what was written: the object is as `Trip` says.  (Proof notion, models no code.) -/
def TripBack (T : CTable) (L : Lib) (prog : List Item) (k : Kind) (g delta : Bool) (v : Val) (as : List (Str × Str))
    (ks : List Node) : MTy → Prop
  | .struct c => ∀ nm d t w, CTable.WT T true (.struct c) t →
      (rdNode T L prog (reload (.elem nm as ks))).rd c t = .ok w → Trip T L k g delta (.struct c) d t v w
  | .vec c => ∀ nm d ts ws, ((rdNode T L prog (reload (.elem nm as ks))).items.mapM fun rd => rd c (T.dflt c)) = .ok ws →
      Trip T L k g delta (.vec c) d (.vec ts) v (.vec (ts ++ ws))
  | _ => True

theorem wt_dflt (hg : T.Good) {c : Str} {ms : List CMember} (hc : T.cls c = some ms) : CTable.WT T true (.struct c) (T.dflt c) :=
  hg.wt c ms hc

theorem leafElText_back (ty : MTy) (n s : Str) : leafElText ty (reload (.elem n [] [.text s])).kids = back .xml s := by
  have hb : getText (reload (.elem n [] [.text s])).kids = back .xml s ∧
      queryText (reload (.elem n [] [.text s])).kids = back .xml s := by
    cases h : blank s <;> simp [reload, reloadKids, Node.isBlank, h, Node.kids, getText, queryText, back]
  unfold leafElText
  split
  · exact hb.1
  · exact hb.2
  · exact hb.1

theorem all2_getElem {α β : Type} {P : α → β → Prop} {as : List α} {bs : List β} (h : All2 P as bs) :
    bs.length = as.length ∧ ∀ (i : Nat) (a : α) (b : β), as[i]? = some a → bs[i]? = some b → P a b := by
  induction h with
  | nil => exact ⟨rfl, fun i a b h => by cases h⟩
  | cons h1 _ ih =>
    refine ⟨by simp [ih.1], ?_⟩
    intro i a b ha hb
    cases i with
    | zero => cases ha; cases hb; exact h1
    | succ i => exact ih.2 i a b (by simpa using ha) (by simpa using hb)

theorem trip_back (hc : Code T prog k g) {ty : MTy} {v : Val} {as : List (Str × Str)} {ks : List Node}
    (h : Wrote T L k g delta ty v as ks) : TripBack T L prog k g delta v as ks ty := by
  induction h with
  | @struct c ms ds fs as ks hcls hds hfs _ _ _ _ hleaf hsub _ ih =>
    intro nm d t w ht hr
    obtain ⟨ms', ts, rfl, hcls', hts, hty⟩ := wt_struct ht
    rw [hcls] at hcls'
    cases hcls'
    rw [reload] at hr
    obtain ⟨ws, rfl, hws, hm⟩ := (rd_iff hc.rdCode hcls hts).1 hr
    refine .struct hcls hds hts hfs hws ?_
    intro m hmm d' t' v' w' hd' ht' hv' hw'
    obtain ⟨_, _, a1, a2, a3⟩ := hm m hmm
    rw [ht'] at a1
    rw [hw'] at a2
    cases a1
    cases a2
    by_cases hl : m.ty.isLeaf = true
    · refine .leaf hl ?_
      unfold leafTrip
      rcases hleaf m hmm hl d' v' hd' hv' with ⟨hg, s, hs, h1, h2⟩ | ⟨hg, h1, h2⟩
      · rw [hg, R.ok_bind]
        dsimp only
        rw [hs, R.ok_bind]
        rcases hc.kind with rfl | rfl
        · rw [if_pos rfl] at h2
          rw [memberRead_elem hcls hc.good hmm hl, first_reload, h2] at a3
          dsimp only [Option.map_some] at a3
          rw [leafElText_back] at a3
          exact a3
        · rw [if_neg (by decide)] at h1
          rw [memberRead_attr hcls hc.good hmm hl, lookup_map_snd, h1] at a3
          simpa [back] using a3
      · rw [hg, R.ok_bind]
        dsimp only
        rcases hc.kind with rfl | rfl
        · rw [memberRead_elem hcls hc.good hmm hl, first_reload, h2] at a3
          rw [if_pos rfl]
          exact a3
        · rw [memberRead_attr hcls hc.good hmm hl, lookup_map_snd, h1] at a3
          rw [if_neg (by decide)]
          exact a3
    · have hl : m.ty.isLeaf = false := by simpa using hl
      obtain ⟨_, as', ks', hf⟩ := hsub m hmm hl
      have ih := ih m hmm hl v' as' ks' hv' hf
      have hwt := hty m hmm t' ht'
      cases hmt : m.ty with
      | simple _ => rw [hmt] at hl; cases hl
      | enum _ => rw [hmt] at hl; cases hl
      | struct c' =>
        rw [hmt] at ih hwt
        rw [memberRead_struct hmt, first_reload, hf] at a3
        exact ih m.name d' t' w' hwt a3
      | vec c' =>
        rw [hmt] at ih hwt
        rcases memberRead_vec_ok hmt a3 with ⟨hf', _⟩ | ⟨el, ts', ws', hf', rfl, rfl, hmap⟩
        · rw [first_reload, hf] at hf'
          cases hf'
        · rw [first_reload, hf] at hf'
          cases hf'
          refine ih m.name d' ts' ws' ?_
          rw [reload, items_elem]
          simpa [reload, Node.kids] using hmap
  | @vec c vs ks hlen hel hw ih =>
    intro nm d ts ws hmap
    rw [reload, items_elem, elems_reload] at hmap
    have hf : ks.filter Node.isElem = ks := by
      rw [List.filter_eq_self]
      intro x hx
      obtain ⟨_, _, rfl⟩ := hel x hx
      rfl
    rw [hf, mapM_map] at hmap
    obtain ⟨hl2, hall⟩ := all2_getElem (mapM_inv hmap)
    refine .vec (hl2.trans hlen) ?_
    intro i v w h1 h2
    have hi : i < ks.length := by
      have : i < vs.length := by
        apply Classical.byContradiction
        intro hn
        rw [List.getElem?_eq_none (by omega)] at h1
        cases h1
      omega
    obtain ⟨as', ks', hx⟩ := hel ks[i] (List.getElem_mem hi)
    have hx' : ks[i]? = some (.elem c as' ks') := by rw [List.getElem?_eq_getElem hi, hx]
    have hr := hall i _ _ hx' h2
    have ht : ∃ ms, T.cls c = some ms := by
      cases hw i v c as' ks' h1 hx' with
      | struct h _ _ _ _ _ _ _ _ _ => exact ⟨_, h⟩
    obtain ⟨ms, hms⟩ := ht
    exact ih i v c as' ks' h1 hx' c (T.dflt c) (T.dflt c) w (wt_dflt hc.good hms) hr

end
end Stfx.Run
