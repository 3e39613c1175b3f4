import Verif.Run.XmlKept
/-
Reading any document: what the reader functions do is determined member by member.
-/
set_option autoImplicit false
namespace Stfx.Run
open Stfx.Items Stfx.Parser Stfx.Gen Stfx.Lexer

/-- The program has reader functions for the structs of the table, made from their members.  (Proof notion, models no code.) -/
structure RdCode (T : CTable) (prog : List Item) (k : Kind) : Prop where
  kind : k = .xml ∨ k = .attrib
  good : T.Good
  fn : ∀ c ms, T.cls c = some ms → ∃ ls : List (Str × MTy), ls.Perm (ms.map fun m => (m.name, m.ty)) ∧
    rdBody prog c = some (ls.map (lineRd k))

section
variable {T : CTable} {L : Lib} {prog : List Item} {k : Kind} {fs : List (Str × Header)} {out : OutSpec}

theorem Code.rdCode {g : Bool} (h : Code T prog k g) : RdCode T prog k := by
  refine ⟨h.kind, h.good, fun c ms hc => ?_⟩
  obtain ⟨ls, h1, h2, _⟩ := h.fn c ms hc
  exact ⟨ls, h1, h2⟩

/-- The generated readers are readers for the classes of the headers. -/
theorem Generated.rdCode (h : Generated fs k out prog) (hk : k = .xml ∨ k = .attrib)
    (hT : Compiled (fs.flatMap fun f => f.2.decls) T) :
    RdCode T prog k ∧ ∀ n, TopStruct (fs.flatMap fun f => f.2.decls) n → hasReadFile prog n = true := by
  obtain ⟨i, stamp, fc, fh, inputs, rfl, h2, h3, h4⟩ := h.lines
  refine ⟨⟨hk, hT.good, ?_⟩, fun n hn => (hasReadFile_gen n).2 ((h4 n).2 hn)⟩
  intro c cs hc
  obtain ⟨m, ms, hd⟩ := hT.clsOnly c cs hc
  obtain ⟨cs', e1, e2⟩ := hT.cls c m ms hd
  rw [hc] at e1
  cases e1
  obtain ⟨s, g1, g2, g3⟩ := h3 c m ms hd
  have hcs : cs.map (fun m => (m.name, m.ty)) =
      (m :: ms).map fun m => (m.name, memberType (fs.flatMap fun f => f.2.decls) m) := by
    have := congrArg (List.map fun p : Str × MTy × Bool => (p.1, p.2.1)) e2
    simpa only [List.map_map, Function.comp_def] using this
  refine ⟨Run.lines s, by rw [hcs, g3]; exact (filter_perm _ _).map _, ?_⟩
  rw [rdBody_gen hk h2, g1]
  simp only [Option.map_some, Run.lines, List.map_append, List.map_map, Function.comp_def]
  congr 2
  exact List.map_congr_left fun co hco => rdComplex_line (g2 co hco)

theorem foldl_read_inv {c : Str} {attrs : List (Str × Str)} {kids : List Kid} {ls : List (Str × MTy)}
    {ts fs : List (Str × Val)} (hnd : (ls.map Prod.fst).Nodup)
    (h : (ls.map (lineRd k)).foldlM (rdStep T L c attrs kids) ts = .ok fs) :
    fs.map Prod.fst = ts.map Prod.fst ∧ (∀ p ∈ ls, ∃ t w, ts.lookup p.1 = some t ∧ fs.lookup p.1 = some w ∧
      rdAct T L c attrs kids (lineRd k p) t = .ok w) ∧ ∀ n, n ∉ ls.map Prod.fst → fs.lookup n = ts.lookup n := by
  induction ls generalizing ts with
  | nil =>
    injection h with h
    subst h
    exact ⟨rfl, by simp, fun _ _ => rfl⟩
  | cons p ls ih =>
    rw [List.map_cons, List.nodup_cons] at hnd
    rw [List.map_cons, foldlM_cons, R.bind_eq_ok] at h
    obtain ⟨fs1, h1, h2⟩ := h
    unfold rdStep at h1
    rw [lineRd_member] at h1
    obtain ⟨t, w, a1, a2, a3, a4, a5⟩ := modifyField_inv h1
    obtain ⟨b1, b2, b3⟩ := ih hnd.2 h2
    refine ⟨b1.trans a3, ?_, ?_⟩
    · intro q hq
      rcases List.mem_cons.1 hq with rfl | hq
      · exact ⟨t, w, a1, by rw [b3 _ hnd.1]; exact a4, a2⟩
      · obtain ⟨t', w', c1, c2, c3⟩ := b2 q hq
        refine ⟨t', w', ?_, c2, c3⟩
        rw [← a5 q.1 (by rintro he; exact hnd.1 (he ▸ List.mem_map_of_mem hq))]
        exact c1
    · intro n hn
      rw [List.map_cons, List.mem_cons, not_or] at hn
      rw [b3 n hn.2, a5 n hn.1]

/-- What the reader of a struct does with one member.  (Proof notion, models no code.) -/
def memberRead (T : CTable) (L : Lib) (prog : List Item) (k : Kind) (c : Str) (as : List (Str × Str)) (ks : List Node)
    (m : CMember) (t : Val) : R Val :=
  rdAct T L c as (ks.map (rdNode T L prog)) (lineRd k (m.name, m.ty)) t

theorem RdCode.names (hc : RdCode T prog k) {c : Str} {ms : List CMember} (hcls : T.cls c = some ms) :
    ∃ ls : List (Str × MTy), ls.Perm (ms.map fun m => (m.name, m.ty)) ∧ rdBody prog c = some (ls.map (lineRd k)) ∧
      (ls.map Prod.fst).Nodup ∧ (ls.map Prod.fst).Perm (ms.map CMember.name) := by
  obtain ⟨ls, hp, hr⟩ := hc.fn c ms hcls
  have hnames : (ls.map Prod.fst).Perm (ms.map CMember.name) := by
    have := hp.map Prod.fst
    simpa [Function.comp_def] using this
  exact ⟨ls, hp, hr, hnames.nodup_iff.2 (hc.good.nodup c ms hcls), hnames⟩

/-- The reader of a struct gives an object if and only if reading each member does, and it has those members. -/
theorem rd_iff (hc : RdCode T prog k) {c : Str} {ms : List CMember} (hcls : T.cls c = some ms) {nm : Str}
    {as : List (Str × Str)} {ks : List Node} {ts : List (Str × Val)} (hts : ts.map Prod.fst = ms.map CMember.name) {w : Val} :
    (rdNode T L prog (.elem nm as ks)).rd c (.struct ts) = .ok w ↔
      ∃ ws, w = .struct ws ∧ ws.map Prod.fst = ms.map CMember.name ∧
        ∀ m ∈ ms, ∃ t' w', ts.lookup m.name = some t' ∧ ws.lookup m.name = some w' ∧
          memberRead T L prog k c as ks m t' = .ok w' := by
  obtain ⟨ls, hp, hr, hlnd, hnames⟩ := hc.names hcls
  rw [rdNode_elem]
  dsimp only
  unfold runRd
  rw [hr]
  dsimp only
  constructor
  · intro h
    rw [R.bind_eq_ok] at h
    obtain ⟨ws, h1, h2⟩ := h
    injection h2 with h2
    obtain ⟨a1, a2, _⟩ := foldl_read_inv hlnd h1
    refine ⟨ws, h2.symm, a1.trans hts, ?_⟩
    intro m hm
    exact a2 (m.name, m.ty) (hp.mem_iff.2 (List.mem_map.2 ⟨m, hm, rfl⟩))
  · rintro ⟨ws, rfl, hws, h⟩
    obtain ⟨fs', f1, f2, f3, _⟩ := foldl_read (T := T) (L := L) (c := c) (attrs := as) (kids := ks.map (rdNode T L prog))
      (k := k) (ts := ts) (ws := ws) hlnd (by
        intro p hpm
        obtain ⟨m, hm, rfl⟩ := List.mem_map.1 (hp.mem_iff.1 hpm)
        exact h m hm)
    rw [f1, R.ok_bind]
    congr 2
    refine fields_ext (by rw [f2, hts, hws]) (by rw [f2, hts]; exact hc.good.nodup c ms hcls) ?_
    intro n hn
    refine f3 n (hnames.mem_iff.2 ?_)
    rw [← hts, ← f2]
    exact hn

/-- The text of a leaf element as its reader sees it.  (Proof notion, models no code.) -/
def leafElText (ty : MTy) (ks : List Node) : Option Str :=
  match ty with
  | .simple .stdString => getText ks
  | .simple _ => queryText ks
  | _ => getText ks

/-- Leaves in attribute XML. -/
theorem memberRead_attr {c : Str} {ms : List CMember} (hcls : T.cls c = some ms) (hg : T.Good) {m : CMember} (hm : m ∈ ms)
    (hl : m.ty.isLeaf = true) {as : List (Str × Str)} {ks : List Node} {t : Val} :
    memberRead T L prog .attrib c as ks m t = readLeaf T L m.ty t (as.lookup m.name) :=
  rdAct_attr hl (memberTy_of hcls (hg.nodup c ms hcls) hm)

/-- Leaves in element XML. -/
theorem memberRead_elem {c : Str} {ms : List CMember} (hcls : T.cls c = some ms) (hg : T.Good) {m : CMember} (hm : m ∈ ms)
    (hl : m.ty.isLeaf = true) {as : List (Str × Str)} {ks : List Node} {t : Val} :
    memberRead T L prog .xml c as ks m t =
      match first ks m.name with
      | none => .ok t
      | some el => readLeaf T L m.ty t (leafElText m.ty el.kids) := by
  have hmt := memberTy_of hcls (hg.nodup c ms hcls) hm
  unfold memberRead
  cases hty : m.ty with
  | simple ty =>
    simp only [lineRd, if_pos, rdAct, firstKid_map]
    cases first ks m.name with
    | none => rfl
    | some el =>
      simp only [Option.map_some, rdNode_node, readLeaf]
      cases ty <;> rfl
  | enum n =>
    rw [hty] at hmt
    simp only [lineRd, if_pos, rdAct, firstKid_map, hmt]
    cases first ks m.name with
    | none => rfl
    | some el => simp only [Option.map_some, rdNode_node, readLeaf, leafElText]
  | struct _ => rw [hty] at hl; cases hl
  | vec _ => rw [hty] at hl; cases hl

/-- Struct members. -/
theorem memberRead_struct {c c' : Str} {m : CMember} (hty : m.ty = .struct c') {as : List (Str × Str)} {ks : List Node}
    {t : Val} : memberRead T L prog k c as ks m t =
      match first ks m.name with
      | none => .ok t
      | some el => (rdNode T L prog el).rd c' t := by
  unfold memberRead
  rw [hty]
  simp only [lineRd, rdAct, firstKid_map]
  cases first ks m.name <;> rfl

theorem items_elem {n : Str} {as : List (Str × Str)} {ks : List Node} {c : Str} {t : Val} :
    ((rdNode T L prog (.elem n as ks)).items.mapM fun rd => rd c t) =
      (ks.filter Node.isElem).mapM fun k => (rdNode T L prog k).rd c t := by
  rw [rdNode_elem]
  dsimp only
  rw [mapM_map]

theorem first_named {ks : List Node} {n : Str} {el : Node} (h : first ks n = some el) :
    ∃ as ks', el = .elem n as ks' := by
  have := List.find?_some h
  cases el <;> simp [Node.named] at this
  subst this
  exact ⟨_, _, rfl⟩

/-- Vector members. -/
theorem memberRead_vec {c c' : Str} {m : CMember} (hty : m.ty = .vec c') {as : List (Str × Str)} {ks : List Node}
    {ts : List Val} : memberRead T L prog k c as ks m (.vec ts) =
      match first ks m.name with
      | none => .ok (.vec ts)
      | some el => ((el.kids.filter Node.isElem).mapM fun k => (rdNode T L prog k).rd c' (T.dflt c')) >>= fun ws =>
          .ok (.vec (ts ++ ws)) := by
  unfold memberRead
  rw [hty]
  simp only [lineRd, rdAct, firstKid_map]
  cases h : first ks m.name with
  | none => rfl
  | some el =>
    obtain ⟨as', ks', rfl⟩ := first_named h
    simp only [Option.map_some, items_elem, Node.kids]

/-- A vector member of a value that is no vector: not possible in typed code. -/
theorem memberRead_vec_ok {c c' : Str} {m : CMember} (hty : m.ty = .vec c') {as : List (Str × Str)} {ks : List Node}
    {t w : Val} (hw : memberRead T L prog k c as ks m t = .ok w) :
    (first ks m.name = none ∧ w = t) ∨ ∃ el ts ws, first ks m.name = some el ∧ t = .vec ts ∧ w = .vec (ts ++ ws) ∧
      ((el.kids.filter Node.isElem).mapM fun k => (rdNode T L prog k).rd c' (T.dflt c')) = .ok ws := by
  cases h : first ks m.name with
  | none =>
    left
    unfold memberRead at hw
    rw [hty] at hw
    simp only [lineRd, rdAct, firstKid_map, h, Option.map_none] at hw
    injection hw with hw
    exact ⟨rfl, hw.symm⟩
  | some el =>
    right
    cases t with
    | vec ts =>
      rw [memberRead_vec hty, h] at hw
      dsimp only at hw
      rw [R.bind_eq_ok] at hw
      obtain ⟨ws, h1, h2⟩ := hw
      injection h2 with h2
      exact ⟨el, ts, ws, rfl, rfl, h2.symm, h1⟩
    | _ =>
      unfold memberRead at hw
      rw [hty] at hw
      simp only [lineRd, rdAct, firstKid_map, h, Option.map_some] at hw
      cases hw

/-- Reading a document with a root element. -/
theorem readFile_root {n : Str} (hr : hasReadFile prog n = true) {ks : List Node} {root : Node}
    (hroot : ks.find? Node.isElem = some root) {t : Val} {b : Bool} {w : Val} :
    readFile T L prog n (.ok ks) t = .ok (b, w) ↔ b = true ∧ (rdNode T L prog root).rd n t = .ok w := by
  unfold readFile
  rw [if_pos hr]
  dsimp only
  rw [hroot]
  dsimp only
  rw [R.bind_eq_ok]
  constructor
  · rintro ⟨v, h1, h2⟩
    injection h2 with h2
    injection h2 with h2 h3
    subst h3
    exact ⟨h2.symm, h1⟩
  · rintro ⟨rfl, h⟩
    exact ⟨w, h, rfl⟩

theorem wt_struct {u : Bool} {c : Str} {t : Val} (h : CTable.WT T u (.struct c) t) :
    ∃ ms ts, t = .struct ts ∧ T.cls c = some ms ∧ ts.map Prod.fst = ms.map CMember.name ∧
      ∀ m ∈ ms, ∀ v, ts.lookup m.name = some v → CTable.WT T u m.ty v := by
  cases h with
  | undef _ h _ _ => exact absurd rfl (h c)
  | struct h1 h2 h3 => exact ⟨_, _, rfl, h1, h2, h3⟩

theorem mapM_inv {α β : Type} {f : α → R β} {l : List α} {bs : List β} (h : l.mapM f = .ok bs) :
    All2 (fun a b => f a = .ok b) l bs := by
  induction l generalizing bs with
  | nil => injection h with h; subst h; exact .nil
  | cons a l ih =>
    rw [mapM_cons, R.bind_eq_ok] at h
    obtain ⟨b, h1, h2⟩ := h
    rw [R.bind_eq_ok] at h2
    obtain ⟨bs', h3, h4⟩ := h2
    injection h4 with h4
    subst h4
    exact .cons h1 (ih h3)

end
end Stfx.Run
