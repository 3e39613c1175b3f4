import Verif.Props.C34_C36_Read
import Verif.Props.C51_C57_IniRead
/-
C82: reading a file again.  n_ini files: nothing changes.  XML files: nothing changes but vectors, which get the elements in the file
once more.
-/
set_option autoImplicit false

namespace Stfx.Run
open Stfx.Items Stfx.Parser Stfx.Gen

/-! ### XML -/

section
variable {T : CTable} {L : Lib} {prog : List Item} {k : Kind} {fs : List (Str × Header)} {out : OutSpec}

/-- An object before reading a file, after reading it and after reading it once more: simple and enum members are the same after the
second reading, and vectors have the new elements twice.  (Specification notion, models no code.) -/
inductive Reread (T : CTable) : MTy → Val → Val → Val → Prop
  | leaf {ty : MTy} {t t1 : Val} : ty.isLeaf = true → Reread T ty t t1 t1
  | struct {c : Str} {ms : List CMember} {ts ts1 ts2 : List (Str × Val)} : T.cls c = some ms →
      ts.map Prod.fst = ms.map CMember.name → ts1.map Prod.fst = ms.map CMember.name → ts2.map Prod.fst = ms.map CMember.name →
      (∀ m ∈ ms, ∀ t t1 t2, ts.lookup m.name = some t → ts1.lookup m.name = some t1 → ts2.lookup m.name = some t2 →
        Reread T m.ty t t1 t2) → Reread T (.struct c) (.struct ts) (.struct ts1) (.struct ts2)
  | vec {c : Str} {old new : List Val} : Reread T (.vec c) (.vec old) (.vec (old ++ new)) (.vec (old ++ new ++ new))

theorem Reread.same {u : Bool} {ty : MTy} {t : Val} (h : CTable.WT T u ty t) : Reread T ty t t t := by
  induction h with
  | @undef ty _ h1 h2 _ =>
    cases ty with
    | simple _ => exact .leaf rfl
    | enum _ => exact .leaf rfl
    | struct n => exact absurd rfl (h1 n)
    | vec n => exact absurd rfl (h2 n)
  | simple _ => exact .leaf rfl
  | enum _ _ _ => exact .leaf rfl
  | struct h1 h2 _ ih =>
    refine .struct h1 h2 h2 h2 ?_
    intro m hm t t1 t2 e1 e2 e3
    rw [e1] at e2 e3
    cases e2
    cases e3
    exact ih m hm t e1
  | @vec n vs _ _ =>
    have := Reread.vec (T := T) (c := n) (old := vs) (new := [])
    simpa using this

theorem assign_again {ty : SimpleTy} {t w : Val} {o : Option Val} (h : assign ty t o = .ok w) : assign ty w o = .ok w := by
  cases o with
  | some v => exact h
  | none =>
    by_cases hv : viaLocal ty = true
    · simp [assign, hv] at h
    · simp [assign, hv]

/-- Simple and enum members: what is read depends on the text only, if it replaces the value. -/
theorem readLeaf_again {ty : MTy} {t w : Val} {s : Option Str} (h : readLeaf T L ty t s = .ok w) : readLeaf T L ty w s = .ok w := by
  cases ty with
  | simple ty =>
    unfold readLeaf readSimple at h ⊢
    cases s with
    | none => exact assign_again h
    | some s =>
      obtain ⟨o, h1, h2⟩ := R.bind_eq_ok.1 h
      simp only [h1, R.ok_bind]
      exact assign_again h2
  | enum n =>
    unfold readLeaf readEnum at h ⊢
    cases s with
    | none => rfl
    | some s =>
      simp only at h ⊢
      cases he : T.enm n with
      | none => rw [he] at h; cases h
      | some p =>
        obtain ⟨e, val⟩ := p
        rw [he] at h
        simp only at h ⊢
        cases hs : sToE e val s with
        | ub => rw [hs] at h; cases h
        | ok a o =>
          rw [hs] at h
          cases o with
          | none => rfl
          | some x => exact h
  | struct _ => cases h
  | vec _ => cases h

theorem fields_exist {P : CMember → Val → Prop} {ms : List CMember} (hnd : (ms.map CMember.name).Nodup) (h : ∀ m ∈ ms, ∃ v, P m v) :
    ∃ ws : List (Str × Val), ws.map Prod.fst = ms.map CMember.name ∧ ∀ m ∈ ms, ∃ v, ws.lookup m.name = some v ∧ P m v := by
  induction ms with
  | nil => exact ⟨[], rfl, by simp⟩
  | cons a ms ih =>
    rw [List.map_cons, List.nodup_cons] at hnd
    obtain ⟨ws, h1, h2⟩ := ih hnd.2 fun m hm => h m (List.mem_cons_of_mem _ hm)
    obtain ⟨v, hv⟩ := h a (List.mem_cons_self ..)
    refine ⟨(a.name, v) :: ws, by simp [h1], ?_⟩
    intro m hm
    rcases List.mem_cons.1 hm with rfl | hm
    · exact ⟨v, by simp, hv⟩
    · obtain ⟨v', h3, h4⟩ := h2 m hm
      have hne : (m.name == a.name) = false := by
        simp only [beq_eq_false_iff_ne]
        intro e
        exact hnd.1 (by rw [← e]; exact List.mem_map_of_mem hm)
      exact ⟨v', by rw [List.lookup_cons, hne]; exact h3, h4⟩

theorem rd_again (hc : RdCode T prog k) : ∀ (node : Node) (c : Str) (t t1 : Val),
    CTable.WT T true (.struct c) t → (rdNode T L prog node).rd c t = .ok t1 →
    ∃ t2, (rdNode T L prog node).rd c t1 = .ok t2 ∧ Reread T (.struct c) t t1 t2
  | .text s, _, _, _, _, h => by cases h
  | .comment, _, _, _, _, h => by cases h
  | .misc, _, _, _, _, h => by cases h
  | .elem nm as ks, c, t, t1, ht, h => by
    obtain ⟨ms, ts, rfl, hcls, hts, hty⟩ := wt_struct ht
    obtain ⟨ts1, rfl, hts1, hm⟩ := (rd_iff hc hcls hts).1 h
    have key : ∀ m ∈ ms, ∃ a2, (∀ a1, ts1.lookup m.name = some a1 → memberRead T L prog k c as ks m a1 = .ok a2 ∧
        ∀ a, ts.lookup m.name = some a → Reread T m.ty a a1 a2) := by
      intro m hmm
      obtain ⟨a, a1, e, e1, b⟩ := hm m hmm
      have hwt := hty m hmm a e
      suffices hx : ∃ a2, memberRead T L prog k c as ks m a1 = .ok a2 ∧ Reread T m.ty a a1 a2 by
        obtain ⟨a2, h1, h2⟩ := hx
        refine ⟨a2, fun x hx => ?_⟩
        rw [e1] at hx
        cases hx
        refine ⟨h1, fun y hy => ?_⟩
        rw [e] at hy
        cases hy
        exact h2
      have leaf : m.ty.isLeaf = true → memberRead T L prog k c as ks m a1 = .ok a1 := by
        intro hl
        rcases hc.kind with hk | hk
        · subst hk
          rw [memberRead_elem hcls hc.good hmm hl] at b ⊢
          cases hf : first ks m.name with
          | none => rfl
          | some el =>
            rw [hf] at b
            exact readLeaf_again b
        · subst hk
          rw [memberRead_attr hcls hc.good hmm hl] at b ⊢
          exact readLeaf_again b
      cases hmt : m.ty with
      | simple _ => exact ⟨a1, leaf (by rw [hmt]; rfl), .leaf rfl⟩
      | enum _ => exact ⟨a1, leaf (by rw [hmt]; rfl), .leaf rfl⟩
      | struct c' =>
        rw [memberRead_struct hmt] at b ⊢
        cases hf : first ks m.name with
        | none =>
          rw [hf] at b
          cases b
          exact ⟨a, rfl, .same (hmt ▸ hwt)⟩
        | some el =>
          rw [hf] at b
          have hlt := first_lt (nm := nm) (as := as) hf
          exact rd_again hc el c' a a1 (hmt ▸ hwt) b
      | vec c' =>
        rcases memberRead_vec_ok hmt b with ⟨hf, rfl⟩ | ⟨el, old, new, hf, rfl, rfl, hmap⟩
        · exact ⟨a1, b, .same (hmt ▸ hwt)⟩
        · refine ⟨.vec (old ++ new ++ new), ?_, .vec⟩
          rw [memberRead_vec hmt, hf]
          simp only
          rw [hmap]
          rfl
    obtain ⟨ts2, hts2, h2⟩ := fields_exist (hc.good.nodup c ms hcls) key
    refine ⟨.struct ts2, (rd_iff hc hcls hts1).2 ⟨ts2, rfl, hts2, ?_⟩, .struct hcls hts hts1 hts2 ?_⟩
    · intro m hmm
      obtain ⟨_, a1, _, e1, _⟩ := hm m hmm
      obtain ⟨a2, e2, h3⟩ := h2 m hmm
      exact ⟨a1, a2, e1, e2, (h3 a1 e1).1⟩
    · intro m hmm a a1 a2 e e1 e2
      obtain ⟨a2', e2', h3⟩ := h2 m hmm
      rw [e2] at e2'
      cases e2'
      exact (h3 a1 e1).2 a e
termination_by node => sizeOf node
decreasing_by all_goals assumption

/-- C82, XML: if a file could be read, it can be read once more into the same object; simple and enum members keep what the first
reading gave them, vectors get the same elements once more. -/
theorem C82_xml (hG : Generated fs k out prog) (hk : k = .xml ∨ k = .attrib)
    (hT : Compiled (fs.flatMap fun f => f.2.decls) T) {n : Str} (hn : TopStruct (fs.flatMap fun f => f.2.decls) n)
    {t t1 : Val} (ht : CTable.WT T true (.struct n) t) {ks : List Node} {root : Node}
    (hroot : ks.find? Node.isElem = some root) {b : Bool} (h : readFile T L prog n (.ok ks) t = .ok (b, t1)) :
    ∃ t2, readFile T L prog n (.ok ks) t1 = .ok (b, t2) ∧ Reread T (.struct n) t t1 t2 := by
  obtain ⟨hc, hr⟩ := hG.rdCode hk hT
  obtain ⟨hb, h'⟩ := (readFile_root (hr n hn) hroot).1 h
  obtain ⟨t2, h2, h3⟩ := rd_again hc root n t t1 ht h'
  exact ⟨t2, (readFile_root (hr n hn) hroot).2 ⟨hb, h2⟩, h3⟩

theorem Reread.noVec (hv : ∀ c ms, T.cls c = some ms → ∀ m ∈ ms, ∀ c', m.ty ≠ .vec c') (hnd : ∀ c ms, T.cls c = some ms → (ms.map CMember.name).Nodup)
    {ty : MTy} {t t1 t2 : Val} (h : Reread T ty t t1 t2) (hty : ∀ c, ty ≠ .vec c) : t2 = t1 := by
  induction h with
  | leaf _ => rfl
  | vec => exact absurd rfl (hty _)
  | @struct c ms ts ts1 ts2 hcls hts hts1 hts2 _ ih =>
    refine congrArg Val.struct (fields_ext (hts2.trans hts1.symm) (by rw [hts2]; exact hnd c ms hcls) ?_)
    intro n hn
    rw [hts2] at hn
    obtain ⟨m, hm, rfl⟩ := List.mem_map.1 hn
    obtain ⟨a, ha⟩ := lookup_isSome (fs := ts) (n := m.name) (by rw [hts]; exact List.mem_map_of_mem hm)
    obtain ⟨a1, ha1⟩ := lookup_isSome (fs := ts1) (n := m.name) (by rw [hts1]; exact List.mem_map_of_mem hm)
    obtain ⟨a2, ha2⟩ := lookup_isSome (fs := ts2) (n := m.name) (by rw [hts2]; exact List.mem_map_of_mem hm)
    rw [ha1, ha2, ih m hm a a1 a2 ha ha1 ha2 (hv c ms hcls m hm)]

/-- C82, XML, as stated for headers without vectors; missing: vectors. -/
theorem C82_xml_partial (hG : Generated fs k out prog) (hk : k = .xml ∨ k = .attrib)
    (hT : Compiled (fs.flatMap fun f => f.2.decls) T) (hv : ∀ c ms, T.cls c = some ms → ∀ m ∈ ms, ∀ c', m.ty ≠ .vec c')
    {n : Str} (hn : TopStruct (fs.flatMap fun f => f.2.decls) n) {t t1 : Val} (ht : CTable.WT T true (.struct n) t) {ks : List Node}
    {root : Node} (hroot : ks.find? Node.isElem = some root) {b : Bool} (h : readFile T L prog n (.ok ks) t = .ok (b, t1)) :
    readFile T L prog n (.ok ks) t1 = .ok (b, t1) := by
  obtain ⟨t2, h2, h3⟩ := C82_xml hG hk hT hn ht hroot h
  rw [h2, h3.noVec hv (fun c ms hc => hT.good.nodup c ms hc) (by intro c; simp)]

end

/-! ### n_ini -/

section
variable {T : CTable} {L : IniLib} {prog : List Item} {fs : List (Str × Header)} {out : OutSpec}

theorem After.again {ty : MTy} {o : Option Str} {t w : Val} (h : After T L ty o t w) : After T L ty o w w := by
  unfold After at h ⊢
  cases o with
  | none => rfl
  | some s =>
    cases ty with
    | simple ty => exact h
    | enum n =>
      obtain ⟨e, val, h1, h2⟩ := h
      refine ⟨e, val, h1, ?_⟩
      rcases h2 with h2 | ⟨h2, h3 | ⟨h3, _⟩⟩
      · exact Or.inl h2
      · exact Or.inr ⟨h2, Or.inl h3⟩
      · exact Or.inr ⟨h2, Or.inr ⟨h3, rfl⟩⟩
    | struct _ => exact h
    | vec _ => exact h

theorem NReads.again {U : List (Str × Items)} {path c : Str} {t w : Val} {b : Bool} (h : NReads T L U path c t b w) : NReads T L U path c w b w := by
  induction h with
  | @all path c ms ts ws flags hcls hts hws hleaf hvec _ ih =>
    have hval : ∀ m ∈ ms, ∃ t, ts.lookup m.name = some t := fun m hm =>
      lookup_isSome (fs := ts) (n := m.name) (by rw [hts]; exact List.mem_map_of_mem hm)
    refine .all hcls hws hws ?_ (fun _ _ _ _ => rfl) ?_
    · intro m hm hl a b e1 e2
      rw [e1] at e2
      cases e2
      obtain ⟨t, ht⟩ := hval m hm
      exact (hleaf m hm hl t a ht e1).again
    · intro m hm c' hty a b e1 e2
      rw [e1] at e2
      cases e2
      obtain ⟨t, ht⟩ := hval m hm
      exact ih m hm c' hty t a ht e1
  | @bad path c ms ts ws pre post m hcls hts hws hm hl hr hpre hrest =>
    refine .bad hcls hws hws hm hl hr ?_ fun _ _ => rfl
    intro p hp a b e1 e2
    rw [e1] at e2
    cases e2
    have hn : p.1 ∈ ts.map Prod.fst := by
      rw [hts, ← hws]
      exact mem_names_of_lookup e1
    obtain ⟨t, ht⟩ := lookup_isSome hn
    exact (hpre p hp t a ht e1).again

/-- Objects with the same structs in them.  (Proof notion, models no code.) -/
inductive SameStructs : Val → Val → Prop
  | leaf {v w : Val} : (∀ fs, v ≠ .struct fs) → (∀ fs, w ≠ .struct fs) → SameStructs v w
  | struct {fs gs : List (Str × Val)} : fs.map Prod.fst = gs.map Prod.fst →
      (∀ n v w, fs.lookup n = some v → gs.lookup n = some w → SameStructs v w) → SameStructs (.struct fs) (.struct gs)

/-- Two results of the same kind.  (Proof notion, models no code.) -/
inductive SameKind {α : Type} (P : α → α → Prop) : R (Bool × α) → R (Bool × α) → Prop
  | ok {b : Bool} {x y : α} : P x y → SameKind P (.ok (b, x)) (.ok (b, y))
  | ub : SameKind P .ub .ub
  | stuck : SameKind P .stuck .stuck

/-- The same names.  (Proof notion, models no code.) -/
def SameNames (fs gs : List (Str × Val)) : Prop := fs.map Prod.fst = gs.map Prod.fst

theorem modify_sameNames {n : Str} {v w : Val} {fs gs : List (Str × Val)} (h : SameNames fs gs) :
    (∃ fs' gs', modifyField n (fun _ => .ok v) fs = .ok fs' ∧ modifyField n (fun _ => .ok w) gs = .ok gs' ∧ SameNames fs' gs') ∨
    (modifyField n (fun _ => .ok v) fs = .stuck ∧ modifyField n (fun _ => .ok w) gs = .stuck) := by
  unfold SameNames at h ⊢
  induction fs generalizing gs with
  | nil =>
    cases gs with
    | nil => exact Or.inr ⟨rfl, rfl⟩
    | cons q gs => cases h
  | cons p fs ih =>
    cases gs with
    | nil => cases h
    | cons q gs =>
      obtain ⟨a, x⟩ := p
      obtain ⟨b, y⟩ := q
      simp only [List.map_cons, List.cons.injEq] at h
      obtain ⟨rfl, h⟩ := h
      unfold modifyField
      by_cases ha : a = n
      · rw [if_pos ha, if_pos ha]
        exact Or.inl ⟨_, _, rfl, rfl, by simp [h]⟩
      · rw [if_neg ha, if_neg ha]
        rcases ih h with ⟨fs', gs', h1, h2, h3⟩ | ⟨h1, h2⟩
        · rw [h1, h2]
          exact Or.inl ⟨_, _, rfl, rfl, by simp [h3]⟩
        · rw [h1, h2]
          exact Or.inr ⟨rfl, rfl⟩

theorem runLooks_sameKind {c : Str} {items : Items} (ls : List Look) {fs gs : List (Str × Val)} (h : SameNames fs gs) :
    SameKind SameNames (runLooks T L c items ls fs) (runLooks T L c items ls gs) := by
  induction ls generalizing fs gs with
  | nil => exact .ok h
  | cons l ls ih =>
    unfold runLooks
    cases items.lookup l.member with
    | none => exact ih h
    | some s =>
      simp only
      cases lookConv T L c l s with
      | val v =>
        simp only
        rcases modify_sameNames (n := l.member) (v := v) (w := v) h with ⟨fs', gs', h1, h2, h3⟩ | ⟨h1, h2⟩
        · rw [h1, h2, R.ok_bind, R.ok_bind]
          exact ih h3
        · rw [h1, h2]
          exact .stuck
      | keep => exact ih h
      | throws => exact .ok h
      | ub => exact .ub
      | stuck => exact .stuck

theorem runKids_sameKind {subs subs' : List (Str × (Str → Str → R (Bool × Val)))} {path : Str}
    (hs : ∀ n, (∃ f g, subs.lookup n = some f ∧ subs'.lookup n = some g ∧ ∀ c p, SameKind (fun _ _ => True) (f c p) (g c p)) ∨
      (subs.lookup n = none ∧ subs'.lookup n = none)) (body : List NRd) (rv : Bool) {fs gs : List (Str × Val)} (h : SameNames fs gs) :
    SameKind SameNames (runKids subs path body rv fs) (runKids subs' path body rv gs) := by
  induction body generalizing rv fs gs with
  | nil => exact .ok h
  | cons r body ih =>
    cases r with
    | child n ty sp =>
      unfold runKids field
      rcases hs n with ⟨f, g, h1, h2, h3⟩ | ⟨h1, h2⟩
      · rw [h1, h2]
        simp only [R.ok_bind]
        have h4 := h3 ty (path ++ sp)
        generalize f ty (path ++ sp) = r at h4
        generalize g ty (path ++ sp) = r' at h4
        cases h4 with
        | @ok b x y _ =>
          simp only [R.ok_bind]
          rcases modify_sameNames (n := n) (v := x) (w := y) h with ⟨fs', gs', h1, h2, h3⟩ | ⟨h1, h2⟩
          · rw [h1, h2, R.ok_bind, R.ok_bind]
            exact ih b h3
          · rw [h1, h2]
            exact .stuck
        | ub => exact .ub
        | stuck => exact .stuck
      · rw [h1, h2]
        exact .stuck
    | vector _ => exact ih rv h
    | fixme _ => exact ih rv h
    | warn _ => exact ih rv h

/-- Whether reading is defined, and what it returns, depends on the structs in the object only. -/
theorem nrd_sameKind {U : List (Str × Items)} {v w : Val} (h : SameStructs v w) : ∀ c path : Str,
    SameKind (fun _ _ => True) (nrdVal T L prog U v c path) (nrdVal T L prog U w c path) := by
  induction h with
  | @leaf v w hv hw =>
    intro c path
    have key : ∀ x : Val, (∀ fs, x ≠ .struct fs) → nrdVal T L prog U x c path = .stuck := by
      intro x hx
      cases x with
      | struct fs => exact absurd rfl (hx fs)
      | _ => rfl
    rw [key v hv, key w hw]
    exact .stuck
  | @struct fs gs hn _ ih =>
    intro c path
    unfold nrdVal runNRd
    cases nrdBody prog c with
    | none => exact .stuck
    | some r =>
      obtain ⟨looks, dot, body⟩ := r
      simp only
      have h1 : SameKind SameNames (runSection T L U c path looks fs) (runSection T L U c path looks gs) := by
        unfold runSection
        cases looks with
        | none => exact .ok hn
        | some ls =>
          simp only
          split
          · exact .stuck
          · cases U.lookup path with
            | none => exact .ok hn
            | some items => exact runLooks_sameKind ls hn
      generalize runSection T L U c path looks fs = r1 at h1
      generalize runSection T L U c path looks gs = r2 at h1
      cases h1 with
      | ub => exact .ub
      | stuck => exact .stuck
      | @ok b x y hxy =>
        simp only [R.ok_bind]
        cases b with
        | false => exact .ok trivial
        | true =>
          have hk := runKids_sameKind (path := if dot && path ≠ [] then path ++ c!"." else path)
            (subs := nrdFields T L prog U fs) (subs' := nrdFields T L prog U gs) (by
              intro n
              rw [nrdFields_lookup, nrdFields_lookup]
              by_cases hm : n ∈ fs.map Prod.fst
              · obtain ⟨a, ha⟩ := lookup_isSome hm
                obtain ⟨a', ha'⟩ := lookup_isSome (hn ▸ hm)
                rw [ha, ha']
                exact Or.inl ⟨_, _, rfl, rfl, ih n a a' ha ha'⟩
              · have hno : ∀ zs : List (Str × Val), n ∉ zs.map Prod.fst → zs.lookup n = none := by
                  intro zs hz
                  rw [List.lookup_eq_none_iff]
                  intro p hp
                  simp only [bne_iff_ne, ne_eq]
                  rintro rfl
                  exact hz (List.mem_map_of_mem hp)
                rw [hno fs hm, hno gs (hn ▸ hm)]
                exact Or.inr ⟨rfl, rfl⟩) body true hxy
          simp only [if_true]
          generalize runKids (nrdFields T L prog U fs) _ body true x = r1 at hk
          generalize runKids (nrdFields T L prog U gs) _ body true y = r2 at hk
          cases hk with
          | ub => exact .ub
          | stuck => exact .stuck
          | ok _ => exact .ok trivial

theorem SameStructs.leaves {u u' : Bool} {ty : MTy} {t w : Val} (hl : ty.isLeaf = true) (h : CTable.WT T u ty t) (h' : CTable.WT T u' ty w) :
    SameStructs t w := by
  have key : ∀ {u : Bool} {x : Val}, CTable.WT T u ty x → ∀ fs, x ≠ .struct fs := by
    intro u x hx fs e
    subst e
    cases hx with
    | @simple ty _ h => cases ty <;> cases h
    | struct _ _ _ => cases hl
  exact .leaf (key h) (key h')

/-- Objects of one type have the same structs in them. -/
theorem SameStructs.typed {u u' : Bool} {ty : MTy} {t w : Val} (h : CTable.WT T u ty t) (h' : CTable.WT T u' ty w) : SameStructs t w := by
  induction h generalizing w with
  | @undef ty h0 h1 h2 h3 =>
    cases ty with
    | simple _ => exact .leaves rfl (.undef h0 h1 h2 h3) h'
    | enum _ => exact .leaves rfl (.undef h0 h1 h2 h3) h'
    | struct n => exact absurd rfl (h1 n)
    | vec n => exact absurd rfl (h2 n)
  | simple h => exact .leaves rfl (.simple (u := true) h) h'
  | enum a b c => exact .leaves rfl (.enum (u := true) a b c) h'
  | @struct n ms ts h1 h2 _ ih =>
    obtain ⟨ms', ws, rfl, hcls, hws, hwt⟩ := wt_struct h'
    rw [h1] at hcls
    cases hcls
    refine .struct (h2.trans hws.symm) ?_
    intro x a a' e1 e2
    have hx : x ∈ ts.map Prod.fst := mem_names_of_lookup e1
    rw [h2] at hx
    obtain ⟨m, hm, rfl⟩ := List.mem_map.1 hx
    exact ih m hm a e1 (hwt m hm a' e2)
  | vec _ _ =>
    refine .leaf (by simp) ?_
    intro fs e
    subst e
    cases h'

/-- C82, n_ini: if a file could be read, reading it once more with the same reader gives the same return value and changes nothing in the
object or in what the reader knows. -/
theorem C82_ini (hL : L.Bits) (hE : T.EnumInts) (hG : Generated fs .nIni out prog)
    (hT : Compiled (fs.flatMap fun f => f.2.decls) T) (hcl : NoClash T) {n : Str} (hn : TopStruct (fs.flatMap fun f => f.2.decls) n)
    {u : Bool} {t : Val} (ht : CTable.WT T u (.struct n) t) {st st1 : IniSt} {text : Str} {b : Bool} {w : Val}
    (h : iniRead T L prog n st (some text) t = .ok ((b, w), st1)) :
    ∃ st2, iniRead T L prog n st1 (some text) w = .ok ((b, w), st2) ∧ ∀ k, st2.under.lookup k = st1.under.lookup k := by
  have hnd := fun c ms (hc : T.cls c = some ms) => hT.good.nodup c ms hc
  obtain ⟨rfl, hr⟩ := iniRead_ok hG hT hcl hn ht h
  have hw := hr.typed hL hE hnd ht
  have hU : ∀ k, ((st.load text).load text).under.lookup k = (st.load text).under.lookup k := by
    intro k
    rw [load_sections (st.load text), load_sections st]
    cases (IniSt.init.load text).under.lookup k <;> rfl
  refine ⟨(st.load text).load text, ?_, hU⟩
  rcases iniRead_spec (L := L) hG hT hcl hn hw (st.load text) text with ⟨_, h'⟩ | ⟨b', w', h', hr'⟩
  · exfalso
    have hs := nrd_sameKind (T := T) (L := L) (prog := prog) (U := (st.load text).under) (SameStructs.typed ht hw) n []
    unfold iniRead at h h'
    rw [if_pos ((hG.nrdCode hT).2 n hn)] at h h'
    simp only at h h'
    obtain ⟨r, h1, _⟩ := R.bind_eq_ok.1 h
    rw [nrdVal_congr hU] at h'
    rw [h1] at hs
    revert h'
    generalize nrdVal T L prog (st.load text).under w n [] = r' at hs
    cases hs with
    | ok _ => intro h'; cases h'
  · have hr2 : NReads T L (st.load text).under [] n w b' w' := by
      obtain ⟨hc, hrd⟩ := hG.nrdCode hT
      rcases iniRead_spec (L := L) hG hT hcl hn hw st text with ⟨_, h2⟩ | ⟨b2, w2, h2, h3⟩
      · exfalso
        unfold iniRead at h2 h'
        rw [if_pos (hrd n hn)] at h2 h'
        simp only at h2 h'
        rw [nrdVal_congr hU] at h'
        obtain ⟨r, h4, _⟩ := R.bind_eq_ok.1 h'
        rw [h4] at h2
        cases h2
      · have : (b2, w2) = (b', w') := by
          unfold iniRead at h2 h'
          rw [if_pos (hrd n hn)] at h2 h'
          simp only at h2 h'
          rw [nrdVal_congr hU] at h'
          obtain ⟨r, h4, h5⟩ := R.bind_eq_ok.1 h'
          rw [h4, R.ok_bind] at h2
          cases h2
          cases h5
          rfl
        cases this
        exact h3
    obtain ⟨rfl, rfl⟩ := hr.again.unique hT.good.bits hnd hr2
    exact h'

end

/-! ### Examples -/

/-- C82 as stated is false for XML files: a file with an element of a vector. -/
theorem C82_xml_refuted : ¬ ∀ (fs : List (Str × Header)) (out : OutSpec) (prog : List Item) (T : CTable) (L : Lib) (n : Str)
    (t w : Val) (root : Node), Generated fs .attrib out prog → Compiled (fs.flatMap fun f => f.2.decls) T →
    TopStruct (fs.flatMap fun f => f.2.decls) n → CTable.WT T false (.struct n) t → root.isElem = true →
    readFile T L prog n (.ok [root]) t = .ok (true, w) → readFile T L prog n (.ok [root]) w = .ok (true, w) := by
  intro h
  have h1 := h shapeFiles plainOut _ shapeData.table someLib c!"Shape" (shapeVal c!"abc" 3 0 (pointVal 1 7) [])
    (shapeVal c!"n" 8 5 (pointVal 4 7) [pointVal 1 9]) shapeRoot (shape_generated _ _) shape_compiled shape_top
    (wtb_sound _ _ (by decide +kernel)) rfl (by decide +kernel)
  revert h1
  decide +kernel

/-- Non-vacuity of `C82_xml`: the element of the vector is read twice, the rest stays. -/
example : ∃ t2, readFile shapeData.table someLib (progOf shapeFiles .attrib plainOut) c!"Shape" (.ok [shapeRoot])
      (shapeVal c!"n" 8 5 (pointVal 4 7) [pointVal 5 5, pointVal 1 9]) = .ok (true, t2) ∧
    Reread shapeData.table (.struct c!"Shape") (shapeVal c!"abc" 3 0 (pointVal 1 7) [pointVal 5 5])
      (shapeVal c!"n" 8 5 (pointVal 4 7) [pointVal 5 5, pointVal 1 9]) t2 :=
  C82_xml (L := someLib) (shape_generated .attrib plainOut) (Or.inr rfl) shape_compiled shape_top
    (wtb_sound _ _ (by decide +kernel)) (ks := [shapeRoot]) rfl (by decide +kernel)
example : readFile shapeData.table someLib (progOf shapeFiles .attrib plainOut) c!"Shape" (.ok [shapeRoot])
    (shapeVal c!"n" 8 5 (pointVal 4 7) [pointVal 5 5, pointVal 1 9]) =
      .ok (true, shapeVal c!"n" 8 5 (pointVal 4 7) [pointVal 5 5, pointVal 1 9, pointVal 1 9]) := by decide +kernel

theorem line_noVec : ∀ c ms, lineData.table.cls c = some ms → ∀ m ∈ ms, ∀ c', m.ty ≠ .vec c' := by
  intro c ms hc m hm c' e
  have h1 : (c, ms) ∈ lineData.cls := mem_of_lookup hc
  have h2 : ∀ p ∈ lineData.cls, ∀ m ∈ p.2, (match m.ty with | .vec _ => false | _ => true) = true := by decide +kernel
  have := h2 _ h1 m hm
  rw [e] at this
  cases this

/-- Non-vacuity of `C82_xml_partial`. -/
example : readFile lineData.table someLib (progOf lineFiles .xml plainOut) c!"Line"
    (.ok [.elem c!"Line" [] [.elem c!"from" [] [.elem c!"x" [] [.text c!"-9"]]]]) (lineVal (pointVal (-9) 7) 2) =
      .ok (true, lineVal (pointVal (-9) 7) 2) :=
  C82_xml_partial (L := someLib) (line_generated .xml plainOut) (Or.inl rfl) line_compiled line_noVec line_top (t := lineVal (pointVal 5 7) 2)
    (wtb_sound _ _ (by decide +kernel)) rfl (by decide +kernel)

/-- Non-vacuity of `C82_ini`: an item with text behind the number, one for an enum, one left out. -/
example : ∃ st2, iniRead swData.table smallIniLib (progOf swFiles .nIni plainOut) c!"Sws"
      ⟨[], [(c!"sw", [(c!"b", c!"7"), (c!"m", c!"on"), (c!"w", c!"-5 m")])], some c!"sw", [], []⟩
      (some c!"[sw]\nw -5 m\nm on\n% m\nb 7\n") (swVal (-5) 4 true 1) = .ok ((true, swVal (-5) 4 true 1), st2) ∧
    ∀ k, st2.under.lookup k = [(c!"sw", [(c!"b", c!"7"), (c!"m", c!"on"), (c!"w", c!"-5 m")])].lookup k :=
  C82_ini (L := smallIniLib) smallIniLib_bits (CData.enumInts (by decide +kernel)) (sw_generated .nIni plainOut) sw_compiled
    (CData.noClash (by decide +kernel)) sw_top (t := swVal 3 4 true 0) (u := false) (wtb_sound _ _ (by decide +kernel)) (st := IniSt.init)
    (by decide +kernel)
/-- A file that can not be read: the members in front of the bad item keep their new values. -/
example : ∃ st2, iniRead lineData.table smallIniLib (progOf lineFiles .nIni plainOut) c!"Line"
      (IniSt.init.load c!"[from]\nx 4\ny a\n") (some c!"[from]\nx 4\ny a\n") (lineVal (pointVal 4 7) 2) =
        .ok ((false, lineVal (pointVal 4 7) 2), st2) ∧
    ∀ k, st2.under.lookup k = (IniSt.init.load c!"[from]\nx 4\ny a\n").under.lookup k :=
  C82_ini (L := smallIniLib) smallIniLib_bits (CData.enumInts (by decide +kernel)) (line_generated .nIni plainOut) line_compiled line_noClash
    line_top (line_wt 5 7 2 (by decide +kernel)) (st := IniSt.init) (by decide +kernel)

end Stfx.Run
