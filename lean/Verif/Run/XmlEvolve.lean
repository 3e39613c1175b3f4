import Verif.Run.XmlWritten
/-
Files written by the program of one version of the headers and read by the program of another.

`T` are the classes the writing program was compiled with, `U` those of the reading program.
-/
set_option autoImplicit false
namespace Stfx.Run
open Stfx.Items Stfx.Parser Stfx.Gen Stfx.Lexer

/-- An enum of both versions keeps its enumerators and their values; there may be new ones, and their order may be another.
(Specification notion, models no code.) -/
def EnumGrows (T U : CTable) (x : Str) : Prop :=
  ∃ e val e' val', T.enm x = some (e, val) ∧ U.enm x = some (e', val') ∧ e'.isClass = e.isClass ∧
    ∀ l ∈ e.enums, val' l.name = val l.name ∧ ∃ l' ∈ e'.enums, l'.name = l.name

/-- A change of the headers after which members of the same name, of structs of the same name, still have the same type.
Members, structs and enumerators may be added and moved, members and structs may be removed.  (Specification notion, models no code.) -/
def Compatible (T U : CTable) : Prop :=
  ∀ c ms ns, T.cls c = some ms → U.cls c = some ns → ∀ m ∈ ms, ∀ n ∈ ns, n.name = m.name →
    n.ty = m.ty ∧ ∀ x, m.ty = .enum x → EnumGrows T U x

/-- `w` is what the reading program should make of `v` in the place of its object `t`: members both versions have are
those of `v`, the others stay as they were, and the elements of vectors are appended, each as the reading program's
default object with the members of the element written.  (Specification notion, models no code.) -/
inductive Carried (T U : CTable) : MTy → Val → Val → Val → Prop
  | leaf {ty : MTy} {t v : Val} : ty.isLeaf = true → Carried T U ty t v v
  | struct {c : Str} {ms ns : List CMember} {ts fs ws : List (Str × Val)} : T.cls c = some ms → U.cls c = some ns →
      ts.map Prod.fst = ns.map CMember.name → fs.map Prod.fst = ms.map CMember.name → ws.map Prod.fst = ns.map CMember.name →
      (∀ m ∈ ms, ∀ n ∈ ns, n.name = m.name → ∀ t' v' w', ts.lookup m.name = some t' → fs.lookup m.name = some v' →
        ws.lookup m.name = some w' → Carried T U m.ty t' v' w') →
      (∀ n ∈ ns, n.name ∉ ms.map CMember.name → ws.lookup n.name = ts.lookup n.name) →
      Carried T U (.struct c) (.struct ts) (.struct fs) (.struct ws)
  | vec {c : Str} {ts vs ws : List Val} : ws.length = vs.length →
      (∀ (i : Nat) (v w : Val), vs[i]? = some v → ws[i]? = some w → Carried T U (.struct c) (U.dflt c) v w) →
      Carried T U (.vec c) (.vec ts) (.vec vs) (.vec (ts ++ ws))

/-- What is needed of the object written (with the default `d` of the writing program) and the object `t` read into, member
by member.  (Proof notion, models no code.) -/
inductive Aim (T U : CTable) (k : Kind) (P : MTy → Val → Val → Val → Prop) : MTy → Val → Val → Val → Prop
  | leaf {ty : MTy} {d t v : Val} : ty.isLeaf = true → P ty d t v → Aim T U k P ty d t v
  | struct {c : Str} {ms ns : List CMember} {d : Val} {ds ts fs : List (Str × Val)} : T.cls c = some ms → U.cls c = some ns →
      T.dflt c = .struct ds → ts.map Prod.fst = ns.map CMember.name → fs.map Prod.fst = ms.map CMember.name →
      (∀ m ∈ ms, ∀ n ∈ ns, n.name = m.name → n.ty = m.ty) →
      (∀ m ∈ ms, ∀ n ∈ ns, n.name = m.name → ∀ d' t' v', ds.lookup m.name = some d' → ts.lookup m.name = some t' →
        fs.lookup m.name = some v' → Aim T U k P m.ty d' t' v') →
      (∀ n ∈ ns, n.name ∉ ms.map CMember.name → ¬ LostIfMissing k n.ty) →
      Aim T U k P (.struct c) d (.struct ts) (.struct fs)
  | vec {c : Str} {d : Val} {ts vs : List Val} : (∀ v ∈ vs, Aim T U k P (.struct c) (T.dflt c) (U.dflt c) v) →
      Aim T U k P (.vec c) d (.vec ts) (.vec vs)

section
variable {T U : CTable} {L : Lib} {prog : List Item} {k : Kind} {g delta : Bool}

/-! ### Single members -/

/-- Reading a member that is not in the file. -/
theorem readLeaf_missing (hk : k = .attrib) {ty : MTy} (hl : ty.isLeaf = true) (h : ¬ LostIfMissing k ty) (t : Val) :
    readLeaf U L ty t none = .ok t := by
  cases ty with
  | simple ty =>
    have : viaLocal ty = false := by
      cases ty <;> first | rfl | (exfalso; exact h ⟨hk, by simp⟩)
    simp [readLeaf, readSimple, assign, this]
  | enum n => rfl
  | struct _ => cases hl
  | vec _ => cases hl

theorem foldlMax_le {l : List Nat} {a b : Nat} (ha : a ≤ b) (h : ∀ x ∈ l, x ≤ b) : l.foldl max a ≤ b := by
  induction l generalizing a with
  | nil => exact ha
  | cons x l ih =>
    exact ih (by have := h x List.mem_cons_self; omega) fun y hy => h y (List.mem_cons_of_mem _ hy)

theorem le_foldlMax {l : List Nat} {a : Nat} : a ≤ l.foldl max a ∧ ∀ x ∈ l, x ≤ l.foldl max a := by
  induction l generalizing a with
  | nil => exact ⟨Nat.le_refl _, by simp⟩
  | cons x l ih =>
    have := @ih (max a x)
    refine ⟨by have := this.1; simp only [List.foldl_cons]; omega, ?_⟩
    intro y hy
    rcases List.mem_cons.1 hy with rfl | hy
    · have := this.1; simp only [List.foldl_cons]; omega
    · exact this.2 y hy

theorem pow2Above_grows {a b : Nat} (h : a ≤ b) : pow2Above a ≤ pow2Above b := by
  have hone : ∀ n : Nat, (1 : Int) ≤ (2 : Int) ^ n := by
    intro n
    have := Nat.one_le_two_pow (n := n)
    exact_mod_cast this
  unfold pow2Above
  split
  · split
    · exact Int.le_refl _
    · exact hone _
  · rename_i ha
    rw [if_neg (by omega)]
    have hlog : Nat.log2 a ≤ Nat.log2 b := by
      have h1 := (Nat.log2_eq_iff ha).1 rfl
      rw [Nat.le_log2 (by omega)]
      omega
    have : (2 : Nat) ^ (Nat.log2 a + 1) ≤ 2 ^ (Nat.log2 b + 1) := Nat.pow_le_pow_right (by decide) (by omega)
    exact_mod_cast this

/-- With more enumerators an enum type holds at least the values it held. -/
theorem holds_grows {e e' : EnumS} {val val' : EnumVals} (hc : e'.isClass = e.isClass)
    (h : ∀ l ∈ e.enums, val' l.name = val l.name ∧ ∃ l' ∈ e'.enums, l'.name = l.name) {x : Int}
    (hx : holds e val x = true) : holds e' val' x = true := by
  have hsub : ∀ y ∈ e.enums.map (fun l => val l.name), y ∈ e'.enums.map fun l => val' l.name := by
    intro y hy
    obtain ⟨l, hl, rfl⟩ := List.mem_map.1 hy
    obtain ⟨h1, l', h2, h3⟩ := h l hl
    exact List.mem_map.2 ⟨l', h2, by rw [h3, h1]⟩
  unfold holds at hx ⊢
  rw [hc]
  split
  · rename_i hcl
    rw [if_pos hcl] at hx
    exact hx
  · rename_i hcl
    rw [if_neg hcl] at hx
    simp only [Bool.and_eq_true, Bool.or_eq_true, decide_eq_true_eq, List.any_eq_true] at hx ⊢
    have hm := pow2Above_grows (foldlMax_le (a := 0) (b := ((e'.enums.map fun l => val' l.name).map
        fun v => if 0 ≤ v then v.toNat else (-v - 1).toNat).foldl max 0) (Nat.zero_le _)
      (l := (e.enums.map fun l => val l.name).map fun v => if 0 ≤ v then v.toNat else (-v - 1).toNat) (by
        intro y hy
        obtain ⟨z, hz, rfl⟩ := List.mem_map.1 hy
        exact le_foldlMax.2 _ (List.mem_map.2 ⟨z, hsub z hz, rfl⟩)))
    obtain ⟨h1, h2⟩ := hx
    refine ⟨by omega, ?_⟩
    rcases h2 with h2 | ⟨⟨y, hy, hy0⟩, h2⟩
    · exact Or.inl h2
    · exact Or.inr ⟨⟨y, hsub y hy, hy0⟩, by omega⟩

/-- The text of an enum is converted back by the other program. -/
theorem sToE_grows {e e' : EnumS} {val val' : EnumVals} (he' : EnumOk e') (hcl : e'.isClass = e.isClass)
    (hl : ∀ l ∈ e.enums, val' l.name = val l.name ∧ ∃ l' ∈ e'.enums, l'.name = l.name) {i : Int} (hi : inSigned 32 i)
    (hh : holds e val i = true) : ∃ b, sToE e' val' (sFromE e val i) = .ok b (some i) := by
  rcases sFromE_cases e val i with ⟨l, hlm, hv, h'⟩ | ⟨_, h'⟩
  · obtain ⟨a1, l', a2, a3⟩ := hl l hlm
    rw [h', ← a3]
    unfold sToE
    rw [find_line he'.1 a2]
    exact ⟨true, by simp [a3, a1, hv]⟩
  · rw [h']
    unfold sToE
    have hnone : e'.enums.find? (fun l => l.name = intText i) = none := by
      rw [List.find?_eq_none]
      intro l hl
      simpa using (he'.2 l hl).isName.ne_intText i
    rw [hnone, stoSigned_intText hi]
    exact ⟨false, by simp [holds_grows hcl hl hh]⟩

/-- Enum members are read as they were written. -/
theorem enum_back_grows (hT : T.EnumsOk) (hU : U.EnumsOk) {n : Str} (hg : EnumGrows T U n) {v : Val}
    (hw : CTable.WT T false (.enum n) v) (t : Val) :
    ∃ s, enumText T (some (.enum n)) v = .ok s ∧ readEnum U (some (.enum n)) t (back k s) = .ok v := by
  obtain ⟨e, val, e', val', h1, h2, hcl, hl⟩ := hg
  cases hw with
  | undef h _ _ _ => cases h
  | @enum _ e1 val1 i h1' hi hh =>
    rw [h1] at h1'
    cases h1'
    have hp := sFromE_plain (hT _ _ _ h1) val i
    refine ⟨sFromE e val i, by simp only [enumText, h1, cStr_id hp.nonul], ?_⟩
    obtain ⟨b, hb⟩ := sToE_grows (hU _ _ _ h2) hcl hl hi hh
    rw [hp.back]
    simp only [readEnum, h2, hb]

/-- A leaf that fits is read by the other program as it was written. -/
theorem leaf_back_grows (hT : T.EnumsOk) (hU : U.EnumsOk) {ty : MTy} (hl : ty.isLeaf = true)
    (hg : ∀ x, ty = .enum x → EnumGrows T U x) {v : Val} (hw : CTable.WT T false ty v) (hf : Fits L ty v)
    (hb : Visible k ty v) (t : Val) : ∃ s, leafText T L k ty v = .ok s ∧ readLeaf U L ty t (back k s) = .ok v := by
  cases ty with
  | simple ty =>
    cases hw with
    | undef h _ _ _ => cases h
    | simple h => exact simple_back h hf hb t
  | enum n => exact enum_back_grows hT hU (hg n rfl) hw t
  | struct _ => cases hl
  | vec _ => cases hl

/-! ### Objects -/

/-- What reading gives, for `carried`.  (Proof notion, models no code.) -/
def CarriedBy (T U : CTable) (L : Lib) (prog : List Item) (t v : Val) (as : List (Str × Str)) (ks : List Node) : MTy → Prop
  | .struct c => ∀ nm, ∃ w, (rdNode U L prog (reload (.elem nm as ks))).rd c t = .ok w ∧ Carried T U (.struct c) t v w
  | .vec c => ∀ nm, ∃ ws, ((rdNode U L prog (reload (.elem nm as ks))).items.mapM fun rd => rd c (U.dflt c)) = .ok ws ∧
      ∀ ts, Carried T U (.vec c) (.vec ts) v (.vec (ts ++ ws))
  | _ => True

theorem first_none {ks : List Node} {n : Str} (h : ∀ x ∈ ks, x.named n = false) : first ks n = none := by
  unfold first
  rw [List.find?_eq_none]
  intro x hx
  simp [h x hx]

theorem lookup_none {α : Type} {l : List (Str × α)} {n : Str} (h : n ∉ l.map Prod.fst) : l.lookup n = none := by
  induction l with
  | nil => rfl
  | cons p l ih =>
    rw [List.map_cons, List.mem_cons, not_or] at h
    have : (n == p.1) = false := by simpa using h.1
    rw [List.lookup_cons, this]
    exact ih h.2

/-- Members that are not in the file and not simple or enum members of attribute XML stay as they are. -/
theorem memberRead_missing {c : Str} {ns : List CMember} (hcls : U.cls c = some ns) (hg : U.Good) {n : CMember} (hn : n ∈ ns)
    (hk : k = .xml ∨ k = .attrib) (hnl : ¬ LostIfMissing k n.ty) {as : List (Str × Str)} {ks : List Node}
    (h1 : as.lookup n.name = none) (h2 : first ks n.name = none) (t : Val) :
    memberRead U L prog k c as ks n t = .ok t := by
  cases hty : n.ty with
  | struct c' => rw [memberRead_struct hty, h2]
  | vec c' =>
    unfold memberRead
    rw [hty]
    simp only [lineRd, rdAct, firstKid_map, h2, Option.map_none]
  | simple ty =>
    have hl : n.ty.isLeaf = true := by rw [hty]; rfl
    rcases hk with rfl | rfl
    · rw [memberRead_elem hcls hg hn hl, h2]
    · rw [memberRead_attr hcls hg hn hl, h1, readLeaf_missing rfl hl hnl]
  | enum ty =>
    have hl : n.ty.isLeaf = true := by rw [hty]; rfl
    rcases hk with rfl | rfl
    · rw [memberRead_elem hcls hg hn hl, h2]
    · rw [memberRead_attr hcls hg hn hl, h1, readLeaf_missing rfl hl hnl]

/-- Make an object from its members. -/
theorem choose_fields {ns : List CMember} (hnd : (ns.map CMember.name).Nodup) {Q : CMember → Val → Prop}
    (h : ∀ n ∈ ns, ∃ w, Q n w) : ∃ ws : List (Str × Val), ws.map Prod.fst = ns.map CMember.name ∧
      ∀ n ∈ ns, ∃ w, ws.lookup n.name = some w ∧ Q n w := by
  induction ns with
  | nil => exact ⟨[], rfl, by simp⟩
  | cons a ns ih =>
    rw [List.map_cons, List.nodup_cons] at hnd
    obtain ⟨ws, h1, h2⟩ := ih hnd.2 fun n hn => h n (List.mem_cons_of_mem _ hn)
    obtain ⟨w, hw⟩ := h a List.mem_cons_self
    refine ⟨(a.name, w) :: ws, by simp [h1], ?_⟩
    intro n hn
    rcases List.mem_cons.1 hn with rfl | hn
    · exact ⟨w, by simp, hw⟩
    · obtain ⟨w', h3, h4⟩ := h2 n hn
      have hne : n.name ≠ a.name := fun he => hnd.1 (by rw [← he]; exact List.mem_map_of_mem hn)
      have hb : (n.name == a.name) = false := by simpa using hne
      exact ⟨w', by rw [List.lookup_cons, hb]; exact h3, h4⟩

theorem Aim.inv_leaf {P : MTy → Val → Val → Val → Prop} {ty : MTy} {d t v : Val} (h : Aim T U k P ty d t v)
    (hl : ty.isLeaf = true) : P ty d t v := by
  cases h with
  | leaf _ h => exact h
  | struct _ _ _ _ _ _ _ _ => cases hl
  | vec _ => cases hl

theorem mapM_exists {α β γ : Type} {f : α → R β} {R' : γ → β → Prop} {xs : List α} {vs : List γ} (hlen : xs.length = vs.length)
    (h : ∀ (i : Nat) (v : γ) (x : α), vs[i]? = some v → xs[i]? = some x → ∃ w, f x = .ok w ∧ R' v w) :
    ∃ ws, xs.mapM f = .ok ws ∧ ws.length = vs.length ∧
      ∀ (i : Nat) (v : γ) (w : β), vs[i]? = some v → ws[i]? = some w → R' v w := by
  induction xs generalizing vs with
  | nil =>
    have : vs = [] := List.length_eq_zero_iff.1 hlen.symm
    subst this
    exact ⟨[], rfl, rfl, by intro i v w h; simp at h⟩
  | cons x xs ih =>
    cases vs with
    | nil => cases hlen
    | cons v vs =>
      obtain ⟨w, a1, a2⟩ := h 0 v x rfl rfl
      obtain ⟨ws, b1, b2, b3⟩ := ih (vs := vs) (by simpa using hlen) fun i v x h1 h2 =>
        h (i + 1) v x (by simpa using h1) (by simpa using h2)
      refine ⟨w :: ws, by rw [mapM_cons, a1, R.ok_bind, b1, R.ok_bind], by simp [b2], ?_⟩
      intro i v' w' h1 h2
      cases i with
      | zero => cases h1; cases h2; exact a2
      | succ i => exact b3 i v' w' (by simpa using h1) (by simpa using h2)

/-- The reading program makes of what was written what `Carried` says, if single members survive. -/
theorem carried (hgT : T.Good) (hc : RdCode U prog k) {P : MTy → Val → Val → Val → Prop}
    (hP : ∀ ty d t v, ty.isLeaf = true → P ty d t v →
      (guard g delta (if g then some d else none) v = .ok true → ∀ s, leafText T L k ty v = .ok s →
        readLeaf U L ty t (back k s) = .ok v) ∧
      (guard g delta (if g then some d else none) v = .ok false → v = t ∧ ¬ LostIfMissing k ty))
    {ty : MTy} {d t v : Val} (h : Aim T U k P ty d t v) :
    ∀ {as : List (Str × Str)} {ks : List Node}, Wrote T L k g delta ty v as ks → CarriedBy T U L prog t v as ks ty := by
  induction h with
  | @leaf ty d t v hl _ =>
    intro as ks _
    cases ty with
    | simple _ => trivial
    | enum _ => trivial
    | struct _ => cases hl
    | vec _ => cases hl
  | @struct c ms ns d ds ts fs hcls hcls' hds hts hfs hty haim hnew ih =>
    intro as ks hw nm
    cases hw with
    | @struct _ ms1 ds1 _ _ _ hcls1 hds1 _ _ _ hasub hksub hleaf hsub hrec =>
      rw [hcls] at hcls1
      cases hcls1
      rw [hds] at hds1
      cases hds1
      have hgood := hc.good
      have hnd := hgood.nodup c ns hcls'
      have hmem : ∀ n ∈ ns, ∃ w', ∃ t', ts.lookup n.name = some t' ∧
          memberRead U L prog k c (as.map fun p => (p.1, nl p.2)) (reloadKids ks) n t' = .ok w' ∧
          (∀ m ∈ ms, n.name = m.name → ∀ v', fs.lookup m.name = some v' → Carried T U m.ty t' v' w') ∧
          (n.name ∉ ms.map CMember.name → w' = t') := by
        intro n hn
        obtain ⟨t', ht'⟩ := lookup_isSome (fs := ts) (n := n.name) (by rw [hts]; exact List.mem_map_of_mem hn)
        by_cases hin : n.name ∈ ms.map CMember.name
        · obtain ⟨m, hm, hnm⟩ := List.mem_map.1 hin
          obtain ⟨v', hv'⟩ := lookup_isSome (fs := fs) (n := m.name) (by rw [hfs]; exact List.mem_map_of_mem hm)
          have hnt := hty m hm n hn hnm.symm
          obtain ⟨ds', hd1, _, hd3⟩ := dflt_struct hgT hcls
          rw [hds] at hd1
          cases hd1
          have hd' := hd3 m hm
          rw [← hnm] at ht'
          suffices hs : ∃ w', memberRead U L prog k c (as.map fun p => (p.1, nl p.2)) (reloadKids ks) n t' = .ok w' ∧
              Carried T U m.ty t' v' w' by
            obtain ⟨w', h1, h2⟩ := hs
            refine ⟨w', t', by rw [← hnm]; exact ht', h1, ?_, fun h => absurd hin h⟩
            intro m' hm' he v'' hv''
            rw [← he, ← hnm, hv'] at hv''
            cases hv''
            rw [← hty m' hm' n hn he, hnt]
            exact h2
          have hA := haim m hm n hn hnm.symm _ t' v' hd' ht' hv'
          by_cases hl : m.ty.isLeaf = true
          · refine ⟨v', ?_, .leaf hl⟩
            have hp := hA.inv_leaf hl
            obtain ⟨hp1, hp2⟩ := hP _ _ _ _ hl hp
            have hln : n.ty.isLeaf = true := by rw [hnt]; exact hl
            rcases hleaf m hm hl _ v' hd' hv' with ⟨hg, s, hs, h1, h2⟩ | ⟨hg, h1, h2⟩
            · have := hp1 hg s hs
              rcases hc.kind with rfl | rfl
              · rw [if_pos rfl] at h2
                rw [memberRead_elem hcls' hgood hn hln, first_reload, ← hnm, h2]
                dsimp only [Option.map_some]
                rw [leafElText_back, hnt]
                exact this
              · rw [if_neg (by decide)] at h1
                rw [memberRead_attr hcls' hgood hn hln, lookup_map_snd, ← hnm, h1, hnt]
                simpa [back] using this
            · obtain ⟨rfl, hnl⟩ := hp2 hg
              refine memberRead_missing hcls' hgood hn hc.kind (by rw [hnt]; exact hnl) ?_ ?_ _
              · rw [lookup_map_snd, ← hnm, h1]; rfl
              · rw [first_reload, ← hnm, h2]; rfl
          · have hl : m.ty.isLeaf = false := by simpa using hl
            obtain ⟨_, as', ks', hf⟩ := hsub m hm hl
            have ih := ih m hm n hn hnm.symm _ t' v' hd' ht' hv' (hrec m hm hl v' as' ks' hv' hf)
            cases hmt : m.ty with
            | simple _ => rw [hmt] at hl; cases hl
            | enum _ => rw [hmt] at hl; cases hl
            | struct c' =>
              rw [hmt] at ih hnt
              obtain ⟨w', h1, h2⟩ := ih m.name
              refine ⟨w', ?_, h2⟩
              rw [memberRead_struct hnt, first_reload, ← hnm, hf]
              exact h1
            | vec c' =>
              rw [hmt] at ih hnt hA
              obtain ⟨ws', h1, h2⟩ := ih m.name
              cases hA with
              | leaf hl _ => cases hl
              | @vec _ _ ts' vs' _ =>
                refine ⟨.vec (ts' ++ ws'), ?_, h2 ts'⟩
                rw [memberRead_vec hnt, first_reload, ← hnm, hf]
                dsimp only [Option.map_some]
                rw [reload, items_elem] at h1
                rw [reload]
                simp only [Node.kids]
                rw [h1, R.ok_bind]
        · refine ⟨t', t', ht', ?_, ?_, fun _ => rfl⟩
          · refine memberRead_missing hcls' hgood hn hc.kind (hnew n hn hin) ?_ ?_ t'
            · rw [lookup_map_snd, lookup_none, Option.map_none]
              intro ha
              obtain ⟨m, hm, he⟩ := hasub _ ha
              exact hin (he ▸ List.mem_map_of_mem hm)
            · rw [first_reload, first_none, Option.map_none]
              intro x hx
              obtain ⟨m, hm, he⟩ := hksub x hx
              cases hb : x.named n.name with
              | false => rfl
              | true =>
                exfalso
                have := (named_name he).symm.trans (named_name hb)
                exact hin (this ▸ List.mem_map_of_mem hm)
          · intro m hm he
            exact absurd (he ▸ List.mem_map_of_mem hm) hin
      obtain ⟨ws, hws, hall⟩ := choose_fields hnd hmem
      refine ⟨.struct ws, ?_, ?_⟩
      · rw [reload]
        refine (rd_iff hc hcls' hts).2 ⟨ws, rfl, hws, ?_⟩
        intro n hn
        obtain ⟨w', h1, t', h2, h3, _⟩ := hall n hn
        exact ⟨t', w', h2, h1, h3⟩
      · refine .struct hcls hcls' hts hfs hws ?_ ?_
        · intro m hm n hn he t' v' w' a1 a2 a3
          obtain ⟨w1, h1, t1, h2, h3, h4, _⟩ := hall n hn
          rw [he] at h1 h2
          rw [a1] at h2
          rw [a3] at h1
          cases h1
          cases h2
          exact h4 m hm he v' a2
        · intro n hn hni
          obtain ⟨w1, h1, t1, h2, _, _, h5⟩ := hall n hn
          rw [h1, h2, h5 hni]
  | @vec c d ts vs haim ih =>
    intro as ks hw nm
    cases hw with
    | @vec _ _ _ hlen hel hw =>
      have hf : ks.filter Node.isElem = ks := by
        rw [List.filter_eq_self]
        intro x hx
        obtain ⟨_, _, rfl⟩ := hel x hx
        rfl
      rw [reload, items_elem, elems_reload, hf, mapM_map]
      obtain ⟨ws, h1, h2, h3⟩ := mapM_exists (f := fun x => (rdNode U L prog (reload x)).rd c (U.dflt c))
        (R' := fun v w => Carried T U (.struct c) (U.dflt c) v w) hlen (by
          intro i v x hv hx
          obtain ⟨as', ks', rfl⟩ := hel x (List.mem_of_getElem? hx)
          exact ih v (List.mem_of_getElem? hv) (hw i v c as' ks' hv hx) c)
      exact ⟨ws, h1, fun ts => .vec h2 h3⟩

/-! ### Objects that are written and objects that are read into -/

/-- Full files, read into any object. -/
theorem aim_any (hgT : T.Good) (hgU : U.Good) (hvec : ∀ c ns, U.cls c = some ns → ∀ n ∈ ns, ∀ x, n.ty = .vec x → ∃ ns', U.cls x = some ns')
    (hcomp : Compatible T U)
    (hnew : ∀ c ms ns, T.cls c = some ms → U.cls c = some ns → ∀ n ∈ ns, n.name ∉ ms.map CMember.name → ¬ LostIfMissing k n.ty)
    {Q : MTy → Val → Prop} {ty : MTy} {v : Val} (hv : CTable.WT T false ty v) :
    ∀ {d t : Val}, Leaves T Q ty v → CTable.WT U true ty t → (∀ x, ty = .enum x → EnumGrows T U x) →
      (∀ x, ty = .vec x → ∃ ns, U.cls x = some ns) →
      Aim T U k (fun ty _ _ v => CTable.WT T false ty v ∧ Q ty v ∧ ∀ x, ty = .enum x → EnumGrows T U x) ty d t v := by
  induction hv with
  | undef h _ _ _ => cases h
  | @simple ty v h =>
    intro d t hl _ he _
    exact .leaf rfl ⟨.simple h, hl.inv_leaf rfl, he⟩
  | @enum n e val i h1 h2 h3 =>
    intro d t hl _ he _
    exact .leaf rfl ⟨.enum h1 h2 h3, hl.inv_leaf rfl, he⟩
  | @struct c ms fs hc hn _ ih =>
    intro d t hl ht _ _
    obtain ⟨ds, h1, _, _⟩ := dflt_struct hgT hc
    obtain ⟨ns, ts, rfl, hc', hts, hwt⟩ := wt_struct ht
    refine .struct hc hc' h1 hts hn (fun m hm n hn he => (hcomp c ms ns hc hc' m hm n hn he).1) ?_ (hnew c ms ns hc hc')
    intro m hm n hn he d' t' v' _ a2 a3
    obtain ⟨hty, hen⟩ := hcomp c ms ns hc hc' m hm n hn he
    refine ih m hm v' a3 (hl.inv_struct hc m hm v' a3) ?_ hen ?_
    · rw [← hty]
      exact hwt n hn t' (by rw [he]; exact a2)
    · intro x hx
      exact hvec c ns hc' n hn x (by rw [hty, hx])
  | @vec c vs hvs ih =>
    intro d t hl ht _ hv
    obtain ⟨ns, hns⟩ := hv c rfl
    cases ht with
    | undef _ _ h _ => exact absurd rfl (h c)
    | vec _ =>
      refine .vec ?_
      intro v hv
      exact ih v hv (hl.inv_vec v hv) (hgU.wt c ns hns) (fun x hx => by cases hx) (fun x hx => by cases hx)

/-- Delta files, read into a default object. -/
theorem aim_default (hgT : T.Good) (hgU : U.Good) (hniU : U.NoStructInit)
    (hvec : ∀ c ns, U.cls c = some ns → ∀ n ∈ ns, ∀ x, n.ty = .vec x → ∃ ns', U.cls x = some ns')
    (hstr : ∀ c ns, U.cls c = some ns → ∀ n ∈ ns, ∀ x, n.ty = .struct x → ∃ ns', U.cls x = some ns')
    (hcomp : Compatible T U)
    (hdef : ∀ c ms ns, T.cls c = some ms → U.cls c = some ns → ∀ m ∈ ms, ∀ n ∈ ns, n.name = m.name → m.ty.isLeaf = true →
      U.memberDflt n = T.memberDflt m)
    (hnew : ∀ c ms ns, T.cls c = some ms → U.cls c = some ns → ∀ n ∈ ns, n.name ∉ ms.map CMember.name → ¬ LostIfMissing k n.ty)
    {Q : MTy → Val → Val → Prop} {ty : MTy} {v : Val} (hv : CTable.WT T false ty v) :
    ∀ {d t : Val}, LeavesD T Q ty d v → (ty.isLeaf = true → t = d ∧ CTable.WT T true ty d) → (ty.isLeaf = false → t = U.dfltTy ty) →
      (∀ x, ty = .enum x → EnumGrows T U x) → (∀ x, ty = .vec x ∨ ty = .struct x → ∃ ns, U.cls x = some ns) →
      Aim T U k (fun ty d t v => t = d ∧ CTable.WT T true ty d ∧ CTable.WT T false ty v ∧ Q ty d v ∧
        ∀ x, ty = .enum x → EnumGrows T U x) ty d t v := by
  induction hv with
  | undef h _ _ _ => cases h
  | @simple ty v h =>
    intro d t hl ht _ he _
    exact .leaf rfl ⟨(ht rfl).1, (ht rfl).2, .simple h, hl.inv_leaf rfl, he⟩
  | @enum n e val i h1 h2 h3 =>
    intro d t hl ht _ he _
    exact .leaf rfl ⟨(ht rfl).1, (ht rfl).2, .enum h1 h2 h3, hl.inv_leaf rfl, he⟩
  | @struct c ms fs hc hn _ ih =>
    intro d t hl _ ht _ hk
    obtain ⟨ds, h1, _, h3⟩ := dflt_struct hgT hc
    obtain ⟨ns, hc'⟩ := hk c (Or.inr rfl)
    obtain ⟨ts, b1, b2, b3⟩ := dflt_struct hgU hc'
    have : t = .struct ts := by rw [ht rfl]; exact b1
    subst this
    refine .struct hc hc' h1 b2 hn (fun m hm n hn he => (hcomp c ms ns hc hc' m hm n hn he).1) ?_ (hnew c ms ns hc hc')
    intro m hm n hn he d' t' v' a1 a2 a3
    obtain ⟨hty, hen⟩ := hcomp c ms ns hc hc' m hm n hn he
    have ht' : U.memberDflt n = t' := by
      have := b3 n hn
      rw [he, a2] at this
      exact (Option.some.inj this).symm
    have hd' : T.memberDflt m = d' := by
      have := h3 m hm
      rw [a1] at this
      exact (Option.some.inj this).symm
    refine ih m hm v' a3 (hl.inv_struct hc h1 m hm d' v' a1 a3) ?_ ?_ hen ?_
    · intro hlf
      exact ⟨by rw [← ht', ← hd']; exact hdef c ms ns hc hc' m hm n hn he hlf, dflt_wt hgT hc h1 hm a1⟩
    · intro hnl
      rw [← ht']
      unfold CTable.memberDflt
      rw [hniU c ns hc' n hn (by rw [hty]; exact hnl), hty]
    · intro x hx
      rcases hx with hx | hx
      · exact hvec c ns hc' n hn x (by rw [hty, hx])
      · exact hstr c ns hc' n hn x (by rw [hty, hx])
  | @vec c vs hvs ih =>
    intro d t hl _ ht _ hk
    obtain ⟨ns, hns⟩ := hk c (Or.inl rfl)
    have : t = .vec [] := ht rfl
    subst this
    refine .vec ?_
    intro v hv
    exact ih v hv (hl.inv_vec v hv) (fun h => by cases h) (fun _ => rfl) (fun x hx => by cases hx)
      (fun x hx => by rcases hx with hx | hx <;> cases hx; exact ⟨ns, hns⟩)

end
end Stfx.Run
