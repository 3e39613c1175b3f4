import Verif.Run.XmlRead
/-
Whatever file is read, the generated XML readers leave an object of the declared type, or their behaviour is undefined.
-/
set_option autoImplicit false
namespace Stfx.Run
open Stfx.Items Stfx.Parser Stfx.Gen Stfx.Lexer

/-- The values `sscanf` makes of text are bit patterns of floating point numbers.  (Proof notion, models no code.) -/
structure Lib.Bits (L : Lib) : Prop where
  float : ∀ s b, L.scanF s = some b → b < 2 ^ 32
  double : ∀ s b, L.scanD s = some b → b < 2 ^ 64

/-- Every enumerator is an `int`.  (Proof notion, models no code.) -/
def CTable.EnumInts (T : CTable) : Prop :=
  ∀ n e val, T.enm n = some (e, val) → ∀ l ∈ e.enums, inSigned 32 (val l.name)

/-! ### Enums can hold their enumerators -/

theorem lt_pow2Above (k : Nat) : (k : Int) < pow2Above k := by
  unfold pow2Above
  split
  · omega
  · have := Nat.lt_log2_self (n := k)
    have h2 : ((2 ^ (Nat.log2 k + 1) : Nat) : Int) = (2 : Int) ^ (Nat.log2 k + 1) := by simp
    omega

theorem foldl_max_le {l : List Nat} {a : Nat} : a ≤ l.foldl max a ∧ ∀ x ∈ l, x ≤ l.foldl max a := by
  induction l generalizing a with
  | nil => exact ⟨Nat.le_refl _, fun x hx => by cases hx⟩
  | cons y l ih =>
    rw [List.foldl_cons]
    have h1 := (ih (a := max a y)).1
    refine ⟨by omega, fun x hx => ?_⟩
    rcases List.mem_cons.1 hx with rfl | hx
    · omega
    · exact (ih (a := max a y)).2 x hx

theorem holds_enumerator {e : EnumS} {val : EnumVals} {l : EnumLine} (hl : l ∈ e.enums) (hi : inSigned 32 (val l.name)) :
    holds e val (val l.name) = true := by
  unfold holds
  split
  · exact decide_eq_true hi
  · generalize hk : ((e.enums.map fun l => val l.name).map fun v => if 0 ≤ v then v.toNat else (-v - 1).toNat).foldl max 0 = k
    dsimp only
    have hmem : (if 0 ≤ val l.name then (val l.name).toNat else (-val l.name - 1).toNat) ≤ k := by
      rw [← hk]
      refine foldl_max_le.2 _ ?_
      rw [List.map_map]
      exact List.mem_map.2 ⟨l, hl, rfl⟩
    have hlt := lt_pow2Above k
    rw [hk]
    by_cases h0 : 0 ≤ val l.name
    · rw [if_pos h0] at hmem
      simp only [h0, decide_true, Bool.true_or, Bool.and_true, decide_eq_true_eq]
      omega
    · rw [if_neg h0] at hmem
      have hany : ((e.enums.map fun l => val l.name).any fun x => decide (x < 0)) = true := by
        rw [List.any_eq_true]
        exact ⟨val l.name, List.mem_map.2 ⟨l, hl, rfl⟩, decide_eq_true (by omega)⟩
      rw [hany]
      simp only [Bool.true_and, Bool.and_eq_true, Bool.or_eq_true, decide_eq_true_eq]
      omega

/-! ### Leaves -/

theorem wrapSigned_range {bits : Nat} (hb : 0 < bits) (i : Int) : inSigned bits (wrapSigned bits i) := by
  obtain ⟨b, rfl⟩ : ∃ b, bits = b + 1 := ⟨bits - 1, by omega⟩
  unfold inSigned wrapSigned
  rw [Nat.add_sub_cancel, Int.pow_succ]
  have hp : (0 : Int) < (2 : Int) ^ b := Int.pow_pos (by decide)
  have h1 := Int.emod_nonneg (i + 2 ^ b) (b := 2 ^ b * 2) (by omega)
  have h2 := Int.emod_lt_of_pos (i + 2 ^ b) (b := 2 ^ b * 2) (by omega)
  omega

theorem wrapUnsigned_range (bits : Nat) (i : Int) : inUnsigned bits (wrapUnsigned bits i) := by
  have hp : (0 : Int) < (2 : Int) ^ bits := Int.pow_pos (by decide)
  exact ⟨Int.emod_nonneg _ (by omega), Int.emod_lt_of_pos _ hp⟩

theorem scanHex_range {s : Str} {i : Int} (h : scanHex s = .val i) : inUnsigned 32 i := by
  unfold scanHex at h
  dsimp only at h
  split at h
  · cases h
  · split at h
    · rename_i hr
      injection h with h
      subst h
      exact hr
    · cases h

theorem toInt_range {s : Str} {i : Int} (h : toInt s = .val i) : inSigned 32 i := by
  unfold toInt at h
  split at h
  · split at h
    · injection h with h
      subst h
      exact wrapSigned_range (by decide) _
    · rename_i hne
      exact absurd h (hne i)
  · split at h
    · cases h
    · rename_i neg m _
      dsimp only at h
      generalize (if neg = true then -(m : Int) else m) = j at h
      split at h
      · rename_i hr
        injection h with h
        subst h
        exact hr
      · cases h

theorem toUnsigned_range {s : Str} {i : Int} (h : toUnsigned s = .val i) : inUnsigned 32 i := by
  unfold toUnsigned at h
  split at h
  · exact scanHex_range h
  · split at h
    · cases h
    · split at h
      · rename_i hr
        injection h with h
        subst h
        split
        · exact wrapUnsigned_range 32 _
        · exact hr
      · cases h

/-- An object of the type; undefined behaviour only if `B`.  (Proof notion, models no code.) -/
def Typed (T : CTable) (u : Bool) (B : Prop) (ty : MTy) (r : R Val) : Prop :=
  (B ∧ r = .ub) ∨ ∃ w, r = .ok w ∧ CTable.WT T u ty w

theorem Typed.only {T : CTable} {u : Bool} {B B' : Prop} {ty : MTy} {r : R Val} (h : Typed T u B ty r) (hB : r = .ub → B') :
    Typed T u B' ty r := by
  rcases h with ⟨_, h⟩ | h
  · exact Or.inl ⟨hB h, h⟩
  · exact Or.inr h

section
variable {T : CTable} {L : Lib} {k : Kind} {prog : List Item} {u : Bool} {B : Prop} {Q : Str → Prop}

theorem scanVal_cases (f : Int → Int) (r : ScanRes) :
    scanVal f r = .ub ∨ scanVal f r = .ok none ∨ ∃ i, r = .val i ∧ scanVal f r = .ok (some (.num (f i))) := by
  cases r with
  | val i => exact Or.inr (Or.inr ⟨i, rfl, rfl⟩)
  | fail => exact Or.inr (Or.inl rfl)
  | ub => exact Or.inl rfl

theorem toBool_cases (s : Str) : (toInt s = .ub ∧ toBool s = .ub) ∨ ∃ o, toBool s = .ok o := by
  unfold toBool
  split
  · exact Or.inr ⟨_, rfl⟩
  · rename_i h; exact Or.inl ⟨h, rfl⟩
  · split
    · exact Or.inr ⟨_, rfl⟩
    · split
      · exact Or.inr ⟨_, rfl⟩
      · exact Or.inr ⟨_, rfl⟩

theorem conv_typed (hL : L.Bits) (hb : 32 ≤ T.longBits) (ty : SimpleTy) (s : Str) :
    conv L ty s = .ub ∨ conv L ty s = .ok none ∨ ∃ v, conv L ty s = .ok (some v) ∧ T.simpleVal ty v = true := by
  have hn : ∀ (f : Int → Int) (r : ScanRes), (∀ i, r = .val i → T.simpleVal ty (.num (f i)) = true) →
      scanVal f r = .ub ∨ scanVal f r = .ok none ∨ ∃ v, scanVal f r = .ok (some v) ∧ T.simpleVal ty v = true := by
    intro f r h
    rcases scanVal_cases f r with h' | h' | ⟨i, h1, h2⟩
    · exact Or.inl h'
    · exact Or.inr (Or.inl h')
    · exact Or.inr (Or.inr ⟨_, h2, h i h1⟩)
  have hs := @inSigned_mono 32 T.longBits hb
  cases ty with
  | bool =>
    rcases toBool_cases s with ⟨_, h⟩ | ⟨o, h⟩
    · exact Or.inl (by simp only [conv, h]; rfl)
    · cases o with
      | none => exact Or.inr (Or.inl (by simp only [conv, h]; rfl))
      | some b => exact Or.inr (Or.inr ⟨.bool b, by simp only [conv, h]; rfl, rfl⟩)
  | int => exact hn _ _ fun i h => decide_eq_true (toInt_range h)
  | unsignedInt => exact hn _ _ fun i h => decide_eq_true (toUnsigned_range h)
  | short => exact hn _ _ fun i h => decide_eq_true (wrapSigned_range (by decide) i)
  | unsignedShort => exact hn _ _ fun i h => decide_eq_true (wrapUnsigned_range 16 i)
  | long => exact hn _ _ fun i h => decide_eq_true (hs (toInt_range h))
  | unsignedLong =>
    refine hn _ _ fun i h => decide_eq_true ?_
    have := toUnsigned_range h
    have hp : (2 : Int) ^ 32 ≤ (2 : Int) ^ T.longBits := by
      have : (2 : Nat) ^ 32 ≤ 2 ^ T.longBits := Nat.pow_le_pow_right (by decide) hb
      exact_mod_cast this
    exact ⟨this.1, Int.lt_of_lt_of_le this.2 hp⟩
  | float =>
    cases h : L.scanF s with
    | none => exact Or.inr (Or.inl (by simp only [conv, h]; rfl))
    | some b => exact Or.inr (Or.inr ⟨.flt b, by simp only [conv, h]; rfl, decide_eq_true (hL.float s b h)⟩)
  | double =>
    cases h : L.scanD s with
    | none => exact Or.inr (Or.inl (by simp only [conv, h]; rfl))
    | some b => exact Or.inr (Or.inr ⟨.dbl b, by simp only [conv, h]; rfl, decide_eq_true (hL.double s b h)⟩)
  | stdString => exact Or.inr (Or.inr ⟨_, rfl, rfl⟩)

theorem assign_typed {ty : SimpleTy} {t : Val} (ht : CTable.WT T u (.simple ty) t) : Typed T u True (.simple ty) (assign ty t none) := by
  unfold assign
  dsimp only
  split
  · exact Or.inl ⟨trivial, rfl⟩
  · exact Or.inr ⟨t, rfl, ht⟩

theorem readSimple_typed (hL : L.Bits) (hb : 32 ≤ T.longBits) {ty : SimpleTy} {t : Val} (ht : CTable.WT T u (.simple ty) t)
    (s : Option Str) : Typed T u True (.simple ty) (readSimple L ty t s) := by
  cases s with
  | none => exact assign_typed ht
  | some s =>
    unfold readSimple
    dsimp only
    rcases conv_typed hL hb ty s with h | h | ⟨v, h, hv⟩
    · rw [h]; exact Or.inl ⟨trivial, rfl⟩
    · rw [h]; exact assign_typed ht
    · rw [h]; exact Or.inr ⟨v, rfl, .simple hv⟩

theorem readEnum_typed (hE : T.EnumInts) {n : Str} {e : EnumS} {val : EnumVals} (hn : T.enm n = some (e, val)) {t : Val}
    (ht : CTable.WT T u (.enum n) t) (s : Option Str) : Typed T u True (.enum n) (readEnum T (some (.enum n)) t s) := by
  cases s with
  | none => exact Or.inr ⟨t, rfl, ht⟩
  | some s =>
    unfold readEnum
    dsimp only
    rw [hn]
    dsimp only
    unfold sToE
    split
    · rename_i x heq
      split at heq
      · rename_i l hl
        injection heq with _ h2
        injection h2 with h2
        subst h2
        have hm := List.mem_of_find?_eq_some hl
        have hi := hE n e val hn l hm
        exact Or.inr ⟨_, rfl, .enum hn hi (holds_enumerator hm hi)⟩
      · split at heq
        · cases heq
        · rename_i i hi
          split at heq
          · rename_i hh
            injection heq with _ h2
            injection h2 with h2
            subst h2
            refine Or.inr ⟨_, rfl, .enum hn ?_ hh⟩
            unfold stoSigned at hi
            split at hi
            · cases hi
            · rename_i neg m _
              dsimp only at hi
              generalize (if neg = true then -(m : Int) else m) = j at hi
              split at hi
              · rename_i hr
                injection hi with hi
                rw [← hi]
                exact hr
              · cases hi
          · cases heq
    · exact Or.inr ⟨t, rfl, ht⟩
    · exact Or.inl ⟨trivial, rfl⟩

/-! ### Objects -/

theorem modifyField_ub {n : Str} {f : Val → R Val} {fs : List (Str × Val)} {v : Val} (hl : fs.lookup n = some v)
    (hf : f v = .ub) : modifyField n f fs = .ub := by
  induction fs with
  | nil => cases hl
  | cons p fs ih =>
    obtain ⟨m, w⟩ := p
    unfold modifyField
    by_cases h : m = n
    · subst h
      rw [if_pos rfl]
      simp only [List.lookup_cons_self, Option.some.injEq] at hl
      subst hl
      rw [hf]
      rfl
    · rw [if_neg h]
      have hb : (n == m) = false := by simpa using fun h' => h h'.symm
      rw [List.lookup_cons, hb] at hl
      rw [ih hl]
      rfl

/-- Statement by statement. -/
theorem foldl_typed {c : Str} {attrs : List (Str × Str)} {kids : List Kid} {all ls : List (Str × MTy)}
    (hall : (all.map Prod.fst).Nodup) (hsub : ∀ p ∈ ls, p ∈ all)
    (hact : ∀ p ∈ ls, ∀ t, CTable.WT T u p.2 t → Typed T u B p.2 (rdAct T L c attrs kids (lineRd k p) t))
    {ts : List (Str × Val)} (hin : ∀ p ∈ all, p.1 ∈ ts.map Prod.fst)
    (hts : ∀ p ∈ all, ∀ v, ts.lookup p.1 = some v → CTable.WT T u p.2 v) :
    (B ∧ (ls.map (lineRd k)).foldlM (rdStep T L c attrs kids) ts = .ub) ∨
    ∃ fs, (ls.map (lineRd k)).foldlM (rdStep T L c attrs kids) ts = .ok fs ∧ fs.map Prod.fst = ts.map Prod.fst ∧
      ∀ p ∈ all, ∀ v, fs.lookup p.1 = some v → CTable.WT T u p.2 v := by
  induction ls generalizing ts with
  | nil => exact Or.inr ⟨ts, rfl, rfl, hts⟩
  | cons p ls ih =>
    rw [List.map_cons, List.foldlM_cons]
    have hp := hsub p List.mem_cons_self
    obtain ⟨t, ht⟩ := lookup_isSome (hin p hp)
    have hstep : rdStep T L c attrs kids ts (lineRd k p) = modifyField p.1 (rdAct T L c attrs kids (lineRd k p)) ts := by
      unfold rdStep
      rw [lineRd_member]
    rw [hstep]
    rcases hact p List.mem_cons_self t (hts p hp t ht) with ⟨hB, h⟩ | ⟨w, h, hw⟩
    · rw [modifyField_ub ht h]
      exact Or.inl ⟨hB, rfl⟩
    · obtain ⟨fs, h1, h2, h3, h4⟩ := modifyField_ok ht h
      rw [h1, R.ok_bind, ← h2]
      refine ih (fun q hq => hsub q (List.mem_cons_of_mem _ hq)) (fun q hq => hact q (List.mem_cons_of_mem _ hq))
        (by rw [h2]; exact hin) ?_
      intro q hq v hv
      by_cases hqp : q.1 = p.1
      · have : q = p := eq_of_fst hall hq hp hqp
        subst this
        rw [h3] at hv
        injection hv with hv
        rw [← hv]
        exact hw
      · rw [h4 q.1 hqp] at hv
        exact hts q hq v hv
where
  eq_of_fst {all : List (Str × MTy)} (h : (all.map Prod.fst).Nodup) {p q : Str × MTy} (hp : p ∈ all) (hq : q ∈ all)
      (he : p.1 = q.1) : p = q := by
    induction all with
    | nil => cases hp
    | cons a all ih =>
      rw [List.map_cons, List.nodup_cons] at h
      rcases List.mem_cons.1 hp with rfl | hp'
      · rcases List.mem_cons.1 hq with rfl | hq'
        · rfl
        · exact absurd (by rw [he]; exact List.mem_map_of_mem hq') h.1
      · rcases List.mem_cons.1 hq with rfl | hq'
        · exact absurd (by rw [← he]; exact List.mem_map_of_mem hp') h.1
        · exact ih h.2 hp' hq'

/-- What else is needed of the classes: enums are declared, and what readers append to vectors are objects.
(Proof notion, models no code.) -/
structure Readable (T : CTable) (u : Bool) : Prop where
  ints : T.EnumInts
  enums : ∀ c ms, T.cls c = some ms → ∀ m ∈ ms, ∀ n, m.ty = .enum n → ∃ e val, T.enm n = some (e, val)
  elems : ∀ c ms, T.cls c = some ms → ∀ m ∈ ms, ∀ n, m.ty = .vec n → CTable.WT T u (.struct n) (T.dflt n)

theorem mapM_typed {α : Type} {ty : MTy} {f : α → R Val} {l : List α} (h : ∀ a ∈ l, Typed T u B ty (f a)) :
    (B ∧ l.mapM f = .ub) ∨ ∃ ws, l.mapM f = .ok ws ∧ ∀ w ∈ ws, CTable.WT T u ty w := by
  induction l with
  | nil => exact Or.inr ⟨[], rfl, fun w hw => by cases hw⟩
  | cons a l ih =>
    rw [mapM_cons]
    rcases h a List.mem_cons_self with ⟨hB, h'⟩ | ⟨w, h', hw⟩
    · rw [h']; exact Or.inl ⟨hB, rfl⟩
    · rw [h', R.ok_bind]
      rcases ih fun b hb => h b (List.mem_cons_of_mem _ hb) with ⟨hB, h2⟩ | ⟨ws, h2, hws⟩
      · rw [h2]; exact Or.inl ⟨hB, rfl⟩
      · rw [h2]
        refine Or.inr ⟨w :: ws, rfl, ?_⟩
        intro w' hw'
        rcases List.mem_cons.1 hw' with rfl | hw'
        · exact hw
        · exact hws w' hw'

mutual
/-- All attribute values and texts of a node.  (Proof notion, models no code.) -/
def texts : Node → List Str
  | .elem _ as ks => as.map Prod.snd ++ textsL ks
  | .text s => [s]
  | .comment => []
  | .misc => []
/-- See the definition before it.  (Proof notion, models no code.) -/
def textsL : List Node → List Str
  | [] => []
  | k :: ks => texts k ++ textsL ks
end

theorem texts_kid {ks : List Node} {el : Node} (h : el ∈ ks) {s : Str} (hs : s ∈ texts el) : s ∈ textsL ks := by
  induction ks with
  | nil => cases h
  | cons k ks ih =>
    rw [textsL, List.mem_append]
    rcases List.mem_cons.1 h with rfl | h
    · exact Or.inl hs
    · exact Or.inr (ih h)

theorem kids_texts {el : Node} {s : Str} (h : s ∈ textsL el.kids) : s ∈ texts el := by
  cases el with
  | elem n as ks => rw [texts, List.mem_append]; exact Or.inr h
  | text => cases h
  | comment => cases h
  | misc => cases h

theorem getText_mem {ks : List Node} {s : Str} (h : getText ks = some s) : s ∈ textsL ks := by
  induction ks with
  | nil => cases h
  | cons k ks ih =>
    rw [textsL, List.mem_append]
    cases k with
    | elem => cases h
    | misc => cases h
    | comment => exact Or.inr (ih h)
    | text t =>
      injection h with h
      subst h
      exact Or.inl List.mem_cons_self

theorem leafElText_mem {ty : MTy} {ks : List Node} {s : Str} (h : leafElText ty ks = some s) : s ∈ textsL ks := by
  have hq : queryText ks = some s → s ∈ textsL ks := by
    intro h
    cases ks with
    | nil => cases h
    | cons k ks =>
      cases k with
      | text t =>
        injection h with h
        subst h
        rw [textsL]
        exact List.mem_append_left _ List.mem_cons_self
      | elem => cases h
      | comment => cases h
      | misc => cases h
  unfold leafElText at h
  split at h
  · exact getText_mem h
  · exact hq h
  · exact getText_mem h

theorem attr_mem {as : List (Str × Str)} {n s : Str} (h : as.lookup n = some s) : s ∈ as.map Prod.snd := by
  induction as with
  | nil => cases h
  | cons p as ih =>
    obtain ⟨m, t⟩ := p
    by_cases hm : n = m
    · subst hm
      simp only [List.lookup_cons_self, Option.some.injEq] at h
      subst h
      exact List.mem_cons_self
    · have hb : (n == m) = false := by simpa using hm
      rw [List.lookup_cons, hb] at h
      exact List.mem_cons_of_mem _ (ih h)

/-- Reading simple and enum members from the texts `Q`, or from missing ones, is undefined behaviour only if `B`.
(Proof notion, models no code.) -/
def UbOnly (T : CTable) (L : Lib) (Q : Str → Prop) (B : Prop) : Prop :=
  ∀ c ms, T.cls c = some ms → ∀ m ∈ ms, ∀ s, (∀ s', s = some s' → Q s') → ∀ t, readLeaf T L m.ty t s = .ub → B

theorem memberRead_typed (hc : RdCode T prog k) (hL : L.Bits) (hR : Readable T u) (hQ : UbOnly T L Q B) {c : Str} {ms : List CMember}
    (hcls : T.cls c = some ms) {m : CMember} (hm : m ∈ ms) {as : List (Str × Str)} {ks : List Node}
    (hks : ∀ s ∈ as.map Prod.snd ++ textsL ks, Q s) (ih : ∀ el ∈ ks, ∀ x, x = el ∨ x ∈ el.kids → x.isElem = true → ∀ c' t', CTable.WT T u (.struct c') t' →
      Typed T u B (.struct c') ((rdNode T L prog x).rd c' t'))
    {t : Val} (ht : CTable.WT T u m.ty t) : Typed T u B m.ty (memberRead T L prog k c as ks m t) := by
  have hleaf : m.ty.isLeaf = true → ∀ s, (∀ s', s = some s' → Q s') → Typed T u B m.ty (readLeaf T L m.ty t s) := by
    intro hl s hs
    refine Typed.only (B := True) ?_ (hQ c ms hcls m hm s hs t)
    cases hty : m.ty with
    | simple ty =>
      rw [hty] at ht
      exact readSimple_typed hL hc.good.bits ht s
    | enum n =>
      rw [hty] at ht
      obtain ⟨e, val, he⟩ := hR.enums c ms hcls m hm n hty
      exact readEnum_typed hR.ints he ht s
    | struct n => rw [hty] at hl; cases hl
    | vec n => rw [hty] at hl; cases hl
  cases hl : m.ty.isLeaf with
  | true =>
    rcases hc.kind with rfl | rfl
    · rw [memberRead_elem hcls hc.good hm hl]
      split
      · exact Or.inr ⟨t, rfl, ht⟩
      · rename_i el hel
        exact hleaf hl _ fun s hs => hks s (List.mem_append_right _ (texts_kid (List.mem_of_find?_eq_some hel)
          (kids_texts (leafElText_mem hs))))
    · rw [memberRead_attr hcls hc.good hm hl]
      exact hleaf hl _ fun s hs => hks s (List.mem_append_left _ (attr_mem hs))
  | false =>
    cases hty : m.ty with
    | simple ty => rw [hty] at hl; cases hl
    | enum n => rw [hty] at hl; cases hl
    | struct n =>
      rw [memberRead_struct hty]
      rw [hty] at ht
      split
      · exact Or.inr ⟨t, rfl, ht⟩
      · rename_i el hel
        obtain ⟨as', ks', rfl⟩ := first_named hel
        exact ih _ (List.mem_of_find?_eq_some hel) _ (Or.inl rfl) rfl n t ht
    | vec n =>
      rw [hty] at ht
      cases ht with
      | undef _ _ h _ => exact absurd rfl (h n)
      | vec hvs =>
        rw [memberRead_vec hty]
        split
        · exact Or.inr ⟨_, rfl, .vec hvs⟩
        · rename_i el hel
          have hmem := List.mem_of_find?_eq_some hel
          rcases mapM_typed (T := T) (u := u) (B := B) (ty := .struct n) (f := fun k => (rdNode T L prog k).rd n (T.dflt n))
            (l := el.kids.filter Node.isElem) (fun x hx => by
              obtain ⟨h1, h2⟩ := List.mem_filter.1 hx
              exact ih el hmem x (Or.inr h1) h2 n _ (hR.elems c ms hcls m hm n hty)) with ⟨hB, h⟩ | ⟨ws, h, hws⟩
          · rw [h]; exact Or.inl ⟨hB, rfl⟩
          · rw [h]
            refine Or.inr ⟨_, rfl, .vec ?_⟩
            intro v hv
            rcases List.mem_append.1 hv with hv | hv
            · exact hvs v hv
            · exact hws v hv

theorem rd_typed (hc : RdCode T prog k) (hL : L.Bits) (hR : Readable T u) (hQ : UbOnly T L Q B) :
    ∀ (N : Nat) (x : Node), sizeOf x < N → x.isElem = true → (∀ s ∈ texts x, Q s) → ∀ c t, CTable.WT T u (.struct c) t →
      Typed T u B (.struct c) ((rdNode T L prog x).rd c t) := by
  intro N
  induction N with
  | zero => intro x hx; omega
  | succ N ih =>
    intro x hx hel hxQ c t ht
    cases x with
    | text => cases hel
    | comment => cases hel
    | misc => cases hel
    | elem nm as ks =>
      obtain ⟨ms, ts, rfl, hcls, hnames, hts⟩ := wt_struct ht
      obtain ⟨ls, hp, hr, hlnd, hln⟩ := hc.names hcls
      have hih : ∀ el ∈ ks, ∀ x, x = el ∨ x ∈ el.kids → x.isElem = true → ∀ c' t', CTable.WT T u (.struct c') t' →
          Typed T u B (.struct c') ((rdNode T L prog x).rd c' t') := by
        intro el hel' x hxe hxe'
        refine ih x ?_ hxe' ?_
        rotate_left
        · intro s hs
          refine hxQ s ?_
          rw [texts, List.mem_append]
          refine Or.inr (texts_kid hel' ?_)
          rcases hxe with rfl | hxe
          · exact hs
          · exact kids_texts (texts_kid hxe hs)
        have h1 := List.sizeOf_lt_of_mem hel'
        simp only [Node.elem.sizeOf_spec] at hx
        rcases hxe with rfl | hxe
        · omega
        · cases el with
          | text => cases hxe
          | comment => cases hxe
          | misc => cases hxe
          | elem nm' as' ks' =>
            have h2 := List.sizeOf_lt_of_mem (show x ∈ ks' from hxe)
            simp only [Node.elem.sizeOf_spec] at h1
            omega
      have hmem : ∀ p ∈ ls, ∃ m ∈ ms, p = (m.name, m.ty) := by
        intro p hpm
        obtain ⟨m, hm, rfl⟩ := List.mem_map.1 (hp.mem_iff.1 hpm)
        exact ⟨m, hm, rfl⟩
      rw [rdNode_elem]
      dsimp only
      unfold runRd
      rw [hr]
      dsimp only
      rcases foldl_typed (T := T) (L := L) (u := u) (B := B) (k := k) (c := c) (attrs := as) (kids := ks.map (rdNode T L prog)) (ts := ts)
        hlnd (fun _ h => h) (fun p hpm t ht => by
          obtain ⟨m, hm, rfl⟩ := hmem p hpm
          exact memberRead_typed hc hL hR hQ hcls hm (by rw [texts] at hxQ; exact hxQ) hih ht) (fun p hpm => by
          obtain ⟨m, hm, rfl⟩ := hmem p hpm
          rw [hnames]
          exact List.mem_map_of_mem hm) (fun p hpm v hv => by
          obtain ⟨m, hm, rfl⟩ := hmem p hpm
          exact hts m hm v hv) with ⟨hB, h⟩ | ⟨fs, h1, h2, h3⟩
      · rw [h]; exact Or.inl ⟨hB, rfl⟩
      · rw [h1]
        refine Or.inr ⟨_, rfl, .struct hcls (h2.trans hnames) ?_⟩
        intro m hm v hv
        exact h3 (m.name, m.ty) (hp.mem_iff.2 (List.mem_map.2 ⟨m, hm, rfl⟩)) v hv

/-- The texts of a document.  (Proof notion, models no code.) -/
def Doc.texts : Doc → List Str
  | .error => []
  | .ok ks => textsL ks

/-- `LoadFile` succeeds.  (Proof notion, models no code.) -/
def Doc.loads : Doc → Bool
  | .error => false
  | .ok _ => true

/-- The document has no root element.  (Proof notion, models no code.) -/
def Doc.rootless : Doc → Bool
  | .error => false
  | .ok ks => !ks.any Node.isElem

/-- Reading a file: an object of the type; undefined behaviour only if `B`. -/
theorem readFile_typed (hc : RdCode T prog k) (hL : L.Bits) (hR : Readable T u) (hQ : UbOnly T L Q B) {n : Str}
    (hn : hasReadFile prog n = true) {t : Val} (ht : CTable.WT T u (.struct n) t) (d : Doc) (hd : ∀ s ∈ d.texts, Q s)
    (hroot : d.rootless = true → B) :
    (B ∧ readFile T L prog n d t = .ub) ∨
      ∃ w, readFile T L prog n d t = .ok (d.loads, w) ∧ CTable.WT T u (.struct n) w ∧ (d.loads = false → w = t) := by
  unfold readFile
  rw [if_pos hn]
  cases d with
  | error => exact Or.inr ⟨_, rfl, ht, fun _ => rfl⟩
  | ok ks =>
    dsimp only
    cases hr : ks.find? Node.isElem with
    | some root =>
      dsimp only
      rcases rd_typed hc hL hR hQ _ root (Nat.lt_succ_self _) (by have := List.find?_some hr; simpa using this)
        (fun s hs => hd s (texts_kid (List.mem_of_find?_eq_some hr) hs)) n t ht with ⟨hB, h⟩ | ⟨w, h, hw⟩
      · rw [h]; exact Or.inl ⟨hB, rfl⟩
      · rw [h]; exact Or.inr ⟨_, rfl, hw, fun h => by cases h⟩
    | none =>
      obtain ⟨ms, _, _, hcls, _⟩ := wt_struct ht
      obtain ⟨ls, _, hb, _⟩ := hc.names hcls
      dsimp only
      rw [hb]
      dsimp only
      split
      · exact Or.inr ⟨_, rfl, ht, fun h => by cases h⟩
      · refine Or.inl ⟨hroot ?_, rfl⟩
        simp only [Doc.rootless, Bool.not_eq_true', List.any_eq_false]
        intro x hx
        exact List.find?_eq_none.1 hr x hx

end

section
variable {fs : List (Str × Header)} {k : Kind} {out : OutSpec} {prog : List Item} {T : CTable}

/-- Members of an enum type: the enum is declared, or generation would not have succeeded. -/
theorem Generated.enumDeclared (h : Generated fs k out prog) (hT : Compiled (fs.flatMap fun f => f.2.decls) T) {c : Str}
    {cs : List CMember} (hc : T.cls c = some cs) {m : CMember} (hm : m ∈ cs) {n : Str} (hn : m.ty = .enum n) :
    ∃ e val, T.enm n = some (e, val) := by
  obtain ⟨i, i', _, _, _, _, _, h2, h3, h4, h5⟩ := h.tables
  obtain ⟨m0, ms, hd⟩ := hT.clsOnly c cs hc
  obtain ⟨cs', h6, h7⟩ := hT.cls c m0 ms hd
  rw [hc] at h6
  cases h6
  have : (m.name, m.ty, m.init.isSome) ∈ (m0 :: ms).map fun m => (m.name, memberType (fs.flatMap fun f => f.2.decls) m, m.hasInit) := by
    rw [← h7]
    exact List.mem_map.2 ⟨m, hm, rfl⟩
  obtain ⟨p, hp, he⟩ := List.mem_map.1 this
  simp only [Prod.mk.injEq] at he
  cases p with
  | simple => rw [hn] at he; cases he.2.1
  | vector => rw [hn] at he; cases he.2.1
  | named ty v d =>
    rw [hn] at he
    have hty := he.2.1
    simp only [memberType] at hty
    split at hty
    · cases hty
    · rename_i hns
      injection hty with hty
      subst hty
      have := (C16_first_run h2 (i := i) (i' := i') rfl h3 rfl).2.1 rfl c _ ⟨.enumOrStruct, ty, v⟩
        ((h4 c _).2 ⟨m0, ms, hd, rfl⟩) (List.mem_filterMap.2 ⟨_, hp, rfl⟩) (by simp)
      rcases this with hs | hs
      · obtain ⟨s, hs⟩ := mem_keys.1 hs
        obtain ⟨a, b, hd', _⟩ := (h4 ty s).1 hs
        exact absurd (any_isStruct.2 ⟨a, b, hd'⟩) hns
      · obtain ⟨e, he⟩ := mem_keys.1 hs
        obtain ⟨cl, x, xs, t, hd', _⟩ := (h5 ty e).1 he
        obtain ⟨val, hv⟩ := hT.enm cl ty x xs t hd'
        exact ⟨_, _, hv⟩

/-- Elements of vectors are declared structs. -/
theorem Compiled.elems {ds : List Decl} (hT : Compiled ds T) {c : Str} {cs : List CMember} (hc : T.cls c = some cs) {m : CMember}
    (hm : m ∈ cs) {n : Str} (hn : m.ty = .vec n) : ∃ ms, T.cls n = some ms := by
  obtain ⟨m0, ms, hd⟩ := hT.clsOnly c cs hc
  obtain ⟨cs', h6, h7⟩ := hT.cls c m0 ms hd
  rw [hc] at h6
  cases h6
  have : (m.name, m.ty, m.init.isSome) ∈ (m0 :: ms).map fun m => (m.name, memberType ds m, m.hasInit) := by
    rw [← h7]
    exact List.mem_map.2 ⟨m, hm, rfl⟩
  obtain ⟨p, hp, he⟩ := List.mem_map.1 this
  simp only [Prod.mk.injEq] at he
  rw [hn] at he
  cases p with
  | simple => cases he.2.1
  | named ty v d => have := he.2.1; simp only [memberType] at this; split at this <;> cases this
  | vector el v =>
    injection he.2.1 with hel
    subst hel
    obtain ⟨a, b, hd'⟩ := any_isStruct.1 (hT.vecs c m0 ms hd el v hp)
    obtain ⟨cs', h, _⟩ := hT.cls el a b hd'
    exact ⟨cs', h⟩

/-- All members of all default objects are initialised, or may be indeterminate (`u`).  (Proof notion, models no code.) -/
def CTable.Defined (T : CTable) (u : Bool) : Prop := ∀ c ms, T.cls c = some ms → CTable.WT T u (.struct c) (T.dflt c)

theorem Generated.readable (h : Generated fs k out prog) (hT : Compiled (fs.flatMap fun f => f.2.decls) T) (hE : T.EnumInts)
    {u : Bool} (hu : T.Defined u) : Readable T u where
  ints := hE
  enums _ _ hc _ hm _ hn := h.enumDeclared hT hc hm hn
  elems _ _ hc _ hm _ hn := by
    obtain ⟨ms, hms⟩ := hT.elems hc hm hn
    exact hu _ _ hms

end
end Stfx.Run
