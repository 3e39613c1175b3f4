import Verif.Run.IniMeans
/-
What the generated n_ini readers make of any file: the objects and the return values.
-/
set_option autoImplicit false
namespace Stfx.Run
open Stfx.Items Stfx.Parser Stfx.Gen Stfx.Lexer

/-! ### Members -/

/-- What a text means for an enum member that holds `t`: the name of an enumerator, else a number that the type can hold; other
texts leave the member alone.  (Proof notion, models no code.) -/
def EnumReads (T : CTable) (n : Str) (s : Str) (t w : Val) : Prop :=
  ∃ e val, T.enm n = some (e, val) ∧
    (((∃ l ∈ e.enums, l.name = s) ∧ w = .num (val s)) ∨
      ((∀ l ∈ e.enums, l.name ≠ s) ∧
        ((∃ i, Number s i ∧ inSigned 32 i ∧ holds e val i = true ∧ w = .num i) ∨
          ((∀ i, Number s i → ¬ inSigned 32 i) ∧ w = t))))

/-- The text is a number that the enum type can not hold.  (Proof notion, models no code.) -/
def EnumBreaks (T : CTable) (n : Str) (s : Str) : Prop :=
  ∃ e val, T.enm n = some (e, val) ∧ (∀ l ∈ e.enums, l.name ≠ s) ∧ ∃ i, Number s i ∧ inSigned 32 i ∧ holds e val i = false

/-- `w` is what a simple or enum member that holds `t` holds after reading `o`, the text of its item (if there is one).
(Proof notion, models no code.) -/
def After (T : CTable) (L : IniLib) (ty : MTy) (o : Option Str) (t w : Val) : Prop :=
  match o with
  | none => w = t
  | some s =>
    match ty with
    | .simple ty => Reads T L ty s w
    | .enum n => EnumReads T n s t w
    | .struct _ => False
    | .vec _ => False

/-- The text can not be converted.  (Proof notion, models no code.) -/
def Refused (T : CTable) (L : IniLib) (ty : MTy) (o : Option Str) : Prop :=
  ∃ ty' s, ty = .simple ty' ∧ o = some s ∧ ∀ v, ¬ Reads T L ty' s v

theorem sToE_cases (e : EnumS) (val : EnumVals) (s : Str) :
    ((∃ l ∈ e.enums, l.name = s) ∧ sToE e val s = .ok true (some (val s))) ∨
    ((∀ l ∈ e.enums, l.name ≠ s) ∧
      ((∃ i, Number s i ∧ inSigned 32 i ∧ ((holds e val i = true ∧ sToE e val s = .ok false (some i)) ∨
          (holds e val i = false ∧ sToE e val s = .ub))) ∨
        ((∀ i, Number s i → ¬ inSigned 32 i) ∧ sToE e val s = .ok false none))) := by
  unfold sToE
  cases hf : e.enums.find? fun l => l.name = s with
  | some l =>
    have h1 := List.mem_of_find?_eq_some hf
    have h2 : l.name = s := by have := List.find?_some hf; simpa using this
    exact Or.inl ⟨⟨l, h1, h2⟩, by dsimp only; rw [h2]⟩
  | none =>
    refine Or.inr ⟨?_, ?_⟩
    · intro l hl he
      have := List.find?_eq_none.1 hf l hl
      simp [he] at this
    · dsimp only
      cases hs : stoSigned 32 s with
      | throws =>
        refine Or.inr ⟨?_, rfl⟩
        intro i hi hr
        rw [stoSigned_val.2 ⟨hi, hr⟩] at hs
        cases hs
      | val i =>
        obtain ⟨h1, h2⟩ := stoSigned_val.1 hs
        refine Or.inl ⟨i, h1, h2, ?_⟩
        dsimp only
        cases hh : holds e val i with
        | true => exact Or.inl ⟨rfl, rfl⟩
        | false => exact Or.inr ⟨rfl, rfl⟩

/-- Values of enum members. -/
theorem EnumReads.typed {T : CTable} {u : Bool} (hE : T.EnumInts) {n s : Str} {t w : Val} (h : EnumReads T n s t w)
    (ht : CTable.WT T u (.enum n) t) : CTable.WT T u (.enum n) w := by
  obtain ⟨e, val, he, h⟩ := h
  rcases h with ⟨⟨l, hl, rfl⟩, rfl⟩ | ⟨_, ⟨i, _, h1, h2, rfl⟩ | ⟨_, rfl⟩⟩
  · exact .enum he (hE n e val he l hl) (holds_enumerator hl (hE n e val he l hl))
  · exact .enum he h1 h2
  · exact ht

theorem After.typed {T : CTable} {L : IniLib} {u : Bool} (hL : L.Bits) (hE : T.EnumInts) {ty : MTy} {o : Option Str} {t w : Val}
    (h : After T L ty o t w) (ht : CTable.WT T u ty t) : CTable.WT T u ty w := by
  cases o with
  | none => cases h; exact ht
  | some s =>
    cases ty with
    | simple ty => exact .simple (Reads.typed hL h)
    | enum n => exact EnumReads.typed hE h ht
    | struct n => exact h.elim
    | vec n => exact h.elim

section
variable {T : CTable} {L : IniLib} {prog : List Item} {u : Bool} {B : Prop}

/-- The conversions for a simple or enum member. -/
theorem leafConv_cases (hb : 32 ≤ T.longBits) {ty : MTy} (hl : ty.isLeaf = true)
    (he : ∀ n, ty = .enum n → ∃ e val, T.enm n = some (e, val)) (s : Str) (t : Val) :
    (∃ w, iniLeafConv T L ty s = .val w ∧ After T L ty (some s) t w) ∨
    (iniLeafConv T L ty s = .keep ∧ After T L ty (some s) t t) ∨
    (iniLeafConv T L ty s = .throws ∧ Refused T L ty (some s)) ∨
    (iniLeafConv T L ty s = .ub ∧ ∃ n, ty = .enum n ∧ EnumBreaks T n s) := by
  cases ty with
  | struct => cases hl
  | vec => cases hl
  | simple ty =>
    rcases iniConv_cases T L ty s with ⟨v, hv⟩ | h
    · exact Or.inl ⟨v, hv, (iniConv_reads hb ty s v).1 hv⟩
    · exact Or.inr (Or.inr (Or.inl ⟨h, ty, s, rfl, rfl, (iniConv_throws hb ty s).1 h⟩))
  | enum n =>
    obtain ⟨e, val, hn⟩ := he n rfl
    have hc : iniLeafConv T L (.enum n) s = match sToE e val s with
        | .ok _ (some x) => .val (.num x)
        | .ok _ none => .keep
        | .ub => .ub := by
      simp only [iniLeafConv, iniEnum, hn]
      cases sToE e val s with
      | ub => rfl
      | ok _ x => cases x <;> rfl
    rcases sToE_cases e val s with ⟨h1, h2⟩ | ⟨h0, ⟨i, h1, h2, h3⟩ | ⟨h1, h2⟩⟩
    · exact Or.inl ⟨_, by rw [hc, h2], e, val, hn, Or.inl ⟨h1, rfl⟩⟩
    · rcases h3 with ⟨h3, h4⟩ | ⟨h3, h4⟩
      · exact Or.inl ⟨_, by rw [hc, h4], e, val, hn, Or.inr ⟨h0, Or.inl ⟨i, h1, h2, h3, rfl⟩⟩⟩
      · exact Or.inr (Or.inr (Or.inr ⟨by rw [hc, h4], n, rfl, e, val, hn, h0, i, h1, h2, h3⟩))
    · exact Or.inr (Or.inl ⟨by rw [hc, h2], e, val, hn, Or.inr ⟨h0, Or.inr ⟨h1, rfl⟩⟩⟩)

/-- The look-ups on any items: all members get what their items say, or one has a bad value and the ones after it are left
alone. -/
theorem runLooks_spec (hb : 32 ≤ T.longBits) {c : Str} {items : Items} {ps : List Line} (hnd : (ps.map Prod.fst).Nodup)
    {ts : List (Str × Val)}
    (h : ∀ p ∈ ps, p.2.isLeaf = true ∧ memberTy T c p.1 = some p.2 ∧ (∀ n, p.2 = .enum n → ∃ e val, T.enm n = some (e, val)) ∧
      p.1 ∈ ts.map Prod.fst)
    (hB : ∀ p ∈ ps, ∀ n s, p.2 = .enum n → items.lookup p.1 = some s → EnumBreaks T n s → B) :
    (B ∧ runLooks T L c items (ps.filterMap lineLook) ts = .ub) ∨
    (∃ fs, runLooks T L c items (ps.filterMap lineLook) ts = .ok (true, fs) ∧ fs.map Prod.fst = ts.map Prod.fst ∧
      (∀ p ∈ ps, ∀ t w, ts.lookup p.1 = some t → fs.lookup p.1 = some w → After T L p.2 (items.lookup p.1) t w) ∧
      ∀ n, n ∉ ps.map Prod.fst → fs.lookup n = ts.lookup n) ∨
    (∃ fs pre q post, ps = pre ++ q :: post ∧ runLooks T L c items (ps.filterMap lineLook) ts = .ok (false, fs) ∧
      fs.map Prod.fst = ts.map Prod.fst ∧ Refused T L q.2 (items.lookup q.1) ∧
      (∀ p ∈ pre, ∀ t w, ts.lookup p.1 = some t → fs.lookup p.1 = some w → After T L p.2 (items.lookup p.1) t w) ∧
      ∀ n, n ∉ pre.map Prod.fst → fs.lookup n = ts.lookup n) := by
  induction ps generalizing ts with
  | nil => exact Or.inr (Or.inl ⟨ts, rfl, rfl, by simp, fun _ _ => rfl⟩)
  | cons p ps ih =>
    rw [List.map_cons, List.nodup_cons] at hnd
    obtain ⟨hl, hm, he, hin⟩ := h p List.mem_cons_self
    obtain ⟨t, ht⟩ := lookup_isSome hin
    have hlook : ∃ l, lineLook p = some l ∧ l.member = p.1 ∧ ∀ s, lookConv T L c l s = iniLeafConv T L p.2 s := by
      obtain ⟨n, ty⟩ := p
      cases ty with
      | struct => cases hl
      | vec => cases hl
      | simple ty => exact ⟨_, rfl, rfl, fun s => rfl⟩
      | enum e => exact ⟨_, rfl, rfl, fun s => by simp only [lookConv, iniLeafConv]; rw [hm]⟩
    obtain ⟨l, hl1, hl2, hl3⟩ := hlook
    rw [List.filterMap_cons_some hl1]
    have hstep : (B ∧ runLooks T L c items (l :: ps.filterMap lineLook) ts = .ub) ∨
        (runLooks T L c items (l :: ps.filterMap lineLook) ts = .ok (false, ts) ∧ Refused T L p.2 (items.lookup p.1)) ∨
        ∃ ts1 w, runLooks T L c items (l :: ps.filterMap lineLook) ts = runLooks T L c items (ps.filterMap lineLook) ts1 ∧
          ts1.map Prod.fst = ts.map Prod.fst ∧ ts1.lookup p.1 = some w ∧ After T L p.2 (items.lookup p.1) t w ∧
          ∀ n, n ≠ p.1 → ts1.lookup n = ts.lookup n := by
      rw [runLooks, hl2]
      cases hi : items.lookup p.1 with
      | none => exact Or.inr (Or.inr ⟨ts, t, rfl, rfl, ht, rfl, fun _ _ => rfl⟩)
      | some s =>
        simp only [hl3]
        rcases leafConv_cases (L := L) hb hl he s t with ⟨w, h1, h2⟩ | ⟨h1, h2⟩ | ⟨h1, h2⟩ | ⟨h1, n, h2, h3⟩
        · rw [h1]
          obtain ⟨fs', a1, a2, a3, a4⟩ := modifyField_ok (f := fun _ => .ok w) ht rfl
          exact Or.inr (Or.inr ⟨fs', w, by simp only [a1, R.ok_bind], a2, a3, h2, a4⟩)
        · rw [h1]
          exact Or.inr (Or.inr ⟨ts, t, rfl, rfl, ht, h2, fun _ _ => rfl⟩)
        · rw [h1]
          exact Or.inr (Or.inl ⟨rfl, h2⟩)
        · rw [h1]
          exact Or.inl ⟨hB p List.mem_cons_self n s h2 hi h3, rfl⟩
    rcases hstep with h' | ⟨h1, h2⟩ | ⟨ts1, w, e, b1, b2, b3, b4⟩
    · exact Or.inl h'
    · exact Or.inr (Or.inr ⟨ts, [], p, ps, rfl, h1, rfl, h2, by simp, fun _ _ => rfl⟩)
    rw [e]
    have hfresh : ∀ p' ∈ ps, p'.1 ≠ p.1 := fun p' hp' he => hnd.1 (by rw [← he]; exact List.mem_map_of_mem hp')
    rcases ih hnd.2 (ts := ts1) (fun p' hp' => by
        obtain ⟨x1, x2, x3, x4⟩ := h p' (List.mem_cons_of_mem _ hp')
        exact ⟨x1, x2, x3, by rw [b1]; exact x4⟩) (fun p' hp' => hB p' (List.mem_cons_of_mem _ hp')) with
      h' | ⟨fs, d1, d2, d3, d4⟩ | ⟨fs, pre, q, post, rfl, d1, d2, d0, d3, d4⟩
    · exact Or.inl h'
    · refine Or.inr (Or.inl ⟨fs, d1, d2.trans b1, ?_, ?_⟩)
      · intro p' hp' t' w' ht' hw'
        rcases List.mem_cons.1 hp' with rfl | hp'
        · rw [d4 _ hnd.1, b2] at hw'
          rw [ht] at ht'
          cases hw'
          cases ht'
          exact b3
        · exact d3 p' hp' t' w' (by rw [b4 _ (hfresh p' hp')]; exact ht') hw'
      · intro n hn
        rw [List.map_cons, List.mem_cons, not_or] at hn
        rw [d4 n hn.2, b4 n hn.1]
    · refine Or.inr (Or.inr ⟨fs, p :: pre, q, post, rfl, d1, d2.trans b1, d0, ?_, ?_⟩)
      · have hpre : ∀ p' ∈ pre, p' ∈ pre ++ q :: post := fun p' hp' => List.mem_append_left _ hp'
        intro p' hp' t' w' ht' hw'
        rcases List.mem_cons.1 hp' with rfl | hp'
        · rw [d4 _ (fun hx => by
            obtain ⟨p2, hp2, he⟩ := List.mem_map.1 hx
            exact hfresh p2 (hpre p2 hp2) he), b2] at hw'
          rw [ht] at ht'
          cases hw'
          cases ht'
          exact b3
        · exact d3 p' hp' t' w' (by rw [b4 _ (hfresh p' (hpre p' hp'))]; exact ht') hw'
      · intro n hn
        rw [List.map_cons, List.mem_cons, not_or] at hn
        rw [d4 n hn.2, b4 n hn.1]

/-- The result for the last one of some members.  (Proof notion, models no code.) -/
def lastFlag (flags : Str → Bool) (qs : List Line) (rv : Bool) : Bool :=
  match qs.getLast? with
  | some q => flags q.1
  | none => rv

/-- The struct members: the return value is the one for the last of them. -/
theorem runKids_spec {path : Str} {qs : List Line} (hnd : (qs.map Prod.fst).Nodup) {subs : List (Str × (Str → Str → R (Bool × Val)))}
    {ts : List (Str × Val)} {N : Line → Bool → Val → Val → Prop}
    (h : ∀ q ∈ qs, ∃ c f t, q.2 = .struct c ∧ subs.lookup q.1 = some f ∧ ts.lookup q.1 = some t ∧
      ((B ∧ f c (path ++ spaced q.1) = .ub) ∨ ∃ b w, f c (path ++ spaced q.1) = .ok (b, w) ∧ N q b t w)) (rv : Bool) :
    (B ∧ runKids subs path (qs.filterMap lineNRd) rv ts = .ub) ∨
    ∃ fs flags, runKids subs path (qs.filterMap lineNRd) rv ts = .ok (lastFlag flags qs rv, fs) ∧
      fs.map Prod.fst = ts.map Prod.fst ∧
      (∀ q ∈ qs, ∀ t w, ts.lookup q.1 = some t → fs.lookup q.1 = some w → N q (flags q.1) t w) ∧
      ∀ n, n ∉ qs.map Prod.fst → fs.lookup n = ts.lookup n := by
  induction qs generalizing ts rv with
  | nil => exact Or.inr ⟨ts, fun _ => rv, rfl, rfl, by simp, fun _ _ => rfl⟩
  | cons q qs ih =>
    rw [List.map_cons, List.nodup_cons] at hnd
    obtain ⟨c, f, t, h1, h2, ht, h3⟩ := h q List.mem_cons_self
    have hl : lineNRd q = some (.child q.1 c (spaced q.1)) := by
      obtain ⟨n, ty⟩ := q
      simp only at h1
      subst h1
      rfl
    rw [List.filterMap_cons_some hl, runKids]
    simp only [field, h2, R.ok_bind]
    rcases h3 with ⟨hB, h3⟩ | ⟨b, w, h3, hN⟩
    · rw [h3]
      exact Or.inl ⟨hB, rfl⟩
    obtain ⟨ts1, a1, a2, a3, a4⟩ := modifyField_ok (f := fun _ => .ok w) ht rfl
    simp only [h3, R.ok_bind, a1]
    have hfresh : ∀ q' ∈ qs, q'.1 ≠ q.1 := fun q' hq' he => hnd.1 (by rw [← he]; exact List.mem_map_of_mem hq')
    rcases ih hnd.2 (ts := ts1) (fun q' hq' => by
        obtain ⟨c', f', t', x1, x2, x3, x4⟩ := h q' (List.mem_cons_of_mem _ hq')
        exact ⟨c', f', t', x1, x2, by rw [a4 _ (hfresh q' hq'), x3], x4⟩) b with h' | ⟨fs, flags, d1, d2, d3, d4⟩
    · exact Or.inl h'
    refine Or.inr ⟨fs, fun n => if n = q.1 then b else flags n, ?_, d2.trans a2, ?_, ?_⟩
    · rw [d1]
      congr 2
      unfold lastFlag
      rw [List.getLast?_cons]
      cases hq : qs.getLast? with
      | none => simp
      | some q' => simp [hfresh q' (List.mem_of_getLast? hq)]
    · intro q' hq' t' w' ht' hw'
      rcases List.mem_cons.1 hq' with rfl | hq'
      · rw [d4 _ hnd.1, a3] at hw'
        rw [ht] at ht'
        cases hw'
        cases ht'
        simpa using hN
      · simp only [if_neg (hfresh q' hq')]
        exact d3 q' hq' t' w' (by rw [a4 _ (hfresh q' hq')]; exact ht') hw'
    · intro n hn
      rw [List.map_cons, List.mem_cons, not_or] at hn
      rw [d4 n hn.2, a4 n hn.1]

/-! ### Objects -/

/-- The text of a member in the section of its object.  Structs without members of simple types look for no section.
(Proof notion, models no code.) -/
def memberText (U : List (Str × Items)) (ms : List CMember) (path n : Str) : Option Str :=
  if ms.any (fun m => isSimpleTy m.ty) then (U.lookup path).bind (·.lookup n) else none

/-- What reading makes of an object `t` of struct `c` at a path, from sections `U`, and the return value.

Usually (`all`) simple and enum members become what their items in the section say, and struct members are read likewise; the
return value is the one for the last struct member.  If a value can not be converted (`bad`), simple and enum members before
it - in the order simple members, then enum members - are read, all other members are left alone and the return value is false.
(Proof notion, models no code.) -/
inductive NReads (T : CTable) (L : IniLib) (U : List (Str × Items)) : Str → Str → Val → Bool → Val → Prop
  | all {path c : Str} {ms : List CMember} {ts ws : List (Str × Val)} {flags : Str → Bool} : T.cls c = some ms →
      ts.map Prod.fst = ms.map CMember.name → ws.map Prod.fst = ms.map CMember.name →
      (∀ m ∈ ms, m.ty.isLeaf = true → ∀ t w, ts.lookup m.name = some t → ws.lookup m.name = some w →
        After T L m.ty (memberText U ms path m.name) t w) →
      (∀ m ∈ ms, ∀ n, m.ty = .vec n → ws.lookup m.name = ts.lookup m.name) →
      (∀ m ∈ ms, ∀ c', m.ty = .struct c' → ∀ t w, ts.lookup m.name = some t → ws.lookup m.name = some w →
        NReads T L U (lowerPath path (spaced m.name)) c' t (flags m.name) w) →
      NReads T L U path c (.struct ts) (lastFlag flags (kidLines ms) true) (.struct ws)
  | bad {path c : Str} {ms : List CMember} {ts ws : List (Str × Val)} {pre post : List Line} {m : CMember} : T.cls c = some ms →
      ts.map Prod.fst = ms.map CMember.name → ws.map Prod.fst = ms.map CMember.name → m ∈ ms →
      leafLines ms = pre ++ (m.name, m.ty) :: post → Refused T L m.ty (memberText U ms path m.name) →
      (∀ p ∈ pre, ∀ t w, ts.lookup p.1 = some t → ws.lookup p.1 = some w → After T L p.2 (memberText U ms path p.1) t w) →
      (∀ n, n ∉ pre.map Prod.fst → ws.lookup n = ts.lookup n) →
      NReads T L U path c (.struct ts) false (.struct ws)

theorem looks_leafLines (ms : List CMember) : (ordered ms).filterMap lineLook = (leafLines ms).filterMap lineLook := by
  unfold ordered leafLines
  rw [List.map_append, List.filterMap_append, List.filterMap_append]
  congr 1
  induction ms with
  | nil => rfl
  | cons m ms ih =>
    cases hty : m.ty with
    | simple ty => simp only [List.filter_cons, hty, isSimpleTy, isEnumTy]; exact ih
    | enum n =>
      simp only [List.filter_cons, hty, isSimpleTy, isEnumTy, Bool.not_false, if_true, List.map_cons, List.filterMap_cons, lineLook]
      exact congrArg _ ih
    | struct n => simp only [List.filter_cons, hty, isSimpleTy, isEnumTy, Bool.not_false, if_true, List.map_cons, List.filterMap_cons, lineLook]; exact ih
    | vec n => simp only [List.filter_cons, hty, isSimpleTy, isEnumTy, Bool.not_false, if_true, List.map_cons, List.filterMap_cons, lineLook]; exact ih

theorem kids_kidLines (subs : List (Str × (Str → Str → R (Bool × Val)))) (path : Str) (ms : List CMember) (rv : Bool) (ts : List (Str × Val)) :
    runKids subs path ((ordered ms).filterMap lineNRd) rv ts = runKids subs path ((kidLines ms).filterMap lineNRd) rv ts := by
  have h1 : ((ms.filter fun m => isSimpleTy m.ty).map fun m => ((m.name, m.ty) : Line)).filterMap lineNRd = [] := by
    rw [List.filterMap_eq_nil_iff]
    intro p hp
    obtain ⟨m, hm, rfl⟩ := List.mem_map.1 hp
    have := (List.mem_filter.1 hm).2
    cases hty : m.ty with
    | simple => rfl
    | enum => rw [hty] at this; cases this
    | struct => rw [hty] at this; cases this
    | vec => rw [hty] at this; cases this
  unfold ordered
  rw [List.filterMap_append, h1, List.nil_append]
  unfold kidLines
  clear h1
  induction ms generalizing rv ts with
  | nil => rfl
  | cons m ms ih =>
    cases hty : m.ty with
    | simple ty => simp only [List.filter_cons, hty, isSimpleTy, isStructTy]; exact ih rv ts
    | enum n => simp only [List.filter_cons, hty, isSimpleTy, isStructTy, Bool.not_false, if_true, List.map_cons, List.filterMap_cons, lineNRd]; exact ih rv ts
    | vec n =>
      simp only [List.filter_cons, hty, isSimpleTy, isStructTy, Bool.not_false, if_true, List.map_cons, List.filterMap_cons, lineNRd, runKids]
      exact ih rv ts
    | struct n =>
      simp only [List.filter_cons, hty, isSimpleTy, isStructTy, Bool.not_false, if_true, List.map_cons, List.filterMap_cons, lineNRd, runKids]
      congr 1
      funext f
      congr 1
      funext r
      obtain ⟨b, w⟩ := r
      dsimp only
      congr 1
      funext fs'
      exact ih b fs'

/-- No simple or enum member is named like a variable of the generated function: else the generated code does not compile.
(Proof notion, models no code.) -/
def NoClash (T : CTable) : Prop :=
  ∀ c ms, T.cls c = some ms → ∀ m ∈ ms, m.ty.isLeaf = true → m.name ≠ c!"items" ∧ m.name ≠ c!"data"

/-- Every enum that is the type of a member is declared.  (Proof notion, models no code.) -/
def EnumsKnown (T : CTable) : Prop :=
  ∀ c ms, T.cls c = some ms → ∀ m ∈ ms, ∀ n, m.ty = .enum n → ∃ e val, T.enm n = some (e, val)

theorem mem_leafLines_iff {ms : List CMember} {p : Line} : p ∈ leafLines ms ↔ ∃ m ∈ ms, p = (m.name, m.ty) ∧ m.ty.isLeaf = true := by
  constructor
  · exact mem_leafLines
  · rintro ⟨m, hm, rfl, hl⟩
    exact leaf_mem hm hl

theorem nodup_filter_map {α : Type} {f : α → Str} {l : List α} (p : α → Bool) (h : (l.map f).Nodup) : ((l.filter p).map f).Nodup :=
  h.sublist ((List.filter_sublist (l := l)).map f)

theorem nodup_leafLines {ms : List CMember} (h : (ms.map CMember.name).Nodup) : ((leafLines ms).map Prod.fst).Nodup := by
  have hsub : ((leafLines ms).map Prod.fst).Sublist (((ms.filter fun m => isSimpleTy m.ty) ++ ms.filter fun m => !isSimpleTy m.ty).map CMember.name) := by
    unfold leafLines
    rw [List.map_map]
    refine List.Sublist.map CMember.name ?_
    refine List.Sublist.append (List.Sublist.refl _) ?_
    rw [show (ms.filter fun m => isEnumTy m.ty) = (ms.filter fun m => !isSimpleTy m.ty).filter fun m => isEnumTy m.ty by
      rw [List.filter_filter]
      congr 1
      funext m
      cases m.ty <;> rfl]
    exact List.filter_sublist
  exact ((((filter_perm _ ms).map _).nodup_iff).2 h).sublist hsub

theorem nodup_kidLines {ms : List CMember} (h : (ms.map CMember.name).Nodup) : ((kidLines ms).map Prod.fst).Nodup := by
  unfold kidLines
  rw [List.map_map]
  exact nodup_filter_map _ h

theorem leaf_not_kid {ms : List CMember} (h : (ms.map CMember.name).Nodup) {m : CMember} (hm : m ∈ ms) (hk : isStructTy m.ty = false) :
    m.name ∉ (kidLines ms).map Prod.fst := by
  intro hx
  obtain ⟨q, hq, he⟩ := List.mem_map.1 hx
  obtain ⟨m', hm', rfl, c, hc⟩ := mem_kidLines hq
  have := name_inj h hm' hm he
  subst this
  rw [hc] at hk
  cases hk
where
  name_inj {ms : List CMember} (h : (ms.map CMember.name).Nodup) {m m' : CMember} (hm : m ∈ ms) (hm' : m' ∈ ms)
      (he : m.name = m'.name) : m = m' := by
    induction ms with
    | nil => cases hm
    | cons a ms ih =>
      rw [List.map_cons, List.nodup_cons] at h
      rcases List.mem_cons.1 hm with rfl | hm1
      · rcases List.mem_cons.1 hm' with rfl | hm2
        · rfl
        · exact absurd (by rw [he]; exact List.mem_map_of_mem hm2) h.1
      · rcases List.mem_cons.1 hm' with rfl | hm2
        · exact absurd (by rw [← he]; exact List.mem_map_of_mem hm1) h.1
        · exact ih h.2 hm1 hm2

/-- Reading an object. -/
theorem nrd_spec (hc : NRdCode T prog) (hcl : NoClash T) (hen : EnumsKnown T) {U : List (Str × Items)}
    (hB : ∀ k items n' s n, U.lookup k = some items → items.lookup n' = some s → EnumBreaks T n s → B) {ty : MTy} {t : Val}
    (ht : CTable.WT T u ty t) : ∀ (c path : Str), ty = .struct c →
      (B ∧ nrdVal T L prog U t c path = .ub) ∨ ∃ b w, nrdVal T L prog U t c path = .ok (b, w) ∧ NReads T L U path c t b w := by
  induction ht with
  | undef _ h _ _ => intro c path e; exact absurd e (h c)
  | simple => intro c path e; cases e
  | enum => intro c path e; cases e
  | vec => intro c path e; cases e
  | @struct n ms ts hcls hnames _ ih =>
    intro c path e
    cases e
    have hnd := hc.good.nodup _ ms hcls
    obtain ⟨dot, hbody, hdot⟩ := hc.rd _ ms hcls
    have hlnd := nodup_leafLines hnd
    rw [nrdVal]
    unfold runNRd
    rw [hbody]
    dsimp only
    rw [looks_leafLines]
    simp only [kids_kidLines]
    have hleaf : ∀ p ∈ leafLines ms, p.2.isLeaf = true ∧ memberTy T n p.1 = some p.2 ∧
        (∀ n, p.2 = .enum n → ∃ e val, T.enm n = some (e, val)) ∧ p.1 ∈ ts.map Prod.fst := by
      intro p hp
      obtain ⟨m, hm, rfl, hl⟩ := mem_leafLines hp
      exact ⟨hl, memberTy_of hcls hnd hm, fun n' hn' => hen _ ms hcls m hm n' hn', by rw [hnames]; exact List.mem_map_of_mem hm⟩
    -- the section
    have hsect : (B ∧ runSection T L U n path (if ms.any (fun m => isSimpleTy m.ty) then some ((leafLines ms).filterMap lineLook) else none) ts = .ub) ∨
        (∃ fs, runSection T L U n path (if ms.any (fun m => isSimpleTy m.ty) then some ((leafLines ms).filterMap lineLook) else none) ts = .ok (true, fs) ∧
          fs.map Prod.fst = ts.map Prod.fst ∧
          (∀ p ∈ leafLines ms, ∀ t w, ts.lookup p.1 = some t → fs.lookup p.1 = some w → After T L p.2 (memberText U ms path p.1) t w) ∧
          ∀ n, n ∉ (leafLines ms).map Prod.fst → fs.lookup n = ts.lookup n) ∨
        (∃ fs pre q post, leafLines ms = pre ++ q :: post ∧
          runSection T L U n path (if ms.any (fun m => isSimpleTy m.ty) then some ((leafLines ms).filterMap lineLook) else none) ts = .ok (false, fs) ∧
          fs.map Prod.fst = ts.map Prod.fst ∧ Refused T L q.2 (memberText U ms path q.1) ∧
          (∀ p ∈ pre, ∀ t w, ts.lookup p.1 = some t → fs.lookup p.1 = some w → After T L p.2 (memberText U ms path p.1) t w) ∧
          ∀ n, n ∉ pre.map Prod.fst → fs.lookup n = ts.lookup n) := by
      have hsame : ∀ (o : Str → Option Str), (∀ n, o n = none) → ∀ p ∈ leafLines ms, ∀ t w, ts.lookup p.1 = some t → ts.lookup p.1 = some w →
          After T L p.2 (o p.1) t w := by
        intro o ho p _ t w h1 h2
        rw [h1] at h2
        cases h2
        rw [ho]
        exact rfl
      unfold runSection memberText
      cases ha : ms.any (fun m => isSimpleTy m.ty) with
      | false => exact Or.inr (Or.inl ⟨ts, rfl, rfl, hsame (fun _ => none) (fun _ => rfl), fun _ _ => rfl⟩)
      | true =>
        simp only [if_true]
        have hno : ((leafLines ms).filterMap lineLook).any clash = false := by
          rw [List.any_eq_false]
          intro l hl
          obtain ⟨p, hp, e⟩ := looks_leafs l hl
          obtain ⟨m, hm, rfl, hlf⟩ := mem_leafLines hp
          have := hcl _ ms hcls m hm hlf
          simp [clash, e, this.1, this.2]
        rw [hno]
        simp only [Bool.false_eq_true, if_false]
        cases hU : U.lookup path with
        | none => exact Or.inr (Or.inl ⟨ts, rfl, rfl, hsame (fun _ => none) (fun _ => rfl), fun _ _ => rfl⟩)
        | some items =>
          simp only [Option.bind_some]
          exact runLooks_spec (L := L) hc.good.bits hlnd hleaf (fun p _ n' s _ h1 h2 => hB path items p.1 s n' hU h1 h2)
    rcases hsect with ⟨hBx, h⟩ | ⟨fs1, h, hn1, hal, hkeep⟩ | ⟨fs1, pre, q, post, hsplit, h, hn1, href, hal, hkeep⟩
    · rw [h]
      exact Or.inl ⟨hBx, rfl⟩
    · rw [h]
      simp only [R.ok_bind, if_true]
      have hpath : ∀ q ∈ kidLines ms, (if (dot && decide (path ≠ [])) = true then path ++ c!"." else path) ++ spaced q.1 = lowerPath path (spaced q.1) := by
        intro q hq
        obtain ⟨m, hm, rfl, c', hc'⟩ := mem_kidLines hq
        have : dot = true := hdot (by rw [List.any_eq_true]; exact ⟨m, hm, by rw [hc']; rfl⟩)
        rw [this]
        unfold lowerPath
        by_cases hp : path = [] <;> simp [hp]
      have hkid : ∀ q ∈ kidLines ms, fs1.lookup q.1 = ts.lookup q.1 := by
        intro q hq
        obtain ⟨m, hm, rfl, c', hc'⟩ := mem_kidLines hq
        refine hkeep _ ?_
        intro hx
        obtain ⟨p, hp, he⟩ := List.mem_map.1 hx
        obtain ⟨m', hm', rfl, hl⟩ := mem_leafLines hp
        have := leaf_not_kid.name_inj hnd hm' hm he
        subst this
        rw [hc'] at hl
        cases hl
      rcases runKids_spec (B := B) (path := if (dot && decide (path ≠ [])) = true then path ++ c!"." else path)
        (qs := kidLines ms) (nodup_kidLines hnd) (subs := nrdFields T L prog U ts) (ts := fs1)
        (N := fun q b t w => ∀ c', q.2 = .struct c' → NReads T L U (lowerPath path (spaced q.1)) c' t b w) (by
          intro q hq
          have hk := hkid q hq
          have hpq := hpath q hq
          obtain ⟨m, hm, rfl, c', hc'⟩ := mem_kidLines hq
          obtain ⟨t, ht⟩ := lookup_isSome (fs := ts) (n := m.name) (by rw [hnames]; exact List.mem_map_of_mem hm)
          refine ⟨c', nrdVal T L prog U t, t, hc', by rw [nrdFields_lookup, ht]; rfl, by rw [hk, ht], ?_⟩
          rw [hpq]
          rcases ih m hm t ht c' (lowerPath path (spaced m.name)) hc' with h | ⟨b, w, h1, h2⟩
          · exact Or.inl h
          · refine Or.inr ⟨b, w, h1, ?_⟩
            intro c'' hc''
            simp only at hc''
            rw [hc'] at hc''
            cases hc''
            exact h2) true with ⟨hBx, h⟩ | ⟨fs2, flags, h, hn2, hk2, hkeep2⟩
      · rw [h]
        exact Or.inl ⟨hBx, rfl⟩
      · rw [h]
        refine Or.inr ⟨_, _, rfl, .all hcls hnames (hn2.trans (hn1.trans hnames)) ?_ ?_ ?_⟩
        · intro m hm hl t w ht hw
          have hst : isStructTy m.ty = false := by cases hty : m.ty <;> simp_all [isStructTy, MTy.isLeaf]
          rw [hkeep2 _ (leaf_not_kid hnd hm hst)] at hw
          exact hal (m.name, m.ty) (leaf_mem hm hl) t w ht hw
        · intro m hm n' hn'
          rw [hkeep2 _ (leaf_not_kid hnd hm (by rw [hn']; rfl)), hkeep]
          intro hx
          obtain ⟨p, hp, he⟩ := List.mem_map.1 hx
          obtain ⟨m', hm', rfl, hl⟩ := mem_leafLines hp
          have := leaf_not_kid.name_inj hnd hm' hm he
          subst this
          rw [hn'] at hl
          cases hl
        · intro m hm c' hc' t w ht hw
          have hq := kid_mem hm hc'
          exact hk2 _ hq t w (by rw [hkid _ hq]; exact ht) hw c' hc'
    · rw [h]
      have hq : q ∈ leafLines ms := by rw [hsplit]; simp
      obtain ⟨m, hm, rfl, hl⟩ := mem_leafLines hq
      exact Or.inr ⟨_, _, rfl, .bad hcls hnames (hn1.trans hnames) hm hsplit href hal hkeep⟩

/-- Objects that are read have the type of the target. -/
theorem NReads.typed (hL : L.Bits) (hE : T.EnumInts) (hnd : ∀ c ms, T.cls c = some ms → (ms.map CMember.name).Nodup)
    {U : List (Str × Items)} {path c : Str} {t w : Val} {b : Bool} (h : NReads T L U path c t b w)
    (ht : CTable.WT T u (.struct c) t) : CTable.WT T u (.struct c) w := by
  induction h with
  | @all path c ms ts ws flags hcls hts hws hleaf hvec _ ih =>
    obtain ⟨ms', ts', e, hcls', _, hwt⟩ := wt_struct ht
    rw [hcls] at hcls'
    cases hcls'
    cases e
    refine .struct hcls hws ?_
    intro m hm w hw
    obtain ⟨t, ht'⟩ := lookup_isSome (fs := ts) (n := m.name) (by rw [hts]; exact List.mem_map_of_mem hm)
    cases hty : m.ty with
    | simple ty => rw [← hty]; exact (hleaf m hm (by rw [hty]; rfl) t w ht' hw).typed hL hE (hwt m hm t ht')
    | enum n => rw [← hty]; exact (hleaf m hm (by rw [hty]; rfl) t w ht' hw).typed hL hE (hwt m hm t ht')
    | struct c' => exact ih m hm c' hty t w ht' hw (hty ▸ hwt m hm t ht')
    | vec n =>
      rw [hvec m hm n hty, ht'] at hw
      cases hw
      exact hty ▸ hwt m hm _ ht'
  | @bad path c ms ts ws pre post m0 hcls hts hws hm0 hsplit _ hal hkeep =>
    obtain ⟨ms', ts', e, hcls', _, hwt⟩ := wt_struct ht
    rw [hcls] at hcls'
    cases hcls'
    cases e
    refine .struct hcls hws ?_
    intro m hm w hw
    obtain ⟨t, ht'⟩ := lookup_isSome (fs := ts) (n := m.name) (by rw [hts]; exact List.mem_map_of_mem hm)
    by_cases hx : m.name ∈ pre.map Prod.fst
    · obtain ⟨p, hp, he⟩ := List.mem_map.1 hx
      obtain ⟨m', hm', rfl, hl⟩ := mem_leafLines (ms := ms) (p := p) (by rw [hsplit]; exact List.mem_append_left _ hp)
      have := leaf_not_kid.name_inj (hnd c ms hcls) hm' hm he
      subst this
      exact (hal _ hp t w ht' hw).typed hL hE (hwt m' hm t ht')
    · rw [hkeep _ hx, ht'] at hw
      cases hw
      exact hwt m hm _ ht'

theorem EnumReads.unique {n s : Str} {t v w : Val} (hv : EnumReads T n s t v) (hw : EnumReads T n s t w) : v = w := by
  obtain ⟨e, val, h1, h2⟩ := hv
  obtain ⟨e', val', h3, h4⟩ := hw
  rw [h1] at h3
  cases h3
  rcases h2 with ⟨⟨l, hl, he⟩, rfl⟩ | ⟨h0, h2⟩
  · rcases h4 with ⟨_, rfl⟩ | ⟨h0, _⟩
    · rfl
    · exact absurd he (h0 l hl)
  · rcases h4 with ⟨⟨l, hl, he⟩, _⟩ | ⟨_, h4⟩
    · exact absurd he (h0 l hl)
    · rcases h2 with ⟨i, a1, a2, _, rfl⟩ | ⟨a1, rfl⟩
      · rcases h4 with ⟨j, b1, _, _, rfl⟩ | ⟨b1, _⟩
        · rw [a1.unique b1]
        · exact absurd a2 (b1 i a1)
      · rcases h4 with ⟨j, b1, b2, _, rfl⟩ | ⟨_, rfl⟩
        · exact absurd b2 (a1 j b1)
        · rfl

theorem After.unique (hb : 32 ≤ T.longBits) {ty : MTy} {o : Option Str} {t v w : Val} (hv : After T L ty o t v)
    (hw : After T L ty o t w) : v = w := by
  cases o with
  | none => cases hv; cases hw; rfl
  | some s =>
    cases ty with
    | simple ty => exact Reads.unique hb hv hw
    | enum n => exact EnumReads.unique hv hw
    | struct n => exact hv.elim
    | vec n => exact hv.elim

theorem Refused.not_after {ty : MTy} {o : Option Str} {t w : Val} (h : Refused T L ty o) : ¬ After T L ty o t w := by
  obtain ⟨ty', s, rfl, rfl, h⟩ := h
  exact h w

/-- The description fits one result only. -/
theorem NReads.unique (hb : 32 ≤ T.longBits) (hnd : ∀ c ms, T.cls c = some ms → (ms.map CMember.name).Nodup)
    {U : List (Str × Items)} {path c : Str} {t w w' : Val} {b b' : Bool} (h : NReads T L U path c t b w)
    (h' : NReads T L U path c t b' w') : b = b' ∧ w = w' := by
  induction h generalizing b' w' with
  | @all path c ms ts ws flags hcls hts hws hleaf hvec hkid ih =>
    have hval : ∀ m ∈ ms, ∃ t w, ts.lookup m.name = some t ∧ ws.lookup m.name = some w := by
      intro m hm
      obtain ⟨t, ht⟩ := lookup_isSome (fs := ts) (n := m.name) (by rw [hts]; exact List.mem_map_of_mem hm)
      obtain ⟨w, hw⟩ := lookup_isSome (fs := ws) (n := m.name) (by rw [hws]; exact List.mem_map_of_mem hm)
      exact ⟨t, w, ht, hw⟩
    cases h' with
    | @all _ _ ms' _ ws' flags' hcls' hts' hws' hleaf' hvec' hkid' =>
      rw [hcls] at hcls'
      cases hcls'
      have hval' : ∀ m ∈ ms, ∃ w, ws'.lookup m.name = some w := by
        intro m hm
        exact lookup_isSome (fs := ws') (n := m.name) (by rw [hws']; exact List.mem_map_of_mem hm)
      have hk : ∀ m ∈ ms, ∀ c', m.ty = .struct c' → flags m.name = flags' m.name ∧ ws.lookup m.name = ws'.lookup m.name := by
        intro m hm c' hc'
        obtain ⟨t, w, ht, hw⟩ := hval m hm
        obtain ⟨w', hw'⟩ := hval' m hm
        obtain ⟨e1, e2⟩ := ih m hm c' hc' t w ht hw (hkid' m hm c' hc' t w' ht hw')
        exact ⟨e1, by rw [hw, hw', e2]⟩
      refine ⟨?_, ?_⟩
      · unfold lastFlag
        cases hq : (kidLines ms).getLast? with
        | none => rfl
        | some q =>
          obtain ⟨m, hm, rfl, c', hc'⟩ := mem_kidLines (List.mem_of_getLast? hq)
          exact (hk m hm c' hc').1
      · congr 1
        refine fields_ext (hws.trans hws'.symm) (by rw [hws]; exact hnd c ms hcls) ?_
        intro n hn
        rw [hws] at hn
        obtain ⟨m, hm, rfl⟩ := List.mem_map.1 hn
        obtain ⟨t, w, ht, hw⟩ := hval m hm
        obtain ⟨w', hw'⟩ := hval' m hm
        have hl : m.ty.isLeaf = true → ws.lookup m.name = ws'.lookup m.name := fun hl => by
          rw [hw, hw', (hleaf m hm hl t w ht hw).unique hb (hleaf' m hm hl t w' ht hw')]
        cases hty : m.ty with
        | simple ty => exact hl (by rw [hty]; rfl)
        | enum n => exact hl (by rw [hty]; rfl)
        | struct c' => exact (hk m hm c' hty).2
        | vec n => rw [hvec m hm n hty, hvec' m hm n hty]
    | @bad _ _ ms' _ ws' pre post m hcls' hts' hws' hm hsplit href _ _ =>
      rw [hcls] at hcls'
      cases hcls'
      obtain ⟨m', hm', he, hl⟩ := mem_leafLines (ms := ms) (p := (m.name, m.ty)) (by rw [hsplit]; simp)
      obtain ⟨t, w, ht, hw⟩ := hval m hm
      rw [show m'.ty = m.ty from (congrArg Prod.snd he).symm] at hl
      exact absurd (hleaf m hm hl t w ht hw) href.not_after
  | @bad path c ms ts ws pre post m0 hcls hts hws hm0 hsplit href hal hkeep =>
    have hval : ∀ m ∈ ms, ∃ t, ts.lookup m.name = some t := by
      intro m hm
      exact lookup_isSome (fs := ts) (n := m.name) (by rw [hts]; exact List.mem_map_of_mem hm)
    cases h' with
    | @all _ _ ms' _ ws' flags' hcls' hts' hws' hleaf' hvec' hkid' =>
      rw [hcls] at hcls'
      cases hcls'
      obtain ⟨m', hm', he, hl⟩ := mem_leafLines (ms := ms) (p := (m0.name, m0.ty)) (by rw [hsplit]; simp)
      obtain ⟨t, ht⟩ := hval m0 hm0
      obtain ⟨w, hw⟩ := lookup_isSome (fs := ws') (n := m0.name) (by rw [hws']; exact List.mem_map_of_mem hm0)
      rw [show m'.ty = m0.ty from (congrArg Prod.snd he).symm] at hl
      exact absurd (hleaf' m0 hm0 hl t w ht hw) href.not_after
    | @bad _ _ ms' _ ws' pre' post' m hcls' hts' hws' hm hsplit' href' hal' hkeep' =>
      rw [hcls] at hcls'
      cases hcls'
      have key : ∀ {pre pre' post post' : List Line} {q q' : Line} {ws' : List (Str × Val)}, leafLines ms = pre ++ q :: post →
          leafLines ms = pre' ++ q' :: post' → Refused T L q.2 (memberText U ms path q.1) →
          (∀ p ∈ pre', ∀ t w, ts.lookup p.1 = some t → ws'.lookup p.1 = some w → After T L p.2 (memberText U ms path p.1) t w) →
          ws'.map Prod.fst = ms.map CMember.name → ¬ pre.length < pre'.length := by
        intro pre pre' post post' q q' ws' h1 h2 h3 h4 h5 hlt
        have hq : q ∈ pre' := by
          have e1 : (leafLines ms)[pre.length]? = some q := by rw [h1]; simp
          have e2 : (leafLines ms)[pre.length]? = pre'[pre.length]? := by rw [h2]; exact List.getElem?_append_left hlt
          rw [e1] at e2
          exact List.mem_of_getElem? e2.symm
        obtain ⟨m, hm, rfl, _⟩ := mem_leafLines (ms := ms) (p := q) (by rw [h1]; simp)
        obtain ⟨t, ht⟩ := hval m hm
        obtain ⟨w, hw⟩ := lookup_isSome (fs := ws') (n := m.name) (by rw [h5]; exact List.mem_map_of_mem hm)
        exact h3.not_after (h4 _ hq t w ht hw)
      have hlen : pre.length = pre'.length := by
        have h1 := key hsplit hsplit' href hal' hws'
        have h2 := key hsplit' hsplit href' hal hws
        omega
      have hpre : pre = pre' := by
        have := hsplit.symm.trans hsplit'
        exact List.append_inj_left this hlen
      subst hpre
      refine ⟨rfl, ?_⟩
      congr 1
      refine fields_ext (hws.trans hws'.symm) (by rw [hws]; exact hnd c ms hcls) ?_
      intro n hn
      by_cases hx : n ∈ pre.map Prod.fst
      · obtain ⟨p, hp, rfl⟩ := List.mem_map.1 hx
        obtain ⟨m, hm, rfl, _⟩ := mem_leafLines (ms := ms) (p := p) (by rw [hsplit]; exact List.mem_append_left _ hp)
        obtain ⟨t, ht⟩ := hval m hm
        obtain ⟨w, hw⟩ := lookup_isSome (fs := ws) (n := m.name) (by rw [hws]; exact List.mem_map_of_mem hm)
        obtain ⟨w', hw'⟩ := lookup_isSome (fs := ws') (n := m.name) (by rw [hws']; exact List.mem_map_of_mem hm)
        dsimp only
        rw [hw, hw', (hal _ hp t w ht hw).unique hb (hal' _ hp t w' ht hw')]
      · rw [hkeep _ hx, hkeep' _ hx]

/-! ### Bad values -/

/-- The text of an item.  (Proof notion, models no code.) -/
def itemText (U : List (Str × Items)) (path n : Str) : Option Str := (U.lookup path).bind (·.lookup n)

theorem Refused.item_iff {U : List (Str × Items)} {ms : List CMember} {path : Str} {m : CMember} (hm : m ∈ ms) :
    Refused T L m.ty (memberText U ms path m.name) ↔ Refused T L m.ty (itemText U path m.name) := by
  unfold memberText itemText
  cases hty : m.ty with
  | simple ty =>
    rw [if_pos]
    exact List.any_eq_true.2 ⟨m, hm, by rw [hty]; rfl⟩
  | _ => exact ⟨fun ⟨_, _, h, _⟩ => (by cases h), fun ⟨_, _, h, _⟩ => (by cases h)⟩

/-- Somewhere in the sections of an object of struct `c` at a path there is a value that can not be converted.
(Proof notion, models no code.) -/
inductive HasBad (T : CTable) (L : IniLib) (U : List (Str × Items)) : Str → Str → Prop
  | here {path c : Str} {ms : List CMember} {m : CMember} : T.cls c = some ms → m ∈ ms →
      Refused T L m.ty (itemText U path m.name) → HasBad T L U path c
  | inner {path c c' : Str} {ms : List CMember} {m : CMember} : T.cls c = some ms → m ∈ ms → m.ty = .struct c' →
      HasBad T L U (lowerPath path (spaced m.name)) c' → HasBad T L U path c

/-- The same, but only where the reader reports it: in the section of the object, or reported for its last struct member.
(Proof notion, models no code.) -/
inductive Reported (T : CTable) (L : IniLib) (U : List (Str × Items)) : Str → Str → Prop
  | here {path c : Str} {ms : List CMember} {m : CMember} : T.cls c = some ms → m ∈ ms →
      Refused T L m.ty (itemText U path m.name) → Reported T L U path c
  | last {path c c' : Str} {ms : List CMember} {m : CMember} : T.cls c = some ms →
      (ms.filter fun m => isStructTy m.ty).getLast? = some m → m.ty = .struct c' →
      Reported T L U (lowerPath path (spaced m.name)) c' → Reported T L U path c

theorem Reported.hasBad {U : List (Str × Items)} {path c : Str} (h : Reported T L U path c) : HasBad T L U path c := by
  induction h with
  | here h1 h2 h3 => exact .here h1 h2 h3
  | last h1 h2 h3 _ ih => exact .inner h1 (List.mem_filter.1 (List.mem_of_getLast? h2)).1 h3 ih

theorem kidLines_last (ms : List CMember) :
    (kidLines ms).getLast? = ((ms.filter fun m => isStructTy m.ty).getLast?).map fun m => (m.name, m.ty) := by
  unfold kidLines
  rw [List.getLast?_map]

theorem Refused.leaf {ty : MTy} {o : Option Str} (h : Refused T L ty o) : ty.isLeaf = true := by
  obtain ⟨_, _, rfl, _⟩ := h
  rfl

/-- Reading returns false exactly if a bad value is reported. -/
theorem NReads.result {U : List (Str × Items)} {path c : Str} {t w : Val} {b : Bool} (h : NReads T L U path c t b w) :
    b = false ↔ Reported T L U path c := by
  induction h with
  | @all path c ms ts ws flags hcls hts hws hleaf hvec _ ih =>
    have hval : ∀ m ∈ ms, ∃ t w, ts.lookup m.name = some t ∧ ws.lookup m.name = some w := by
      intro m hm
      obtain ⟨t, ht⟩ := lookup_isSome (fs := ts) (n := m.name) (by rw [hts]; exact List.mem_map_of_mem hm)
      obtain ⟨w, hw⟩ := lookup_isSome (fs := ws) (n := m.name) (by rw [hws]; exact List.mem_map_of_mem hm)
      exact ⟨t, w, ht, hw⟩
    unfold lastFlag
    rw [kidLines_last]
    constructor
    · intro hf
      cases hq : (ms.filter fun m => isStructTy m.ty).getLast? with
      | none => rw [hq] at hf; cases hf
      | some m =>
        rw [hq] at hf
        obtain ⟨hm, hs⟩ := List.mem_filter.1 (List.mem_of_getLast? hq)
        obtain ⟨c', hc'⟩ : ∃ c', m.ty = .struct c' := by cases hty : m.ty <;> simp_all [isStructTy]
        obtain ⟨t, w, ht, hw⟩ := hval m hm
        exact .last hcls hq hc' ((ih m hm c' hc' t w ht hw).1 hf)
    · intro hr
      cases hr with
      | @here _ _ ms' m hcls' hm href =>
        rw [hcls] at hcls'
        cases hcls'
        obtain ⟨t, w, ht, hw⟩ := hval m hm
        exact absurd (hleaf m hm href.leaf t w ht hw) ((Refused.item_iff hm).2 href).not_after
      | @last _ _ c' ms' m hcls' hq hc' hr =>
        rw [hcls] at hcls'
        cases hcls'
        rw [hq]
        obtain ⟨hm, _⟩ := List.mem_filter.1 (List.mem_of_getLast? hq)
        obtain ⟨t, w, ht, hw⟩ := hval m hm
        exact (ih m hm c' hc' t w ht hw).2 hr
  | @bad path c ms ts ws pre post m0 hcls hts hws hm0 hsplit href hal hkeep =>
    exact ⟨fun _ => .here hcls hm0 ((Refused.item_iff hm0).1 href), fun _ => rfl⟩

/-- Every struct has at most one struct member.  (Proof notion, models no code.) -/
def SingleKid (T : CTable) : Prop :=
  ∀ c ms, T.cls c = some ms → ∀ m ∈ ms, ∀ m' ∈ ms, isStructTy m.ty = true → isStructTy m'.ty = true → m = m'

theorem HasBad.reported (hs : SingleKid T) {U : List (Str × Items)} {path c : Str} (h : HasBad T L U path c) : Reported T L U path c := by
  induction h with
  | here h1 h2 h3 => exact .here h1 h2 h3
  | @inner path c c' ms m h1 h2 h3 _ ih =>
    have hm : m ∈ ms.filter fun m => isStructTy m.ty := List.mem_filter.2 ⟨h2, by rw [h3]; rfl⟩
    cases hq : (ms.filter fun m => isStructTy m.ty).getLast? with
    | none => rw [List.getLast?_eq_none_iff] at hq; rw [hq] at hm; cases hm
    | some m' =>
      obtain ⟨hm', hs'⟩ := List.mem_filter.1 (List.mem_of_getLast? hq)
      have := hs c ms h1 m h2 m' hm' (by rw [h3]; rfl) hs'
      subst this
      exact .last h1 hq h3 ih

/-- `P` holds of every simple or enum member of an object of struct `c` at a path, at any depth: of its type, the text of its
item, and its values before and after reading.  Vectors are left alone.  (Proof notion, models no code.) -/
inductive EveryLeaf (T : CTable) (U : List (Str × Items)) (P : MTy → Option Str → Val → Val → Prop) : Str → Str → Val → Val → Prop
  | mk {path c : Str} {ms : List CMember} {ts ws : List (Str × Val)} : T.cls c = some ms →
      ts.map Prod.fst = ms.map CMember.name → ws.map Prod.fst = ms.map CMember.name →
      (∀ m ∈ ms, m.ty.isLeaf = true → ∀ t w, ts.lookup m.name = some t → ws.lookup m.name = some w →
        P m.ty (itemText U path m.name) t w) →
      (∀ m ∈ ms, ∀ n, m.ty = .vec n → ws.lookup m.name = ts.lookup m.name) →
      (∀ m ∈ ms, ∀ c', m.ty = .struct c' → ∀ t w, ts.lookup m.name = some t → ws.lookup m.name = some w →
        EveryLeaf T U P (lowerPath path (spaced m.name)) c' t w) →
      EveryLeaf T U P path c (.struct ts) (.struct ws)

theorem EveryLeaf.imp {U : List (Str × Items)} {P Q : MTy → Option Str → Val → Val → Prop} (h : ∀ ty o t w, P ty o t w → Q ty o t w)
    {path c : Str} {t w : Val} (hp : EveryLeaf T U P path c t w) : EveryLeaf T U Q path c t w := by
  induction hp with
  | mk h1 h2 h3 h4 h5 _ ih => exact .mk h1 h2 h3 (fun m hm hl t w ht hw => h _ _ _ _ (h4 m hm hl t w ht hw)) h5 ih

/-- Objects that are left alone. -/
theorem EveryLeaf.refl {U : List (Str × Items)} {P : MTy → Option Str → Val → Val → Prop} (hP : ∀ ty o t, P ty o t t) {ty : MTy} {t : Val}
    (ht : CTable.WT T u ty t) : ∀ c path, ty = .struct c → EveryLeaf T U P path c t t := by
  induction ht with
  | undef _ h _ _ => intro c path e; exact absurd e (h c)
  | simple => intro c path e; cases e
  | enum => intro c path e; cases e
  | vec => intro c path e; cases e
  | @struct n ms ts hcls hnames _ ih =>
    intro c path e
    cases e
    refine .mk hcls hnames hnames ?_ (fun _ _ _ _ => rfl) ?_
    · intro m hm hl t w h1 h2
      rw [h1] at h2
      cases h2
      exact hP _ _ _
    · intro m hm c' hc' t w h1 h2
      rw [h1] at h2
      cases h2
      exact ih m hm t h1 c' _ hc'

/-- A struct with enum members has simple members, too: else its reader looks for no section.  (Proof notion, models no code.) -/
def EnumsBeside (T : CTable) : Prop :=
  ∀ c ms, T.cls c = some ms → ms.any (fun m => isEnumTy m.ty) = true → ms.any (fun m => isSimpleTy m.ty) = true

theorem memberText_item (hs : EnumsBeside T) {c : Str} {ms : List CMember} (hcls : T.cls c = some ms) {m : CMember} (hm : m ∈ ms)
    (hl : m.ty.isLeaf = true) (U : List (Str × Items)) (path : Str) : memberText U ms path m.name = itemText U path m.name := by
  unfold memberText itemText
  rw [if_pos]
  cases hty : m.ty with
  | simple => exact List.any_eq_true.2 ⟨m, hm, by rw [hty]; rfl⟩
  | enum => exact hs c ms hcls (List.any_eq_true.2 ⟨m, hm, by rw [hty]; rfl⟩)
  | _ => rw [hty] at hl; cases hl

/-- Without bad values everything is read. -/
theorem NReads.allRead (hs : EnumsBeside T) {U : List (Str × Items)} {path c : Str} {t w : Val} {b : Bool} (h : NReads T L U path c t b w)
    (hno : ¬ HasBad T L U path c) : EveryLeaf T U (After T L) path c t w := by
  induction h with
  | @all path c ms ts ws flags hcls hts hws hleaf hvec _ ih =>
    refine .mk hcls hts hws ?_ hvec fun m hm c' hc' t w ht hw => ih m hm c' hc' t w ht hw fun hb => hno (.inner hcls hm hc' hb)
    intro m hm hl t w ht hw
    rw [← memberText_item hs hcls hm hl]
    exact hleaf m hm hl t w ht hw
  | @bad path c ms ts ws pre post m0 hcls hts hws hm0 hsplit href hal hkeep =>
    exact absurd (.here hcls hm0 ((Refused.item_iff hm0).1 href)) hno

theorem memberText_none {U : List (Str × Items)} {ms : List CMember} {path n : Str} (h : itemText U path n = none) :
    memberText U ms path n = none := by
  unfold memberText
  split
  · exact h
  · rfl

/-- Whatever is in the file, members without items keep their values, and the others keep them or get those of their items. -/
theorem NReads.kept (hnd : ∀ c ms, T.cls c = some ms → (ms.map CMember.name).Nodup) {U : List (Str × Items)} {path c : Str} {t w : Val}
    {b : Bool} (h : NReads T L U path c t b w) (ht : CTable.WT T u (.struct c) t) :
    EveryLeaf T U (fun ty o t w => w = t ∨ After T L ty o t w) path c t w := by
  have hmt : ∀ {ms : List CMember} {path n : Str} {ty : MTy} {t w : Val}, After T L ty (memberText U ms path n) t w →
      w = t ∨ After T L ty (itemText U path n) t w := by
    intro ms path n ty t w h
    unfold memberText at h
    split at h
    · exact Or.inr h
    · exact Or.inl h
  induction h with
  | @all path c ms ts ws flags hcls hts hws hleaf hvec _ ih =>
    obtain ⟨ms', ts', e, hcls', _, hwt⟩ := wt_struct ht
    rw [hcls] at hcls'
    cases hcls'
    cases e
    exact .mk hcls hts hws (fun m hm hl t w ht hw => hmt (hleaf m hm hl t w ht hw)) hvec
      fun m hm c' hc' t w ht hw => ih m hm c' hc' t w ht hw (hc' ▸ hwt m hm t ht)
  | @bad path c ms ts ws pre post m0 hcls hts hws hm0 hsplit href hal hkeep =>
    obtain ⟨ms', ts', e, hcls', _, hwt⟩ := wt_struct ht
    rw [hcls] at hcls'
    cases hcls'
    cases e
    have hpre : ∀ m ∈ ms, m.name ∈ pre.map Prod.fst → (m.name, m.ty) ∈ pre ∧ m.ty.isLeaf = true := by
      intro m hm hx
      obtain ⟨p, hp, he⟩ := List.mem_map.1 hx
      obtain ⟨m', hm', rfl, hl⟩ := mem_leafLines (ms := ms) (p := p) (by rw [hsplit]; exact List.mem_append_left _ hp)
      have := leaf_not_kid.name_inj (hnd c ms hcls) hm' hm he
      subst this
      exact ⟨hp, hl⟩
    refine .mk hcls hts hws ?_ ?_ ?_
    · intro m hm hl t w ht hw
      by_cases hx : m.name ∈ pre.map Prod.fst
      · exact hmt (hal _ (hpre m hm hx).1 t w ht hw)
      · rw [hkeep _ hx, ht] at hw
        exact Or.inl (Option.some.inj hw).symm
    · intro m hm n hn
      refine hkeep _ fun hx => ?_
      have := (hpre m hm hx).2
      rw [hn] at this
      cases this
    · intro m hm c' hc' t w ht hw
      rw [hkeep _ (fun hx => by
        have := (hpre m hm hx).2
        rw [hc'] at this
        cases this), ht] at hw
      cases hw
      exact .refl (fun _ _ _ => Or.inl rfl) (hwt m hm _ ht) c' _ hc'

end

/-! ### The sections that matter -/

mutual
theorem nrdVal_congr {T : CTable} {L : IniLib} {prog : List Item} {U U' : List (Str × Items)} (h : ∀ k, U.lookup k = U'.lookup k) :
    ∀ v : Val, nrdVal T L prog U v = nrdVal T L prog U' v
  | .struct fs => by
    simp only [nrdVal]
    rw [nrdFields_congr h fs]
    funext c path
    unfold runNRd
    have : ∀ looks, runSection T L U c path looks fs = runSection T L U' c path looks fs := by
      intro looks
      unfold runSection
      rw [h]
    simp only [this]
  | .vec _ => rfl
  | .undef => rfl
  | .bool _ => rfl
  | .num _ => rfl
  | .flt _ => rfl
  | .dbl _ => rfl
  | .str _ => rfl
theorem nrdFields_congr {T : CTable} {L : IniLib} {prog : List Item} {U U' : List (Str × Items)} (h : ∀ k, U.lookup k = U'.lookup k) :
    ∀ fs : List (Str × Val), nrdFields T L prog U fs = nrdFields T L prog U' fs
  | [] => rfl
  | (n, v) :: fs => by
    simp only [nrdFields]
    rw [nrdVal_congr h v, nrdFields_congr h fs]
end

end Stfx.Run
