import Verif.Run.IniFits
import Verif.Run.IniTyped
import Verif.Run.XmlEvolve
/-
n_ini files written by the program of one version of the headers and read by the program of another.

`T` are the classes the writing program was compiled with, `U` those of the reading program, `S` the sections a reader knows.
-/
set_option autoImplicit false
namespace Stfx.Run
open Stfx.Items Stfx.Parser Stfx.Gen Stfx.Lexer

/-- The member `n` is left out, or it is written and its line fits.  (Proof notion, models no code.) -/
def IniSent (T : CTable) (L : IniLib) (g delta : Bool) (n : Str) (ty : MTy) (d v : Val) : Prop :=
  guard g delta (if g then some d else none) v = .ok false ∨
  (guard g delta (if g then some d else none) v = .ok true ∧ ∃ s, iniLeafText T L ty v = .ok s ∧ LineText s ∧
    n.length + 1 + s.length ≤ 78)

/-- Objects whose lines can be told apart in the file, at a path.  (Proof notion, models no code.) -/
inductive IniSends (T : CTable) (L : IniLib) (g delta : Bool) : Str → Str → Val → Prop
  | mk {path c : Str} {ms : List CMember} {ds fs : List (Str × Val)} : T.cls c = some ms → T.dflt c = .struct ds →
      fs.map Prod.fst = ms.map CMember.name → IniShape ms → path.length ≤ 76 → (path = [] → ∀ m ∈ ms, m.ty.isLeaf = false) →
      (∀ m ∈ ms, m.ty.isLeaf = true → ∀ d v, ds.lookup m.name = some d → fs.lookup m.name = some v →
        IniSent T L g delta m.name m.ty d v) →
      (∀ m ∈ ms, ∀ c', m.ty = .struct c' → ∀ v, fs.lookup m.name = some v →
        IniSends T L g delta (lowerPath path (spaced m.name)) c' v) →
      IniSends T L g delta path c (.struct fs)

/-- The sections at and below a path are those of an object of struct `c`: items for its simple and enum members that are not
left out, and nothing else.  There are no vectors.  (Proof notion, models no code.) -/
inductive Filed (T : CTable) (L : IniLib) (g delta : Bool) (S : List (Str × Items)) : Str → Str → Val → Prop
  | mk {path c : Str} {ms : List CMember} {ds fs : List (Str × Val)} : T.cls c = some ms → T.dflt c = .struct ds →
      fs.map Prod.fst = ms.map CMember.name → (∀ m ∈ ms, ∀ x, m.ty ≠ .vec x) →
      (∀ m ∈ ms, m.ty.isLeaf = true → ∀ d v, ds.lookup m.name = some d → fs.lookup m.name = some v →
        (guard g delta (if g then some d else none) v = .ok false ∧ itemText S path m.name = none) ∨
        (guard g delta (if g then some d else none) v = .ok true ∧ ∃ s, iniLeafText T L m.ty v = .ok s ∧
          itemText S path m.name = some s)) →
      (∀ n, (∀ m ∈ ms, m.ty.isLeaf = true → m.name ≠ n) → itemText S path n = none) →
      (∀ k, Under path k → k ≠ path → (∀ m ∈ ms, ∀ c', m.ty = .struct c' → ¬ Under (lowerPath path (spaced m.name)) k) →
        S.lookup k = none) →
      (∀ m ∈ ms, ∀ c', m.ty = .struct c' → ∀ v, fs.lookup m.name = some v →
        Filed T L g delta S (lowerPath path (spaced m.name)) c' v) →
      Filed T L g delta S path c (.struct fs)

section
variable {T U : CTable} {L : IniLib} {prog : List Item} {g delta : Bool}

/-! ### Writing -/

/-- What writing an object at a path does to the sections of a reader that knows none there.  (Proof notion, models no code.) -/
def SentOk (T : CTable) (L : IniLib) (prog : List Item) (g delta : Bool) (path c : Str) (v : Val) : Prop :=
  ∃ ls, (nwrVal T L prog delta v).wr c path = .ok ([] :: ls) ∧ (∀ l ∈ ls, Short l) ∧
    ∀ st : IniSt, st.key = [] → (∀ k, Under path k → st.under.lookup k = none) → (feed st ([] :: ls)).key = [] ∧
      (∀ k, ¬ Under path k → (feed st ([] :: ls)).under.lookup k = st.under.lookup k) ∧
      ∀ S : List (Str × Items), (∀ k, Under path k → S.lookup k = (feed st ([] :: ls)).under.lookup k) →
        Filed T L g delta S path c v

/-- Several struct members. -/
theorem kids_sent {path c : Str} {dd fs : List (Str × Val)} {qs : List Line} (hid : ∀ q ∈ qs, Ident q.1)
    (hnd : (qs.map Prod.fst).Nodup)
    (h : ∀ q ∈ qs, ∃ c' v, q.2 = .struct c' ∧ fs.lookup q.1 = some v ∧
      SentOk T L prog g delta (lowerPath path (spaced q.1)) c' v) :
    ∃ out, (qs.map (lineNWr g)).mapM (nwrAct T L delta c path dd (nwrFields T L prog delta fs)) = .ok out ∧
      (∀ l ∈ out.flatten, Short l) ∧ (qs ≠ [] → ∃ r, out.flatten = [] :: r) ∧
      ∀ st : IniSt, st.key = [] → (∀ q ∈ qs, ∀ k, Under (lowerPath path (spaced q.1)) k → st.under.lookup k = none) →
        (feed st out.flatten).key = [] ∧
        (∀ k, (∀ q ∈ qs, ¬ Under (lowerPath path (spaced q.1)) k) →
          (feed st out.flatten).under.lookup k = st.under.lookup k) ∧
        ∀ q ∈ qs, ∀ S : List (Str × Items),
          (∀ k, Under (lowerPath path (spaced q.1)) k → S.lookup k = (feed st out.flatten).under.lookup k) →
          ∃ c' v, q.2 = .struct c' ∧ fs.lookup q.1 = some v ∧ Filed T L g delta S (lowerPath path (spaced q.1)) c' v := by
  induction qs with
  | nil => exact ⟨[], rfl, by simp, fun h => absurd rfl h, fun st hk _ => ⟨hk, fun _ _ => rfl, by simp⟩⟩
  | cons q qs ih =>
    rw [List.map_cons, List.nodup_cons] at hnd
    obtain ⟨c', v, h1, h3, ls, w1, w2, w3⟩ := h q List.mem_cons_self
    obtain ⟨out, o1, o2, _, o4⟩ := ih (fun q hq => hid q (List.mem_cons_of_mem _ hq)) hnd.2
      (fun q hq => h q (List.mem_cons_of_mem _ hq))
    have hact : nwrAct T L delta c path dd (nwrFields T L prog delta fs) (lineNWr g q) = .ok ([] :: ls) := by
      obtain ⟨n, ty⟩ := q
      simp only at h1
      subst h1
      simp only [lineNWr, nwrAct, field, nwrFields_lookup, h3, Option.map_some, R.ok_bind]
      exact w1
    have hapart : ∀ q' ∈ qs, ∀ k, Under (lowerPath path (spaced q.1)) k → ¬ Under (lowerPath path (spaced q'.1)) k := by
      intro q' hq' k hk hu
      have := under_inj (hid _ List.mem_cons_self) (hid q' (List.mem_cons_of_mem _ hq')) hk hu
      exact hnd.1 (by rw [this]; exact List.mem_map_of_mem hq')
    refine ⟨([] :: ls) :: out, ?_, ?_, fun _ => ⟨ls ++ out.flatten, rfl⟩, ?_⟩
    · rw [List.map_cons, mapM_cons, hact, R.ok_bind, o1]
      rfl
    · intro l hl
      rw [List.flatten_cons, List.mem_append] at hl
      rcases hl with hl | hl
      · rcases List.mem_cons.1 hl with rfl | hl
        · exact ⟨by simp, by simp⟩
        · exact w2 l hl
      · exact o2 l hl
    · intro st hk hno
      obtain ⟨a1, a2, a3⟩ := w3 st hk (hno q List.mem_cons_self)
      obtain ⟨b1, b2, b3⟩ := o4 _ a1 (by
        intro q' hq' k hu
        rw [a2 k fun hu' => hapart q' hq' k hu' hu]
        exact hno q' (List.mem_cons_of_mem _ hq') k hu)
      rw [List.flatten_cons, feed_append]
      refine ⟨b1, ?_, ?_⟩
      · intro k hk
        rw [b2 k fun q hq => hk q (List.mem_cons_of_mem _ hq), a2 k (hk q List.mem_cons_self)]
      · intro q' hq' S hS
        rcases List.mem_cons.1 hq' with rfl | hq'
        · refine ⟨c', v, h1, h3, a3 S ?_⟩
          intro k hk
          rw [hS k hk]
          exact b2 k fun q hq => hapart q hq k hk
        · exact b3 q' hq' S hS

/-- The leaf lines of an object. -/
theorem leafs_sent {c path : Str} {ds fs : List (Str × Val)} {ps : List Line}
    (h : ∀ p ∈ ps, p.2.isLeaf = true ∧ memberTy T c p.1 = some p.2 ∧ ∃ d v, ds.lookup p.1 = some d ∧
      fs.lookup p.1 = some v ∧ IniSent T L g delta p.1 p.2 d v) :
    ∃ os, (ps.map (lineNWr g)).mapM (nwrAct T L delta c path (if g then ds else []) (nwrFields T L prog delta fs)) =
        .ok ((ps.zip os).map fun x => optLines x.1 x.2) ∧
      All2 (fun p o => ∃ d v, ds.lookup p.1 = some d ∧ fs.lookup p.1 = some v ∧
        ((o = none ∧ guard g delta (if g then some d else none) v = .ok false) ∨
        ∃ s, o = some s ∧ guard g delta (if g then some d else none) v = .ok true ∧ iniLeafText T L p.2 v = .ok s ∧
          LineText s ∧ p.1.length + 1 + s.length ≤ 78)) ps os := by
  induction ps with
  | nil => exact ⟨[], rfl, .nil⟩
  | cons p ps ih =>
    obtain ⟨os, h1, h2⟩ := ih fun p hp => h p (List.mem_cons_of_mem _ hp)
    obtain ⟨a1, a2, d, v, a3, a5, a6⟩ := h p List.mem_cons_self
    rcases a6 with g1 | ⟨g1, s, g2, g3, g4⟩
    · refine ⟨none :: os, ?_, .cons ⟨d, v, a3, a5, Or.inl ⟨rfl, g1⟩⟩ h2⟩
      rw [List.map_cons, mapM_cons, nwrAct_leaf (s := []) a1 a2 a5 (by rw [ddLookup a3]; exact g1) (by simp), R.ok_bind, h1]
      rfl
    · refine ⟨some s :: os, ?_, .cons ⟨d, v, a3, a5, Or.inr ⟨s, rfl, g1, g2, g3, g4⟩⟩ h2⟩
      rw [List.map_cons, mapM_cons, nwrAct_leaf (s := s) a1 a2 a5 (by rw [ddLookup a3]; exact g1) (fun _ => g2), R.ok_bind, h1]
      rfl

/-- Writing an object at a path. -/
theorem ini_sent (hc : NCode T prog g) {path c : Str} {v : Val} (h : IniSends T L g delta path c v)
    (hpath : ∀ x ∈ path, pathChar x = true) : SentOk T L prog g delta path c v := by
  induction h with
  | @mk path c ms ds fs h1 h2 h4 hs hlen htop hleaf _ ih =>
    have hid := hc.ident c ms h1
    have hnd := hc.good.nodup c ms h1
    have hdn : ds.map Prod.fst = ms.map CMember.name := by
      obtain ⟨ds', e, hn, _⟩ := dflt_struct hc.good h1
      rw [h2] at e
      cases e
      exact hn
    have hndl := sublist_names hnd hs
    rw [List.nodup_append] at hndl
    obtain ⟨ndl, ndk, hdis⟩ := hndl
    have inNames : ∀ m ∈ ms, m.name ∈ ms.map CMember.name := fun m hm => List.mem_map_of_mem hm
    -- the leaves
    obtain ⟨os, w1, w2⟩ := leafs_sent (T := T) (L := L) (prog := prog) (g := g) (delta := delta) (c := c) (path := path)
      (ds := ds) (fs := fs) (ps := leafLines ms) (by
        intro p hp
        obtain ⟨m, hm, rfl, hl⟩ := mem_leafLines hp
        obtain ⟨d, hd⟩ := lookup_isSome (by rw [hdn]; exact inNames m hm)
        obtain ⟨v, hv⟩ := lookup_isSome (by rw [h4]; exact inNames m hm)
        exact ⟨hl, memberTy_of h1 hnd hm, d, v, hd, hv, hleaf m hm hl d v hd hv⟩)
    -- the struct members
    obtain ⟨out, k1, k2, k3, k4⟩ := kids_sent (T := T) (L := L) (prog := prog) (g := g) (delta := delta) (c := c) (path := path)
      (dd := if g then ds else []) (fs := fs) (qs := kidLines ms)
      (by intro q hq; obtain ⟨m, hm, rfl, _⟩ := mem_kidLines hq; exact hid m hm) ndk (by
        intro q hq
        obtain ⟨m, hm, rfl, c', hc'⟩ := mem_kidLines hq
        obtain ⟨v, hv⟩ := lookup_isSome (by rw [h4]; exact inNames m hm)
        exact ⟨c', v, hc', hv, ih m hm c' hc' v hv (lowerPath_chars hpath (hid m hm))⟩)
    have hwr : (nwrVal T L prog delta (.struct fs)).wr c path =
        .ok (heading path ++ (((leafLines ms).zip os).flatMap (fun x => optLines x.1 x.2) ++ out.flatten)) := by
      rw [nwrVal]
      simp only [runNWr, hc.wr c ms h1, h2, Val.fields, ordered_shape hs, List.map_append]
      rw [mapM_append_ok w1 k1, R.ok_bind, List.flatten_append, List.flatMap_def]
      rfl
    have hkid : ∀ (S : List (Str × Items)), (∀ q ∈ kidLines ms, ∃ c' v, q.2 = .struct c' ∧ fs.lookup q.1 = some v ∧
        Filed T L g delta S (lowerPath path (spaced q.1)) c' v) → ∀ m ∈ ms, ∀ c', m.ty = .struct c' → ∀ v,
        fs.lookup m.name = some v → Filed T L g delta S (lowerPath path (spaced m.name)) c' v := by
      intro S hS m hm c' hc' v hv
      obtain ⟨c'', v', e1, e2, e3⟩ := hS _ (kid_mem hm hc')
      simp only at e1 e2 e3
      rw [hc'] at e1
      cases e1
      rw [hv] at e2
      cases e2
      exact e3
    have hnv : ∀ m ∈ ms, ∀ x, m.ty ≠ .vec x := by
      intro m hm x hx
      rcases shape_cases hs hm with hl | ⟨c', hc'⟩
      · rw [hx] at hl; cases hl
      · rw [hx] at hc'; cases hc'
    by_cases hp : path = []
    · -- the top: only struct members
      have hnil : leafLines ms = [] := by
        refine List.eq_nil_iff_forall_not_mem.2 ?_
        intro p hp'
        obtain ⟨m, hm, _, hl⟩ := mem_leafLines hp'
        rw [htop hp m hm] at hl
        cases hl
      have hkne : kidLines ms ≠ [] := by
        obtain ⟨m, hm⟩ := List.exists_mem_of_ne_nil _ hs.ne
        rcases shape_cases hs hm with hl | ⟨c', hc'⟩
        · rw [htop hp m hm] at hl; cases hl
        · exact List.ne_nil_of_mem (kid_mem hm hc')
      obtain ⟨r, hr⟩ := k3 hkne
      have e : heading path ++ (((leafLines ms).zip os).flatMap (fun x => optLines x.1 x.2) ++ out.flatten) = [] :: r := by
        rw [hnil, heading, if_pos hp, List.zip_nil_left, List.flatMap_nil, hr]
        rfl
      rw [e] at hwr
      refine ⟨r, hwr, ?_, ?_⟩
      · intro l hl
        exact k2 l (by rw [hr]; exact List.mem_cons_of_mem _ hl)
      · intro st hk hno
        rw [← hr]
        obtain ⟨b1, b2, b3⟩ := k4 st hk fun q _ k _ => hno k (Or.inl hp)
        refine ⟨b1, fun k hk => absurd (Or.inl hp) hk, ?_⟩
        intro S hS
        have hSk : ∀ k, (∀ m ∈ ms, ∀ c', m.ty = .struct c' → ¬ Under (lowerPath path (spaced m.name)) k) → S.lookup k = none := by
          intro k hk
          rw [hS k (Or.inl hp), b2 k, hno k (Or.inl hp)]
          intro q hq
          obtain ⟨m, hm, rfl, c', hc'⟩ := mem_kidLines hq
          exact hk m hm c' hc'
        have hitem : ∀ n, itemText S path n = none := by
          intro n
          unfold itemText
          rw [hSk path, Option.bind_none]
          intro m hm c' _ hu
          rw [hp] at hu
          rcases hu with hu | hu | ⟨r, hu⟩
          · exact lowerPath_ne (hid m hm) hu
          · exact lowerPath_ne (hid m hm) hu.symm
          · have := congrArg List.length hu
            simp at this
        refine .mk h1 h2 h4 hnv ?_ (fun n _ => hitem n) (fun k _ _ hk => hSk k hk) ?_
        · intro m hm hl
          rw [htop hp m hm] at hl
          cases hl
        · exact hkid S fun q hq => b3 q hq S fun k _ => hS k (Or.inl hp)
    · have hhead : heading path = [[], '[' :: (path ++ [']'])] := by rw [heading, if_neg hp]
      refine ⟨('[' :: (path ++ [']'])) :: (((leafLines ms).zip os).flatMap (fun x => optLines x.1 x.2) ++ out.flatten), ?_, ?_, ?_⟩
      · rw [hwr, hhead]; rfl
      · intro l hl
        rcases List.mem_cons.1 hl with rfl | hl
        · refine ⟨?_, by simp; omega⟩
          · intro hm
            rcases List.mem_cons.1 hm with hm | hm
            · exact absurd hm (by decide)
            rcases List.mem_append.1 hm with hm | hm
            · exact pathChar_ne (hpath _ hm) (by decide) rfl
            · exact absurd (List.mem_singleton.1 hm) (by decide)
        rcases List.mem_append.1 hl with hl | hl
        · obtain ⟨⟨p, o⟩, hpo, hl⟩ := List.mem_flatMap.1 hl
          obtain ⟨_, _, _, _, hw⟩ := all2_zip w2 hpo
          rcases hw with ⟨rfl, _⟩ | ⟨s, rfl, _, _, b1, b2⟩
          · cases hl
          · have hl := List.mem_singleton.1 hl
            subst hl
            obtain ⟨m, hm, rfl, _⟩ := mem_leafLines (List.of_mem_zip hpo).1
            refine ⟨?_, by simp [itemLine]; simp only at b2; omega⟩
            · intro hin
              rcases List.mem_append.1 hin with hin | hin
              · obtain ⟨_, _, _, _, hw⟩ := hid m hm
                exact isWord_ne (hw _ hin) (by decide) rfl
              · rcases List.mem_cons.1 hin with hin | hin
                · exact absurd hin (by decide)
                · exact b1.nl hin
        · exact k2 l hl
      · intro st hk hno
        rw [feed_cons, feed_cons]
        have e1 : st.piece ([] ++ c!"\n") = st := by
          show st.piece c!"\n" = st
          rw [piece_empty, flush_id hk]
        rw [e1, piece_heading hk hp hpath, feed_append]
        obtain ⟨items, f1, f2, f3, f4, f5, f6⟩ := feed_items (q := path) (ps := leafLines ms) (os := os)
          (all2_imp w2 (by
            intro p hp' o ho
            obtain ⟨m, hm, rfl, _⟩ := mem_leafLines hp'
            refine ⟨hid m hm, ?_⟩
            rintro s rfl
            obtain ⟨_, _, _, _, ho⟩ := ho
            rcases ho with ⟨ho, _⟩ | ⟨s', ho, _, _, b1, _⟩
            · cases ho
            · cases ho; exact b1)) ndl
          (st := { st with under := put path [] st.under, cur := some path }) (items := []) hk rfl (put_self _ _ _)
          (fun _ _ => rfl)
        generalize feed { st with under := put path [] st.under, cur := some path }
          (((leafLines ms).zip os).flatMap fun x => optLines x.1 x.2) = st1 at f1 f2 f3 f4 ⊢
        have hst1 : ∀ k, k ≠ path → st1.under.lookup k = st.under.lookup k := fun k hkp => by
          rw [f4 k hkp]; exact put_other hkp _ _
        have hbelow : ∀ m ∈ ms, ∀ k, Under (lowerPath path (spaced m.name)) k → k ≠ path ∧ Under path k := by
          intro m hm k hu
          refine ⟨?_, under_lower (hid m hm) hu⟩
          rintro rfl
          exact not_under_self hp (hid m hm) hu
        obtain ⟨b1, b2, b3⟩ := k4 st1 f1 (by
          intro q hq k hu
          obtain ⟨m, hm, rfl, _⟩ := mem_kidLines hq
          obtain ⟨a1, a2⟩ := hbelow m hm k hu
          rw [hst1 k a1, hno k a2])
        refine ⟨b1, ?_, ?_⟩
        · intro k hku
          have hkp : k ≠ path := fun he => hku (Or.inr (Or.inl he))
          rw [b2 k, hst1 k hkp]
          intro q hq hu
          obtain ⟨m, hm, rfl, _⟩ := mem_kidLines hq
          exact hku (under_lower (hid m hm) hu)
        · intro S hS
          have hSp : S.lookup path = some items := by
            rw [hS path (Or.inr (Or.inl rfl)), b2 path, f3]
            intro q hq
            obtain ⟨m, hm, rfl, _⟩ := mem_kidLines hq
            exact not_under_self hp (hid m hm)
          have hitem : ∀ n, itemText S path n = items.lookup n := by
            intro n
            unfold itemText
            rw [hSp, Option.bind_some]
          refine .mk h1 h2 h4 hnv ?_ ?_ ?_ ?_
          · intro m hm hl d v hd hv
            obtain ⟨o, ho1, d', v', ho2, ho3, ho4⟩ := all2_mem w2 (leaf_mem hm hl)
            have hit := all2_zip f5 ho1
            simp only at ho2 ho3 hit ho4
            rw [hd] at ho2
            cases ho2
            rw [hv] at ho3
            cases ho3
            rw [hitem, hit]
            rcases ho4 with ⟨rfl, hg⟩ | ⟨s, rfl, hg, hs, _⟩
            · exact Or.inl ⟨hg, rfl⟩
            · exact Or.inr ⟨hg, s, hs, rfl⟩
          · intro n hn
            rw [hitem, f6 n]
            · rfl
            · intro hm
              obtain ⟨p, hp', he⟩ := List.mem_map.1 hm
              obtain ⟨m, hm, rfl, hl⟩ := mem_leafLines hp'
              exact hn m hm hl he
          · intro k hku hkp hkk
            rw [hS k hku, b2 k, hst1 k hkp, hno k hku]
            intro q hq
            obtain ⟨m, hm, rfl, c', hc'⟩ := mem_kidLines hq
            exact hkk m hm c' hc'
          · refine hkid S fun q hq => b3 q hq S ?_
            intro k hku
            obtain ⟨m, hm, rfl, _⟩ := mem_kidLines hq
            exact hS k (under_lower (hid m hm) hku)

/-- The sections a new reader knows after reading a file. -/
theorem ini_filed (hc : NCode T prog g) {c : Str} {v : Val} (hw : hasWriteFile prog c = true)
    (h : IniSends T L g delta [] c v) :
    ∃ text, iniWrite T L prog delta c v = .ok text ∧ Filed T L g delta (IniSt.init.load text).under [] c v := by
  obtain ⟨ls, h1, h2, h3⟩ := ini_sent hc h (by simp)
  refine ⟨fileText ([] :: ls), ?_, ?_⟩
  · unfold iniWrite
    rw [if_pos hw, h1, R.ok_bind]
  · have hload : IniSt.init.load (fileText ([] :: ls)) = feed IniSt.init ([] :: ls) := by
      unfold IniSt.load
      rw [filePieces_lines (by
        intro l hl
        rcases List.mem_cons.1 hl with rfl | hl
        · exact ⟨by simp, by simp⟩
        · exact h2 l hl)]
      rfl
    obtain ⟨_, _, b3⟩ := h3 IniSt.init rfl (fun _ _ => rfl)
    rw [hload]
    exact b3 _ fun _ _ => rfl

/-! ### Reading -/

/-- Reading an object, from what reading makes of its members. -/
theorem nrd_all (hc : NRdCode U prog) (hcl : NoClash U) {S : List (Str × Items)} {path c : Str} {ns : List CMember}
    (hcls : U.cls c = some ns) {ts ws : List (Str × Val)} (hts : ts.map Prod.fst = ns.map CMember.name)
    (hws : ws.map Prod.fst = ns.map CMember.name)
    (hleaf : ∀ n ∈ ns, n.ty.isLeaf = true → ∀ t w, ts.lookup n.name = some t → ws.lookup n.name = some w →
      (memberText S ns path n.name = none ∧ t = w) ∨
      ∃ s, memberText S ns path n.name = some s ∧ iniLeafConv U L n.ty s = .val w)
    (hvec : ∀ n ∈ ns, ∀ x, n.ty = .vec x → ws.lookup n.name = ts.lookup n.name)
    (hkid : ∀ n ∈ ns, ∀ c', n.ty = .struct c' → ∀ t w, ts.lookup n.name = some t → ws.lookup n.name = some w →
      nrdVal U L prog S t c' (lowerPath path (spaced n.name)) = .ok (true, w)) :
    nrdVal U L prog S (.struct ts) c path = .ok (true, .struct ws) := by
  have hnd := hc.good.nodup _ ns hcls
  obtain ⟨dot, hbody, hdot⟩ := hc.rd _ ns hcls
  have hlnd := nodup_leafLines hnd
  have val : ∀ {xs : List (Str × Val)}, xs.map Prod.fst = ns.map CMember.name → ∀ n ∈ ns, ∃ x, xs.lookup n.name = some x :=
    fun h n hn => lookup_isSome (by rw [h]; exact List.mem_map_of_mem hn)
  rw [nrdVal]
  unfold runNRd
  rw [hbody]
  dsimp only
  rw [looks_leafLines]
  simp only [kids_kidLines]
  have hsec : ∃ fs1, runSection U L S c path
        (if ns.any (fun m => isSimpleTy m.ty) then some ((leafLines ns).filterMap lineLook) else none) ts = .ok (true, fs1) ∧
      fs1.map Prod.fst = ts.map Prod.fst ∧ (∀ p ∈ leafLines ns, fs1.lookup p.1 = some (valOf ws p.1)) ∧
      ∀ n, n ∉ (leafLines ns).map Prod.fst → fs1.lookup n = ts.lookup n := by
    have hsame : (∀ n ∈ ns, memberText S ns path n.name = none) → ∀ p ∈ leafLines ns, ts.lookup p.1 = some (valOf ws p.1) := by
      intro hno p hp
      obtain ⟨n, hn, rfl, hl⟩ := mem_leafLines hp
      obtain ⟨t, ht⟩ := val hts n hn
      obtain ⟨w, hw⟩ := val hws n hn
      rcases hleaf n hn hl t w ht hw with ⟨_, rfl⟩ | ⟨s, h, _⟩
      · rw [ht, valOf_eq hw]
      · rw [hno n hn] at h
        cases h
    unfold runSection
    cases ha : ns.any (fun m => isSimpleTy m.ty) with
    | false =>
      exact ⟨ts, rfl, rfl, hsame (fun n _ => by unfold memberText; rw [ha]; rfl), fun _ _ => rfl⟩
    | true =>
      simp only [if_true]
      have hno : ((leafLines ns).filterMap lineLook).any clash = false := by
        rw [List.any_eq_false]
        intro l hl
        obtain ⟨p, hp, e⟩ := looks_leafs l hl
        obtain ⟨m, hm, rfl, hlf⟩ := mem_leafLines hp
        have := hcl _ ns hcls m hm hlf
        simp [clash, e, this.1, this.2]
      rw [hno]
      simp only [Bool.false_eq_true, if_false]
      cases hU : S.lookup path with
      | none =>
        exact ⟨ts, rfl, rfl, hsame (fun n _ => by unfold memberText; rw [ha, hU]; rfl), fun _ _ => rfl⟩
      | some items =>
        refine runLooks_ok hlnd (valOf ws) ?_
        intro p hp
        obtain ⟨n, hn, rfl, hl⟩ := mem_leafLines hp
        obtain ⟨t, ht⟩ := val hts n hn
        obtain ⟨w, hw⟩ := val hws n hn
        refine ⟨hl, memberTy_of hcls hnd hn, t, ht, ?_⟩
        rw [valOf_eq hw]
        have hmt : memberText S ns path n.name = items.lookup n.name := by
          unfold memberText
          rw [ha, hU, if_pos rfl, Option.bind_some]
        have := hleaf n hn hl t w ht hw
        rw [hmt] at this
        exact this
  obtain ⟨fs1, s1, s2, s3, s4⟩ := hsec
  have hkl : ∀ n ∈ ns, isStructTy n.ty = false → n.name ∉ (kidLines ns).map Prod.fst := fun n hn h => leaf_not_kid hnd hn h
  have hlk : ∀ n ∈ ns, n.ty.isLeaf = false → n.name ∉ (leafLines ns).map Prod.fst := by
    intro n hn hl hx
    obtain ⟨p, hp, he⟩ := List.mem_map.1 hx
    obtain ⟨m', hm', rfl, hl'⟩ := mem_leafLines hp
    have := leaf_not_kid.name_inj hnd hm' hn he
    subst this
    rw [hl] at hl'
    cases hl'
  obtain ⟨fs2, r1, r2, r3, r4⟩ := runKids_ok (path := if dot && decide (path ≠ []) then path ++ c!"." else path)
    (nodup_kidLines hnd) (valOf ws) (subs := nrdFields U L prog S ts) (ts := fs1) (by
      intro q hq
      have hd : dot = true := by
        refine hdot (List.any_eq_true.2 ?_)
        obtain ⟨m, hm, rfl, c', hc'⟩ := mem_kidLines hq
        exact ⟨m, hm, by rw [hc']; rfl⟩
      obtain ⟨n, hn, rfl, c', hc'⟩ := mem_kidLines hq
      obtain ⟨t, ht⟩ := val hts n hn
      obtain ⟨w, hw⟩ := val hws n hn
      refine ⟨c', nrdVal U L prog S t, hc', ?_, ?_, ?_⟩
      · rw [nrdFields_lookup, ht]; rfl
      · rw [valOf_eq hw, ← hkid n hn c' hc' t w ht hw, hd]
        unfold lowerPath
        by_cases hp : path = []
        · simp [hp]
        · simp [hp]
      · exact lookup_isSome (by rw [s2, hts]; exact List.mem_map_of_mem hn))
  have hfs : fs2 = ws := by
    refine fields_ext (by rw [r2, s2, hts, hws]) (by rw [r2, s2, hts]; exact hnd) ?_
    intro x hx
    rw [r2, s2, hts] at hx
    obtain ⟨n, hn, rfl⟩ := List.mem_map.1 hx
    obtain ⟨w, hw⟩ := val hws n hn
    cases hty : n.ty with
    | struct c' => rw [r3 _ (kid_mem hn hty), valOf_eq hw, hw]
    | vec x =>
      rw [r4 _ (hkl n hn (by rw [hty]; rfl)), s4 _ (hlk n hn (by rw [hty]; rfl)), hvec n hn x hty]
    | simple ty =>
      rw [r4 _ (hkl n hn (by rw [hty]; rfl)), s3 _ (leaf_mem hn (by rw [hty]; rfl)), valOf_eq hw, hw]
    | enum x =>
      rw [r4 _ (hkl n hn (by rw [hty]; rfl)), s3 _ (leaf_mem hn (by rw [hty]; rfl)), valOf_eq hw, hw]
  rw [s1, R.ok_bind]
  simp only [if_true]
  rw [r1, R.ok_bind, hfs]
  rfl

/-- An object without sections is left as it is. -/
theorem nrd_none (hc : NRdCode U prog) (hcl : NoClash U) {S : List (Str × Items)} {u : Bool} {ty : MTy} {t : Val}
    (ht : CTable.WT U u ty t) : ∀ (c path : Str), ty = .struct c → (∀ k, Under path k → S.lookup k = none) →
      nrdVal U L prog S t c path = .ok (true, t) := by
  induction ht with
  | undef _ h _ _ => intro c path e; exact absurd e (h c)
  | simple => intro c path e; cases e
  | enum => intro c path e; cases e
  | vec => intro c path e; cases e
  | @struct n ms ts hcls hnames _ ih =>
    intro c path e hno
    cases e
    have hp := hno path (Or.inr (Or.inl rfl))
    refine nrd_all hc hcl hcls hnames hnames ?_ (fun _ _ _ _ => rfl) ?_
    · intro m hm hl t w h1 h2
      rw [h1] at h2
      cases h2
      refine Or.inl ⟨memberText_none ?_, rfl⟩
      unfold itemText
      rw [hp]
      rfl
    · intro m hm c' hc' t w h1 h2
      rw [h1] at h2
      cases h2
      exact ih m hm t h1 c' _ hc' fun k hk => hno k (under_lower (hc.ident _ ms hcls m hm) hk)

theorem lowerPath_longer (path : Str) {n : Str} (hn : Ident n) : path.length < (lowerPath path (spaced n)).length := by
  have := List.length_pos_iff.2 (spaced_ne hn)
  unfold lowerPath
  split
  · rename_i h; subst h; simpa using this
  · simp

/-- The reading program makes of what was written what `Carried` says, if single members survive. -/
theorem ini_carried (hgT : T.Good) (hidT : ∀ c ms, T.cls c = some ms → ∀ m ∈ ms, Ident m.name) (hc : NRdCode U prog)
    (hcl : NoClash U) (hs : EnumsBeside U) {S : List (Str × Items)}
    {P : MTy → Val → Val → Val → Prop}
    (hP : ∀ ty d t v, ty.isLeaf = true → P ty d t v →
      (guard g delta (if g then some d else none) v = .ok true → ∀ s, iniLeafText T L ty v = .ok s →
        iniLeafConv U L ty s = .val v) ∧
      (guard g delta (if g then some d else none) v = .ok false → v = t))
    {ty : MTy} {d t v : Val} (h : Aim T U .nIni P ty d t v) :
    ∀ (c path : Str), ty = .struct c → CTable.WT U true ty t → Filed T L g delta S path c v →
      ∃ w, nrdVal U L prog S t c path = .ok (true, w) ∧ Carried T U (.struct c) t v w := by
  induction h with
  | leaf hl _ => intro c path e; subst e; cases hl
  | vec _ => intro c path e; cases e
  | @struct c ms ns d ds ts fs hcls hcls' hds hts hfs hty haim hnew ih =>
    intro c1 path e ht hf
    cases e
    cases hf with
    | @mk _ _ ms1 ds1 _ hcls1 hds1 _ hnv hleaf hother hbelow hkids =>
      rw [hcls] at hcls1
      cases hcls1
      rw [hds] at hds1
      cases hds1
      obtain ⟨ns1, ts1, e, hcls1', _, hwt⟩ := wt_struct ht
      rw [hcls'] at hcls1'
      cases hcls1'
      cases e
      have hgood := hc.good
      have hnd := hgood.nodup c ns hcls'
      have hmem : ∀ n ∈ ns, ∃ w', ∃ t', ts.lookup n.name = some t' ∧
          (n.ty.isLeaf = true → (memberText S ns path n.name = none ∧ t' = w') ∨
            ∃ s, memberText S ns path n.name = some s ∧ iniLeafConv U L n.ty s = .val w') ∧
          (∀ x, n.ty = .vec x → w' = t') ∧
          (∀ c', n.ty = .struct c' → nrdVal U L prog S t' c' (lowerPath path (spaced n.name)) = .ok (true, w')) ∧
          (∀ m ∈ ms, n.name = m.name → ∀ v', fs.lookup m.name = some v' → Carried T U m.ty t' v' w') ∧
          (n.name ∉ ms.map CMember.name → w' = t') := by
        intro n hn
        obtain ⟨t', ht'⟩ := lookup_isSome (fs := ts) (n := n.name) (by rw [hts]; exact List.mem_map_of_mem hn)
        by_cases hin : n.name ∈ ms.map CMember.name
        · obtain ⟨m, hm, hnm⟩ := List.mem_map.1 hin
          obtain ⟨v', hv'⟩ := lookup_isSome (fs := fs) (n := m.name) (by rw [hfs]; exact List.mem_map_of_mem hm)
          have hnt := hty m hm n hn hnm.symm
          obtain ⟨ds', hd1, _, hd3⟩ := dflt_struct hgT hcls
          rw [hds] at hd1
          cases hd1
          have hd' := hd3 m hm
          have hwt' := hwt n hn t' ht'
          rw [← hnm] at ht'
          suffices hs : ∃ w', (n.ty.isLeaf = true → (memberText S ns path n.name = none ∧ t' = w') ∨
                ∃ s, memberText S ns path n.name = some s ∧ iniLeafConv U L n.ty s = .val w') ∧
              (∀ x, n.ty = .vec x → w' = t') ∧
              (∀ c', n.ty = .struct c' → nrdVal U L prog S t' c' (lowerPath path (spaced n.name)) = .ok (true, w')) ∧
              Carried T U m.ty t' v' w' by
            obtain ⟨w', h1, h2, h3, h4⟩ := hs
            refine ⟨w', t', by rw [← hnm]; exact ht', h1, h2, h3, ?_, fun h => absurd hin h⟩
            intro m' hm' he v'' hv''
            rw [← he, ← hnm, hv'] at hv''
            cases hv''
            rw [← hty m' hm' n hn he, hnt]
            exact h4
          have hA := haim m hm n hn hnm.symm _ t' v' hd' ht' hv'
          by_cases hl : m.ty.isLeaf = true
          · have hln : n.ty.isLeaf = true := by rw [hnt]; exact hl
            refine ⟨v', fun _ => ?_, ?_, ?_, .leaf hl⟩
            · rw [memberText_item hs hcls' hn hln, ← hnm, hnt]
              obtain ⟨hp1, hp2⟩ := hP _ _ _ _ hl (hA.inv_leaf hl)
              rcases hleaf m hm hl _ v' hd' hv' with ⟨hg, h1⟩ | ⟨hg, s, hs1, h1⟩
              · exact Or.inl ⟨h1, (hp2 hg).symm⟩
              · exact Or.inr ⟨s, h1, hp1 hg s hs1⟩
            · intro x hx; rw [hx] at hln; cases hln
            · intro x hx; rw [hx] at hln; cases hln
          · cases hmt : m.ty with
            | simple _ => rw [hmt] at hl; exact absurd rfl hl
            | enum _ => rw [hmt] at hl; exact absurd rfl hl
            | vec x => exact absurd hmt (hnv m hm x)
            | struct c' =>
              rw [hmt] at hnt
              obtain ⟨w', h1, h2⟩ := ih m hm n hn hnm.symm _ t' v' hd' ht' hv' c' (lowerPath path (spaced m.name)) hmt
                (by rw [hmt, ← hnt]; exact hwt') (hkids m hm c' hmt v' hv')
              refine ⟨w', ?_, ?_, ?_, h2⟩
              · intro hl; rw [hnt] at hl; cases hl
              · intro x hx; rw [hnt] at hx; cases hx
              · intro c'' hc''
                rw [hnt] at hc''
                cases hc''
                rw [← hnm]
                exact h1
        · refine ⟨t', t', ht', ?_, fun _ _ => rfl, ?_, ?_, fun _ => rfl⟩
          · intro hl
            refine Or.inl ⟨memberText_none (hother _ ?_), rfl⟩
            intro m hm _ he
            exact hin (by rw [← he]; exact List.mem_map_of_mem hm)
          · intro c' hc'
            refine nrd_none hc hcl (hwt n hn t' ht') c' _ hc' ?_
            intro k hk
            have hidn := hc.ident c ns hcls' n hn
            refine hbelow k (under_lower hidn hk) ?_ ?_
            · intro he
              have h0 := lowerPath_longer path hidn
              rw [he] at hk
              rcases hk with hk | hk | ⟨r, hk⟩
              · exact lowerPath_ne hidn hk
              · rw [← hk] at h0
                omega
              · have := congrArg List.length hk
                simp only [List.length_append] at this
                omega
            · intro m hm c'' _ hu
              have := under_inj (hidT c ms hcls m hm) hidn hu hk
              exact hin (by rw [← this]; exact List.mem_map_of_mem hm)
          · intro m hm he
            exact absurd (he ▸ List.mem_map_of_mem hm) hin
      obtain ⟨ws, hws, hall⟩ := choose_fields hnd hmem
      refine ⟨.struct ws, nrd_all hc hcl hcls' hts hws ?_ ?_ ?_, .struct hcls hcls' hts hfs hws ?_ ?_⟩
      · intro n hn hl t w a1 a2
        obtain ⟨w', h1, t', h2, h3, _⟩ := hall n hn
        rw [a1] at h2
        rw [a2] at h1
        cases h1
        cases h2
        exact h3 hl
      · intro n hn x hx
        obtain ⟨w', h1, t', h2, _, h3, _⟩ := hall n hn
        rw [h1, h2, h3 x hx]
      · intro n hn c' hc' t w a1 a2
        obtain ⟨w', h1, t', h2, _, _, h3, _⟩ := hall n hn
        rw [a1] at h2
        rw [a2] at h1
        cases h1
        cases h2
        exact h3 c' hc'
      · intro m hm n hn he t' v' w' a1 a2 a3
        obtain ⟨w1, h1, t1, h2, _, _, _, h4, _⟩ := hall n hn
        rw [he] at h1 h2
        rw [a1] at h2
        rw [a3] at h1
        cases h1
        cases h2
        exact h4 m hm he v' a2
      · intro n hn hni
        obtain ⟨w1, h1, t1, h2, _, _, _, _, h5⟩ := hall n hn
        rw [h1, h2, h5 hni]

/-! ### Which objects are written, and which are read back -/

/-- The text of a floating point number is converted back.  (Proof notion, models no code.) -/
def FloatBack (L : IniLib) : Val → Prop
  | .flt b => L.stof (L.fmtF b) = some b
  | .dbl b => L.stod (L.fmtD b) = some b
  | _ => True

theorem inSigned_le {a b : Nat} (hab : a ≤ b) {i : Int} (h : inSigned a i) : inSigned b i := by
  have := Nat.pow_le_pow_right (n := 2) (by decide) (Nat.sub_le_sub_right hab 1)
  have : (2 : Int) ^ (a - 1) ≤ 2 ^ (b - 1) := by exact_mod_cast this
  obtain ⟨h1, h2⟩ := h
  constructor <;> omega

/-- Texts of members are converted back by the other program. -/
theorem iniLeaf_grows (hgU : U.Good) (hU : U.EnumsOk) (hb : T.longBits ≤ U.longBits) {ty : MTy} (hl : ty.isLeaf = true)
    (hgr : ∀ x, ty = .enum x → EnumGrows T U x) {v : Val} (hw : CTable.WT T false ty v) (hf : FloatBack L v) {s : Str}
    (hs : iniLeafText T L ty v = .ok s) : iniLeafConv U L ty s = .val v := by
  cases ty with
  | struct _ => cases hl
  | vec _ => cases hl
  | enum c =>
    cases hw with
    | undef h _ _ _ => cases h
    | @enum _ e val i h1 h2 h3 =>
      obtain ⟨e1, val1, e', val', g1, g2, hcl, hgl⟩ := hgr c rfl
      rw [h1] at g1
      cases g1
      simp only [iniLeafText, iniEnumText, h1] at hs
      injection hs with hs
      obtain ⟨b, hb⟩ := sToE_grows (hU _ _ _ g2) hcl hgl h2 h3
      rw [hs] at hb
      simp [iniLeafConv, iniEnum, g2, hb]
  | simple ty =>
    cases hw with
    | undef h _ _ _ => cases h
    | simple hv =>
      have hbits := hgU.bits
      cases ty <;> cases v <;> try (simp [CTable.simpleVal] at hv; done)
      all_goals (injection hs with hs; subst hs; simp only [iniLeafConv, iniConv])
      case simple.simple.bool.bool b =>
        have : inSigned 32 (if b = true then 1 else 0) := by cases b <;> exact ⟨by decide, by decide⟩
        simp only [stoSigned_intText this, StoRes.conv]
        cases b <;> rfl
      case simple.simple.int.num i =>
        simp only [CTable.simpleVal, decide_eq_true_eq] at hv
        simp only [stoSigned_intText hv, StoRes.conv]
      case simple.simple.unsignedInt.num i =>
        simp only [CTable.simpleVal, decide_eq_true_eq] at hv
        simp only [stoUnsigned_intText (inUnsigned_le hbits hv), StoRes.conv, wrapUnsigned_id hv]
      case simple.simple.float.flt b => simp only [show L.stof (L.fmtF b) = some b from hf]
      case simple.simple.double.dbl b => simp only [show L.stod (L.fmtD b) = some b from hf]
      case simple.simple.long.num i =>
        simp only [CTable.simpleVal, decide_eq_true_eq] at hv
        simp only [stoSigned_intText (inSigned_le hb hv), StoRes.conv]
      case simple.simple.short.num i =>
        simp only [CTable.simpleVal, decide_eq_true_eq] at hv
        simp only [stoSigned_intText (inSigned_16 hv), StoRes.conv, wrapSigned_id (by decide) hv]
      case simple.simple.unsignedShort.num i =>
        simp only [CTable.simpleVal, decide_eq_true_eq] at hv
        simp only [stoUnsigned_intText (inUnsigned_le (Nat.le_trans (by decide) hbits) hv), StoRes.conv, wrapUnsigned_id hv]
      case simple.simple.unsignedLong.num i =>
        simp only [CTable.simpleVal, decide_eq_true_eq] at hv
        simp only [stoUnsigned_intText (inUnsigned_le hb hv), StoRes.conv]

/-- Objects that the writing program reads back can be written. -/
theorem IniOk.sends {path c : Str} {t v : Val} (h : IniOk T L g delta path c t v) : IniSends T L g delta path c v := by
  induction h with
  | @mk path c ms ds ts fs h1 h2 h3 h4 h5 h6 h7 h8 _ ih =>
    refine .mk h1 h2 h4 h5 h6 h7 ?_ ?_
    · intro m hm hl d v hd hv
      obtain ⟨t, ht⟩ := lookup_isSome (fs := ts) (n := m.name) (by rw [h3]; exact List.mem_map_of_mem hm)
      rcases h8 m hm hl d t v hd ht hv with ⟨a, _⟩ | ⟨a, s, b1, b2, b3, _⟩
      · exact Or.inl a
      · exact Or.inr ⟨a, s, b1, b2, b3⟩
    · intro m hm c' hc' v hv
      obtain ⟨t, ht⟩ := lookup_isSome (fs := ts) (n := m.name) (by rw [h3]; exact List.mem_map_of_mem hm)
      exact ih m hm c' hc' t v ht hv

theorem IniFits.leaves {P : Str → MTy → Val → Val → Prop} (hgT : T.Good) {path c : Str} {v : Val} (h : IniFits T P path c v) :
    Leaves T (fun ty v => ∃ n d, P n ty d v) (.struct c) v := by
  induction h with
  | @mk path c ms ds fs h1 h2 h3 h4 h5 h6 _ ih =>
    refine .struct h1 ?_
    intro m hm v hv
    obtain ⟨ds', e, hn, _⟩ := dflt_struct hgT h1
    rw [h2] at e
    cases e
    obtain ⟨d, hd⟩ := lookup_isSome (fs := ds) (n := m.name) (by rw [hn]; exact List.mem_map_of_mem hm)
    rcases shape_cases h3 hm with hl | ⟨c', hc'⟩
    · exact .leaf hl ⟨_, _, h6 m hm hl d v hd hv⟩
    · rw [hc']
      exact ih m hm c' hc' v hv

theorem IniFits.leavesD {P : Str → MTy → Val → Val → Prop} {path c : Str} {v : Val} (h : IniFits T P path c v) :
    ∀ d, LeavesD T (fun ty d v => ∃ n, P n ty d v) (.struct c) d v := by
  induction h with
  | @mk path c ms ds fs h1 h2 h3 h4 h5 h6 _ ih =>
    intro _
    refine .struct h1 h2 ?_
    intro m hm d v hd hv
    rcases shape_cases h3 hm with hl | ⟨c', hc'⟩
    · exact .leaf hl ⟨_, h6 m hm hl d v hd hv⟩
    · rw [hc']
      exact ih m hm c' hc' v hv d

theorem IniFit.floatBack {n : Str} {ty : MTy} {v : Val} (h : IniFit T L n ty v) : FloatBack L v := by
  obtain ⟨_, h⟩ := h
  cases v <;> first | trivial | exact h.2

end
end Stfx.Run
