import Verif.Run.IniFits
/-
The sections of n_ini files.
-/
set_option autoImplicit false
namespace Stfx.Run
open Stfx.Items Stfx.Parser Stfx.Gen Stfx.Lexer

/-- The name of the section of the struct member found by following member names: blanks for underscores, dots between.
(Proof notion, models no code.) -/
def sectionName (p : List Str) : Str := (c!".").intercalate (p.map fun n => n.map fun c => if c = '_' then ' ' else c)

/-- The lines that are section headings.  (Proof notion, models no code.) -/
def headings (ls : List Str) : List Str := ls.filter fun l => l.head? = some '['

/-- Is the value a struct?  (Proof notion, models no code.) -/
def Val.isStruct : Val → Bool
  | .struct _ => true
  | _ => false

mutual
/-- The struct members of an object, at any depth, by the names that lead to them.  (Proof notion, models no code.) -/
def structPaths : Val → List (List Str)
  | .struct fs => structPathsF fs
  | .vec _ | .undef | .bool _ | .num _ | .flt _ | .dbl _ | .str _ => []
/-- See the definition before it.  (Proof notion, models no code.) -/
def structPathsF : List (Str × Val) → List (List Str)
  | [] => []
  | (n, v) :: fs => (if v.isStruct then [n] :: (structPaths v).map (n :: ·) else []) ++ structPathsF fs
end

theorem dropAll {α : Type} {p : α → Bool} {l : List α} (h : ∀ a ∈ l, p a = true) : l.dropWhile p = [] := by
  induction l with
  | nil => rfl
  | cons a l ih =>
    rw [List.dropWhile_cons, if_pos (h a List.mem_cons_self)]
    exact ih fun a ha => h a (List.mem_cons_of_mem _ ha)

theorem map_nodup {α β : Type} {f : α → β} (hf : ∀ a b, f a = f b → a = b) {l : List α} (h : l.Nodup) : (l.map f).Nodup := by
  induction l with
  | nil => exact List.nodup_nil
  | cons a l ih =>
    rw [List.nodup_cons] at h
    rw [List.map_cons, List.nodup_cons]
    refine ⟨?_, ih h.2⟩
    intro hm
    obtain ⟨b, hb, e⟩ := List.mem_map.1 hm
    exact h.1 (hf _ _ e ▸ hb)

theorem sectionName_nil : sectionName [] = [] := rfl

theorem sectionName_one (n : Str) : sectionName [n] = spaced n := by
  simp [sectionName, List.intercalate, spaced]

theorem sectionName_cons (n : Str) {p : List Str} (hp : p ≠ []) : sectionName (n :: p) = spaced n ++ '.' :: sectionName p := by
  cases p with
  | nil => exact absurd rfl hp
  | cons m p => simp [sectionName, List.intercalate, spaced]

theorem sectionName_snoc {p : List Str} (hp : p ≠ []) (n : Str) : sectionName (p ++ [n]) = sectionName p ++ '.' :: spaced n := by
  induction p with
  | nil => exact absurd rfl hp
  | cons m p ih =>
    cases p with
    | nil => rw [List.cons_append, List.nil_append, sectionName_cons m (by simp), sectionName_one, sectionName_one]
    | cons m' p =>
      rw [List.cons_append, sectionName_cons m (by simp), ih (by simp), sectionName_cons m (by simp)]
      simp

theorem sectionName_ne {p : List Str} (hp : p ≠ []) (hi : ∀ n ∈ p, Ident n) : sectionName p ≠ [] := by
  cases p with
  | nil => exact absurd rfl hp
  | cons m p =>
    have hm := spaced_ne (hi m List.mem_cons_self)
    cases p with
    | nil => rw [sectionName_one]; exact hm
    | cons m' p => rw [sectionName_cons m (by simp)]; simp

theorem lowerPath_sectionName {p : List Str} (hi : ∀ n ∈ p, Ident n) (n : Str) :
    lowerPath (sectionName p) (spaced n) = sectionName (p ++ [n]) := by
  by_cases hp : p = []
  · subst hp
    rw [List.nil_append, sectionName_one, sectionName_nil]
    rfl
  · rw [sectionName_snoc hp]
    unfold lowerPath
    rw [if_neg (sectionName_ne hp hi)]
    simp

/-- Different members have different sections. -/
theorem sectionName_inj {p q : List Str} (hp : ∀ n ∈ p, Ident n) (hq : ∀ n ∈ q, Ident n) (h : sectionName p = sectionName q) :
    p = q := by
  induction p generalizing q with
  | nil =>
    by_cases hq0 : q = []
    · exact hq0.symm
    · exact absurd h.symm (sectionName_ne hq0 hq)
  | cons n p ih =>
    cases q with
    | nil => exact absurd h (sectionName_ne (by simp) hp)
    | cons m q =>
      have hn := hp n List.mem_cons_self
      have hm := hq m List.mem_cons_self
      have key : ∀ {n : Str} {p : List Str}, Ident n →
          (sectionName (n :: p)).takeWhile (· ≠ '.') = spaced n ∧
          (sectionName (n :: p)).dropWhile (· ≠ '.') = if p = [] then [] else '.' :: sectionName p := by
        intro n p hn
        have hc : ∀ c ∈ spaced n, (fun x : Char => decide (x ≠ '.')) c = true := by
          intro c hc
          simpa using (spaced_chars hn c hc).2
        by_cases hp : p = []
        · subst hp
          rw [sectionName_one]
          refine ⟨takeWhile_all _ hc, ?_⟩
          rw [if_pos rfl]
          exact dropAll hc
        · rw [sectionName_cons n hp, if_neg hp]
          exact ⟨takeWhile_append_stop hc (by decide) _, dropWhile_append_stop hc (by decide) _⟩
      obtain ⟨a1, a2⟩ := key (p := p) hn
      obtain ⟨b1, b2⟩ := key (p := q) hm
      rw [h] at a1 a2
      have e1 := spaced_inj hn hm (a1.symm.trans b1)
      have e2 := a2.symm.trans b2
      have e3 : sectionName p = sectionName q := by
        by_cases hp0 : p = [] <;> by_cases hq0 : q = [] <;> simp [hp0, hq0] at e2 ⊢
        exact e2
      rw [e1, ih (fun x hx => hp x (List.mem_cons_of_mem _ hx)) (fun x hx => hq x (List.mem_cons_of_mem _ hx)) e3]

theorem structPathsF_eq (fs : List (Str × Val)) : structPathsF fs =
    fs.flatMap fun p => if p.2.isStruct then [p.1] :: (structPaths p.2).map (p.1 :: ·) else [] := by
  induction fs with
  | nil => rfl
  | cons p fs ih =>
    obtain ⟨n, v⟩ := p
    rw [structPathsF, ih, List.flatMap_cons]

theorem headings_append (a b : List Str) : headings (a ++ b) = headings a ++ headings b := by
  simp [headings]

section
variable {T : CTable} {L : IniLib} {prog : List Item} {g delta : Bool}

/-- What a member adds to the sections.  (Proof notion, models no code.) -/
def pathsOf (p : Str × Val) : List (List Str) := if p.2.isStruct then [p.1] :: (structPaths p.2).map (p.1 :: ·) else []

theorem wt_isStruct {u : Bool} {ty : MTy} {v : Val} (h : CTable.WT T u ty v) : v.isStruct = isStructTy ty := by
  cases h with
  | undef _ h _ _ =>
    cases ty <;> first | rfl | exact absurd rfl (h _)
  | @simple ty v h => cases ty <;> cases v <;> first | rfl | (simp [CTable.simpleVal] at h; done)
  | enum _ _ _ => rfl
  | struct _ _ _ => rfl
  | vec _ => rfl

theorem headings_lines {n : Str} (hn : Ident n) {o : List Str} (h : o = [] ∨ ∃ s, o = [itemLine n s]) : headings o = [] := by
  rcases h with rfl | ⟨s, rfl⟩
  · rfl
  · obtain ⟨c, r, rfl, _, hw⟩ := hn
    have : c ≠ '[' := isWord_ne (hw c List.mem_cons_self) (by decide)
    simp [headings, itemLine, this]

theorem nwrAct_line {c path : Str} {dd : List (Str × Val)} {ws : List (Str × NVal)} {n : Str} {ty : MTy} (hl : isStructTy ty = false)
    {o : List Str} (h : nwrAct T L delta c path dd ws (lineNWr g (n, ty)) = .ok o) : o = [] ∨ ∃ s, o = [itemLine n s] := by
  cases ty with
  | struct _ => cases hl
  | vec _ => cases h; exact Or.inl rfl
  | simple ty =>
    simp only [lineNWr, nwrAct] at h
    obtain ⟨w, _, h⟩ := R.bind_eq_ok.1 h
    obtain ⟨b, _, h⟩ := R.bind_eq_ok.1 h
    split at h
    · obtain ⟨s, _, h⟩ := R.bind_eq_ok.1 h
      cases h; exact Or.inr ⟨s, rfl⟩
    · cases h; exact Or.inl rfl
  | enum e =>
    simp only [lineNWr, nwrAct] at h
    obtain ⟨w, _, h⟩ := R.bind_eq_ok.1 h
    obtain ⟨b, _, h⟩ := R.bind_eq_ok.1 h
    split at h
    · obtain ⟨s, _, h⟩ := R.bind_eq_ok.1 h
      cases h; exact Or.inr ⟨s, rfl⟩
    · cases h; exact Or.inl rfl

theorem flatMap_filter_nil {α β : Type} {f : α → List β} {p : α → Bool} {l : List α} (h : ∀ a ∈ l, p a = true → f a = []) :
    (l.filter p).flatMap f = [] := by
  rw [List.flatMap_eq_nil_iff]
  intro a ha
  rw [List.mem_filter] at ha
  exact h a ha.1 ha.2

theorem flatMap_filter_not {α β : Type} {f : α → List β} {p : α → Bool} {l : List α} (h : ∀ a ∈ l, p a = true → f a = []) :
    (l.filter fun a => !p a).flatMap f = l.flatMap f := by
  induction l with
  | nil => rfl
  | cons a l ih =>
    have ih := ih fun a ha => h a (List.mem_cons_of_mem _ ha)
    rw [List.filter_cons]
    cases hp : p a with
    | true => simp [h a List.mem_cons_self hp, ih]
    | false => simp [ih]

theorem mapM_flatMap {α β : Type} {f : α → R (List Str)} {k : List Str → List β} {r : α → List β} {l : List α} {outs : List (List Str)}
    (hk : ∀ a b, k (a ++ b) = k a ++ k b) (hk0 : k [] = []) (h : l.mapM f = .ok outs) (hr : ∀ a ∈ l, ∀ o, f a = .ok o → k o = r a) :
    k outs.flatten = l.flatMap r := by
  induction l generalizing outs with
  | nil => cases h; exact hk0
  | cons a l ih =>
    rw [mapM_cons] at h
    obtain ⟨o, h1, h⟩ := R.bind_eq_ok.1 h
    obtain ⟨os, h2, h⟩ := R.bind_eq_ok.1 h
    cases h
    rw [List.flatten_cons, hk, List.flatMap_cons, hr a List.mem_cons_self o h1,
      ih h2 fun a ha => hr a (List.mem_cons_of_mem _ ha)]

theorem map_lookup_fields {fs : List (Str × Val)} (hnd : (fs.map Prod.fst).Nodup) :
    (fs.map Prod.fst).map (fun n => (n, valOf fs n)) = fs := by
  induction fs with
  | nil => rfl
  | cons p fs ih =>
    obtain ⟨n, v⟩ := p
    rw [List.map_cons, List.nodup_cons] at hnd
    rw [List.map_cons, List.map_cons]
    congr 1
    · simp [valOf]
    · refine Eq.trans (List.map_congr_left ?_) (ih hnd.2)
      intro m hm
      have hne : m ≠ n := fun e => hnd.1 (e ▸ hm)
      have hb : (m == n) = false := by simpa using hne
      simp [valOf, List.lookup_cons, hb]

/-- The section headings written for an object. -/
theorem wr_headings (hc : NCode T prog g) {ty : MTy} {v : Val} (hv : CTable.WT T false ty v) :
    ∀ {c : Str}, ty = .struct c → ∀ {pre : List Str}, (∀ n ∈ pre, Ident n) → ∀ {ls : List Str},
      (nwrVal T L prog delta v).wr c (sectionName pre) = .ok ls →
      headings ls = (if pre = [] then [] else [c!"[" ++ sectionName pre ++ c!"]"]) ++
        (structPaths v).map fun p => c!"[" ++ sectionName (pre ++ p) ++ c!"]" := by
  induction hv with
  | undef h _ _ _ => cases h
  | simple _ => intro c h; cases h
  | enum _ _ _ => intro c h; cases h
  | vec _ _ => intro c h; cases h
  | @struct c' ms fs h1 h2 h3 ih =>
    intro c hcc pre hpre ls h
    obtain rfl : c = c' := (MTy.struct.inj hcc).symm
    have hnd := hc.good.nodup c ms h1
    have hid := hc.ident c ms h1
    rw [nwrVal] at h
    simp only [runNWr, hc.wr c ms h1] at h
    obtain ⟨outs, h4, h⟩ := R.bind_eq_ok.1 h
    cases h
    have hhead : headings (heading (sectionName pre)) = if pre = [] then [] else [c!"[" ++ sectionName pre ++ c!"]"] := by
      unfold heading
      by_cases hp : pre = []
      · subst hp; rfl
      · rw [if_neg hp, if_neg (sectionName_ne hp hpre)]
        simp [headings]
    rw [headings_append, hhead]
    congr 1
    -- the members
    let con : Line → List Str := fun q => (pathsOf (q.1, valOf fs q.1)).map fun p => c!"[" ++ sectionName (pre ++ p) ++ c!"]"
    have hval : ∀ m ∈ ms, fs.lookup m.name = some (valOf fs m.name) := fun m hm =>
      lookup_valOf (by rw [h2]; exact List.mem_map_of_mem hm)
    have hcon : ∀ m ∈ ms, isStructTy m.ty = false → con (m.name, m.ty) = [] := by
      intro m hm hs
      have := wt_isStruct (h3 m hm _ (hval m hm))
      simp only [con, pathsOf]
      rw [this, hs]
      rfl
    rw [mapM_map] at h4
    have hk := mapM_flatMap (k := headings) (r := con) headings_append rfl h4 (by
      intro q hq o ho
      obtain ⟨m, hm, rfl⟩ := mem_ordered.1 hq
      cases hs : isStructTy m.ty with
      | false =>
        rw [hcon m hm hs]
        exact headings_lines (hid m hm) (nwrAct_line hs ho)
      | true =>
        have hst := wt_isStruct (h3 m hm _ (hval m hm))
        rw [hs] at hst
        obtain ⟨n, ty, i⟩ := m
        cases ty with
        | simple _ => cases hs
        | enum _ => cases hs
        | vec _ => cases hs
        | struct c' =>
          simp only [lineNWr, nwrAct] at ho
          have hf : field (nwrFields T L prog delta fs) n = .ok (nwrVal T L prog delta (valOf fs n)) := by
            unfold field
            rw [nwrFields_lookup, hval _ hm]
            rfl
          rw [hf, R.ok_bind, lowerPath_sectionName hpre] at ho
          have := ih _ hm _ (hval _ hm) rfl (pre := pre ++ [n]) (by
            intro x hx
            rcases List.mem_append.1 hx with hx | hx
            · exact hpre x hx
            · rw [List.mem_singleton.1 hx]; exact hid _ hm) ho
          rw [this]
          simp only [con, pathsOf]
          simp only at hst
          rw [if_pos hst, if_neg (by simp)]
          simp [Function.comp_def])
    rw [hk]
    have hmsf : (ordered ms).flatMap con = ms.flatMap fun m => con (m.name, m.ty) := by
      unfold ordered
      rw [List.flatMap_append, List.flatMap_map, List.flatMap_map]
      rw [flatMap_filter_nil (f := fun m : CMember => con (m.name, m.ty)), List.nil_append,
        flatMap_filter_not (f := fun m : CMember => con (m.name, m.ty))]
      all_goals
        intro m hm hs
        refine hcon m hm ?_
        cases hty : m.ty <;> simp_all [isSimpleTy, isStructTy]
    rw [hmsf]
    have : structPaths (.struct fs) = fs.flatMap pathsOf := by
      rw [structPaths, structPathsF_eq]
      rfl
    rw [this, List.map_flatMap]
    conv => rhs; rw [← map_lookup_fields (fs := fs) (by rw [h2]; exact hnd), h2, List.map_map, List.flatMap_map]
    rfl

end

theorem structPaths_nonempty (v : Val) : [] ∉ structPaths v := by
  cases v with
  | struct fs =>
    rw [structPaths, structPathsF_eq]
    intro h
    obtain ⟨p, _, h⟩ := List.mem_flatMap.1 h
    split at h
    · rcases List.mem_cons.1 h with h | h
      · cases h
      · obtain ⟨x, _, e⟩ := List.mem_map.1 h
        cases e
    · cases h
  | _ => simp [structPaths]

theorem lookup_of_mem {fs : List (Str × Val)} (hnd : (fs.map Prod.fst).Nodup) {p : Str × Val} (h : p ∈ fs) :
    fs.lookup p.1 = some p.2 := by
  induction fs with
  | nil => cases h
  | cons q fs ih =>
    rw [List.map_cons, List.nodup_cons] at hnd
    obtain ⟨n, v⟩ := q
    rcases List.mem_cons.1 h with rfl | h
    · simp
    · have hne : p.1 ≠ n := fun e => hnd.1 (List.mem_map.2 ⟨p, h, e⟩)
      have hb : (p.1 == n) = false := by simpa using hne
      rw [List.lookup_cons, hb]
      exact ih hnd.2 h

/-- The paths of an object are different, and made of member names. -/
theorem structPaths_nodup {T : CTable} (hg : T.Good) {u : Bool} {ty : MTy} {v : Val} (hv : CTable.WT T u ty v) :
    (structPaths v).Nodup := by
  induction hv with
  | undef _ _ _ _ => exact List.nodup_nil
  | @simple ty v h => cases v <;> first | exact List.nodup_nil | (cases ty <;> simp [CTable.simpleVal] at h; done)
  | enum _ _ _ => exact List.nodup_nil
  | vec _ _ => exact List.nodup_nil
  | @struct c ms fs h1 h2 h3 ih =>
    have hnd := hg.nodup c ms h1
    rw [structPaths, structPathsF_eq]
    have hval : ∀ p ∈ fs, (structPaths p.2).Nodup := by
      rw [← h2] at hnd
      intro p hp
      have hin : p.1 ∈ ms.map CMember.name := by rw [← h2]; exact List.mem_map_of_mem hp
      obtain ⟨m, hm, e⟩ := List.mem_map.1 hin
      refine ih m hm p.2 ?_
      rw [e]
      exact lookup_of_mem hnd hp
    rw [← h2] at hnd
    clear ih h3 h2
    induction fs with
    | nil => exact List.nodup_nil
    | cons p fs ihf =>
      rw [List.map_cons, List.nodup_cons] at hnd
      rw [List.flatMap_cons, List.nodup_append]
      refine ⟨?_, ihf hnd.2 (fun p hp => hval p (List.mem_cons_of_mem _ hp)), ?_⟩
      · split
        · rw [List.nodup_cons]
          refine ⟨?_, ?_⟩
          · intro h
            obtain ⟨x, hx, e⟩ := List.mem_map.1 h
            cases e
            exact structPaths_nonempty _ hx
          · exact map_nodup (fun a b hab => (List.cons.inj hab).2) (hval p List.mem_cons_self)
        · exact List.nodup_nil
      · intro a ha b hb e
        subst e
        have h1 : a.head? = some p.1 := by
          split at ha
          · rcases List.mem_cons.1 ha with rfl | ha
            · rfl
            · obtain ⟨x, _, rfl⟩ := List.mem_map.1 ha
              rfl
          · cases ha
        obtain ⟨q, hq, hb⟩ := List.mem_flatMap.1 hb
        have h2 : a.head? = some q.1 := by
          split at hb
          · rcases List.mem_cons.1 hb with rfl | hb
            · rfl
            · obtain ⟨x, _, rfl⟩ := List.mem_map.1 hb
              rfl
          · cases hb
        rw [h1] at h2
        exact hnd.1 (by rw [Option.some.inj h2]; exact List.mem_map_of_mem hq)

/-- They are made of member names. -/
theorem structPaths_ident {T : CTable} {prog : List Item} (hc : NRdCode T prog) {u : Bool} {ty : MTy} {v : Val}
    (hv : CTable.WT T u ty v) : ∀ p ∈ structPaths v, ∀ n ∈ p, Ident n := by
  induction hv with
  | undef _ _ _ _ => intro p hp; cases hp
  | @simple ty v h => cases v <;> first | (intro p hp; cases hp; done) | (cases ty <;> simp [CTable.simpleVal] at h; done)
  | enum _ _ _ => intro p hp; cases hp
  | vec _ _ => intro p hp; cases hp
  | @struct c ms fs h1 h2 h3 ih =>
    have hnd := hc.good.nodup c ms h1
    rw [← h2] at hnd
    intro p hp
    rw [structPaths, structPathsF_eq] at hp
    obtain ⟨q, hq, hp⟩ := List.mem_flatMap.1 hp
    have hin : q.1 ∈ ms.map CMember.name := by rw [← h2]; exact List.mem_map_of_mem hq
    obtain ⟨m, hm, e⟩ := List.mem_map.1 hin
    have hid : Ident q.1 := e ▸ hc.ident c ms h1 m hm
    split at hp
    · rcases List.mem_cons.1 hp with rfl | hp
      · intro n hn
        rw [List.mem_singleton.1 hn]
        exact hid
      · obtain ⟨x, hx, rfl⟩ := List.mem_map.1 hp
        intro n hn
        rcases List.mem_cons.1 hn with rfl | hn
        · exact hid
        · exact ih m hm q.2 (by rw [e]; exact lookup_of_mem hnd hq) x hx n hn
    · cases hp

end Stfx.Run
