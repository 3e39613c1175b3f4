import Verif.Run.XmlExact
import Verif.Run.Samples
/-
Property theorems C37, C38 and C46: the contents of the XML files that are written.

`fs` are header files, `prog` the structs file generated from them, `T` the classes the compiler makes of the headers and
`L` the parts of tinyxml2 that are left open.
-/
set_option autoImplicit false
namespace Stfx.Run
open Stfx.Items Stfx.Parser Stfx.Gen Stfx.Lexer

/-! ### C37 -/

section
variable {T : CTable} {L : Lib} {prog : List Item} {k : Kind} {fs : List (Str × Header)} {out : OutSpec}

/-- A simple or enum member is present in an element: as an attribute or as a child element.  (Specification notion, models no code.) -/
def Present (k : Kind) (n : Str) (as : List (Str × Str)) (ks : List Node) : Prop :=
  if k = .xml then ∃ x ∈ ks, x.named n = true else n ∈ as.map Prod.fst

/-- Attributes `as` and children `ks` contain exactly the differences of an object of struct `c` to its default: a simple or
enum member is present if and only if it differs from the default, struct and vector members are there and contain the
differences of their objects, and there is nothing else.  (Specification notion, models no code.) -/
inductive Differences (T : CTable) (k : Kind) : MTy → Val → List (Str × Str) → List Node → Prop
  | struct {c : Str} {ms : List CMember} {ds fs : List (Str × Val)} {as : List (Str × Str)} {ks : List Node} :
      T.cls c = some ms → T.dflt c = .struct ds → fs.map Prod.fst = ms.map CMember.name →
      (∀ m ∈ ms, m.ty.isLeaf = true → ∀ d v, ds.lookup m.name = some d → fs.lookup m.name = some v →
        (Present k m.name as ks ↔ ¬ CppEqual v d)) →
      (∀ m ∈ ms, m.ty.isLeaf = false → ∃ as' ks', Node.elem m.name as' ks' ∈ ks) →
      (∀ m ∈ ms, m.ty.isLeaf = false → ∀ v as' ks', fs.lookup m.name = some v → Node.elem m.name as' ks' ∈ ks →
        Differences T k m.ty v as' ks') →
      (∀ a ∈ as.map Prod.fst, ∃ m ∈ ms, m.ty.isLeaf = true ∧ m.name = a) →
      (∀ x ∈ ks, ∃ m ∈ ms, x.named m.name = true) →
      Differences T k (.struct c) (.struct fs) as ks
  | vec {c : Str} {vs : List Val} {ks : List Node} : ks.length = vs.length → (∀ x ∈ ks, ∃ as' ks', x = .elem c as' ks') →
      (∀ (i : Nat) (v : Val) (n : Str) (as' : List (Str × Str)) (ks' : List Node), vs[i]? = some v →
        ks[i]? = some (.elem n as' ks') → Differences T k (.struct c) v as' ks') →
      Differences T k (.vec c) (.vec vs) [] ks

theorem lookup_isSome_iff {as : List (Str × Str)} {n : Str} : n ∈ as.map Prod.fst ↔ ∃ s, as.lookup n = some s := by
  induction as with
  | nil => simp
  | cons p as ih =>
    obtain ⟨a, s⟩ := p
    by_cases h : n = a
    · subst h; simp
    · have hb : (n == a) = false := by simpa using h
      simp [List.lookup_cons, hb, h] at ih ⊢
      exact ih

theorem first_isSome_iff {ks : List Node} {n : Str} : (∃ x ∈ ks, x.named n = true) ↔ ∃ x, first ks n = some x := by
  constructor
  · rintro ⟨x, hx, hn⟩
    cases h : first ks n with
    | some y => exact ⟨y, rfl⟩
    | none =>
      have := List.find?_eq_none.1 h x hx
      exact absurd hn this
  · rintro ⟨x, hx⟩
    exact ⟨x, List.mem_of_find?_eq_some hx, List.find?_some (p := Node.named n) hx⟩

/-- With distinct names, the first child of a name is the only one. -/
theorem first_of_mem {ks : List Node} (hnd : (ks.map Node.name).Nodup) {x : Node} (hx : x ∈ ks) {n : Str}
    (hn : x.named n = true) : first ks n = some x := by
  induction ks with
  | nil => cases hx
  | cons y ks ih =>
    rw [List.map_cons, List.nodup_cons] at hnd
    unfold first
    rw [List.find?_cons]
    rcases List.mem_cons.1 hx with rfl | h
    · rw [hn]
    · have : y.named n = false := by
        cases hy : y.named n with
        | false => rfl
        | true =>
          refine absurd ?_ hnd.1
          rw [named_name hy, ← named_name hn]
          exact List.mem_map_of_mem h
      rw [this]
      exact ih hnd.2 h

theorem differences (hk : k = .xml ∨ k = .attrib) {ty : MTy} {v : Val} {as : List (Str × Str)} {ks : List Node}
    (h : Wrote T L k true true ty v as ks) : Differences T k ty v as ks := by
  induction h with
  | @struct c ms ds fs as ks hcls hds hfs _ hknd hattr hkid hleaf hsub _ ih =>
    refine .struct hcls hds hfs ?_ ?_ ?_ ?_ hkid
    · intro m hm hl d v hd hv
      unfold Present
      rw [first_isSome_iff, lookup_isSome_iff]
      rcases hleaf m hm hl d v hd hv with ⟨hg, s, _, h1, h2⟩ | ⟨hg, h1, h2⟩
      · rw [if_pos rfl, guard_delta rfl] at hg
        have hne : ¬ CppEqual v d := by rw [← neq_false, hg]; simp
        rcases hk with rfl | rfl
        · simp [h2, hne]
        · simp [h1, hne]
      · rw [if_pos rfl, guard_delta rfl] at hg
        have he : CppEqual v d := neq_false.1 hg
        rcases hk with rfl | rfl
        · simp [h2, he]
        · simp [h1, he]
    · intro m hm hl
      obtain ⟨_, as', ks', hf⟩ := hsub m hm hl
      exact ⟨as', ks', List.mem_of_find?_eq_some hf⟩
    · intro m hm hl v as' ks' hv hmem
      exact ih m hm hl v as' ks' hv (first_of_mem hknd hmem (by simp [Node.named]))
    · intro a ha
      obtain ⟨m, hm, rfl⟩ := hattr a ha
      refine ⟨m, hm, ?_, rfl⟩
      cases hl : m.ty.isLeaf with
      | true => rfl
      | false =>
        obtain ⟨h1, _⟩ := hsub m hm hl
        obtain ⟨s, hs⟩ := lookup_isSome_iff.1 ha
        rw [h1] at hs
        cases hs
  | vec hlen hel _ ih => exact .vec hlen hel ih

/-- C37 for every file that is written: it contains exactly the differences.  Missing: if the default of a member is not
initialised, comparing with it is undefined behaviour and there is no file (`C37_refuted`); see also `C37_written`. -/
theorem C37_delta_partial (hG : Generated fs k out prog) (hk : k = .xml ∨ k = .attrib) (ho : out.onlyRead = false)
    (hnd : out.noDelta = false) (hT : Compiled (fs.flatMap fun f => f.2.decls) T) {n : Str} {v : Val}
    (hv : CTable.WT T false (.struct n) v) {root : Node} (h : writeFile T L prog true n v = .ok root) :
    ∃ as ks, root = .elem n as ks ∧ Differences T k (.struct n) v as ks := by
  obtain ⟨hc, _⟩ := hG.code hk ho hT
  obtain ⟨as, ks, e, hw⟩ := writeFile_wrote hc hv h
  rw [hnd] at hw
  exact ⟨as, ks, e, differences hk hw⟩

/-- Values have a text. -/
theorem leafText_ok {ty : MTy} (hl : ty.isLeaf = true) {v : Val} (hv : CTable.WT T false ty v) :
    ∃ s, leafText T L k ty v = .ok s := by
  cases hv with
  | undef h _ _ _ => cases h
  | struct _ _ _ => cases hl
  | vec _ => cases hl
  | enum h _ _ =>
    simp only [leafText, enumText, h]
    exact ⟨_, rfl⟩
  | @simple ty v hs =>
    cases ty <;> cases v <;> first | exact ⟨_, rfl⟩ | (simp [CTable.simpleVal] at hs; done)

/-- The members of default objects of the structs in the table are initialised.  (Specification notion, models no code.) -/
def Initialised (T : CTable) : Prop :=
  ∀ c ms ds, T.cls c = some ms → T.dflt c = .struct ds → ∀ m ∈ ms, m.ty.isLeaf = true → ds.lookup m.name ≠ some .undef

/-- What the writers do for a member of each type, given a value.  (Specification notion, models no code.) -/
def Writes (T : CTable) (L : Lib) (prog : List Item) (delta : Bool) : MTy → Val → Prop
  | .struct c, v => ∃ el, (wrVal T L prog delta v).wr c = .ok el
  | .vec c, v => ∃ els, ((wrVal T L prog delta v).items.mapM fun wr => wr c) = .ok els
  | _, _ => True

theorem writes {g delta : Bool} (hc : Code T prog k g) (hi : (g && delta) = true → Initialised T) {ty : MTy} {v : Val}
    (hv : CTable.WT T false ty v) : Writes T L prog delta ty v := by
  induction hv with
  | undef h _ _ _ => cases h
  | simple _ => trivial
  | enum _ _ _ => trivial
  | @struct c ms fs hcls hfs hwt ih =>
    obtain ⟨ls, hp, hr, hw⟩ := hc.fn c ms hcls
    have hnd := hc.good.nodup c ms hcls
    obtain ⟨ds, hds, hdn, hdl⟩ := dflt_struct hc.good hcls
    have hline : ∀ p ∈ ls, ∃ e, wrAct T L delta c (if g then ds else []) (wrFields T L prog delta fs) (lineWr k g p) = .ok e ∧
        True := by
      intro p hpm
      obtain ⟨m, hm, rfl⟩ := List.mem_map.1 (hp.mem_iff.1 hpm)
      obtain ⟨v', hv'⟩ := lookup_isSome (hfs ▸ List.mem_map_of_mem hm : m.name ∈ fs.map Prod.fst)
      have ih := ih m hm v' hv'
      by_cases hl : m.ty.isLeaf = true
      · rw [wrAct_leaf hc.kind hl (memberTy_of hcls hnd hm) hv']
        obtain ⟨s, hs⟩ := leafText_ok (L := L) (k := k) hl (hwt m hm v' hv')
        have hgd : ∃ b, guard g delta ((if g then ds else []).lookup m.name) v' = .ok b := by
          cases hgt : (g && delta) with
          | false => exact ⟨true, guard_full hgt _ _⟩
          | true =>
            have hg1 : g = true := by cases g <;> simp_all
            rw [if_pos hg1, hdl m hm, guard_delta hgt]
            refine neq_ok hl (hwt m hm v' hv') (dflt_wt hc.good hcls hds hm (hdl m hm)) ?_
            intro hu
            exact hi hgt c ms ds hcls hds m hm hl (by rw [hdl m hm, hu])
        obtain ⟨b, hb⟩ := hgd
        rw [hb, R.ok_bind]
        cases b with
        | false => exact ⟨_, rfl, trivial⟩
        | true =>
          dsimp only
          rw [hs, R.ok_bind]
          exact ⟨_, rfl, trivial⟩
      · cases hmt : m.ty with
        | simple _ => rw [hmt] at hl; exact absurd rfl hl
        | enum _ => rw [hmt] at hl; exact absurd rfl hl
        | struct c' =>
          rw [hmt] at ih
          obtain ⟨el, hel⟩ := ih
          simp only [lineWr, wrAct, field, wrFields_lookup, hv', Option.map_some, R.ok_bind, hel]
          exact ⟨_, rfl, trivial⟩
        | vec c' =>
          rw [hmt] at ih
          obtain ⟨els, hel⟩ := ih
          simp only [lineWr, wrAct, field, wrFields_lookup, hv', Option.map_some, R.ok_bind, hel]
          exact ⟨_, rfl, trivial⟩
    obtain ⟨es, hes, _⟩ := mapM_all2 hline
    refine ⟨es.foldl El.add ⟨[], []⟩, ?_⟩
    rw [wrVal]
    dsimp only
    unfold runWr
    rw [hw]
    dsimp only
    rw [mapM_map, hds, show (Val.struct ds).fields = ds from rfl, hes]
    rfl
  | @vec c vs hvs ih =>
    have := mapM_all2 (f := fun v => (wrVal T L prog delta v).wr c) (P := fun _ _ => True) (l := vs)
      fun v hv => by obtain ⟨el, hel⟩ := ih v hv; exact ⟨el, hel, trivial⟩
    obtain ⟨els, hels, _⟩ := this
    refine ⟨els, ?_⟩
    rw [wrVal, wrVals_map]
    simp only [List.map_map, mapM_map, Function.comp_def]
    exact hels

/-- C37: if all defaults are initialised, there is a file for every object.  Full files exist in any case. -/
theorem C37_written (hG : Generated fs k out prog) (hk : k = .xml ∨ k = .attrib) (ho : out.onlyRead = false)
    (hT : Compiled (fs.flatMap fun f => f.2.decls) T) {n : Str} (hn : TopStruct (fs.flatMap fun f => f.2.decls) n) {v : Val}
    (hv : CTable.WT T false (.struct n) v) {delta : Bool} (hi : delta = true → Initialised T) :
    ∃ root, writeFile T L prog delta n v = .ok root := by
  obtain ⟨hc, hrw⟩ := hG.code hk ho hT
  obtain ⟨el, hel⟩ := writes (L := L) (delta := delta) hc (fun h => hi (by cases delta <;> simp_all)) hv
  unfold writeFile
  rw [if_pos (hrw n hn).2, hel]
  exact ⟨_, rfl⟩

end

/-- C37 as stated is false: the default of a member without initialiser is not initialised, and reading it is undefined
behaviour. -/
theorem C37_refuted : ¬ ∀ (fs : List (Str × Header)) (out : OutSpec) (prog : List Item) (T : CTable) (L : Lib) (n : Str)
    (v : Val), Generated fs .attrib out prog → out.onlyRead = false → out.noDelta = false →
    Compiled (fs.flatMap fun f => f.2.decls) T → TopStruct (fs.flatMap fun f => f.2.decls) n →
    CTable.WT T false (.struct n) v →
    ∃ as ks, writeFile T L prog true n v = .ok (.elem n as ks) ∧ Differences T .attrib (.struct n) v as ks := by
  intro h
  obtain ⟨as, ks, h1, _⟩ := h rawFiles plainOut _ rawData.table someLib c!"Raw" (rawVal (.num 1) false) (raw_generated _ _)
    rfl rfl raw_compiled raw_top (wtb_sound _ _ (by decide +kernel))
  have h2 : writeFile rawData.table someLib (progOf rawFiles .attrib plainOut) true c!"Raw" (rawVal (.num 1) false) = .ub := by
    decide +kernel
  rw [h2] at h1
  cases h1

/-- Defaults of a table given by lists.  (Specification notion, models no code.) -/
def initialisedb (D : CData) : Bool :=
  D.cls.all fun (c, ms) => ms.all fun m => !m.ty.isLeaf || ((D.table.dflt c).fields.lookup m.name != some .undef)

theorem initialised_of {D : CData} (h : initialisedb D = true) : Initialised D.table := by
  intro c ms ds hc hd m hm hl hu
  unfold initialisedb at h
  rw [List.all_eq_true] at h
  have := h (c, ms) (mem_of_lookup hc)
  rw [List.all_eq_true] at this
  have := this m hm
  rw [hl, hd] at this
  simp [Val.fields, hu] at this

/-- Non-vacuity of C37: `id` and `at.x` differ. -/
example : ∃ as ks, Node.elem c!"Shape" [(c!"id", c!"4")] [.elem c!"at" [(c!"x", c!"2")] [], .elem c!"pts" [] []] = .elem c!"Shape" as ks ∧
    Differences shapeData.table .attrib (.struct c!"Shape") (shapeVal c!"abc" 4 0 (pointVal 2 7) []) as ks :=
  C37_delta_partial (L := someLib) (shape_generated .attrib plainOut) (Or.inr rfl) rfl rfl shape_compiled
    (wtb_sound _ _ (by decide +kernel)) (by decide +kernel)
example : ∃ root, writeFile shapeData.table someLib (progOf shapeFiles .xml plainOut) true c!"Shape"
    (shapeVal c!"abc" 4 0 (pointVal 2 7) []) = .ok root :=
  C37_written (shape_generated .xml plainOut) (Or.inl rfl) rfl shape_compiled shape_top (wtb_sound _ _ (by decide +kernel))
    fun _ => initialised_of (by decide +kernel)

/-! ### C38 -/

section
variable {T : CTable} {L : Lib} {prog : List Item} {k : Kind} {fs : List (Str × Header)} {out : OutSpec}

/-- All simple and enum members of two objects of one type satisfy `P`.  (Specification notion, models no code.) -/
inductive Pairs (T : CTable) (P : MTy → Val → Val → Prop) : MTy → Val → Val → Prop
  | leaf {ty : MTy} {v w : Val} : ty.isLeaf = true → P ty v w → Pairs T P ty v w
  | struct {c : Str} {ms : List CMember} {fs ws : List (Str × Val)} : T.cls c = some ms →
      fs.map Prod.fst = ms.map CMember.name → ws.map Prod.fst = ms.map CMember.name →
      (∀ m ∈ ms, ∀ v w, fs.lookup m.name = some v → ws.lookup m.name = some w → Pairs T P m.ty v w) →
      Pairs T P (.struct c) (.struct fs) (.struct ws)
  | vec {c : Str} {vs ws : List Val} : ws.length = vs.length →
      (∀ (i : Nat) (v w : Val), vs[i]? = some v → ws[i]? = some w → Pairs T P (.struct c) v w) →
      Pairs T P (.vec c) (.vec vs) (.vec ws)

/-- A member of type long (unsigned long) is unchanged if and only if it is representable as int (unsigned int).
(Specification notion, models no code.) -/
def LongIff : MTy → Val → Val → Prop
  | .simple .long, v, w => ∀ i, v = .num i → (w = v ↔ -2 ^ 31 ≤ i ∧ i < 2 ^ 31)
  | .simple .unsignedLong, v, w => ∀ i, v = .num i → (w = v ↔ 0 ≤ i ∧ i < 2 ^ 32)
  | _, _, _ => True

theorem pairs_of_trip {g delta : Bool} {P : MTy → Val → Val → Prop}
    (hP : ∀ ty d t v w, ty.isLeaf = true → leafTrip T L k g delta ty d t v = .ok w → P ty v w)
    (hg : T.Good) (hfd : T.FreshDefaults) {ty : MTy} {d t v w : Val} (h : Trip T L k g delta ty d t v w) :
    Fresh T ty t → CTable.WT T false ty v → Pairs T P ty v w := by
  induction h with
  | leaf hl h => intro _ _; exact .leaf hl (hP _ _ _ _ _ hl h)
  | @struct c ms d ds ts fs ws hc hds hts hfs hws _ ih =>
    intro hf hv
    obtain ⟨ms', fs', e, hc', _, hwt⟩ := wt_struct hv
    cases e
    rw [hc] at hc'
    cases hc'
    cases hf with
    | leaf hl => cases hl
    | struct hc' _ hft =>
      rw [hc] at hc'
      cases hc'
      refine .struct hc hfs hws ?_
      intro m hm v' w' hv' hw'
      have hmn : m.name ∈ ms.map CMember.name := List.mem_map_of_mem hm
      obtain ⟨t', ht'⟩ := lookup_isSome (hts ▸ hmn)
      obtain ⟨ds', h1, _, h3⟩ := dflt_struct hg hc
      rw [hds] at h1
      cases h1
      exact ih m hm _ t' v' w' (h3 m hm) ht' hv' hw' (hft m hm t' ht') (hwt m hm v' hv')
  | @vec c d ts vs ws hlen _ ih =>
    intro hf hv
    cases hf with
    | leaf hl => cases hl
    | vec =>
      refine .vec (by simpa using hlen) ?_
      intro i v w h1 h2
      have hvw : CTable.WT T false (.struct c) v := by
        cases hv with
        | vec h => exact h v (List.mem_of_getElem? h1)
      obtain ⟨ms, hms⟩ := wt_cls hvw
      exact ih i v w h1 (by simpa using h2) (hfd c ms hms) hvw

/-- What becomes of a long. -/
theorem leaf_long {g delta : Bool} (hg : (g && delta) = false) {d t w : Val} {i : Int}
    (h : leafTrip T L k g delta (.simple .long) d t (.num i) = .ok w) :
    w = .num (wrapSigned 32 i) ∧ (k = .xml → inSigned 32 i) := by
  unfold leafTrip at h
  rw [guard_full hg] at h
  simp only [R.ok_bind, leafText, simpleText, (plain_intText _).back, readLeaf, readSimple, conv] at h
  by_cases hk : k = .xml
  · rw [if_pos hk] at h
    by_cases hi : inSigned 32 i
    · rw [toInt_intText hi] at h
      injection h with h
      rw [wrapSigned_id (by decide) hi]
      exact ⟨h.symm, fun _ => hi⟩
    · rw [toInt_intText_out hi] at h
      cases h
  · rw [if_neg hk, toInt_intText (wrapSigned32_in i)] at h
    injection h with h
    exact ⟨h.symm, fun h => absurd h hk⟩

theorem leaf_ulong {g delta : Bool} (hg : (g && delta) = false) {d t w : Val} {i : Int}
    (h : leafTrip T L k g delta (.simple .unsignedLong) d t (.num i) = .ok w) : w = .num (wrapUnsigned 32 i) := by
  unfold leafTrip at h
  rw [guard_full hg] at h
  simp only [R.ok_bind, leafText, simpleText, (plain_intText _).back, readLeaf, readSimple, conv] at h
  rw [toUnsigned_intText (wrapUnsigned32_in i)] at h
  injection h with h
  exact h.symm

/-- C38: in every object that comes back from a file, the members of type long (unsigned long) are unchanged if and only if
they are representable as int (unsigned int). -/
theorem C38_long (hG : Generated fs k out prog) (hk : k = .xml ∨ k = .attrib) (ho : out.onlyRead = false)
    (hT : Compiled (fs.flatMap fun f => f.2.decls) T) {n : Str} {v t w : Val} (hv : CTable.WT T false (.struct n) v)
    (htw : CTable.WT T true (.struct n) t) (ht : Fresh T (.struct n) t) (h : FileGives T L prog false n v t w) :
    Pairs T LongIff (.struct n) v w := by
  refine pairs_of_trip ?_ hT.good hT.freshDefaults (fileGives_inv hG hk ho hT hv htw h .undef) ht hv
  intro ty d t v w hl h
  unfold LongIff
  split
  · rintro i rfl
    obtain ⟨rfl, _⟩ := leaf_long (by simp) h
    constructor
    · intro he
      injection he with he
      have := wrapSigned32_in i
      rw [he] at this
      exact this
    · intro hi
      rw [wrapSigned_id (bits := 32) (by decide) hi]
  · rintro i rfl
    have := leaf_ulong (by simp) h
    subst this
    constructor
    · intro he
      injection he with he
      have := wrapUnsigned32_in i
      rw [he] at this
      exact this
    · intro hi
      rw [wrapUnsigned_id hi]
  · trivial

/-- All longs are representable as int.  (Specification notion, models no code.) -/
def LongInt : MTy → Val → Val → Prop
  | .simple .long, v, _ => ∀ i, v = .num i → -2 ^ 31 ≤ i ∧ i < 2 ^ 31
  | _, _, _ => True

/-- C38 for element XML: from an object with a long outside the range of int nothing comes back at all; reading the file is
undefined behaviour. -/
theorem C38_element_long (hG : Generated fs .xml out prog) (ho : out.onlyRead = false)
    (hT : Compiled (fs.flatMap fun f => f.2.decls) T) {n : Str} {v t w : Val} (hv : CTable.WT T false (.struct n) v)
    (htw : CTable.WT T true (.struct n) t) (ht : Fresh T (.struct n) t) (h : FileGives T L prog false n v t w) :
    Pairs T LongInt (.struct n) v w := by
  refine pairs_of_trip ?_ hT.good hT.freshDefaults (fileGives_inv hG (Or.inl rfl) ho hT hv htw h .undef) ht hv
  intro ty d t v w hl h
  unfold LongInt
  split
  · rintro i rfl
    exact (leaf_long (by simp) h).2 rfl
  · trivial

/-- Members other than long fit.  (Specification notion, models no code.) -/
def FitsButLong (L : Lib) : MTy → Val → Prop
  | .simple .long, _ => True
  | .simple .unsignedLong, _ => True
  | ty, v => Fits L ty v

theorem exists_trip {g delta : Bool} {Q : MTy → Val → Prop}
    (hQ : ∀ ty d t v, ty.isLeaf = true → CTable.WT T false ty v → Q ty v → ∃ w, leafTrip T L k g delta ty d t v = .ok w)
    (hg : T.Good) (hfd : T.FreshDefaults) {ty : MTy} {v : Val} (hv : CTable.WT T false ty v) :
    ∀ {d t : Val}, Fresh T ty t → Leaves T Q ty v → ∃ w, Trip T L k g delta ty d t v w := by
  induction hv with
  | undef h _ _ _ => cases h
  | @simple ty v h =>
    intro d t _ hl
    obtain ⟨w, hw⟩ := hQ _ d t v rfl (.simple h) (hl.inv_leaf rfl)
    exact ⟨w, .leaf rfl hw⟩
  | @enum n e val i h1 h2 h3 =>
    intro d t _ hl
    obtain ⟨w, hw⟩ := hQ _ d t _ rfl (.enum h1 h2 h3) (hl.inv_leaf rfl)
    exact ⟨w, .leaf rfl hw⟩
  | @struct c ms fs hc hn _ ih =>
    intro d t hf hl
    obtain ⟨ds, h1, h2, h3⟩ := dflt_struct hg hc
    have hnd := hg.nodup c ms hc
    cases hf with
    | leaf hl' => cases hl'
    | @struct _ ms' ts hc' htn hts =>
      rw [hc] at hc'
      cases hc'
      have hex : ∀ m ∈ ms, ∃ w, ∀ d' t' v', ds.lookup m.name = some d' → ts.lookup m.name = some t' →
          fs.lookup m.name = some v' → Trip T L k g delta m.ty d' t' v' w := by
        intro m hm
        have hmn : m.name ∈ ms.map CMember.name := List.mem_map_of_mem hm
        obtain ⟨t', ht'⟩ := lookup_isSome (htn ▸ hmn)
        obtain ⟨v', hv'⟩ := lookup_isSome (hn ▸ hmn)
        obtain ⟨w, hw⟩ := ih m hm v' hv' (d := T.memberDflt m) (hts m hm t' ht') (hl.inv_struct hc m hm v' hv')
        refine ⟨w, fun d1 t1 v1 e1 e2 e3 => ?_⟩
        rw [h3 m hm] at e1
        rw [ht'] at e2
        rw [hv'] at e3
        cases e1
        cases e2
        cases e3
        exact hw
      have hws : ∃ ws : List (Str × Val), ws.map Prod.fst = ms.map CMember.name ∧ ∀ m ∈ ms, ∀ w, ws.lookup m.name = some w →
          ∀ d' t' v', ds.lookup m.name = some d' → ts.lookup m.name = some t' →
          fs.lookup m.name = some v' → Trip T L k g delta m.ty d' t' v' w := by
        rename_i hwt
        clear hc ih hl h2 h3 hn htn hts h1 hwt
        induction ms with
        | nil => exact ⟨[], rfl, by intro m hm; cases hm⟩
        | cons a ms ih =>
          rw [List.map_cons, List.nodup_cons] at hnd
          obtain ⟨ws, e1, e2⟩ := ih hnd.2 fun m hm => hex m (List.mem_cons_of_mem _ hm)
          obtain ⟨w0, hw0⟩ := hex a List.mem_cons_self
          refine ⟨(a.name, w0) :: ws, by simp [e1], ?_⟩
          intro m hm w hw
          rcases List.mem_cons.1 hm with rfl | hm
          · simp only [List.lookup_cons_self, Option.some.injEq] at hw
            subst hw
            exact hw0
          · have hne : m.name ≠ a.name := by
              intro he
              exact hnd.1 (he ▸ List.mem_map_of_mem hm)
            have hb : (m.name == a.name) = false := by simpa using hne
            rw [List.lookup_cons, hb] at hw
            exact e2 m hm w hw
      obtain ⟨ws, e1, e2⟩ := hws
      refine ⟨.struct ws, .struct hc h1 htn hn e1 ?_⟩
      intro m hm d' t' v' w' a1 a2 a3 a4
      exact e2 m hm w' a4 d' t' v' a1 a2 a3
  | @vec c vs hvs ih =>
    intro d t hf hl
    cases hf with
    | leaf hl' => cases hl'
    | vec =>
      have : ∀ v ∈ vs, ∃ w, Trip T L k g delta (.struct c) (T.dflt c) (T.dflt c) v w := by
        intro v hv
        obtain ⟨ms, hms⟩ := wt_cls (hvs v hv)
        exact ih v hv (hfd c ms hms) (hl.inv_vec v hv)
      have : ∃ ws, All2 (fun v w => Trip T L k g delta (.struct c) (T.dflt c) (T.dflt c) v w) vs ws := by
        clear ih hl hvs
        induction vs with
        | nil => exact ⟨[], .nil⟩
        | cons v vs ih =>
          obtain ⟨w, hw⟩ := this v List.mem_cons_self
          obtain ⟨ws, hws⟩ := ih fun v hv => this v (List.mem_cons_of_mem _ hv)
          exact ⟨w :: ws, .cons hw hws⟩
      obtain ⟨ws, hws⟩ := this
      obtain ⟨h1, h2⟩ := all2_getElem hws
      exact ⟨.vec ([] ++ ws), .vec h1 h2⟩

/-- C38 for attribute XML: longs outside the range do no other harm; something comes back from every object whose other
members fit. -/
theorem C38_attrib_file (hG : Generated fs .attrib out prog) (ho : out.onlyRead = false)
    (hT : Compiled (fs.flatMap fun f => f.2.decls) T) {n : Str} (hn : TopStruct (fs.flatMap fun f => f.2.decls) n)
    {v t : Val} (hv : CTable.WT T false (.struct n) v) (ht : Fresh T (.struct n) t) (hd : nesting v ≤ L.maxDepth)
    (hl : Leaves T (FitsButLong L) (.struct n) v) : ∃ w, FileGives T L prog false n v t w := by
  have := exists_trip (L := L) (k := .attrib) (g := !out.noDelta) (delta := false) (Q := FitsButLong L) ?_ hT.good hT.freshDefaults hv
    (d := .undef) ht hl
  · obtain ⟨w, hw⟩ := this
    exact ⟨w, fileGives hG (Or.inr rfl) ho hT hn hd hw⟩
  · intro ty d t v hlf hw hq
    have hvis : Visible .attrib ty v := by
      unfold Visible
      split
      · intro h; cases h
      · trivial
    by_cases h1 : ty = .simple .long
    · subst h1
      cases hw with
      | undef h _ _ _ => cases h
      | simple hs =>
        cases v <;> simp [CTable.simpleVal] at hs
        rename_i i
        refine ⟨.num (wrapSigned 32 i), ?_⟩
        unfold leafTrip
        rw [guard_full (by simp)]
        simp only [R.ok_bind, leafText, simpleText, (plain_intText _).back, readLeaf, readSimple, conv]
        rw [if_neg (by decide), toInt_intText (wrapSigned32_in i)]
        rfl
    · by_cases h2 : ty = .simple .unsignedLong
      · subst h2
        cases hw with
        | undef h _ _ _ => cases h
        | simple hs =>
          cases v <;> simp [CTable.simpleVal] at hs
          rename_i i
          refine ⟨.num (wrapUnsigned 32 i), ?_⟩
          unfold leafTrip
          rw [guard_full (by simp)]
          simp only [R.ok_bind, leafText, simpleText, (plain_intText _).back, readLeaf, readSimple, conv]
          rw [toUnsigned_intText (wrapUnsigned32_in i)]
          rfl
      · have hq : Fits L ty v := by
          unfold FitsButLong at hq
          split at hq
          · exact absurd rfl h1
          · exact absurd rfl h2
          · exact hq
        exact ⟨v, leaf_full_any (hT.enumsOk hG.texts rfl) (by simp) hlf hw hq hvis⟩

end

/-- Non-vacuity of C38: 2^31 + 5 comes back as -2^31 + 5. -/
example : Pairs shapeData.table LongIff (.struct c!"Shape") (shapeVal c!"abc" 2147483653 0 (pointVal 2 7) [pointVal 3 4])
    (shapeVal c!"abc" (-2147483643) 0 (pointVal 2 7) [pointVal 3 4]) :=
  C38_long (L := someLib) (shape_generated .attrib plainOut) (Or.inr rfl) rfl shape_compiled
    (wtb_sound _ _ (by decide +kernel)) (t := shapeData.table.dflt c!"Shape") (wtb_sound _ _ (by decide +kernel))
    (freshb_sound _ _ (by decide +kernel)) (by unfold FileGives; decide +kernel)
/-- The element reader on that value. -/
example : writeRead shapeData.table someLib (progOf shapeFiles .xml plainOut) false c!"Shape"
    (shapeVal c!"abc" 2147483653 0 (pointVal 2 7) [pointVal 3 4]) (shapeData.table.dflt c!"Shape") = .ub := by decide +kernel
example : Pairs shapeData.table LongInt (.struct c!"Shape") (shapeVal c!"abc" (-5) 0 (pointVal 2 7) [])
    (shapeVal c!"abc" (-5) 0 (pointVal 2 7) []) :=
  C38_element_long (L := someLib) (shape_generated .xml plainOut) rfl shape_compiled
    (wtb_sound _ _ (by decide +kernel)) (t := shapeData.table.dflt c!"Shape") (wtb_sound _ _ (by decide +kernel))
    (freshb_sound _ _ (by decide +kernel)) (by unfold FileGives; decide +kernel)
example : ∃ w, FileGives shapeData.table someLib (progOf shapeFiles .attrib plainOut) false c!"Shape"
    (shapeVal c!"abc" 2147483653 0 (pointVal 2 7) [pointVal 3 4]) (shapeData.table.dflt c!"Shape") w := by
  refine C38_attrib_file (shape_generated .attrib plainOut) rfl shape_compiled shape_top (wtb_sound _ _ (by decide +kernel))
    (freshb_sound _ _ (by decide +kernel)) (by decide +kernel) ?_
  refine (leavesb_sound (p := fun ty _ v => ty == .simple .long || fitsb ty v)
    (P := fun ty _ v => FitsButLong someLib ty v) ?_ _ _ .undef (by decide +kernel)).leaves shape_compiled.good
  intro ty d v h
  rw [Bool.or_eq_true, beq_iff_eq] at h
  rcases h with rfl | h
  · trivial
  · unfold FitsButLong
    split
    · trivial
    · trivial
    · exact fits_of h

/-! ### C46 -/

section
variable {T : CTable} {L : Lib} {prog : List Item} {k : Kind} {fs : List (Str × Header)} {out : OutSpec}

/-- No element has two attributes of one name, and none but the elements of vectors has two child elements of one name.
(Specification notion, models no code.) -/
inductive NoDuplicates (T : CTable) : MTy → Node → Prop
  | leaf {ty : MTy} {n s : Str} : ty.isLeaf = true → NoDuplicates T ty (.elem n [] [.text s])
  | struct {c n : Str} {ms : List CMember} {as : List (Str × Str)} {ks : List Node} : T.cls c = some ms →
      (as.map Prod.fst).Nodup → (ks.map Node.name).Nodup → (∀ x ∈ ks, ∃ m ∈ ms, x.named m.name = true) →
      (∀ m ∈ ms, ∀ x ∈ ks, x.named m.name = true → NoDuplicates T m.ty x) → NoDuplicates T (.struct c) (.elem n as ks)
  | vec {c n : Str} {ks : List Node} : (∀ x ∈ ks, NoDuplicates T (.struct c) x) → NoDuplicates T (.vec c) (.elem n [] ks)

theorem noDuplicates {g delta : Bool} (hg : T.Good) {ty : MTy} {v : Val} {as : List (Str × Str)} {ks : List Node}
    (h : Wrote T L k g delta ty v as ks) : ∀ n, NoDuplicates T ty (.elem n as ks) := by
  induction h with
  | @struct c ms ds fs as ks hcls hds hfs hand hknd _ hkid hleaf hsub _ ih =>
    intro n
    refine .struct hcls hand hknd hkid ?_
    intro m hm x hx hn
    have hf := first_of_mem hknd hx hn
    have hmn : m.name ∈ ms.map CMember.name := List.mem_map_of_mem hm
    obtain ⟨v', hv'⟩ := lookup_isSome (hfs ▸ hmn)
    by_cases hl : m.ty.isLeaf = true
    · obtain ⟨ds', h1, _, h3⟩ := dflt_struct hg hcls
      rw [hds] at h1
      cases h1
      rcases hleaf m hm hl _ v' (h3 m hm) hv' with ⟨_, s, _, _, h2⟩ | ⟨_, _, h2⟩
      · rw [hf] at h2
        split at h2
        · cases h2
          exact .leaf hl
        · cases h2
      · rw [hf] at h2
        cases h2
    · have hl : m.ty.isLeaf = false := by simpa using hl
      obtain ⟨_, as', ks', hf'⟩ := hsub m hm hl
      have e := hf'
      rw [hf] at e
      cases e
      exact ih m hm hl v' as' ks' hv' hf' m.name
  | @vec c vs ks hlen hel _ ih =>
    intro n
    refine .vec ?_
    intro x hx
    obtain ⟨as', ks', rfl⟩ := hel x hx
    obtain ⟨i, hi⟩ := List.mem_iff_getElem?.1 hx
    have hlt : i < vs.length := by
      have : i < ks.length := by
        apply Classical.byContradiction
        intro hn
        rw [List.getElem?_eq_none (by omega)] at hi
        cases hi
      omega
    exact ih i vs[i] c as' ks' (List.getElem?_eq_getElem hlt) hi c

/-- C46, for files of both kinds, full and delta. -/
theorem C46_no_duplicates (hG : Generated fs k out prog) (hk : k = .xml ∨ k = .attrib) (ho : out.onlyRead = false)
    (hT : Compiled (fs.flatMap fun f => f.2.decls) T) {n : Str} {v : Val} (hv : CTable.WT T false (.struct n) v)
    {delta : Bool} {root : Node} (h : writeFile T L prog delta n v = .ok root) : NoDuplicates T (.struct n) root := by
  obtain ⟨hc, _⟩ := hG.code hk ho hT
  obtain ⟨as, ks, rfl, hw⟩ := writeFile_wrote hc hv h
  exact noDuplicates hc.good hw n

end

/-- Non-vacuity of C46. -/
example : NoDuplicates shapeData.table (.struct c!"Shape")
    (.elem c!"Shape" [(c!"name", c!"abc"), (c!"id", c!"4"), (c!"color", c!"red")] [
      .elem c!"at" [(c!"x", c!"2"), (c!"y", c!"7")] [],
      .elem c!"pts" [] [.elem c!"Point" [(c!"x", c!"1"), (c!"y", c!"1")] [], .elem c!"Point" [(c!"x", c!"2"), (c!"y", c!"2")] []]]) :=
  C46_no_duplicates (L := someLib) (delta := false) (v := shapeVal c!"abc" 4 0 (pointVal 2 7) [pointVal 1 1, pointVal 2 2])
    (shape_generated .attrib plainOut) (Or.inr rfl) rfl shape_compiled (wtb_sound _ _ (by decide +kernel)) (by decide +kernel)

end Stfx.Run
