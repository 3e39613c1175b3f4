import Verif.Run.XmlWritten
/-
The conditions under which objects survive a file are necessary.
-/
set_option autoImplicit false
namespace Stfx.Run
open Stfx.Items Stfx.Parser Stfx.Gen Stfx.Lexer

/-- The library prints floating point numbers as text without white space that it can scan.  (Proof notion, models no code.) -/
structure Lib.Sane (L : Lib) : Prop where
  plainF : ∀ b, Plain (L.fmtF b)
  plainD : ∀ b, Plain (L.fmtD b)
  scansF : ∀ b, (L.scanF (L.fmtF b)).isSome = true
  scansD : ∀ b, (L.scanD (L.fmtD b)).isSome = true

/-! ### Texts -/

theorem mem_nl {s : Str} {c : Char} (h : c ∈ nl s) : c = '\n' ∨ (c ∈ s ∧ c ≠ '\r') := by
  induction s using nl.induct with
  | case1 s ih =>
    rw [nl, List.mem_cons] at h
    rcases h with h | h
    · exact Or.inl h
    · exact (ih h).imp id fun h => ⟨by simp [h.1], h.2⟩
  | case2 s ih =>
    rw [nl, List.mem_cons] at h
    rcases h with h | h
    · exact Or.inl h
    · exact (ih h).imp id fun h => ⟨by simp [h.1], h.2⟩
  | case3 s hne ih =>
    rw [nl, List.mem_cons] at h
    · rcases h with h | h
      · exact Or.inl h
      · exact (ih h).imp id fun h => ⟨by simp [h.1], h.2⟩
    · exact hne
  | case4 a s h1 h2 h3 ih =>
    rw [nl, List.mem_cons] at h
    · rcases h with rfl | h
      · exact Or.inr ⟨List.mem_cons_self, h3⟩
      · exact (ih h).imp id fun h => ⟨by simp [h.1], h.2⟩
    all_goals assumption
  | case5 => cases h

theorem nl_nocr (s : Str) : '\r' ∉ nl s := by
  intro h
  rcases mem_nl h with h | ⟨_, h⟩
  · revert h; decide
  · exact h rfl

theorem cStr_nonul (s : Str) : '\x00' ∉ cStr s := by
  unfold cStr
  induction s with
  | nil => simp
  | cons c s ih =>
    rw [List.takeWhile_cons]
    split
    · rename_i hc
      rw [List.mem_cons, not_or]
      refine ⟨?_, ih⟩
      rintro rfl
      simp at hc
    · simp

theorem toInt_intText_out {i : Int} (h : ¬ inSigned 32 i) : toInt (intText i) = .ub := by
  unfold toInt
  rw [isHex_intText, scanDec_intText]
  simp only [natAbs_sign, if_neg h, Bool.false_eq_true, if_false]

theorem wrapSigned32_in (i : Int) : inSigned 32 (wrapSigned 32 i) := by
  unfold wrapSigned inSigned
  simp only [show (2 : Int) ^ (32 - 1) = 2147483648 by decide, show (2 : Int) ^ 32 = 4294967296 by decide]
  omega

theorem wrapUnsigned32_in (i : Int) : inUnsigned 32 (wrapUnsigned 32 i) := by
  unfold wrapUnsigned inUnsigned
  simp only [show (2 : Int) ^ 32 = 4294967296 by decide]
  omega

/-! ### Leaves -/

section
variable {T : CTable} {L : Lib} {prog : List Item} {k : Kind} {g delta : Bool}

/-- A member that survives being written fits, or nothing was read and the target had that value. -/
theorem leaf_inv (hL : L.Sane) {ty : MTy} {t v : Val} (hw : CTable.WT T false ty v) {s : Str}
    (h1 : leafText T L k ty v = .ok s) (h2 : readLeaf T L ty t (back k s) = .ok v) :
    (Fits L ty v ∧ Visible k ty v) ∨ (Hidden k ty v ∧ v = t) := by
  cases hw with
  | undef h _ _ _ => cases h
  | enum _ _ _ => exact Or.inl ⟨trivial, trivial⟩
  | struct _ _ _ => cases h1
  | vec _ => cases h1
  | @simple ty v hs =>
    cases ty <;> cases v <;> try (simp [CTable.simpleVal] at hs; done)
    case bool.bool => exact Or.inl ⟨trivial, trivial⟩
    case int.num => exact Or.inl ⟨trivial, trivial⟩
    case short.num => exact Or.inl ⟨trivial, trivial⟩
    case unsignedInt.num => exact Or.inl ⟨trivial, trivial⟩
    case unsignedShort.num => exact Or.inl ⟨trivial, trivial⟩
    case long.num i =>
      left
      refine ⟨?_, trivial⟩
      show inSigned 32 i
      injection h1 with h1
      subst h1
      rw [(plain_intText _).back] at h2
      simp only [readLeaf, readSimple, conv] at h2
      by_cases hk : k = .xml
      · rw [if_pos hk] at h2
        apply Classical.byContradiction
        intro hn
        rw [toInt_intText_out hn] at h2
        cases h2
      · rw [if_neg hk, toInt_intText (wrapSigned32_in i)] at h2
        injection h2 with h2
        injection h2 with h2
        rw [show i = wrapSigned 32 i from h2.symm]
        exact wrapSigned32_in i
    case unsignedLong.num i =>
      left
      refine ⟨?_, trivial⟩
      show inUnsigned 32 i
      injection h1 with h1
      subst h1
      rw [(plain_intText _).back] at h2
      simp only [readLeaf, readSimple, conv] at h2
      rw [toUnsigned_intText (wrapUnsigned32_in i)] at h2
      injection h2 with h2
      injection h2 with h2
      rw [show i = wrapUnsigned 32 i from h2.symm]
      exact wrapUnsigned32_in i
    case float.flt b =>
      left
      refine ⟨⟨?_, hL.plainF b⟩, trivial⟩
      injection h1 with h1
      subst h1
      rw [(hL.plainF b).back] at h2
      simp only [readLeaf, readSimple, conv] at h2
      have := hL.scansF b
      cases hs : L.scanF (L.fmtF b) with
      | none => rw [hs] at this; cases this
      | some b' =>
        rw [hs] at h2
        injection h2 with h2
        injection h2 with h2
        rw [h2]
    case double.dbl b =>
      left
      refine ⟨⟨?_, hL.plainD b⟩, trivial⟩
      injection h1 with h1
      subst h1
      rw [(hL.plainD b).back] at h2
      simp only [readLeaf, readSimple, conv] at h2
      have := hL.scansD b
      cases hs : L.scanD (L.fmtD b) with
      | none => rw [hs] at this; cases this
      | some b' =>
        rw [hs] at h2
        injection h2 with h2
        injection h2 with h2
        rw [h2]
    case stdString.str x =>
      injection h1 with h1
      subst h1
      unfold back at h2
      by_cases hb : k = .xml ∧ blank (cStr x) = true
      · right
        rw [if_pos hb] at h2
        simp only [readLeaf, readSimple, assign, viaLocal] at h2
        injection h2 with h2
        exact ⟨hb, h2.symm⟩
      · left
        rw [if_neg hb] at h2
        simp only [readLeaf, readSimple, conv, R.ok_bind, assign] at h2
        injection h2 with h2
        injection h2 with h2
        have hnul : '\x00' ∉ x := by
          rw [← h2]
          intro h
          rcases mem_nl h with h | ⟨h, _⟩
          · revert h; decide
          · exact cStr_nonul x h
        refine ⟨⟨hnul, by rw [← h2]; exact nl_nocr _⟩, ?_⟩
        intro hk
        cases hbl : blank x with
        | false => rfl
        | true =>
          rw [cStr_id hnul] at hb
          exact absurd ⟨hk, hbl⟩ hb

theorem leaf_full_inv (hL : L.Sane) (hg : (g && delta) = false) {ty : MTy} {d t v : Val} (hw : CTable.WT T false ty v)
    (h : leafTrip T L k g delta ty d t v = .ok v) : (Fits L ty v ∧ Visible k ty v) ∨ (Hidden k ty v ∧ v = t) := by
  unfold leafTrip at h
  rw [guard_full hg] at h
  simp only [R.ok_bind] at h
  rw [R.bind_eq_ok] at h
  obtain ⟨s, h1, h2⟩ := h
  exact leaf_inv hL hw h1 h2

theorem readLeaf_none {ty : MTy} {t w : Val} (hl : ty.isLeaf = true) (h : readLeaf T L ty t none = .ok w) :
    w = t ∧ ¬ LostIfMissing .attrib ty := by
  cases ty with
  | simple ty =>
    simp only [readLeaf, readSimple, assign] at h
    split at h
    · cases h
    · rename_i hv
      injection h with h
      refine ⟨h.symm, ?_⟩
      rintro ⟨_, rfl | rfl | rfl | rfl⟩ <;> exact hv rfl
  | enum n =>
    injection h with h
    exact ⟨h.symm, fun h => h⟩
  | struct _ => cases hl
  | vec _ => cases hl

theorem leaf_delta_inv (hL : L.Sane) (hk : k = .xml ∨ k = .attrib) (hg : (g && delta) = true) {ty : MTy}
    (hl : ty.isLeaf = true) {d v : Val} (hw : CTable.WT T false ty v)
    (h : leafTrip T L k g delta ty d d v = .ok v) : KeptDelta L k ty d v := by
  have hgt : g = true := by cases g <;> simp_all
  unfold leafTrip at h
  rw [if_pos hgt, guard_delta hg, R.bind_eq_ok] at h
  obtain ⟨b, hb, h⟩ := h
  have hinit : d ≠ .undef := by
    rintro rfl
    cases v <;> cases hb
  cases b with
  | true =>
    have hne : ¬ CppEqual v d := by rw [← neq_false, hb]; simp
    refine ⟨hinit, fun he => absurd he hne, fun _ => ?_⟩
    dsimp only at h
    rw [R.bind_eq_ok] at h
    obtain ⟨s, h1, h2⟩ := h
    rcases leaf_inv hL hw h1 h2 with h | ⟨hh, rfl⟩
    · exact h
    · unfold Hidden at hh
      split at hh
      · simp [neq] at hb
      · cases hh
  | false =>
    refine ⟨hinit, fun _ => ?_, fun hn => absurd (neq_false.1 hb) hn⟩
    dsimp only at h
    rcases hk with rfl | rfl
    · rw [if_pos rfl] at h
      injection h with h
      refine ⟨h.symm, ?_⟩
      intro hl'
      cases ty <;> simp [LostIfMissing] at hl'
    · rw [if_neg (by decide)] at h
      exact readLeaf_none hl h

/-! ### Objects -/

/-- The leaves of an object that survives in a target with empty vectors. -/
theorem leaves_of_trip {Q : MTy → Val → Prop}
    (hQ : ∀ ty d t v, ty.isLeaf = true → CTable.WT T false ty v → leafTrip T L k g delta ty d t v = .ok v → Q ty v)
    (hg : T.Good) (hfd : T.FreshDefaults) {ty : MTy} {v : Val} (hv : CTable.WT T false ty v) :
    ∀ {d t : Val}, Fresh T ty t → Trip T L k g delta ty d t v v → Leaves T Q ty v := by
  induction hv with
  | undef h _ _ _ => cases h
  | @simple ty v h =>
    intro d t _ ht
    cases ht with
    | leaf hl h' => exact .leaf rfl (hQ _ _ _ _ rfl (.simple h) h')
  | @enum n e val i h1 h2 h3 =>
    intro d t _ ht
    cases ht with
    | leaf hl h' => exact .leaf rfl (hQ _ _ _ _ rfl (.enum h1 h2 h3) h')
  | @struct c ms fs hc hn _ ih =>
    intro d t hf ht
    cases ht with
    | leaf hl _ => cases hl
    | struct hc' hds hts hfs hws h =>
      rw [hc] at hc'
      cases hc'
      cases hf with
      | leaf hl => cases hl
      | struct hc' _ hft =>
        rw [hc] at hc'
        cases hc'
        refine .struct hc ?_
        intro m hm v' hv'
        have hmn : m.name ∈ ms.map CMember.name := List.mem_map_of_mem hm
        obtain ⟨t', ht'⟩ := lookup_isSome (hts ▸ hmn)
        obtain ⟨ds', h1, hdn, h3⟩ := dflt_struct hg hc
        rw [hds] at h1
        cases h1
        exact ih m hm v' hv' (hft m hm t' ht') (h m hm _ t' v' v' (h3 m hm) ht' hv' hv')
  | @vec c vs hvs ih =>
    intro d t hf ht
    generalize hw : Val.vec vs = w at ht
    cases ht with
    | leaf hl _ => cases hl
    | @vec _ _ ts vs' ws hlen h =>
      cases hf with
      | leaf hl => cases hl
      | vec =>
        simp only [List.nil_append, Val.vec.injEq] at hw
        subst hw
        refine .vec ?_
        intro v hv
        obtain ⟨ms, hms⟩ := wt_cls (hvs v hv)
        obtain ⟨i, hi⟩ := List.mem_iff_getElem?.1 hv
        exact ih v hv (hfd c ms hms) (h i v v hi hi)

/-- The leaves of an object that survives in a default object, with their defaults. -/
theorem leavesD_of_trip {Q : MTy → Val → Val → Prop}
    (hQ : ∀ ty d v, ty.isLeaf = true → CTable.WT T false ty v → leafTrip T L k g delta ty d d v = .ok v → Q ty d v)
    (hg : T.Good) (hni : T.NoStructInit) {ty : MTy} {v : Val} (hv : CTable.WT T false ty v) :
    ∀ {d : Val}, (ty.isLeaf = false → d = T.dfltTy ty) → Trip T L k g delta ty d d v v → LeavesD T Q ty d v := by
  induction hv with
  | undef h _ _ _ => cases h
  | @simple ty v h =>
    intro d _ ht
    cases ht with
    | leaf hl h' => exact .leaf rfl (hQ _ _ _ rfl (.simple h) h')
  | @enum n e val i h1 h2 h3 =>
    intro d _ ht
    cases ht with
    | leaf hl h' => exact .leaf rfl (hQ _ _ _ rfl (.enum h1 h2 h3) h')
  | @struct c ms fs hc hn _ ih =>
    intro d hd ht
    obtain ⟨ds, h1, h2, h3⟩ := dflt_struct hg hc
    have hd : d = .struct ds := by rw [hd rfl]; exact h1
    subst hd
    cases ht with
    | leaf hl _ => cases hl
    | struct hc' hds hts hfs hws h =>
      rw [hc] at hc'
      cases hc'
      rw [h1] at hds
      cases hds
      refine .struct hc h1 ?_
      intro m hm d' v' hd' hv'
      refine ih m hm v' hv' ?_ (h m hm d' d' v' v' hd' hd' hv' hv')
      intro hnl
      rw [h3 m hm] at hd'
      cases hd'
      unfold CTable.memberDflt
      rw [hni c ms hc m hm hnl]
  | @vec c vs hvs ih =>
    intro d hd ht
    have hd : d = .vec [] := hd rfl
    subst hd
    generalize hw : Val.vec vs = w at ht
    cases ht with
    | leaf hl _ => cases hl
    | vec hlen h =>
      simp only [List.nil_append, Val.vec.injEq] at hw
      subst hw
      refine .vec ?_
      intro v hv
      obtain ⟨i, hi⟩ := List.mem_iff_getElem?.1 hv
      exact ih v hv (fun _ => rfl) (h i v v hi hi)

/-! ### Files -/

variable {fs : List (Str × Header)} {out : OutSpec}

/-- Whatever a file gives is what `Trip` says. -/
theorem fileGives_inv (hG : Generated fs k out prog) (hk : k = .xml ∨ k = .attrib) (ho : out.onlyRead = false)
    (hT : Compiled (fs.flatMap fun f => f.2.decls) T) {n : Str} {t v w : Val} (hv : CTable.WT T false (.struct n) v)
    (ht : CTable.WT T true (.struct n) t) (h : FileGives T L prog delta n v t w) (d : Val) :
    Trip T L k (!out.noDelta) delta (.struct n) d t v w := by
  obtain ⟨hc, _⟩ := hG.code hk ho hT
  unfold FileGives writeRead at h
  rw [R.bind_eq_ok] at h
  obtain ⟨root, h1, h2⟩ := h
  obtain ⟨as, ks, rfl, hw⟩ := writeFile_wrote hc hv h1
  unfold readFile loadSaved at h2
  split at h2
  · split at h2
    · injection h2 with h2
      injection h2 with h2
      cases h2
    · rename_i ks' heq
      split at heq
      · injection heq with heq
        subst heq
        have : ([reload (.elem n as ks)].find? Node.isElem) = some (reload (.elem n as ks)) := by
          rw [List.find?_cons, reload_isElem]
          rfl
        rw [this] at h2
        dsimp only at h2
        rw [R.bind_eq_ok] at h2
        obtain ⟨w', h3, h4⟩ := h2
        injection h4 with h4
        injection h4 with _ h4
        subst h4
        exact trip_back hc hw n d t w' ht h3
      · cases heq
  · cases h2

/-- Full files, read into an object without elements in its vectors. -/
theorem full_fresh_inv (hL : L.Sane) (hG : Generated fs .attrib out prog) (ho : out.onlyRead = false)
    (hdelta : delta = false ∨ out.noDelta = true)
    (hT : Compiled (fs.flatMap fun f => f.2.decls) T) {n : Str}
    {t v : Val} (hv : CTable.WT T false (.struct n) v) (htw : CTable.WT T true (.struct n) t) (ht : Fresh T (.struct n) t)
    (h : FileGives T L prog delta n v t v) : Leaves T (Fits L) (.struct n) v := by
  refine leaves_of_trip ?_ hT.good hT.freshDefaults hv ht (fileGives_inv hG (Or.inr rfl) ho hT hv htw h .undef)
  intro ty d t v hlf hw htr
  rcases leaf_full_inv hL (by rcases hdelta with h | h <;> simp [h]) hw htr with h | ⟨h, _⟩
  · exact h.1
  · unfold Hidden at h
    split at h
    · cases h.1
    · cases h

/-- Full files, read into a default object. -/
theorem full_default_inv (hL : L.Sane) (hG : Generated fs k out prog) (hk : k = .xml ∨ k = .attrib) (ho : out.onlyRead = false)
    (hdelta : delta = false ∨ out.noDelta = true)
    (hT : Compiled (fs.flatMap fun f => f.2.decls) T) (hni : NoStructInits (fs.flatMap fun f => f.2.decls))
    {n : Str} {v : Val} (hv : CTable.WT T false (.struct n) v)
    (h : FileGives T L prog delta n v (T.dflt n) v) : LeavesD T (KeptFull L k) (.struct n) (T.dflt n) v := by
  obtain ⟨ms, hms⟩ := wt_cls hv
  refine leavesD_of_trip ?_ hT.good (hT.noStructInit hni) hv (fun _ => rfl)
    (fileGives_inv hG hk ho hT hv (hT.good.wt n ms hms) h _)
  intro ty d v hlf hw htr
  exact leaf_full_inv hL (by rcases hdelta with h | h <;> simp [h]) hw htr

/-- Delta files, read into a default object. -/
theorem delta_default_inv (hL : L.Sane) (hG : Generated fs k out prog) (hk : k = .xml ∨ k = .attrib) (ho : out.onlyRead = false)
    (hnd : out.noDelta = false)
    (hT : Compiled (fs.flatMap fun f => f.2.decls) T) (hni : NoStructInits (fs.flatMap fun f => f.2.decls))
    {n : Str} {v : Val} (hv : CTable.WT T false (.struct n) v)
    (h : FileGives T L prog true n v (T.dflt n) v) : LeavesD T (KeptDelta L k) (.struct n) (T.dflt n) v := by
  obtain ⟨ms, hms⟩ := wt_cls hv
  refine leavesD_of_trip ?_ hT.good (hT.noStructInit hni) hv (fun _ => rfl)
    (fileGives_inv hG hk ho hT hv (hT.good.wt n ms hms) h _)
  intro ty d v hlf hw htr
  exact leaf_delta_inv hL hk (by simp [hnd]) hlf hw htr

end
end Stfx.Run
