import Verif.Run.IniTrip
import Verif.Run.XmlKept
/-
Which objects survive n_ini files, in terms of schema and values.
-/
set_option autoImplicit false
namespace Stfx.Run
open Stfx.Items Stfx.Parser Stfx.Gen Stfx.Lexer

/-- The line of a member fits into the buffer of the reader, and its text is not changed by reading it.  (Proof notion, models no code.) -/
def IniFit (T : CTable) (L : IniLib) (n : Str) (ty : MTy) (v : Val) : Prop :=
  (∀ s, iniLeafText T L ty v = .ok s → n.length + 1 + s.length ≤ 78) ∧
  match v with
  | .str s => LineText s
  | .flt b => LineText (L.fmtF b) ∧ L.stof (L.fmtF b) = some b
  | .dbl b => LineText (L.fmtD b) ∧ L.stod (L.fmtD b) = some b
  | _ => True

/-- Objects of struct `c` whose members, found by way of the section at `path`, satisfy `P` (of name, type, default and value).
The structs have the shape the generated code can handle, only nested structs have simple and enum members, and section
headings fit into the buffer of the reader.  (Proof notion, models no code.) -/
inductive IniFits (T : CTable) (P : Str → MTy → Val → Val → Prop) : Str → Str → Val → Prop
  | mk {path c : Str} {ms : List CMember} {ds fs : List (Str × Val)} : T.cls c = some ms → T.dflt c = .struct ds →
      IniShape ms → path.length ≤ 76 → (path = [] → ∀ m ∈ ms, m.ty.isLeaf = false) →
      (∀ m ∈ ms, m.ty.isLeaf = true → ∀ d v, ds.lookup m.name = some d → fs.lookup m.name = some v → P m.name m.ty d v) →
      (∀ m ∈ ms, ∀ c', m.ty = .struct c' → ∀ v, fs.lookup m.name = some v →
        IniFits T P (lowerPath path (spaced m.name)) c' v) →
      IniFits T P path c (.struct fs)

theorem lineText_words {s : Str} (hne : s ≠ []) (h : ∀ c ∈ s, isWord c = true ∨ c = '-') : LineText s := by
  have key : ∀ d : Char, isWord d = false → d ≠ '-' → d ∉ s := by
    intro d hd hd2 hm
    rcases h d hm with h | h
    · rw [hd] at h; cases h
    · exact hd2 h
  exact ⟨hne, key _ (by decide) (by decide), key _ (by decide) (by decide), key _ (by decide) (by decide),
    key _ (by decide) (by decide)⟩

theorem lineText_int (i : Int) : LineText (intText i) := by
  refine lineText_words ?_ ?_
  · unfold intText
    split
    · simp
    · exact natText_ne_nil _
  · intro c hc
    have hd : ∀ n, c ∈ natText n → isWord c = true := by
      intro n hn
      have := natText_digits n c hn
      simp [isWord, this]
    unfold intText at hc
    split at hc
    · rcases List.mem_cons.1 hc with rfl | hc
      · exact Or.inr rfl
      · exact Or.inl (hd _ hc)
    · exact Or.inl (hd _ hc)

theorem lineText_ident {s : Str} (h : Ident s) : LineText s := by
  obtain ⟨c, r, e, _, hw⟩ := h
  exact lineText_words (by rw [e]; simp) fun c hc => Or.inl (hw c hc)

theorem inUnsigned_le {a b : Nat} (hab : a ≤ b) {i : Int} (h : inUnsigned a i) : inUnsigned b i := by
  refine ⟨h.1, Int.lt_of_lt_of_le h.2 ?_⟩
  have := Nat.pow_le_pow_right (n := 2) (by decide) hab
  exact_mod_cast this

theorem inSigned_16 {i : Int} (h : inSigned 16 i) : inSigned 32 i := by
  obtain ⟨h1, h2⟩ := h
  constructor <;> omega

section
variable {T : CTable} {L : IniLib} {g delta : Bool}

/-- Texts of members that fit are converted back. -/
theorem iniLeaf_back (hg : T.Good) (he : T.EnumsOk) {n : Str} {ty : MTy} (hl : ty.isLeaf = true) {v : Val}
    (hw : CTable.WT T false ty v) (hf : IniFit T L n ty v) :
    ∃ s, iniLeafText T L ty v = .ok s ∧ LineText s ∧ n.length + 1 + s.length ≤ 78 ∧ iniLeafConv T L ty s = .val v := by
  obtain ⟨hlen, hf⟩ := hf
  have key : ∀ s, iniLeafText T L ty v = .ok s → LineText s → iniLeafConv T L ty s = .val v →
      ∃ s, iniLeafText T L ty v = .ok s ∧ LineText s ∧ n.length + 1 + s.length ≤ 78 ∧ iniLeafConv T L ty s = .val v :=
    fun s h1 h2 h3 => ⟨s, h1, h2, hlen s h1, h3⟩
  cases ty with
  | struct _ => cases hl
  | vec _ => cases hl
  | enum c =>
    cases hw with
    | undef h _ _ _ => cases h
    | @enum _ e val i h1 h2 h3 =>
      refine key (sFromE e val i) ?_ ?_ ?_
      · simp [iniLeafText, iniEnumText, h1]
      · rcases sFromE_cases e val i with ⟨l, hl, _, h'⟩ | ⟨_, h'⟩
        · rw [h']; exact lineText_ident ((he _ _ _ h1).2 l hl)
        · rw [h']; exact lineText_int i
      · obtain ⟨b, hb⟩ := sToE_back (he _ _ _ h1) h2 h3
        simp [iniLeafConv, iniEnum, h1, hb]
  | simple ty =>
    cases hw with
    | undef h _ _ _ => cases h
    | simple hv =>
      have hbits := hg.bits
      cases ty <;> cases v <;> try (simp [CTable.simpleVal] at hv; done)
      case simple.simple.bool.bool b =>
        refine key (intText (if b then 1 else 0)) rfl (lineText_int _) ?_
        have : inSigned 32 (if b = true then 1 else 0) := by cases b <;> exact ⟨by decide, by decide⟩
        simp only [iniLeafConv, iniConv, stoSigned_intText this, StoRes.conv]
        cases b <;> rfl
      case simple.simple.int.num i =>
        simp only [CTable.simpleVal, decide_eq_true_eq] at hv
        refine key (intText i) rfl (lineText_int _) ?_
        simp only [iniLeafConv, iniConv, stoSigned_intText hv, StoRes.conv]
      case simple.simple.unsignedInt.num i =>
        simp only [CTable.simpleVal, decide_eq_true_eq] at hv
        refine key (intText i) rfl (lineText_int _) ?_
        simp only [iniLeafConv, iniConv, stoUnsigned_intText (inUnsigned_le hbits hv), StoRes.conv, wrapUnsigned_id hv]
      case simple.simple.float.flt b =>
        refine key (L.fmtF b) rfl hf.1 ?_
        simp only [iniLeafConv, iniConv, hf.2]
      case simple.simple.double.dbl b =>
        refine key (L.fmtD b) rfl hf.1 ?_
        simp only [iniLeafConv, iniConv, hf.2]
      case simple.simple.long.num i =>
        simp only [CTable.simpleVal, decide_eq_true_eq] at hv
        refine key (intText i) rfl (lineText_int _) ?_
        simp only [iniLeafConv, iniConv, stoSigned_intText hv, StoRes.conv]
      case simple.simple.short.num i =>
        simp only [CTable.simpleVal, decide_eq_true_eq] at hv
        refine key (intText i) rfl (lineText_int _) ?_
        simp only [iniLeafConv, iniConv, stoSigned_intText (inSigned_16 hv), StoRes.conv, wrapSigned_id (by decide) hv]
      case simple.simple.unsignedShort.num i =>
        simp only [CTable.simpleVal, decide_eq_true_eq] at hv
        refine key (intText i) rfl (lineText_int _) ?_
        simp only [iniLeafConv, iniConv, stoUnsigned_intText (inUnsigned_le (Nat.le_trans (by decide) hbits) hv), StoRes.conv,
          wrapUnsigned_id hv]
      case simple.simple.stdString.str s =>
        exact key s rfl hf rfl
      case simple.simple.unsignedLong.num i =>
        simp only [CTable.simpleVal, decide_eq_true_eq] at hv
        refine key (intText i) rfl (lineText_int _) ?_
        simp only [iniLeafConv, iniConv, stoUnsigned_intText hv, StoRes.conv]

theorem wt_structI {u : Bool} {c : Str} {ms : List CMember} (hc : T.cls c = some ms) {v : Val} (h : CTable.WT T u (.struct c) v) :
    ∃ fs, v = .struct fs ∧ fs.map Prod.fst = ms.map CMember.name ∧
      ∀ m ∈ ms, ∀ v, fs.lookup m.name = some v → CTable.WT T u m.ty v := by
  cases h with
  | undef _ h _ _ => exact absurd rfl (h c)
  | struct hc' hn h =>
    rw [hc] at hc'
    cases hc'
    exact ⟨_, rfl, hn, h⟩

/-- Full files, read into any object. -/
theorem iniOk_full (hg : T.Good) (he : T.EnumsOk) (hgd : (g && delta) = false) {path c : Str} {v : Val}
    (h : IniFits T (fun n ty _ v => IniFit T L n ty v) path c v) :
    ∀ {t : Val}, CTable.WT T true (.struct c) t → CTable.WT T false (.struct c) v → IniOk T L g delta path c t v := by
  induction h with
  | @mk path c ms ds fs h1 h2 h3 h4 h5 h6 _ ih =>
    intro t ht hv
    obtain ⟨ts, rfl, ht1, ht2⟩ := wt_structI h1 ht
    obtain ⟨fs', e, hv1, hv2⟩ := wt_structI h1 hv
    cases e
    refine .mk h1 h2 ht1 hv1 h3 h4 h5 ?_ ?_
    · intro m hm hl d t v hd ht hv
      exact Or.inr ⟨guard_full hgd _ _, iniLeaf_back hg he hl (hv2 m hm v hv) (h6 m hm hl d v hd hv)⟩
    · intro m hm c' hc' t v ht hv
      have a := ht2 m hm t ht
      have b := hv2 m hm v hv
      rw [hc'] at a b
      exact ih m hm c' hc' v hv a b

/-- What a member needs in a delta file that is read into a default object.  (Proof notion, models no code.) -/
structure IniDelta (T : CTable) (L : IniLib) (n : Str) (ty : MTy) (d v : Val) : Prop where
  initialised : d ≠ .undef
  leftOut : CppEqual v d → v = d
  written : ¬ CppEqual v d → IniFit T L n ty v

/-- Delta files, read into a default object. -/
theorem iniOk_delta (hg : T.Good) (he : T.EnumsOk) (hni : T.NoStructInit) (hgd : (g && delta) = true) {path c : Str} {v : Val}
    (h : IniFits T (IniDelta T L) path c v) :
    CTable.WT T false (.struct c) v → IniOk T L g delta path c (T.dflt c) v := by
  induction h with
  | @mk path c ms ds fs h1 h2 h3 h4 h5 h6 _ ih =>
    intro hv
    obtain ⟨fs', e, hv1, hv2⟩ := wt_structI h1 hv
    cases e
    obtain ⟨ds', e, hn, hd⟩ := dflt_struct hg h1
    have e' := h2.symm.trans e
    cases e'
    have hgt : g = true := by cases g <;> simp_all
    rw [h2]
    refine .mk h1 h2 hn hv1 h3 h4 h5 ?_ ?_
    · intro m hm hl d t v hd ht hv
      rw [hd] at ht
      cases ht
      have hx := h6 m hm hl d v hd hv
      unfold IniLeaf
      rw [if_pos hgt, guard_delta hgd]
      obtain ⟨b, hb⟩ := neq_ok hl (hv2 m hm v hv) (dflt_wt hg h1 h2 hm hd) hx.initialised
      cases b with
      | true =>
        exact Or.inr ⟨hb, iniLeaf_back hg he hl (hv2 m hm v hv) (hx.written (by rw [← neq_false, hb]; simp))⟩
      | false => exact Or.inl ⟨hb, (hx.leftOut (neq_false.1 hb)).symm⟩
    · intro m hm c' hc' t v ht hv
      have b := hv2 m hm v hv
      rw [hc'] at b
      rw [hd m hm] at ht
      cases ht
      have : T.memberDflt m = T.dflt c' := by
        unfold CTable.memberDflt
        rw [hni c ms h1 m hm (by rw [hc']; rfl), hc']
        rfl
      rw [this]
      exact ih m hm c' hc' v hv b

end

/-! ### The top struct is never looked up -/

/-- No section has an empty name.  (Proof notion, models no code.) -/
def NoTop (st : IniSt) : Prop := st.under.lookup [] = none ∧ st.cur ≠ some []

theorem noTop_init : NoTop IniSt.init := ⟨rfl, by simp [IniSt.init]⟩

theorem search_section {s k : Str} (h : search matchSection s = some k) : k ≠ [] := by
  obtain ⟨_, _, _, hb⟩ := search_some h
  exact (matchSection_some hb).1

theorem NoTop.store {st : IniSt} (h : NoTop st) (k v : Str) : NoTop (st.store k v) := by
  unfold IniSt.store
  split
  · exact h
  · rename_i s hs
    refine ⟨?_, h.2⟩
    have : ([] : Str) ≠ s := by
      intro e
      exact h.2 (by rw [hs, e])
    simp only
    rw [put_other this]
    exact h.1

theorem NoTop.piece {st : IniSt} (h : NoTop st) (buf : Str) : NoTop (st.piece buf) := by
  unfold IniSt.piece
  split
  · exact h
  · rename_i c s _
    have h1 : NoTop (st.flush c) := by
      unfold IniSt.flush
      split
      · exact ⟨(h.store _ _).1, (h.store _ _).2⟩
      · exact h
    generalize st.flush c = st1 at h1
    unfold IniSt.line
    dsimp only
    split
    · split
      · rename_i k hk
        have hne := search_section hk
        refine ⟨?_, ?_⟩
        · simp only
          rw [put_other (Ne.symm hne)]
          exact h1.1
        · simp only [ne_eq, Option.some.injEq]
          exact hne
      · exact h1
    · split
      · exact ⟨h1.1, h1.2⟩
      · split
        · exact h1.store _ _
        · split
          · exact ⟨h1.1, h1.2⟩
          · exact h1

theorem NoTop.load {st : IniSt} (h : NoTop st) (text : Str) : NoTop (st.load text) := by
  unfold IniSt.load
  generalize filePieces text = ps
  have h0 : NoTop { st with cur := none } := ⟨h.1, by simp⟩
  generalize ({ st with cur := none } : IniSt) = st0 at h0
  induction ps generalizing st0 with
  | nil => exact h0
  | cons p ps ih => exact ih _ (h0.piece p)

/-- A reader after reading some files. -/
theorem noTop_loads (texts : List Str) : NoTop (texts.foldl IniSt.load IniSt.init) := by
  have key : ∀ st, NoTop st → NoTop (texts.foldl IniSt.load st) := by
    induction texts with
    | nil => exact fun _ h => h
    | cons t ts ih => exact fun st h => ih _ (h.load t)
  exact key _ noTop_init

section
variable {T : CTable} {L : IniLib} {prog : List Item}

theorem runKids_other {path : Str} {subs : List (Str × (Str → Str → R (Bool × Val)))} {qs : List Line} {b b' : Bool}
    {ts fs : List (Str × Val)} (h : runKids subs path (qs.filterMap lineNRd) b ts = .ok (b', fs)) {n : Str}
    (hn : ∀ q ∈ qs, (∃ c, q.2 = .struct c) → q.1 ≠ n) : fs.lookup n = ts.lookup n := by
  induction qs generalizing b ts with
  | nil => cases h; rfl
  | cons q qs ih =>
    obtain ⟨a, ty⟩ := q
    have hn' : ∀ q ∈ qs, (∃ c, q.2 = .struct c) → q.1 ≠ n := fun q hq => hn q (List.mem_cons_of_mem _ hq)
    cases ty with
    | simple _ => exact ih h hn'
    | enum _ => exact ih h hn'
    | vec _ =>
      rw [List.filterMap_cons_some (f := lineNRd) rfl, runKids] at h
      exact ih h hn'
    | struct c =>
      rw [List.filterMap_cons_some (f := lineNRd) rfl, runKids] at h
      obtain ⟨f, _, h⟩ := R.bind_eq_ok.1 h
      obtain ⟨⟨rv, v⟩, _, h⟩ := R.bind_eq_ok.1 h
      obtain ⟨fs', h3, h⟩ := R.bind_eq_ok.1 h
      rw [ih h hn']
      obtain ⟨_, _, _, _, _, _, h4⟩ := modifyField_inv h3
      exact h4 n (Ne.symm (hn _ List.mem_cons_self ⟨c, rfl⟩))

/-- Reading leaves simple and enum members of the top object as they are. -/
theorem top_unchanged (hc : NRdCode T prog) {c : Str} {ms : List CMember} (h1 : T.cls c = some ms) {st st' : IniSt}
    (hst : NoTop st) {file : Option Str} {ts : List (Str × Val)} {b : Bool} {v : Val}
    (h : iniRead T L prog c st file (.struct ts) = .ok ((b, v), st')) :
    NoTop st' ∧ ∃ fs, v = .struct fs ∧ ∀ m ∈ ms, m.ty.isLeaf = true → fs.lookup m.name = ts.lookup m.name := by
  unfold iniRead at h
  split at h
  · cases file with
    | none => cases h; exact ⟨hst, ts, rfl, fun _ _ _ => rfl⟩
    | some text =>
      simp only at h
      obtain ⟨r, h2, h⟩ := R.bind_eq_ok.1 h
      cases h
      have hnt := hst.load text
      refine ⟨hnt, ?_⟩
      rw [nrdVal] at h2
      obtain ⟨dot, hrd, _⟩ := hc.rd c ms h1
      simp only [runNRd, hrd] at h2
      obtain ⟨⟨done, fs1⟩, h3, h2⟩ := R.bind_eq_ok.1 h2
      have h3' : done = true ∧ fs1 = ts := by
        unfold runSection at h3
        split at h3
        · cases h3; exact ⟨rfl, rfl⟩
        · split at h3
          · cases h3
          · rw [hnt.1] at h3
            cases h3; exact ⟨rfl, rfl⟩
      obtain ⟨rfl, rfl⟩ := h3'
      simp only [if_true] at h2
      obtain ⟨⟨rv, fs2⟩, h4, h2⟩ := R.bind_eq_ok.1 h2
      cases h2
      refine ⟨fs2, rfl, ?_⟩
      intro m hm hl
      refine runKids_other h4 ?_
      rintro ⟨a, ty⟩ hq ⟨c', hc'⟩ rfl
      obtain ⟨m', hm', e⟩ := mem_ordered.1 hq
      simp only [Prod.mk.injEq] at e
      have hnd := hc.good.nodup c ms h1
      have e1 := memberTy_of h1 hnd hm
      have e2 := memberTy_of h1 hnd hm'
      rw [← e.1, ← e.2] at e2
      simp only at e1 hc' e2
      rw [e1, hc'] at e2
      rw [Option.some.inj e2] at hl
      cases hl
  · cases h

end
end Stfx.Run
