import Verif.Run.XmlTrip
/-
Which simple and enum members survive a file.
-/
set_option autoImplicit false
namespace Stfx.Run
open Stfx.Items Stfx.Parser Stfx.Gen

/-! ### Texts -/

/-- Characters of identifiers.  (Specification notion, models no code.) -/
def isWord (c : Char) : Bool := isDigit c || (97 ≤ c.toNat && c.toNat ≤ 122) || (65 ≤ c.toNat && c.toNat ≤ 90) || c = '_'

/-- C++ identifiers.  (Specification notion, models no code.) -/
def Ident (s : Str) : Prop := ∃ c r, s = c :: r ∧ isDigit c = false ∧ ∀ c ∈ s, isWord c = true

instance (s : Str) : Decidable (Ident s) :=
  match s with
  | [] => .isFalse (by rintro ⟨c, r, h, _⟩; cases h)
  | c :: r => decidable_of_iff (isDigit c = false ∧ ∀ c' ∈ c :: r, isWord c' = true)
      ⟨fun h => ⟨c, r, rfl, h⟩, by rintro ⟨c', r', h, h'⟩; cases h; exact h'⟩

theorem isWord_cases {c : Char} (h : isWord c = true) :
    isSpace c = false ∧ c ≠ '\x00' ∧ c ≠ '\r' ∧ c ≠ '-' ∧ c ≠ '+' := by
  have key : ∀ (d : Char), isWord d = false → c ≠ d := by rintro d hd rfl; rw [h] at hd; cases hd
  refine ⟨?_, key _ (by decide), key _ (by decide), key _ (by decide), key _ (by decide)⟩
  unfold isSpace
  simp [key ' ' (by decide), key '\t' (by decide), key '\n' (by decide), key '\x0b' (by decide), key '\x0c' (by decide),
    key '\r' (by decide)]

/-- Texts that no step of saving and loading changes.  (Specification notion, models no code.) -/
structure Plain (s : Str) : Prop where
  nonul : '\x00' ∉ s
  nocr : '\r' ∉ s
  noblank : blank s = false

theorem Plain.nl {s : Str} (h : Plain s) : nl s = s := nl_id h.nocr
theorem Plain.back {s : Str} (h : Plain s) (k : Kind) : back k s = some s := by
  unfold Run.back
  rw [h.noblank, h.nl]
  simp

theorem cStr_id {s : Str} (h : '\x00' ∉ s) : cStr s = s := by
  unfold cStr
  refine takeWhile_all _ ?_
  intro c hc
  simp only [ne_eq, decide_not, Bool.not_eq_eq_eq_not, Bool.not_true, decide_eq_false_iff_not]
  rintro rfl
  exact h hc

theorem plain_of_words {s : Str} (hne : s ≠ []) (h : ∀ c ∈ s, isWord c = true ∨ c = '-') : Plain s := by
  have hm : ∀ c ∈ s, isSpace c = false ∧ c ≠ '\x00' ∧ c ≠ '\r' := by
    intro c hc
    rcases h c hc with h | rfl
    · have := isWord_cases h
      exact ⟨this.1, this.2.1, this.2.2.1⟩
    · decide
  refine ⟨fun hc => (hm _ hc).2.1 rfl, fun hc => (hm _ hc).2.2 rfl, ?_⟩
  cases s with
  | nil => exact absurd rfl hne
  | cons c s => simp [blank, (hm c List.mem_cons_self).1]

theorem plain_intText (i : Int) : Plain (intText i) := by
  refine plain_of_words ?_ ?_
  · unfold intText
    split
    · simp
    · exact natText_ne_nil _
  · intro c hc
    have hd : ∀ n, c ∈ natText n → isWord c = true := by
      intro n hn
      have := natText_digits n c hn
      simp [isWord, this]
    unfold intText at hc
    split at hc
    · rcases List.mem_cons.1 hc with rfl | hc
      · exact Or.inr rfl
      · exact Or.inl (hd _ hc)
    · exact Or.inl (hd _ hc)

theorem Ident.plain {s : Str} (h : Ident s) : Plain s := by
  obtain ⟨c, r, rfl, _, hw⟩ := h
  exact plain_of_words (by simp) fun c hc => Or.inl (hw c hc)

theorem Ident.isName {s : Str} (h : Ident s) : IsName s := by
  obtain ⟨c, r, rfl, hd, hw⟩ := h
  have := isWord_cases (hw c List.mem_cons_self)
  exact ⟨c, r, rfl, hd, this.1, this.2.2.2.1, this.2.2.2.2⟩

/-! ### Enums -/

/-- Enums as C++ allows them.  (Specification notion, models no code.) -/
def EnumOk (e : EnumS) : Prop := (e.enums.map EnumLine.name).Nodup ∧ ∀ l ∈ e.enums, Ident l.name

/-- Every enum of the table is.  (Specification notion, models no code.) -/
def CTable.EnumsOk (T : CTable) : Prop := ∀ n e val, T.enm n = some (e, val) → EnumOk e

theorem sFromE_cases (e : EnumS) (val : EnumVals) (x : Int) :
    (∃ l ∈ e.enums, val l.name = x ∧ sFromE e val x = l.name) ∨
    ((∀ l ∈ e.enums, val l.name ≠ x) ∧ sFromE e val x = intText x) := by
  unfold sFromE
  cases hf : e.enums.find? fun l => val l.name = x with
  | none =>
    right
    refine ⟨fun l hl => ?_, rfl⟩
    have := List.find?_eq_none.1 hf l hl
    simpa using this
  | some l =>
    left
    exact ⟨l, List.mem_of_find?_eq_some hf, by have := List.find?_some hf; simpa using this, rfl⟩

theorem sFromE_plain {e : EnumS} (h : EnumOk e) (val : EnumVals) (x : Int) : Plain (sFromE e val x) := by
  rcases sFromE_cases e val x with ⟨l, hl, _, h'⟩ | ⟨_, h'⟩
  · rw [h']; exact (h.2 l hl).plain
  · rw [h']; exact plain_intText x

theorem find_line {ls : List EnumLine} (hnd : (ls.map EnumLine.name).Nodup) {l : EnumLine} (hl : l ∈ ls) :
    ls.find? (fun l' => l'.name = l.name) = some l := by
  induction ls with
  | nil => cases hl
  | cons a ls ih =>
    rw [List.map_cons, List.nodup_cons] at hnd
    rw [List.find?_cons]
    rcases List.mem_cons.1 hl with rfl | h
    · simp
    · have hne : a.name ≠ l.name := fun he => hnd.1 (by rw [he]; exact List.mem_map_of_mem h)
      simp only [hne, decide_false]
      exact ih hnd.2 h

theorem sToE_back {e : EnumS} (h : EnumOk e) {val : EnumVals} {x : Int} (hi : inSigned 32 x) (hh : holds e val x = true) :
    ∃ b, sToE e val (sFromE e val x) = .ok b (some x) := by
  rcases sFromE_cases e val x with ⟨l, hl, hv, h'⟩ | ⟨_, h'⟩
  · rw [h']
    unfold sToE
    rw [find_line h.1 hl]
    exact ⟨true, by simp [hv]⟩
  · rw [h']
    unfold sToE
    have : e.enums.find? (fun l => l.name = intText x) = none := by
      rw [List.find?_eq_none]
      intro l hl
      simpa using (h.2 l hl).isName.ne_intText x
    rw [this, stoSigned_intText hi]
    exact ⟨false, by simp [hh]⟩

/-! ### Leaves that are written -/

/-- Members that survive a file, if they are written: long values in the range of int, strings without NUL and carriage
return, floating point values that survive their text.  (Specification notion, models no code.) -/
def Fits (L : Lib) : MTy → Val → Prop
  | .simple .long, .num i => inSigned 32 i
  | .simple .unsignedLong, .num i => inUnsigned 32 i
  | .simple .stdString, .str s => '\x00' ∉ s ∧ '\r' ∉ s
  | .simple .float, .flt b => L.scanF (L.fmtF b) = some b ∧ Plain (L.fmtF b)
  | .simple .double, .dbl b => L.scanD (L.fmtD b) = some b ∧ Plain (L.fmtD b)
  | _, _ => True

/-- Element XML loses strings of white space.  (Specification notion, models no code.) -/
def Visible (k : Kind) : MTy → Val → Prop
  | .simple .stdString, .str s => k = .xml → blank s = false
  | _, _ => True

theorem toBool_text (b : Bool) : toBool (if b then c!"true" else c!"false") = .ok (some b) := by
  cases b <;> decide +kernel

theorem plain_bool (b : Bool) : Plain (if b then c!"true" else c!"false") := by
  cases b
  · exact plain_of_words (by decide) (by decide)
  · exact plain_of_words (by decide) (by decide)

theorem inSigned_mono {a b : Nat} (h : a ≤ b) {i : Int} (hi : inSigned a i) : inSigned b i := by
  have hp : (2 : Int) ^ (a - 1) ≤ (2 : Int) ^ (b - 1) := by
    have : (2 : Nat) ^ (a - 1) ≤ 2 ^ (b - 1) := Nat.pow_le_pow_right (by decide) (by omega)
    exact_mod_cast this
  unfold inSigned at *
  omega

theorem inUnsigned_mono {a b : Nat} (h : a ≤ b) {i : Int} (hi : inUnsigned a i) : inUnsigned b i := by
  have hp : (2 : Int) ^ a ≤ (2 : Int) ^ b := by
    have : (2 : Nat) ^ a ≤ 2 ^ b := Nat.pow_le_pow_right (by decide) h
    exact_mod_cast this
  unfold inUnsigned at *
  omega

theorem inUnsigned_nonneg {a : Nat} {i : Int} (h : inUnsigned a i) : 0 ≤ i := h.1

/-- A simple member that fits survives being written. -/
theorem simple_back {T : CTable} {L : Lib} {k : Kind} {ty : SimpleTy} {v : Val} (hs : T.simpleVal ty v = true)
    (hf : Fits L (.simple ty) v) (hb : Visible k (.simple ty) v) (t : Val) :
    ∃ s, simpleText L k ty v = .ok s ∧ readSimple L ty t (back k s) = .ok v := by
  cases ty <;> cases v <;> try (simp [CTable.simpleVal] at hs; done)
  case bool.bool b =>
    refine ⟨_, rfl, ?_⟩
    rw [(plain_bool b).back]
    simp [readSimple, conv, toBool_text, assign]
  case int.num i =>
    refine ⟨_, rfl, ?_⟩
    simp only [CTable.simpleVal, decide_eq_true_eq] at hs
    rw [(plain_intText i).back]
    simp [readSimple, conv, toInt_intText hs, scanVal, assign]
  case short.num i =>
    refine ⟨_, rfl, ?_⟩
    simp only [CTable.simpleVal, decide_eq_true_eq] at hs
    rw [(plain_intText i).back]
    simp [readSimple, conv, toInt_intText (inSigned_mono (by decide) hs), scanVal, assign, wrapSigned_id (by decide) hs]
  case long.num i =>
    have hf : inSigned 32 i := hf
    refine ⟨_, rfl, ?_⟩
    rw [wrapSigned_id (by decide) hf, ite_self, (plain_intText i).back]
    simp [readSimple, conv, toInt_intText hf, scanVal, assign]
  case unsignedInt.num i =>
    refine ⟨_, rfl, ?_⟩
    simp only [CTable.simpleVal, decide_eq_true_eq] at hs
    rw [(plain_intText i).back]
    simp [readSimple, conv, toUnsigned_intText hs, scanVal, assign]
  case unsignedShort.num i =>
    refine ⟨_, rfl, ?_⟩
    simp only [CTable.simpleVal, decide_eq_true_eq] at hs
    rw [(plain_intText i).back]
    simp [readSimple, conv, toUnsigned_intText (inUnsigned_mono (by decide) hs), scanVal, assign, wrapUnsigned_id hs]
  case unsignedLong.num i =>
    have hf : inUnsigned 32 i := hf
    refine ⟨_, rfl, ?_⟩
    rw [wrapUnsigned_id hf, (plain_intText i).back]
    simp [readSimple, conv, toUnsigned_intText hf, scanVal, assign]
  case float.flt b =>
    obtain ⟨h1, h2⟩ : L.scanF (L.fmtF b) = some b ∧ Plain (L.fmtF b) := hf
    refine ⟨_, rfl, ?_⟩
    rw [h2.back]
    simp [readSimple, conv, h1, assign]
  case double.dbl b =>
    obtain ⟨h1, h2⟩ : L.scanD (L.fmtD b) = some b ∧ Plain (L.fmtD b) := hf
    refine ⟨_, rfl, ?_⟩
    rw [h2.back]
    simp [readSimple, conv, h1, assign]
  case stdString.str s =>
    obtain ⟨h1, h2⟩ : '\x00' ∉ s ∧ '\r' ∉ s := hf
    refine ⟨_, rfl, ?_⟩
    rw [cStr_id h1]
    have hb : k = .xml → blank s = false := hb
    have : back k s = some s := by
      unfold back
      rw [nl_id h2]
      by_cases hk : k = .xml
      · simp [hb hk]
      · simp [hk]
    rw [this]
    simp [readSimple, conv, assign]

/-- Enum members survive. -/
theorem enum_back {T : CTable} {k : Kind} (he : T.EnumsOk) {n : Str} {v : Val} (hw : CTable.WT T false (.enum n) v) (t : Val) :
    ∃ s, enumText T (some (.enum n)) v = .ok s ∧ readEnum T (some (.enum n)) t (back k s) = .ok v := by
  cases hw with
  | undef h _ _ _ => cases h
  | @enum _ e val i h1 h2 h3 =>
    have hp := sFromE_plain (he _ _ _ h1) val i
    refine ⟨sFromE e val i, ?_, ?_⟩
    · simp only [enumText, h1, cStr_id hp.nonul]
    · obtain ⟨b, hb⟩ := sToE_back (he _ _ _ h1) h2 h3
      rw [hp.back]
      simp only [readEnum, h1, hb]

/-- A leaf that fits survives being written. -/
theorem leaf_back {T : CTable} {L : Lib} {k : Kind} (he : T.EnumsOk) {ty : MTy} (hl : ty.isLeaf = true) {v : Val}
    (hw : CTable.WT T false ty v) (hf : Fits L ty v) (hb : Visible k ty v) (t : Val) :
    ∃ s, leafText T L k ty v = .ok s ∧ readLeaf T L ty t (back k s) = .ok v := by
  cases ty with
  | simple ty =>
    cases hw with
    | undef h _ _ _ => cases h
    | simple h => exact simple_back h hf hb t
  | enum n => exact enum_back he hw t
  | struct _ => cases hl
  | vec _ => cases hl

end Stfx.Run
