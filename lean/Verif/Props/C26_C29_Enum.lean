import Verif.Run.Enum
/-
Properties C26-C29: the generated enum conversions.
-/
set_option autoImplicit false
namespace Stfx.Run
open Stfx.Items

/-- A declared value: the value of some enumerator.  (Example, models no code.) -/
def DeclaredVal (e : EnumS) (val : EnumVals) (x : Int) : Prop := ∃ l ∈ e.enums, val l.name = x

/-- An enum with an alias and a gap.  (Specification notion, models no code.) -/
def someEnum : EnumS := ⟨c!"E", true, [⟨c!"A", false, c!"-"⟩, ⟨c!"B", true, c!"7"⟩, ⟨c!"C", true, c!"7"⟩, ⟨c!"D", false, c!"-"⟩]⟩
/-- Its values.  (Specification notion, models no code.) -/
def someVals : EnumVals := fun n => if n = c!"A" then 0 else if n = c!"D" then 8 else 7

theorem find_name {ls : List EnumLine} (hnd : (ls.map EnumLine.name).Nodup) {l : EnumLine} (hl : l ∈ ls) :
    ls.find? (fun l' => l'.name = l.name) = some l := by
  induction ls with
  | nil => cases hl
  | cons a ls ih =>
    rw [List.map_cons, List.nodup_cons] at hnd
    rw [List.find?_cons]
    rcases List.mem_cons.1 hl with rfl | h
    · simp
    · have hne : a.name ≠ l.name := fun he => hnd.1 (by rw [he]; exact List.mem_map_of_mem h)
      simp only [hne, decide_false]
      exact ih hnd.2 h

/-- C26: the text of a declared value converts back to it, and the conversion reports success. -/
theorem C26_round_trip (e : EnumS) (val : EnumVals) (hnd : (e.enums.map EnumLine.name).Nodup) {x : Int}
    (hx : DeclaredVal e val x) : sToE e val (sFromE e val x) = .ok true (some x) := by
  obtain ⟨l, hl, hv⟩ := hx
  unfold sFromE
  cases hf : e.enums.find? fun l => val l.name = x with
  | none =>
    have := List.find?_eq_none.1 hf l hl
    simp [hv] at this
  | some l' =>
    have h1 : val l'.name = x := by have := List.find?_some hf; simpa using this
    have h2 := List.mem_of_find?_eq_some hf
    unfold sToE
    simp only [find_name hnd h2, h1]

/-- Non-vacuity: 7 is declared twice; its text is the first name. -/
example : (someEnum.enums.map EnumLine.name).Nodup ∧ DeclaredVal someEnum someVals 7 ∧
    sFromE someEnum someVals 7 = c!"B" :=
  ⟨by decide, ⟨⟨c!"C", true, c!"7"⟩, by decide, by decide⟩, by decide⟩

/-- C27: an undeclared value the type can hold is written as its decimal text, which converts back to it; the
conversion reports false. -/
theorem C27_undeclared (e : EnumS) (val : EnumVals) (hn : ∀ l ∈ e.enums, IsName l.name) {x : Int} (hi : inSigned 32 x)
    (hh : holds e val x = true) (hx : ¬ DeclaredVal e val x) :
    sFromE e val x = intText x ∧ sToE e val (intText x) = .ok false (some x) := by
  constructor
  · unfold sFromE
    cases hf : e.enums.find? fun l => val l.name = x with
    | none => rfl
    | some l =>
      exact absurd ⟨l, List.mem_of_find?_eq_some hf, by have := List.find?_some hf; simpa using this⟩ hx
  · unfold sToE
    have : e.enums.find? (fun l => l.name = intText x) = none := by
      rw [List.find?_eq_none]
      intro l hl
      simpa using (hn l hl).ne_intText x
    rw [this, stoSigned_intText hi]
    simp only [hh, if_true]

/-- Non-vacuity. -/
example : (∀ l ∈ someEnum.enums, IsName l.name) ∧ holds someEnum someVals (-2147483648) = true ∧
    inSigned 32 (-2147483648) ∧ ¬ DeclaredVal someEnum someVals (-2147483648) := by
  refine ⟨by decide, by decide, by decide, ?_⟩
  unfold DeclaredVal
  decide

/-- C28: the conversion reports true exactly for the names of enumerators, and then yields their value. -/
theorem C28_true_iff (e : EnumS) (val : EnumVals) (hnd : (e.enums.map EnumLine.name).Nodup) (s : Str) (y : Int) :
    sToE e val s = .ok true (some y) ↔ ∃ l ∈ e.enums, l.name = s ∧ val l.name = y := by
  constructor
  · intro h
    unfold sToE at h
    split at h
    · rename_i l hf
      injection h with _ h2
      injection h2 with h2
      exact ⟨l, List.mem_of_find?_eq_some hf, by have := List.find?_some hf; simpa using this, h2⟩
    · split at h
      · injection h with h1 _; cases h1
      · split at h
        · injection h with h1 _; cases h1
        · cases h
  · rintro ⟨l, hl, rfl, rfl⟩
    unfold sToE
    simp only [find_name hnd hl]

/-- A decimal number in the range of `int` after white space.  (Specification notion, models no code.) -/
def StartsWithInt (s : Str) (i : Int) : Prop :=
  ∃ sp ds rest sgn, s = sp ++ sgn ++ ds ++ rest ∧ (∀ c ∈ sp, isSpace c = true) ∧ ds ≠ [] ∧ (∀ c ∈ ds, isDigit c = true) ∧
    (∀ c, rest.head? = some c → isDigit c = false) ∧
    ((sgn = c!"-" ∧ i = -(digitsVal ds : Int)) ∨ ((sgn = [] ∨ sgn = c!"+") ∧ i = digitsVal ds)) ∧
    inSigned 32 i

theorem startsWithInt_iff {s : Str} {i : Int} : StartsWithInt s i ↔ stoSigned 32 s = .val i := by
  constructor
  · rintro ⟨sp, ds, rest, sgn, rfl, h1, h2, h3, h4, h5, h6⟩
    have hds : (ds ++ rest).takeWhile isDigit = ds := by
      rw [List.takeWhile_append_of_pos h3]
      cases rest with
      | nil => simp
      | cons c r => rw [List.takeWhile_cons, h4 c rfl]; simp
    obtain ⟨d, ds', rfl⟩ : ∃ d ds', ds = d :: ds' := by
      cases ds with
      | nil => exact absurd rfl h2
      | cons d ds' => exact ⟨d, ds', rfl⟩
    have hd := h3 d List.mem_cons_self
    have key : scanDec (sp ++ sgn ++ (d :: ds') ++ rest) = some (decide (sgn = c!"-"), digitsVal (d :: ds')) := by
      unfold scanDec
      rw [List.append_assoc, List.append_assoc, List.dropWhile_append_of_pos h1]
      rcases h5 with ⟨rfl, _⟩ | ⟨rfl | rfl, _⟩
      · rw [show (c!"-" ++ ((d :: ds') ++ rest)) = '-' :: ((d :: ds') ++ rest) from rfl, dropSpace_cons (by decide)]
        simp only [sign, hds]
        simp
      · rw [List.nil_append, List.cons_append, dropSpace_cons (not_space_of_digit hd)]
        have : sign (d :: (ds' ++ rest)) = (false, d :: (ds' ++ rest)) := by
          have hn := not_sign_of_digit hd
          unfold sign
          split
          · rename_i heq; injection heq with h3 _; exact absurd h3 hn.1
          · rename_i heq; injection heq with h3 _; exact absurd h3 hn.2
          · rfl
        rw [List.cons_append] at hds
        simp only [this, hds]
        simp
      · rw [show (c!"+" ++ ((d :: ds') ++ rest)) = '+' :: ((d :: ds') ++ rest) from rfl, dropSpace_cons (by decide)]
        simp only [sign, hds]
        simp
    unfold stoSigned
    rw [key]
    rcases h5 with ⟨rfl, rfl⟩ | ⟨rfl | rfl, rfl⟩
    · simp only [decide_true, if_true, if_pos h6]
    · have : ¬ (([] : Str) = c!"-") := by decide
      simp only [this, decide_false, Bool.false_eq_true, if_false, if_pos h6]
    · have : ¬ (c!"+" = c!"-") := by decide
      simp only [this, decide_false, Bool.false_eq_true, if_false, if_pos h6]
  · intro h
    unfold stoSigned at h
    cases hs : scanDec s with
    | none => rw [hs] at h; cases h
    | some p =>
      obtain ⟨neg, m⟩ := p
      rw [hs] at h
      simp only at h
      by_cases hr : inSigned 32 (if neg = true then -(m : Int) else m)
      · rw [if_pos hr] at h
        injection h with h
        unfold scanDec at hs
        have e1 : s = s.takeWhile isSpace ++ s.dropWhile isSpace := List.takeWhile_append_dropWhile.symm
        have e2 : ∀ c ∈ s.takeWhile isSpace, isSpace c = true := by
          intro c hc
          exact (List.all_eq_true.1 List.all_takeWhile) c hc
        have main : ∀ (sgn r : Str), s.dropWhile isSpace = sgn ++ r → sign (s.dropWhile isSpace) = (neg, r) →
            ((sgn = c!"-" ∧ neg = true) ∨ ((sgn = [] ∨ sgn = c!"+") ∧ neg = false)) → StartsWithInt s i := by
          intro sgn r hsr hsg hcase
          rw [hsg] at hs
          simp only at hs
          split at hs
          · cases hs
          · rename_i hne
            injection hs with hs
            injection hs with _ hm
            refine ⟨s.takeWhile isSpace, r.takeWhile isDigit, r.dropWhile isDigit, sgn, ?_, e2, hne, ?_, ?_, ?_, h ▸ hr⟩
            · rw [List.append_assoc, List.takeWhile_append_dropWhile, List.append_assoc, ← hsr]
              exact e1
            · exact fun c hc => (List.all_eq_true.1 List.all_takeWhile) c hc
            · intro c hc
              have := List.head?_dropWhile_not isDigit r
              rw [hc] at this
              simpa using this
            · rcases hcase with ⟨h1, h2⟩ | ⟨h1, h2⟩
              · left; exact ⟨h1, by rw [← h, h2, if_pos rfl, hm]⟩
              · right; exact ⟨h1, by rw [← h, h2, hm]; simp⟩
        cases hd : s.dropWhile isSpace with
        | nil =>
          rw [hd] at hs
          simp [sign] at hs
        | cons c r =>
          by_cases hc1 : c = '-'
          · subst hc1
            have hneg : neg = true := by
              rw [hd] at hs
              simp only [sign] at hs
              split at hs
              · cases hs
              · injection hs with hs; injection hs with hs _; exact hs.symm
            exact main c!"-" r (by rw [hd]; rfl) (by rw [hd, hneg]; rfl) (Or.inl ⟨rfl, hneg⟩)
          · by_cases hc2 : c = '+'
            · subst hc2
              have hneg : neg = false := by
                rw [hd] at hs
                simp only [sign] at hs
                split at hs
                · cases hs
                · injection hs with hs; injection hs with hs _; exact hs.symm
              exact main c!"+" r (by rw [hd]; rfl) (by rw [hd, hneg]; rfl) (Or.inr ⟨Or.inr rfl, hneg⟩)
            · have hsg : sign (c :: r) = (false, c :: r) := by
                unfold sign
                split
                · rename_i heq; injection heq with h3 _; exact absurd h3 hc1
                · rename_i heq; injection heq with h3 _; exact absurd h3 hc2
                · rfl
              have hneg : neg = false := by
                rw [hd, hsg] at hs
                simp only at hs
                split at hs
                · cases hs
                · injection hs with hs; injection hs with hs _; exact hs.symm
              exact main [] (c :: r) (by rw [hd]; rfl) (by rw [hd, hneg, hsg]) (Or.inr ⟨Or.inl rfl, hneg⟩)
      · rw [if_neg hr] at h
        cases h

/-- C28: a string that is no enumerator name and does not start with an int is not assigned to the target, which stays as it was. -/
theorem C28_unchanged (e : EnumS) (val : EnumVals) {s : Str} (hname : ∀ l ∈ e.enums, l.name ≠ s)
    (hint : ∀ i, ¬ StartsWithInt s i) 
    : sToE e val s = .ok false none := by
  unfold sToE
  have : e.enums.find? (fun l => l.name = s) = none := by
    rw [List.find?_eq_none]
    intro l hl
    simpa using hname l hl
  rw [this]
  cases hs : stoSigned 32 s with
  | throws => rfl
  | val i => exact absurd (startsWithInt_iff.2 hs) (hint i)

/-- The remaining case of C28: a string that is no enumerator name and starts with an int yields that int and reports
false, unless the enum type can not hold it. -/
theorem C28_number (e : EnumS) (val : EnumVals) {s : Str} (hname : ∀ l ∈ e.enums, l.name ≠ s) {i : Int}
    (hint : StartsWithInt s i) :
    sToE e val s = if holds e val i = true then .ok false (some i) else .ub := by
  unfold sToE
  have : e.enums.find? (fun l => l.name = s) = none := by
    rw [List.find?_eq_none]
    intro l hl
    simpa using hname l hl
  rw [this, startsWithInt_iff.1 hint]

/-- Non-vacuity: a name with other case, a number out of range, and a number followed by other text. -/
example : (∀ l ∈ someEnum.enums, l.name ≠ c!"b") ∧ sToE someEnum someVals c!"b" = .ok false none ∧
    sToE someEnum someVals c!"2147483648" = .ok false none ∧ sToE someEnum someVals c!" +12x" = .ok false (some 12) ∧
    sToE someEnum someVals c!"C" = .ok true (some 7) := by decide +kernel
example : StartsWithInt c!" +12x" 12 := startsWithInt_iff.2 (by decide)
example : ∀ i, ¬ StartsWithInt c!"2147483648" i := by
  intro i h
  have := startsWithInt_iff.1 h
  rw [show stoSigned 32 c!"2147483648" = .throws from by decide +kernel] at this
  cases this

/-- An unscoped enum can not hold every int: there the number in the string is undefined behaviour. -/
example : sToE { someEnum with isClass := false } someVals c!"16" = .ub ∧
    sToE { someEnum with isClass := false } someVals c!"15" = .ok false (some 15) := by decide +kernel

/-- C29: different values have different texts. -/
theorem C29_injective (e : EnumS) (val : EnumVals) (hnd : (e.enums.map EnumLine.name).Nodup)
    (hn : ∀ l ∈ e.enums, IsName l.name) {x y : Int} (h : sFromE e val x = sFromE e val y) : x = y := by
  unfold sFromE at h
  cases hx : e.enums.find? fun l => val l.name = x with
  | none =>
    rw [hx] at h
    cases hy : e.enums.find? fun l => val l.name = y with
    | none => rw [hy] at h; exact intText_inj h
    | some l => rw [hy] at h; exact absurd h.symm ((hn l (List.mem_of_find?_eq_some hy)).ne_intText x)
  | some l =>
    rw [hx] at h
    cases hy : e.enums.find? fun l => val l.name = y with
    | none => rw [hy] at h; exact absurd h ((hn l (List.mem_of_find?_eq_some hx)).ne_intText y)
    | some l' =>
      rw [hy] at h
      have e1 := find_name hnd (List.mem_of_find?_eq_some hx)
      have e2 := find_name hnd (List.mem_of_find?_eq_some hy)
      simp only at h
      rw [h, e2] at e1
      have : l' = l := Option.some.inj e1
      have v1 : val l.name = x := by have := List.find?_some hx; simpa using this
      have v2 : val l'.name = y := by have := List.find?_some hy; simpa using this
      rw [← v1, ← v2, this]

/-- Non-vacuity: the hypotheses hold for the enum above. -/
example : (someEnum.enums.map EnumLine.name).Nodup ∧ (∀ l ∈ someEnum.enums, IsName l.name) ∧
    sFromE someEnum someVals 8 = c!"D" ∧ sFromE someEnum someVals 9 = c!"9" := by decide +kernel

end Stfx.Run
