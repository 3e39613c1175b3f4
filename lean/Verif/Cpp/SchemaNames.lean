import Verif.Cpp.Objects
/-
The names in generated files come from the headers: they are identifiers because the scanner accepts nothing else as a name, and C++
accepts them unless they are keywords of C++.
-/
set_option autoImplicit false
namespace Stfx.Cpp
open Stfx.Lexer Stfx.Run Stfx.Parser Stfx.Items Stfx.Gen

/-! ### Names are identifiers -/

theorem lexeme_lang {st : LexSt} {w : Str} {ls : List Lexeme} (h : lexFrom st w = some ls) {l : Lexeme} (hl : l ∈ ls) (hr : l.rule = 30) :
    IsIdent l.text := by
  induction hn : w.length using Nat.strongRecOn generalizing st w ls with
  | ind n ih =>
    cases w with
    | nil =>
      rw [lexFrom_nil] at h
      cases h; cases hl
    | cons c w =>
      obtain ⟨r, k, hm, hp, hle, he⟩ := lexStep_spec st (c :: w) (by simp)
      rw [lexFrom_step (by simp) he] at h
      rw [Option.map_eq_some_iff] at h
      obtain ⟨ls', h1, rfl⟩ := h
      rcases List.mem_cons.1 hl with rfl | hl
      · simp only at hr
        subst hr
        have hc := (cand_iff.1 hm.cand).2.2
        have ha : adjLen 30 k = k := by simp [adjLen]
        rw [ha]
        cases hsc : st.sc <;> rw [hsc] at hc <;> simp [ruleLang] at hc
        exact hc
      · exact ih _ (by rw [← hn]; simp; omega) h1 hl rfl

/-- Whatever the text, a token that is a name is an identifier. -/
theorem name_ident {w : Str} {ts : List Token} (h : toksFile w = some ts) {n : Str} (hn : ⟨.name, n⟩ ∈ ts) : IsIdent n := by
  unfold toksFile toksFrom at h
  rw [Option.map_eq_some_iff] at h
  obtain ⟨ls, h1, rfl⟩ := h
  obtain ⟨l, hl, ht⟩ := List.mem_filterMap.1 hn
  unfold Lexeme.token? at ht
  rw [Option.map_eq_some_iff] at ht
  obtain ⟨k, hk, ht⟩ := ht
  have hr : l.rule = 30 := by
    injection ht with h2 h3
    subst h2
    unfold actKind at hk
    split at hk <;> first | cases hk | skip
    assumption
  have ht' : l.text = n := by
    injection ht with h2 h3
    rw [← h3, hr]
    rfl
  rw [← ht']
  exact lexeme_lang h1 hl hr

/-- The names in a member.  (Specification notion, models no code.) -/
def memberNames : Parser.Member → List Str
  | .simple _ n _ => [n]
  | .named ty n _ => [ty, n]
  | .vector el n => [el, n]

/-- The names in a declaration.  (Specification notion, models no code.) -/
def declNames : Decl → List Str
  | .enum _ n e es _ => n :: (e :: es).map Enumerator.name
  | .struct n m ms => n :: (m :: ms).flatMap memberNames

theorem enumerators_toks (t : Bool) : ∀ (e : Enumerator) (es : List Enumerator), ∀ x ∈ e :: es, ⟨.name, x.name⟩ ∈ enumeratorsToks t e es := by
  intro e es
  have h0 : ∀ x : Enumerator, (⟨.name, x.name⟩ : Token) ∈ x.toks := by
    intro x
    unfold Enumerator.toks
    split <;> simp
  induction es generalizing e with
  | nil =>
    intro x hx
    cases List.mem_singleton.1 hx
    exact List.mem_append_left _ (h0 _)
  | cons e' es ih =>
    intro x hx
    rcases List.mem_cons.1 hx with rfl | hx
    · exact List.mem_append_left _ (h0 _)
    · exact List.mem_append_right _ (List.mem_cons_of_mem _ (ih e' x hx))

theorem declNames_toks (d : Decl) : ∀ n ∈ declNames d, ⟨.name, n⟩ ∈ d.toks := by
  intro n hn
  cases d with
  | enum c a e es t =>
    rcases List.mem_cons.1 hn with rfl | hn
    · simp [Decl.toks]
    · obtain ⟨x, hx, rfl⟩ := List.mem_map.1 hn
      have := enumerators_toks t e es x hx
      simp [Decl.toks, this]
  | struct a m ms =>
    rcases List.mem_cons.1 hn with rfl | hn
    · simp [Decl.toks]
    · obtain ⟨x, hx, hn⟩ := List.mem_flatMap.1 hn
      have h1 : (⟨.name, n⟩ : Token) ∈ x.toks := by
        cases x <;> simp only [memberNames, List.mem_cons, List.not_mem_nil, or_false] at hn
        · subst hn; simp [Parser.Member.toks]
        · rcases hn with rfl | rfl <;> simp [Parser.Member.toks]
        · rcases hn with rfl | rfl <;> simp [Parser.Member.toks]
      have h2 : ⟨.name, n⟩ ∈ (m :: ms).flatMap Parser.Member.toks := List.mem_flatMap.2 ⟨x, hx, h1⟩
      simp only [Decl.toks, List.cons_append, List.mem_cons, List.mem_append]
      exact .inr (.inr (.inr (.inl h2)))

/-- No name in the headers is a keyword of C++.  (A header with such a name is no C++.)  (Proof notion, models no code.) -/
def NoKeywords (ds : List Decl) : Prop := ∀ d ∈ ds, ∀ n ∈ declNames d, keywords.lookup n = none

section
variable {fs : List (Str × Header)}

theorem letter_of {c : Char} (h : isIdStart c = true) : isLetter c = true := by
  simpa [isIdStart, isLetter, Char.le_def, UInt32.le_iff_toNat_le] using h

theorem digit_of {c : Char} (h : isDig c = true) : isDigit c = true := by
  simpa [isDig, isDigit, Char.le_def, UInt32.le_iff_toNat_le] using h

theorem declared_ident (ht : ∀ f ∈ fs, toksFile f.1 = some f.2.toks) (hk : NoKeywords (declsOf fs)) {d : Decl} (hd : d ∈ declsOf fs) {n : Str}
    (hn : n ∈ declNames d) : Ident n := by
  refine ⟨?_, hk d hd n hn⟩
  obtain ⟨f, hf, hd'⟩ := List.mem_flatMap.1 hd
  obtain ⟨c, u, h1, h2, h3⟩ := name_ident (ht f hf) (List.mem_flatMap.2 ⟨d, hd', declNames_toks d n hn⟩)
  refine ⟨c, u, h1, ?_, ?_⟩
  · exact letter_of h2
  · intro x hx
    rw [Bool.or_eq_true]
    rcases (Bool.or_eq_true _ _).mp (h3 x hx) with h | h
    · exact .inl (letter_of h)
    · exact .inr (digit_of h)

variable {i : Info}

/-- The records of the structs, when code is generated for them. -/
theorem struct_records (ht : ∀ f ∈ fs, toksFile f.1 = some f.2.toks) (hd : ((declsOf fs).map Decl.name).Nodup)
    (h : (processFiles 0 (fs.map fun f => some f.1) [Info.empty]).bind (prepare 0) = some ([i], true)) :
    ∀ p ∈ i.structs, ∃ n m ms, Decl.struct n m ms ∈ declsOf fs ∧ p.2.name = n ∧ p.2.simple = (m :: ms).filterMap simpleOf ∧
      ∀ co ∈ p.2.complex, ∃ x ∈ m :: ms, memberNames x = [co.tyName, co.name] := by
  obtain ⟨i0, h2, h3, h4, h5⟩ := tables_of ht hd h
  obtain ⟨⟨h6, h7, _⟩, _⟩ := tables_all ht hd h
  have hi : i = (findTop (fixup i0).1).1 := by
    simp only [prepare, List.getElem?_cons_zero, Option.bind_eq_bind, Option.bind_some, Option.some.injEq,
      Prod.mk.injEq, List.set_cons_zero, List.cons.injEq, and_true] at h3
    exact h3.1.symm
  have hh : History [i] := .generate h2.history h3
  have hok := hh.ok.tab 0 i rfl
  intro p hp
  have hf := hok.sortedS.find?_of_mem (k := p.1) (v := p.2) hp
  rw [hi, prep_find, Option.map_eq_some_iff] at hf
  obtain ⟨s0, hs0, hs⟩ := hf
  obtain ⟨m, ms, hdecl, rfl⟩ := (h4 _ _).1 hs0
  refine ⟨p.1, m, ms, hdecl, h6 _ _ hp, by rw [← hs], ?_⟩
  intro co hco
  rw [← hs] at hco
  obtain ⟨co0, hco0, rfl⟩ := List.mem_map.1 hco
  obtain ⟨x, hx, hxc⟩ := List.mem_filterMap.1 hco0
  refine ⟨x, hx, ?_⟩
  cases x with
  | simple => cases hxc
  | named ty v d =>
    cases hxc
    unfold fixupLine
    split <;> rfl
  | vector el v =>
    cases hxc
    rfl

/-- Their names are identifiers. -/
theorem structs_named (ht : ∀ f ∈ fs, toksFile f.1 = some f.2.toks) (hd : ((declsOf fs).map Decl.name).Nodup) (hk : NoKeywords (declsOf fs))
    (h : (processFiles 0 (fs.map fun f => some f.1) [Info.empty]).bind (prepare 0) = some ([i], true)) : ∀ p ∈ i.structs, StructNamed p.2 := by
  intro p hp
  obtain ⟨n, m, ms, hdecl, h1, h2, h3⟩ := struct_records ht hd h p hp
  refine ⟨?_, ?_, ?_⟩
  · rw [h1]
    exact declared_ident ht hk hdecl List.mem_cons_self
  · intro l hl
    rw [h2] at hl
    obtain ⟨x, hx, hxl⟩ := List.mem_filterMap.1 hl
    refine declared_ident ht hk hdecl (List.mem_cons_of_mem _ (List.mem_flatMap.2 ⟨x, hx, ?_⟩))
    cases x with
    | simple => cases hxl; exact List.mem_singleton.2 rfl
    | named => cases hxl
    | vector => cases hxl
  · intro co hco
    obtain ⟨x, hx, hn⟩ := h3 co hco
    exact ⟨declared_ident ht hk hdecl (List.mem_cons_of_mem _ (List.mem_flatMap.2 ⟨x, hx, by rw [hn]; simp⟩)),
      declared_ident ht hk hdecl (List.mem_cons_of_mem _ (List.mem_flatMap.2 ⟨x, hx, by rw [hn]; simp⟩))⟩

/-- The records of the enums. -/
theorem enums_named (ht : ∀ f ∈ fs, toksFile f.1 = some f.2.toks) (hd : ((declsOf fs).map Decl.name).Nodup) (hk : NoKeywords (declsOf fs))
    (h : (processFiles 0 (fs.map fun f => some f.1) [Info.empty]).bind (prepare 0) = some ([i], true)) :
    (∀ p ∈ i.enums, EnumNamed p.2) ∧ (i.enums.map fun p => p.2.name).Nodup := by
  obtain ⟨i0, h2, h3, h4, h5⟩ := tables_of ht hd h
  have hi : i = (findTop (fixup i0).1).1 := by
    simp only [prepare, List.getElem?_cons_zero, Option.bind_eq_bind, Option.bind_some, Option.some.injEq,
      Prod.mk.injEq, List.set_cons_zero, List.cons.injEq, and_true] at h3
    exact h3.1.symm
  have hh : History [i] := .generate h2.history h3
  have hok := hh.ok.tab 0 i rfl
  have key : ∀ p ∈ i.enums, ∃ c x xs t, Decl.enum c p.1 x xs t ∈ declsOf fs ∧ p.2 = ⟨p.1, c, (x :: xs).map lineOf⟩ := by
    intro p hp
    have hf := hok.sortedE.find?_of_mem (k := p.1) (v := p.2) hp
    rw [hi] at hf
    exact (h5 _ _).1 hf
  refine ⟨fun p hp => ?_, ?_⟩
  · obtain ⟨c, x, xs, t, hdecl, he⟩ := key p hp
    rw [he]
    refine ⟨declared_ident ht hk hdecl List.mem_cons_self, fun l hl => ?_⟩
    obtain ⟨y, hy, rfl⟩ := List.mem_map.1 hl
    have : (lineOf y).name = y.name := by unfold lineOf; split <;> rfl
    rw [this]
    exact declared_ident ht hk hdecl (List.mem_cons_of_mem _ (List.mem_map.2 ⟨y, hy, rfl⟩))
  · have he : (i.enums.map fun p => p.2.name) = i.enums.keys := by
      apply List.map_congr_left
      intro p hp
      obtain ⟨c, x, xs, t, _, he⟩ := key p hp
      rw [he]
    rw [he]
    refine List.Pairwise.imp ?_ ((SMap.sorted_iff_keys _).1 hok.sortedE)
    rintro a b h rfl
    rw [sLt_irrefl] at h
    cases h

/-- No member has one of the types for which no standard C++ is generated (C59).  (Proof notion, models no code.) -/
def NoShortMembers (ds : List Decl) : Prop :=
  ∀ n m ms, Decl.struct n m ms ∈ ds → ∀ ty v d, Parser.Member.simple ty v d ∈ m :: ms → ty ≠ .unsignedShort ∧ ty ≠ .unsignedLong

theorem noShort_of {k : Kind} (ht : ∀ f ∈ fs, toksFile f.1 = some f.2.toks) (hd : ((declsOf fs).map Decl.name).Nodup)
    (h : (processFiles 0 (fs.map fun f => some f.1) [Info.empty]).bind (prepare 0) = some ([i], true)) (hs : k = .attrib → NoShortMembers (declsOf fs)) :
    NoShort k i.structs := by
  intro hk p hp l hl
  obtain ⟨n, m, ms, hdecl, h1, h2, h3⟩ := struct_records ht hd h p hp
  rw [h2] at hl
  obtain ⟨x, hx, hxl⟩ := List.mem_filterMap.1 hl
  cases x with
  | simple ty v d => cases hxl; exact hs hk n m ms hdecl ty v d hx
  | named => cases hxl
  | vector => cases hxl

end

end Stfx.Cpp
