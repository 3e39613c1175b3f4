import Verif.Lexer.Check
/-
The table-driven scanner implements the rules of struct_lex.l with flex's disambiguation.
-/
namespace Stfx.Lexer
open Re

theorem yyEc_length : yyEc.length = 256 := by decide +kernel

theorem ec_eq_of_lt {c : Char} (_h : c.toNat < 256) :
    ec c = if c.toNat = 0 then 1 else yyEc.getD c.toNat 1 := by
  unfold ec
  split
  · rfl
  · simp only [List.getD]
    split <;> simp_all

theorem ec_eq_of_ge {c : Char} (h : 256 ≤ c.toNat) : ec c = 1 := by
  unfold ec
  rw [if_neg (by omega)]
  rw [List.getElem?_eq_none (by rw [yyEc_length]; exact h)]

theorem ec_bounds (c : Char) : 0 < ec c ∧ ec c < 43 := by
  by_cases h : c.toNat < 256
  · have := List.all_eq_true.1 ec_range c.toNat (List.mem_range.2 h)
    rw [ec_eq_of_lt h]
    simpa using this
  · rw [ec_eq_of_ge (by omega)]; omega

theorem atom_ec {a : CSet} (ha : a ∈ atomList) (c : Char) :
    a.memN c.toNat = a.memN (rep (ec c)) := by
  by_cases h : c.toNat < 256
  · have := List.all_eq_true.1 (List.all_eq_true.1 ecOk_small c.toNat (List.mem_range.2 h)) a ha
    rw [ec_eq_of_lt h]
    simpa using this
  · have h2 := List.all_eq_true.1 atoms_small a ha
    simp only [Bool.and_eq_true, List.all_eq_true, decide_eq_true_eq, beq_iff_eq] at h2
    rw [ec_eq_of_ge (by omega), h2.2]
    have : (a.ranges.any fun r => r.1 ≤ c.toNat && c.toNat ≤ r.2) = false := by
      rw [List.any_eq_false]
      intro r hr
      have := h2.1 r hr
      simp; omega
    simp [CSet.memN, this]

/-- Language of rule `r` from state `s`.  (Proof notion, models no code.) -/
def Lang (s r : Nat) (v : Str) : Prop := ∃ re, (r, re) ∈ label s ∧ re.Matches v

theorem checkState_ok {s : Nat} (hs : s ∈ realStates) : checkState s = true :=
  List.all_eq_true.1 checkAll_ok s hs

theorem subsetB_iff {a b : Label} : subsetB a b = true ↔ ∀ p ∈ a, p ∈ b := by
  simp [subsetB, List.all_eq_true]

theorem foldl_minNullable (l : Label) (hl : ∀ p ∈ l, 0 < p.1) (m : Nat) :
    let a := l.foldl (fun m p => if nullable p.2 && (m == 0 || p.1 < m) then p.1 else m) m
    (a = 0 ↔ m = 0 ∧ ∀ p ∈ l, nullable p.2 = false) ∧
    (a ≠ 0 → (a = m ∨ ∃ p ∈ l, p.1 = a ∧ nullable p.2 = true) ∧
      (∀ p ∈ l, nullable p.2 = true → a ≤ p.1) ∧ (m ≠ 0 → a ≤ m)) := by
  induction l generalizing m with
  | nil => simp
  | cons q l ih =>
    simp only [List.foldl_cons]
    have hl' : ∀ p ∈ l, 0 < p.1 := fun p hp => hl p (List.mem_cons_of_mem _ hp)
    have hq : 0 < q.1 := hl q (List.mem_cons_self ..)
    specialize ih hl' (if nullable q.2 && (m == 0 || q.1 < m) then q.1 else m)
    simp only at ih ⊢
    generalize hA : List.foldl _ (if nullable q.2 && (m == 0 || q.1 < m) then q.1 else m) l = A at *
    obtain ⟨ih1, ih2⟩ := ih
    by_cases hn : nullable q.2 = true
    · simp only [hn, Bool.true_and] at ih1 ih2
      by_cases hm : (m == 0 || decide (q.1 < m)) = true
      · rw [if_pos hm] at ih1 ih2
        constructor
        · constructor
          · intro h; have := (ih1.1 h).1; omega
          · intro h; have := h.2 q (List.mem_cons_self ..); simp [hn] at this
        · intro h
          obtain ⟨a1, a2, a3⟩ := ih2 h
          have a3' := a3 (by omega)
          refine ⟨?_, ?_, ?_⟩
          · rcases a1 with a1 | ⟨p, hp, h1, h2⟩
            · exact Or.inr ⟨q, List.mem_cons_self .., a1.symm, hn⟩
            · exact Or.inr ⟨p, List.mem_cons_of_mem _ hp, h1, h2⟩
          · intro p hp hnp
            rcases List.mem_cons.1 hp with rfl | hp
            · exact a3'
            · exact a2 p hp hnp
          · intro hm0
            have hm' : q.1 < m := by simpa [hm0] using hm
            exact Nat.le_trans a3' (Nat.le_of_lt hm')
      · rw [if_neg hm] at ih1 ih2
        simp at hm
        constructor
        · constructor
          · intro h; have := (ih1.1 h).1; omega
          · intro h; omega
        · intro h
          obtain ⟨a1, a2, a3⟩ := ih2 h
          have a3' : A ≤ m := a3 hm.1
          refine ⟨?_, ?_, ?_⟩
          · rcases a1 with a1 | ⟨p, hp, h1, h2⟩
            · exact Or.inl a1
            · exact Or.inr ⟨p, List.mem_cons_of_mem _ hp, h1, h2⟩
          · intro p hp hnp
            rcases List.mem_cons.1 hp with rfl | hp
            · exact Nat.le_trans a3' hm.2
            · exact a2 p hp hnp
          · intro _; exact a3'
    · have hn' : nullable q.2 = false := by simpa using hn
      simp only [hn', Bool.false_and, Bool.false_eq_true, if_false] at ih1 ih2
      constructor
      · rw [ih1]
        simp [hn']
      · intro h
        obtain ⟨a1, a2, a3⟩ := ih2 h
        refine ⟨?_, ?_, a3⟩
        · rcases a1 with a1 | ⟨p, hp, h1, h2⟩
          · exact Or.inl a1
          · exact Or.inr ⟨p, List.mem_cons_of_mem _ hp, h1, h2⟩
        · intro p hp hnp
          rcases List.mem_cons.1 hp with rfl | hp
          · simp [hn'] at hnp
          · exact a2 p hp hnp

/-- Facts about one automaton state, extracted from the kernel check.  (Proof notion, models no code.) -/
structure StateOk (s : Nat) : Prop where
  acc : ∃ a, yyAccept[s]? = some a ∧ (a = 0 ↔ ∀ r, ¬ Lang s r []) ∧
    (a ≠ 0 → Lang s a [] ∧ ∀ r, Lang s r [] → a ≤ r)
  base : ∃ b, yyBase[s]? = some b ∧ (b = 289 → ∀ r c v, ¬ Lang s r (c :: v))
  step : ∀ c : Char, ∃ s', delta s (ec c) = some s' ∧ s' ∈ realStates ∧
    ∀ r v, Lang s r (c :: v) ↔ Lang s' r v

theorem stateOk {s : Nat} (hs : s ∈ realStates) : StateOk s := by
  have h := checkState_ok hs
  unfold checkState at h
  simp only [Bool.and_eq_true] at h
  obtain ⟨⟨⟨⟨h1, h2⟩, h3⟩, h4⟩, h5⟩ := h
  have hatoms : ∀ p ∈ label s, ∀ a ∈ atoms p.2, a ∈ atomList := by
    intro p hp a ha
    have := List.all_eq_true.1 (List.all_eq_true.1 h2 p hp) a ha
    simpa using this
  have hpos : ∀ p ∈ label s, 0 < p.1 := by
    intro p hp
    simpa using List.all_eq_true.1 h3 p hp
  have hpd : ∀ (c : Char) r v, Lang s r (c :: v) ↔
      ∃ re, (r, re) ∈ pdLabel (rep (ec c)) (label s) ∧ re.Matches v := by
    intro c r v
    unfold Lang pdLabel
    constructor
    · rintro ⟨re, hre, hm⟩
      obtain ⟨r', hr', hm'⟩ := (pd_iff re c v).1 hm
      rw [pd_congr re c.toNat (rep (ec c)) fun a ha => atom_ec (hatoms _ hre a ha) c] at hr'
      exact ⟨r', List.mem_flatMap.2 ⟨_, hre, List.mem_map.2 ⟨r', hr', rfl⟩⟩, hm'⟩
    · rintro ⟨r', hr', hm'⟩
      obtain ⟨⟨r0, re⟩, hre, h⟩ := List.mem_flatMap.1 hr'
      obtain ⟨q, hq, e⟩ := List.mem_map.1 h
      simp only [Prod.mk.injEq] at e
      obtain ⟨rfl, rfl⟩ := e
      refine ⟨re, hre, (pd_iff re c v).2 ⟨q, ?_, hm'⟩⟩
      rw [pd_congr re c.toNat (rep (ec c)) fun a ha => atom_ec (hatoms _ hre a ha) c]
      exact hq
  refine ⟨?_, ?_, ?_⟩
  · refine ⟨minNullable (label s), by simpa using h1, ?_, ?_⟩
    · have := (foldl_minNullable (label s) hpos 0).1
      unfold minNullable
      rw [this]
      constructor
      · rintro ⟨_, h⟩ r ⟨re, hre, hm⟩
        have := h _ hre
        simp [(nullable_iff re).2 hm] at this
      · intro h
        refine ⟨rfl, fun p hp => ?_⟩
        by_cases hn : nullable p.2 = true
        · exact absurd ⟨p.2, hp, (nullable_iff _).1 hn⟩ (h p.1)
        · simpa using hn
    · intro ha
      have := (foldl_minNullable (label s) hpos 0).2 ha
      obtain ⟨h1, h2, _⟩ := this
      refine ⟨?_, ?_⟩
      · rcases h1 with h1 | ⟨p, hp, h1, h2⟩
        · exact absurd h1 ha
        · refine ⟨p.2, ?_, (nullable_iff _).1 h2⟩
          have : (minNullable (label s), p.2) = p := by
            have : minNullable (label s) = p.1 := h1.symm
            rw [this]
          rw [this]; exact hp
      · rintro r ⟨re, hre, hm⟩
        exact h2 _ hre ((nullable_iff _).2 hm)
  · cases hb : yyBase[s]? with
    | none => simp [hb] at h4
    | some b =>
      refine ⟨b, rfl, ?_⟩
      rintro rfl r c v hL
      obtain ⟨re, hre, _⟩ := (hpd c r v).1 hL
      simp only [hb, bne_self_eq_false, Bool.false_or] at h4
      have := List.all_eq_true.1 h4 (ec c) (List.mem_range.2 (ec_bounds c).2)
      simp only [List.isEmpty_iff] at this
      rw [this] at hre
      simp at hre
  · intro c
    have := List.all_eq_true.1 h5 (ec c) (List.mem_range.2 (ec_bounds c).2)
    have hk : (ec c == 0) = false := by have := (ec_bounds c).1; simp; omega
    simp only [hk, Bool.false_or] at this
    cases hd : delta s (ec c) with
    | none => simp [hd] at this
    | some s' =>
      simp only [hd, Bool.and_eq_true, subsetB_iff] at this
      obtain ⟨⟨ha, hb⟩, hc⟩ := this
      refine ⟨s', rfl, by simpa using ha, fun r v => ?_⟩
      rw [hpd]
      constructor
      · rintro ⟨re, hre, hm⟩; exact ⟨re, hb _ hre, hm⟩
      · rintro ⟨re, hre, hm⟩; exact ⟨re, hc _ hre, hm⟩

/-- The recorded last match is correct for the prefix `u` read so far.  (Proof notion, models no code.) -/
def LastOk (s0 : Nat) (w : Str) (n : Nat) (last : Option Match) : Prop :=
  match last with
  | none => ∀ m, m < n → ∀ r, ¬ Lang s0 r (w.take m)
  | some (a, k) => k < n ∧ Lang s0 a (w.take k) ∧ (∀ r, Lang s0 r (w.take k) → a ≤ r) ∧
      ∀ m, k < m → m < n → ∀ r, ¬ Lang s0 r (w.take m)

/-- Longest match starting in state `s0` on `w` (possibly empty).  (Proof notion, models no code.) -/
structure Best (s0 : Nat) (w : Str) (a k : Nat) : Prop where
  le : k ≤ w.length
  mem : Lang s0 a (w.take k)
  min : ∀ r, Lang s0 r (w.take k) → a ≤ r
  max : ∀ m, m ≤ w.length → ∀ r, Lang s0 r (w.take m) → m ≤ k

theorem findAction_best {s0 s n : Nat} {w : Str} {last : Option Match}
    (hs : s ∈ realStates) (hn : n ≤ w.length)
    (hinv : ∀ r v, Lang s0 r (w.take n ++ v) ↔ Lang s r v)
    (hlast : LastOk s0 w n last)
    (hstop : ∀ m, n < m → m ≤ w.length → ∀ r, ¬ Lang s0 r (w.take m)) :
    match findAction s n last with
    | some (a, k) => Best s0 w a k
    | none => ∀ m, m ≤ w.length → ∀ r, ¬ Lang s0 r (w.take m) := by
  obtain ⟨a, ha, hz, hnz⟩ := (stateOk hs).acc
  have hcur : ∀ r, Lang s0 r (w.take n) ↔ Lang s r [] := by
    intro r; have := hinv r []; simpa using this
  simp only [findAction, ha, Option.bind_eq_bind, Option.bind_some]
  by_cases h0 : a = 0
  · rw [if_pos h0]
    have hno : ∀ r, ¬ Lang s0 r (w.take n) := fun r h => (hz.1 h0) r ((hcur r).1 h)
    cases last with
    | none =>
      intro m hm r
      rcases Nat.lt_trichotomy m n with h | h | h
      · exact hlast m h r
      · subst h; exact hno r
      · exact hstop m h hm r
    | some p =>
      obtain ⟨b, k⟩ := p
      obtain ⟨h1, h2, h3, h4⟩ := hlast
      refine ⟨by omega, h2, h3, fun m hm r hL => ?_⟩
      rcases Nat.lt_or_ge k m with h | h
      · exfalso
        rcases Nat.lt_trichotomy m n with h' | h' | h'
        · exact h4 m h h' r hL
        · subst h'; exact hno r hL
        · exact hstop m h' hm r hL
      · exact h
  · rw [if_neg h0]
    obtain ⟨h1, h2⟩ := hnz h0
    refine ⟨hn, (hcur a).2 h1, fun r hL => h2 r ((hcur r).1 hL), fun m hm r hL => ?_⟩
    rcases Nat.lt_or_ge n m with h | h
    · exact absurd hL (hstop m h hm r)
    · exact h

theorem yyMatch_best {s0 : Nat} (w : Str) :
    ∀ (rest : Str) (s n : Nat) (last : Option Match), s ∈ realStates → n ≤ w.length →
      w.drop n = rest →
      (∀ r v, Lang s0 r (w.take n ++ v) ↔ Lang s r v) → LastOk s0 w n last →
      match yyMatch s n last rest with
      | some (a, k) => Best s0 w a k
      | none => ∀ m, m ≤ w.length → ∀ r, ¬ Lang s0 r (w.take m) := by
  intro rest
  induction rest with
  | nil =>
    intro s n last hs hn hd hinv hlast
    have hlen : w.length ≤ n := by simpa using hd
    exact findAction_best hs hn hinv hlast (fun m h1 h2 => by omega)
  | cons c rest ih =>
    intro s n last hs hn hd hinv hlast
    have hlt : n < w.length := by
      rcases Nat.lt_or_ge n w.length with h | h
      · exact h
      · rw [List.drop_eq_nil_of_le h] at hd; simp at hd
    have hget : w[n] = c := by
      rw [List.drop_eq_getElem_cons hlt] at hd
      simp only [List.cons.injEq] at hd; exact hd.1
    have hrest : w.drop (n + 1) = rest := by
      rw [List.drop_eq_getElem_cons hlt] at hd
      simp only [List.cons.injEq] at hd; exact hd.2
    have htake : w.take (n + 1) = w.take n ++ [c] := by
      rw [List.take_succ_eq_append_getElem hlt, hget]
    obtain ⟨a, ha, hz, hnz⟩ := (stateOk hs).acc
    obtain ⟨s', hs', hr', hst⟩ := (stateOk hs).step c
    obtain ⟨b, hb, hjam⟩ := (stateOk hr').base
    have hinv' : ∀ r v, Lang s0 r (w.take (n + 1) ++ v) ↔ Lang s' r v := by
      intro r v
      rw [htake, List.append_assoc, hinv]
      exact hst r v
    have hcur : ∀ r, Lang s0 r (w.take n) ↔ Lang s r [] := by
      intro r; have := hinv r []; simpa using this
    have hlast' : LastOk s0 w (n + 1) (if a = 0 then last else some (a, n)) := by
      by_cases h0 : a = 0
      · rw [if_pos h0]
        have hno : ∀ r, ¬ Lang s0 r (w.take n) := fun r h => (hz.1 h0) r ((hcur r).1 h)
        cases last with
        | none =>
          intro m hm r
          rcases Nat.lt_or_ge m n with h | h
          · exact hlast m h r
          · have : m = n := by omega
            subst this; exact hno r
        | some p =>
          obtain ⟨h1, h2, h3, h4⟩ := hlast
          refine ⟨by omega, h2, h3, fun m hm1 hm2 r => ?_⟩
          rcases Nat.lt_or_ge m n with h | h
          · exact h4 m hm1 h r
          · have : m = n := by omega
            subst this; exact hno r
      · rw [if_neg h0]
        obtain ⟨h1, h2⟩ := hnz h0
        exact ⟨by omega, (hcur a).2 h1, fun r hL => h2 r ((hcur r).1 hL), fun m h1 h2 => by omega⟩
    have hun : yyMatch s n last (c :: rest) =
        if b = 289 then findAction s' (n + 1) (if a = 0 then last else some (a, n))
        else yyMatch s' (n + 1) (if a = 0 then last else some (a, n)) rest := by
      simp only [yyMatch, ha, hs', hb, Option.bind_eq_bind, Option.bind_some]
    rw [hun]
    by_cases hb289 : b = 289
    · rw [if_pos hb289]
      refine findAction_best hr' (by omega) hinv' hlast' ?_
      intro m h1 h2 r hL
      have e : w.take m = w.take (n + 1) ++ (w.drop (n + 1)).take (m - (n + 1)) := by
        rw [← List.take_add]; congr 1; omega
      rw [e, hinv'] at hL
      cases hv : (w.drop (n + 1)).take (m - (n + 1)) with
      | nil =>
        have hl := congrArg List.length hv
        simp at hl; omega
      | cons d v => rw [hv] at hL; exact hjam hb289 r d v hL
    · rw [if_neg hb289]
      exact ih s' (n + 1) _ hr' (by omega) hrest hinv' hlast'

theorem start_real (sc : SC) (bol : Bool) : startState sc bol ∈ realStates := by
  cases sc <;> cases bol <;> decide

theorem start_label (sc : SC) (bol : Bool) : label (startState sc bol) = startLabel sc bol := by
  cases sc <;> cases bol <;> decide +kernel

theorem lang_start (sc : SC) (bol : Bool) (r : Nat) (v : Str) :
    Lang (startState sc bol) r v ↔ ∃ rule ∈ activeRules sc bol, rule.num = r ∧ rule.full.Matches v := by
  unfold Lang
  rw [start_label]
  unfold startLabel
  constructor
  · rintro ⟨re, hre, hm⟩
    obtain ⟨rule, h, e⟩ := List.mem_map.1 hre
    simp only [Prod.mk.injEq] at e
    exact ⟨rule, h, e.1, e.2 ▸ hm⟩
  · rintro ⟨rule, h, rfl, hm⟩
    exact ⟨_, List.mem_map.2 ⟨rule, h, rfl⟩, hm⟩

theorem start_not_nullable (sc : SC) (bol : Bool) (r : Nat) : ¬ Lang (startState sc bol) r [] := by
  obtain ⟨a, ha, hz, _⟩ := (stateOk (start_real sc bol)).acc
  have : a = 0 := by
    cases sc <;> cases bol <;> (revert ha; simp only [startState]; intro ha; exact (Option.some.inj ha).symm)
  exact hz.1 this r

theorem default_matches (sc : SC) (bol : Bool) (c : Char) :
    Lang (startState sc bol) 37 [c] := by
  rw [lang_start]
  have key : (Re.alt dot (chr '\n')).Matches [c] := by
    by_cases h : c = '\n'
    · subst h; exact .altR (.set (by decide))
    · refine .altL (.set ?_)
      have h' : c.toNat ≠ 10 := by
        intro h'
        apply h
        have : c.val.toNat = ('\n').val.toNat := h'
        exact Char.ext (UInt32.toNat_inj.1 this)
      have h2 : ¬ (10 ≤ c.toNat ∧ c.toNat ≤ 10) := by omega
      simp [CSet.mem, CSet.memN]
      omega
  refine ⟨⟨37, sc, false, false, .alt dot (chr '\n')⟩, ?_, rfl, key⟩
  cases sc <;> cases bol <;> simp [activeRules, rules]

/-- Main scanner theorem: the table-driven matcher returns the flex match of struct_lex.l. -/
theorem matchOne_spec (sc : SC) (bol : Bool) (w : Str) (hw : w ≠ []) :
    ∃ r n, matchOne sc bol w = some (r, n) ∧ IsMunch sc bol w r n := by
  have h := yyMatch_best (s0 := startState sc bol) w w (startState sc bol) 0 none
    (start_real sc bol) (Nat.zero_le _) rfl (by intro r v; simp) (by intro m hm; omega)
  unfold matchOne
  cases w with
  | nil => exact absurd rfl hw
  | cons c w =>
    have hdef : Lang (startState sc bol) 37 ((c :: w).take 1) := by
      simpa using default_matches sc bol c
    cases hm : yyMatch (startState sc bol) 0 none (c :: w) with
    | none =>
      rw [hm] at h
      exact absurd hdef (h 1 (by simp) 37)
    | some p =>
      obtain ⟨a, k⟩ := p
      rw [hm] at h
      obtain ⟨h1, h2, h3, h4⟩ := h
      have hk : 1 ≤ k := h4 1 (by simp) 37 hdef
      refine ⟨a, k, rfl, ⟨hk, h1, (lang_start _ _ _ _).1 h2⟩, ?_, ?_⟩
      · rintro r' n' ⟨_, hb, hc⟩
        exact h4 n' hb r' ((lang_start _ _ _ _).2 hc)
      · rintro r' ⟨_, _, hc⟩
        exact h3 r' ((lang_start _ _ _ _).2 hc)

theorem IsMunch.unique {sc bol w r n r' n'} (h : IsMunch sc bol w r n) (h' : IsMunch sc bol w r' n') :
    r = r' ∧ n = n' := by
  have hn : n = n' := Nat.le_antisymm (h'.longest _ _ h.cand) (h.longest _ _ h'.cand)
  subst hn
  exact ⟨Nat.le_antisymm (h.earliest _ h'.cand) (h'.earliest _ h.cand), rfl⟩

theorem matchOne_iff (sc : SC) (bol : Bool) (w : Str) (hw : w ≠ []) (r n : Nat) :
    matchOne sc bol w = some (r, n) ↔ IsMunch sc bol w r n := by
  obtain ⟨r0, n0, h0, hm⟩ := matchOne_spec sc bol w hw
  rw [h0]
  constructor
  · intro h; simp only [Option.some.injEq, Prod.mk.injEq] at h; obtain ⟨rfl, rfl⟩ := h; exact hm
  · intro h; obtain ⟨rfl, rfl⟩ := hm.unique h; rfl

end Stfx.Lexer
