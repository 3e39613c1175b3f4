import Verif.Lexer.Buffer
import Verif.Lexer.LexFacts
/-
Facts about the scanner's buffer (Verif.Lexer.Buffer): the tables' end-of-buffer state, the buffer
operations, and the simulation of `yyMatch` by the buffer's matching loop.
-/
set_option autoImplicit false
namespace Stfx.Lexer

/-! ### The tables -/

/-- The states a scan goes through: neither the end-of-buffer state 5 nor the jam state 133.  (Proof notion, models no code.) -/
def scanning (s : Nat) : Bool := 1 ≤ s && s < 133 && s != 5

/-- What the tables give for one scanning state.  (Proof notion, models no code.) -/
def bufStateOk (s : Nat) : Bool :=
  (match yyAccept[s]? with | some a => a != 38 && a ≤ 37 | none => false) &&
  (yyBase[s]?).isSome &&
  delta s 0 == some 5 &&
  (List.range 42).all fun k =>
    match delta s (k + 1) with
    | some s' => (scanning s' || s' == 133) && (yyBase[s]? != some 289 || s' == 133)
    | none => false

theorem table_states : ∀ s, s < 133 → scanning s = true → bufStateOk s = true := by
  decide +kernel

theorem table_stop : ∀ s, s < 133 → scanning s = true → yyBase[s]? = some 289 →
    yyAccept[s]? ≠ some 0 := by
  decide +kernel

theorem table_eob : ∀ k, k < 43 → delta 5 k = some 133 := by decide +kernel

theorem scanning_lt {s : Nat} (h : scanning s = true) : s < 133 := by
  simp only [scanning, Bool.and_eq_true, decide_eq_true_eq] at h; omega

/-- A scanning state has an action number (0: none) below that of the end of the buffer. -/
theorem accept_ok {s : Nat} (h : scanning s = true) : ∃ a, yyAccept[s]? = some a ∧ a ≤ 37 := by
  have := table_states s (scanning_lt h) h
  simp only [bufStateOk, Bool.and_eq_true] at this
  obtain ⟨⟨⟨h1, _⟩, _⟩, _⟩ := this
  cases ha : yyAccept[s]? with
  | none => rw [ha] at h1; simp at h1
  | some a => rw [ha] at h1; simp at h1; exact ⟨a, rfl, h1.2⟩

theorem delta_zero {s : Nat} (h : scanning s = true) : delta s 0 = some 5 := by
  have := table_states s (scanning_lt h) h
  simp only [bufStateOk, Bool.and_eq_true] at this
  simpa using this.1.2

theorem delta_ok {s k : Nat} (h : scanning s = true) (h1 : 0 < k) (h2 : k < 43) :
    ∃ s', delta s k = some s' ∧ (scanning s' = true ∨ s' = 133) ∧
      (yyBase[s]? = some 289 → s' = 133) := by
  have := table_states s (scanning_lt h) h
  simp only [bufStateOk, Bool.and_eq_true, List.all_eq_true, List.mem_range] at this
  have := this.2 (k - 1) (by omega)
  rw [show k - 1 + 1 = k by omega] at this
  cases hd : delta s k with
  | none => rw [hd] at this; simp at this
  | some s' =>
    rw [hd] at this
    simp only [Bool.and_eq_true, Bool.or_eq_true, bne_iff_ne, beq_iff_eq] at this
    refine ⟨s', rfl, this.1, ?_⟩
    intro hb
    rcases this.2 with h | h
    · exact absurd hb h
    · exact h

theorem base_ok {s : Nat} (h : scanning s = true ∨ s = 133) : ∃ b, yyBase[s]? = some b := by
  rcases h with h | rfl
  · have := table_states s (scanning_lt h) h
    simp only [bufStateOk, Bool.and_eq_true] at this
    exact Option.isSome_iff_exists.1 this.1.1.2
  · exact ⟨289, by decide +kernel⟩

theorem base_jam : yyBase[133]? = some 289 := by decide +kernel
theorem accept_jam : yyAccept[133]? = some 0 := by decide +kernel
theorem accept_eob : yyAccept[5]? = some 38 := by decide +kernel
theorem base_eob : yyBase[5]? = some 288 := by decide +kernel

theorem start_scanning (sc : SC) (bol : Bool) : scanning (startState sc bol) = true := by
  cases sc <;> cases bol <;> decide

theorem ecRaw_nul : ecRaw nul = 0 := by decide
theorem ec_nul : ec nul = 1 := by decide

theorem ecRaw_le (c : Char) : ecRaw c < 43 := by
  unfold ecRaw
  split
  · omega
  · have := ec_bounds c; omega

theorem char_nul {c : Char} (h : c.toNat = 0) : c = nul := by
  have : c.val = 0 := by
    have h : c.val.toNat = 0 := h
    exact UInt32.toNat_inj.1 h
  exact Char.ext this

theorem ecRaw_ne {c : Char} (h : c ≠ nul) : ecRaw c = ec c := by
  unfold ecRaw
  split
  · rename_i h0; exact absurd (char_nul h0) h
  · rfl

/-! ### Buffer cells -/

theorem load_some {b : Cells} {i : Nat} {c : Char} (h : b[i]? = some (some c)) :
    load b i = some c := by simp [load, h]

theorem store_lt {b : Cells} {i : Nat} {c : Char} (h : i < b.length) :
    store b i c = some (b.set i (some c)) := by simp [store, h]

/-- Cells which hold the characters `x`. -/
theorem getElem_of_drop {b : Cells} {i : Nat} {x : Str} {t : Cells}
    (h : b.drop i = x.map some ++ t) {k : Nat} (hk : k < x.length) :
    b[i + k]? = some (some (x[k])) := by
  rw [← List.getElem?_drop, h, List.getElem?_append_left (by simpa using hk)]
  simp [hk]

theorem drop_add_of_drop {b : Cells} {i : Nat} {x y : Str} {t : Cells}
    (h : b.drop i = (x ++ y).map some ++ t) : b.drop (i + x.length) = y.map some ++ t := by
  rw [← List.drop_drop, h]
  simp

/-! ### Matching in the buffer -/

/-- The recorded accepting state of the code and that of `yyMatch`, for a token which starts at
`bp` and of which `n` characters have been read.  (Proof notion, models no code.) -/
def LastOK (last : Option (Nat × Nat)) (bp n : Nat) (lastA : Option Match) : Prop :=
  ∀ a m, lastA = some (a, m) → m ≤ n ∧ ∃ s, last = some (s, bp + m) ∧ yyAccept[s]? = some a

theorem LastOK.none {last : Option (Nat × Nat)} {bp n : Nat} : LastOK last bp n none := by
  intro a m h; cases h

theorem record_ok {s a bp n : Nat} {last : Option (Nat × Nat)} {lastA : Option Match}
    (ha : yyAccept[s]? = some a) (hl : LastOK last bp n lastA) :
    ∃ last', record s (bp + n) last = some last' ∧
      LastOK last' bp n (if a = 0 then lastA else some (a, n)) := by
  refine ⟨_, by simp [record, ha]; rfl, ?_⟩
  split
  · exact hl
  · intro a' m' h
    cases h
    exact ⟨Nat.le_refl _, s, rfl, ha⟩

theorem LastOK.mono {last : Option (Nat × Nat)} {bp n k : Nat} {lastA : Option Match}
    (h : LastOK last bp n lastA) (hk : n ≤ k) : LastOK last bp k lastA := by
  intro a m e
  obtain ⟨h1, h2⟩ := h a m e
  exact ⟨Nat.le_trans h1 hk, h2⟩

/-- The state after all of a text, without stopping anywhere.  (Proof notion, models no code.) -/
def preRun (s n : Nat) (lastA : Option Match) : Str → Option (Nat × Option Match)
  | [] => some (s, lastA)
  | c :: cs => do
    let a ← yyAccept[s]?
    let s' ← delta s (ec c)
    preRun s' (n + 1) (if a = 0 then lastA else some (a, n)) cs

theorem preRun_append {s n : Nat} {lastA : Option Match} {p q : Str} {s1 : Nat}
    {lastA1 : Option Match} (h : preRun s n lastA p = some (s1, lastA1)) :
    preRun s n lastA (p ++ q) = preRun s1 (n + p.length) lastA1 q := by
  induction p generalizing s n lastA with
  | nil => simp only [preRun, Option.some.injEq, Prod.mk.injEq] at h; obtain ⟨rfl, rfl⟩ := h; rfl
  | cons c p ih =>
    simp only [List.cons_append, preRun, Option.bind_eq_bind, List.length_cons] at h ⊢
    cases ha : yyAccept[s]? with
    | none => rw [ha] at h; cases h
    | some a =>
      cases hd : delta s (ec c) with
      | none => rw [ha, hd] at h; cases h
      | some s' =>
        rw [ha, hd] at h
        simp only [Option.bind_some] at h ⊢
        rw [ih h, show n + 1 + p.length = n + (p.length + 1) by omega]

/-- `yy_get_previous_state` computes the state after the text. -/
theorem prevLoop_spec {b : Cells} {p : Str} {t : Cells} {s n bp : Nat} {last : Option (Nat × Nat)}
    {lastA : Option Match} {s1 : Nat} {lastA1 : Option Match}
    (hb : b.drop (bp + n) = p.map some ++ t) (hl : LastOK last bp n lastA)
    (h : preRun s n lastA p = some (s1, lastA1)) :
    ∃ last1, prevLoop b p.length s (bp + n) last = some (s1, last1) ∧
      LastOK last1 bp (n + p.length) lastA1 := by
  induction p generalizing s n last lastA with
  | nil =>
    simp only [preRun, Option.some.injEq, Prod.mk.injEq] at h
    obtain ⟨rfl, rfl⟩ := h
    exact ⟨last, rfl, hl⟩
  | cons c p ih =>
    simp only [preRun, Option.bind_eq_bind] at h
    cases ha : yyAccept[s]? with
    | none => rw [ha] at h; cases h
    | some a =>
      cases hd : delta s (ec c) with
      | none => rw [ha, hd] at h; cases h
      | some s' =>
        rw [ha, hd] at h
        simp only [Option.bind_some] at h
        obtain ⟨last', hr, hl'⟩ := record_ok ha hl
        have hc : load b (bp + n) = some c := by
          apply load_some
          have := getElem_of_drop hb (k := 0) (by simp)
          simpa using this
        have hb' : b.drop (bp + (n + 1)) = p.map some ++ t := by
          have := drop_add_of_drop (x := [c]) (y := p) (by simpa using hb)
          simpa [Nat.add_assoc] using this
        obtain ⟨last1, h1, h2⟩ := ih hb' (hl'.mono (Nat.le_succ n)) h
        refine ⟨last1, ?_, by simpa [Nat.add_assoc, Nat.add_comm 1] using h2⟩
        simp only [List.length_cons, prevLoop, hc, hr, hd, Option.bind_eq_bind, Option.bind_some]
        exact h1

/-- At a NUL the matching loop goes to the end-of-buffer state, and jams on the next character. -/
theorem matchLoop_nul {s : Nat} (hs : scanning s = true) (p : Nat) (last : Option (Nat × Nat))
    (c : Char) (t : Cells) :
    matchLoop s p last (some nul :: some c :: t) = some (133, p + 2, some (5, p + 1)) := by
  obtain ⟨a, ha, _⟩ := accept_ok hs
  simp only [matchLoop, record, ha, ecRaw_nul, delta_zero hs, base_eob, Option.bind_eq_bind,
    Option.bind_some, accept_eob, table_eob _ (ecRaw_le c), base_jam]
  simp

/-- The matching loop of the code on a buffer which holds `q` and the two end-of-buffer characters,
against `yyMatch` on `q` followed by any text: it stops where `yyMatch` stops, or at a NUL of `q`
or the end of `q`. -/
theorem matchLoop_spec {q rest : Str} {t : Cells} {s n bp : Nat} {last : Option (Nat × Nat)}
    {lastA : Option Match} (hs : scanning s = true) (hl : LastOK last bp n lastA) :
    (∃ s' n' last' lastA',
      matchLoop s (bp + n) last (q.map some ++ some nul :: some nul :: t)
        = some (s', bp + n', last') ∧
      LastOK last' bp n' lastA' ∧ n' ≤ n + q.length ∧ (scanning s' = true ∨ s' = 133) ∧
      yyMatch s n lastA (q ++ rest) = findAction s' n' lastA') ∨
    (∃ q1 q2 s1 lastA1, q = q1 ++ q2 ∧ (q2 = [] ∨ ∃ q3, q2 = nul :: q3) ∧
      matchLoop s (bp + n) last (q.map some ++ some nul :: some nul :: t)
        = some (133, bp + (n + q1.length) + 2, some (5, bp + (n + q1.length) + 1)) ∧
      preRun s n lastA q1 = some (s1, lastA1) ∧ scanning s1 = true ∧
      yyMatch s n lastA (q ++ rest) = yyMatch s1 (n + q1.length) lastA1 (q2 ++ rest)) := by
  induction q generalizing s n last lastA with
  | nil =>
    refine .inr ⟨[], [], s, lastA, rfl, .inl rfl, ?_, rfl, hs, rfl⟩
    simpa using matchLoop_nul hs (bp + n) last nul t
  | cons c q ih =>
    by_cases hc : c = nul
    · subst hc
      refine .inr ⟨[], nul :: q, s, lastA, rfl, .inr ⟨q, rfl⟩, ?_, rfl, hs, rfl⟩
      cases q with
      | nil => simpa using matchLoop_nul hs (bp + n) last nul (some nul :: t)
      | cons d q => simpa using matchLoop_nul hs (bp + n) last d (q.map some ++ some nul :: some nul :: t)
    · obtain ⟨a, ha, _⟩ := accept_ok hs
      obtain ⟨last', hr, hl'⟩ := record_ok ha hl
      obtain ⟨s', hd, hs', _⟩ := delta_ok hs (ec_bounds c).1 (ec_bounds c).2
      obtain ⟨b, hb⟩ := base_ok hs'
      by_cases h289 : b = 289
      · subst h289
        refine .inl ⟨s', n + 1, last', _, ?_, hl'.mono (Nat.le_succ n), by simp, hs', ?_⟩
        · simp [matchLoop, ecRaw_ne hc, hr, hd, hb, Nat.add_assoc]
        · simp [yyMatch, ha, hd, hb]
      · have hsc : scanning s' = true := by
          rcases hs' with h | rfl
          · exact h
          · rw [base_jam] at hb; cases hb; exact absurd rfl h289
        have hm : matchLoop s (bp + n) last ((c :: q).map some ++ some nul :: some nul :: t)
            = matchLoop s' (bp + (n + 1)) last' (q.map some ++ some nul :: some nul :: t) := by
          simp [matchLoop, ecRaw_ne hc, hr, hd, hb, h289, Nat.add_assoc]
        have hy : yyMatch s n lastA (c :: q ++ rest)
            = yyMatch s' (n + 1) (if a = 0 then lastA else some (a, n)) (q ++ rest) := by
          simp [yyMatch, ha, hd, hb, h289]
        rw [hm, hy]
        rcases ih hsc (hl'.mono (Nat.le_succ n)) with h | h
        · obtain ⟨s2, n2, l2, lA2, h1, h2, h3, h4, h5⟩ := h
          exact .inl ⟨s2, n2, l2, lA2, h1, h2, by simp; omega, h4, h5⟩
        · obtain ⟨q1, q2, s1, lA1, h1, h2, h3, h4, h5, h6⟩ := h
          have e : n + 1 + q1.length = n + (q1.length + 1) := by omega
          rw [e] at h3 h6
          refine .inr ⟨c :: q1, q2, s1, lA1, by rw [h1]; rfl, h2, h3, ?_, h5, h6⟩
          simp only [preRun, ha, hd, Option.bind_eq_bind, Option.bind_some]
          exact h4

/-- Reading on after a NUL which brought the scanner to a state where it would have stopped makes no
difference. -/
theorem yyMatch_nul {s n : Nat} {lastA : Option Match} {rest : Str} {a s' : Nat}
    (ha : yyAccept[s]? = some a) (hd : delta s 1 = some s')
    (hs' : scanning s' = true) :
    yyMatch s n lastA (nul :: rest)
      = yyMatch s' (n + 1) (if a = 0 then lastA else some (a, n)) rest := by
  obtain ⟨b, hb⟩ := base_ok (.inl hs')
  simp only [yyMatch, ha, ec_nul, hd, hb, Option.bind_eq_bind, Option.bind_some]
  split
  · rename_i h289
    subst h289
    cases rest with
    | nil => rfl
    | cons c rest =>
      obtain ⟨a', ha', _⟩ := accept_ok hs'
      obtain ⟨s2, hd2, _, hj⟩ := delta_ok hs' (ec_bounds c).1 (ec_bounds c).2
      have := hj hb
      subst this
      have h0 : a' ≠ 0 := by
        intro h; subst h
        exact table_stop s' (scanning_lt hs') hs' hb ha'
      simp [yyMatch, findAction, ha', hd2, base_jam, accept_jam, h0]
  · rfl

/-- A NUL on which the scanner jams. -/
theorem yyMatch_nul_jam {s n : Nat} {lastA : Option Match} {rest : Str}
    (hs : scanning s = true) (hd : delta s 1 = some 133) :
    yyMatch s n lastA (nul :: rest) = findAction s n lastA := by
  obtain ⟨a, ha, _⟩ := accept_ok hs
  simp only [yyMatch, ha, ec_nul, hd, base_jam, findAction, accept_jam, Option.bind_eq_bind,
    Option.bind_some]
  simp

end Stfx.Lexer
