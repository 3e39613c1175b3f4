import Verif.Lexer.BufferFacts
/-
The scanner with its buffer does what the scanner on the whole text does (used by C58).
-/
set_option autoImplicit false
namespace Stfx.Lexer

/-- The buffer holds `x` from index `bp` on, then the two end-of-buffer characters.  (Proof notion, models no code.) -/
structure BufOK (F : Flex) (bp : Nat) (x : Str) : Prop where
  len : F.buf.length = F.size + 2
  pos : 0 < F.size
  top : F.nChars ≤ F.size
  num : F.nChars = bp + x.length
  cells : ∃ t, F.buf.drop bp = x.map some ++ some nul :: some nul :: t
  pend : F.status = .eofPending → F.input = []
  fresh : F.status = .new → F.bufChars = F.nChars

/-- Between two turns: `w` is what is still to be scanned.  (Proof notion, models no code.) -/
def Inv (F : Flex) (w : Str) : Prop :=
  ∃ x, w = x ++ F.input ∧ BufOK { F with buf := F.buf.set F.cp (some F.hold) } F.cp x

/-- A reader delivers at least one character if there is one, and no more than were asked for.  (Proof notion, models no code.) -/
def Reader (rd : Nat → Str → Nat) : Prop :=
  ∀ max w, 0 < max → w ≠ [] → 1 ≤ rd max w ∧ rd max w ≤ max

theorem BufOK.cell {F : Flex} {bp : Nat} {x : Str} (h : BufOK F bp x) {m : Nat}
    (hm : m ≤ x.length + 1) : ∃ c, F.buf[bp + m]? = some (some c) ∧ bp + m < F.buf.length := by
  obtain ⟨t, ht⟩ := h.cells
  have h1 := h.top
  have h2 := h.num
  have h3 := h.len
  refine ⟨(x ++ [nul, nul])[m]'(by simp; omega), ?_, by omega⟩
  apply getElem_of_drop (t := t)
  simpa using ht

theorem BufOK.doBefore {F : Flex} {bp : Nat} {x : Str} (h : BufOK F bp x) {m : Nat}
    (hm : m ≤ x.length + 1) (bp' : Nat) : ∃ c, F.buf[bp + m]? = some (some c) ∧
      Lexer.doBefore F bp' (bp + m) = some
          { F with text := bp', hold := c, buf := F.buf.set (bp + m) (some nul), cp := bp + m } := by
  obtain ⟨c, hc, hl⟩ := h.cell hm
  exact ⟨c, hc, by simp [Lexer.doBefore, load_some hc, store_lt hl]⟩

theorem set_back {b : Cells} {i : Nat} {c d : Char} (h : b[i]? = some (some c)) :
    (b.set i (some d)).set i (some c) = b := by
  rw [List.set_set]
  apply List.ext_getElem?
  intro j
  rw [List.getElem?_set]
  split
  · rename_i e
    subst e
    have : i < b.length := by
      rcases Nat.lt_or_ge i b.length with h' | h'
      · exact h'
      · rw [List.getElem?_eq_none h'] at h; cases h
    simp only [this, if_true]; exact h.symm
  · rfl

theorem cellsText_spec {b : Cells} {i : Nat} {x : Str} {t : Cells}
    (h : b.drop i = x.map some ++ t) : cellsText b i x.length = some x := by
  induction x generalizing i with
  | nil => rfl
  | cons c x ih =>
    have hc : load b i = some c := by
      apply load_some
      have := getElem_of_drop h (k := 0) (by simp)
      simpa using this
    have hb' : b.drop (i + 1) = x.map some ++ t := by
      have := drop_add_of_drop (x := [c]) (y := x) (by simpa using h)
      simpa using this
    simp [cellsText, hc, ih hb']

/-- The buffer with the NUL after `yytext` still reads as `yytext`. -/
theorem cellsText_set {F : Flex} {bp : Nat} {x : Str} (h : BufOK F bp x) {m : Nat}
    (hm : m ≤ x.length) (c : Option Char) :
    cellsText (F.buf.set (bp + m) c) bp m = some (x.take m) := by
  obtain ⟨t, ht⟩ := h.cells
  have e : (F.buf.set (bp + m) c).drop bp
      = (x.take m).map some ++ (((x.drop m).map some ++ some nul :: some nul :: t).set 0 c) := by
    rw [List.drop_set]
    simp only [Nat.not_lt.2 (Nat.le_add_right bp m), if_false, Nat.add_sub_cancel_left, ht]
    conv => lhs; rw [← List.take_append_drop m x]
    rw [List.map_append, List.append_assoc, List.set_append]
    simp [Nat.min_eq_left hm]
  have := cellsText_spec e
  rwa [List.length_take, Nat.min_eq_left hm] at this

theorem BufOK.shift {F : Flex} {bp : Nat} {x : Str} (h : BufOK F bp x) {m : Nat}
    (hm : m ≤ x.length) : BufOK F (bp + m) (x.drop m) := by
  obtain ⟨t, ht⟩ := h.cells
  refine ⟨h.len, h.pos, h.top, ?_, ⟨t, ?_⟩, h.pend, h.fresh⟩
  · have := h.num; simp; omega
  · have := drop_add_of_drop (x := x.take m) (y := x.drop m)
      (by rw [List.take_append_drop]; exact ht)
    simpa [Nat.min_eq_left hm] using this

/-- From `yy_find_action` to the end of the action. -/
theorem act_spec {F : Flex} {bp n s : Nat} {x : Str} {lastA : Option Match} {r m : Nat}
    (hF : BufOK F bp x) (hl : LastOK F.last bp n lastA) (hn : n ≤ x.length)
    (hf : findAction s n lastA = some (r, m)) (hr : 1 ≤ r) (hm : 0 < adjLen r m) :
    m ≤ n ∧ ∃ F1 F2, findAct F s (bp + n) bp = some (r, F1) ∧
      action F1 r = some (⟨r, x.take (adjLen r m),
        (F.st.next r (x.take (adjLen r m))).loc⟩, F2) ∧
      F2.st = F.st.next r (x.take (adjLen r m)) ∧ Inv F2 (x.drop (adjLen r m) ++ F.input) := by
  have key : m ≤ n ∧ ∃ c, F.buf[bp + m]? = some (some c) ∧
      findAct F s (bp + n) bp = some (r,
          { F with text := bp, hold := c, buf := F.buf.set (bp + m) (some nul), cp := bp + m }) := by
    simp only [findAction, Option.bind_eq_bind] at hf
    cases ha : yyAccept[s]? with
    | none => rw [ha] at hf; cases hf
    | some a =>
      rw [ha] at hf
      simp only [Option.bind_some] at hf
      by_cases h0 : a = 0
      · subst h0
        simp only [if_true] at hf
        obtain ⟨hmn, s1, h1, h2⟩ := hl _ _ hf
        obtain ⟨c, hc, hd⟩ := hF.doBefore (m := m) (by omega) bp
        exact ⟨hmn, c, hc, by simp [findAct, ha, h1, h2, hd]⟩
      · simp only [if_neg h0, Option.some.injEq, Prod.mk.injEq] at hf
        obtain ⟨rfl, rfl⟩ := hf
        obtain ⟨c, hc, hd⟩ := hF.doBefore (m := n) (by omega) bp
        exact ⟨Nat.le_refl _, c, hc, by simp [findAct, ha, h0, hd]⟩
  obtain ⟨hmn, c, hc, hfa⟩ := key
  refine ⟨hmn, ?_⟩
  by_cases h56 : r = 5 ∨ r = 6
  · have hadj : adjLen r m = m - 1 := by simp [adjLen, h56]
    rw [hadj] at hm ⊢
    obtain ⟨d, hd, hdb⟩ := hF.doBefore (m := m - 1) (by omega) bp
    have hlt : bp + m < F.buf.length := by
      have := hF.len; have := hF.top; have := hF.num; omega
    have hcp : bp + m - 1 = bp + (m - 1) := by omega
    refine ⟨_,
      { F with text := bp, hold := d, buf := F.buf.set (bp + (m - 1)) (some nul),
               cp := bp + (m - 1), st := F.st.next r (x.take (m - 1)) }, hfa, ?_, rfl, ?_⟩
    · simp only [action, h56, if_true, Option.bind_eq_bind]
      rw [store_lt (by simpa using hlt)]
      simp only [Option.bind_some, set_back hc]
      rw [if_neg (by omega), hcp]
      have e : Lexer.doBefore { F with text := bp, hold := c, cp := bp + m } bp (bp + (m - 1))
          = some
              { F with text := bp, hold := d, buf := F.buf.set (bp + (m - 1)) (some nul),
                       cp := bp + (m - 1) } := by
        simp only [Lexer.doBefore, load_some hd, Option.bind_eq_bind, Option.bind_some]
        rw [store_lt (by omega)]
        rfl
      rw [e]
      simp only [Option.bind_some, Nat.add_sub_cancel_left]
      rw [cellsText_set hF (by omega)]
      rfl
    · refine ⟨x.drop (m - 1), rfl, ?_⟩
      have := hF.shift (m := m - 1) (by omega)
      refine ⟨?_, this.pos, this.top, this.num, ?_, this.pend, this.fresh⟩
      · simpa using this.len
      · obtain ⟨t, ht⟩ := this.cells
        exact ⟨t, by simp only [set_back hd]; exact ht⟩
  · have hadj : adjLen r m = m := by simp [adjLen, h56]
    rw [hadj] at hm ⊢
    refine ⟨_,
      { F with text := bp, hold := c, buf := F.buf.set (bp + m) (some nul), cp := bp + m,
               st := F.st.next r (x.take m) }, hfa, ?_, rfl, ?_⟩
    · simp only [action, h56, if_false, Option.bind_eq_bind, Option.bind_some,
        Nat.add_sub_cancel_left]
      rw [cellsText_set hF (by omega)]
      rfl
    · refine ⟨x.drop m, rfl, ?_⟩
      have := hF.shift (m := m) (by omega)
      refine ⟨?_, this.pos, this.top, this.num, ?_, this.pend, this.fresh⟩
      · simpa using this.len
      · obtain ⟨t, ht⟩ := this.cells
        exact ⟨t, by simp only [set_back hc]; exact ht⟩

/-! ### Getting more characters -/

theorem copyDown_spec {b : Cells} {x : Str} {t : Cells} {src : Nat}
    (h : b.drop src = x.map some ++ t) :
    ∃ b', copyDown x.length 0 src b = some b' ∧ b'.length = b.length ∧
      b'.take x.length = x.map some := by
  have gen : ∀ (y z : Str) (b : Cells) (t : Cells) (i : Nat), y.length = i →
      b.take i = y.map some → b.drop (src + i) = z.map some ++ t →
      ∃ b', copyDown z.length i (src + i) b = some b' ∧ b'.length = b.length ∧
        b'.take (i + z.length) = (y ++ z).map some := by
    intro y z
    induction z generalizing y with
    | nil => intro b t i hy h1 h2; exact ⟨b, rfl, rfl, by simpa using h1⟩
    | cons c z ih =>
      intro b t i hy h1 h2
      have hc : b[src + i]? = some (some c) := by
        have := getElem_of_drop h2 (k := 0) (by simp)
        simpa using this
      have hlt : src + i < b.length := by
        rcases Nat.lt_or_ge (src + i) b.length with h' | h'
        · exact h'
        · rw [List.getElem?_eq_none h'] at hc; cases hc
      have h2' : b.drop (src + (i + 1)) = z.map some ++ t := by
        have := drop_add_of_drop (x := [c]) (y := z) (by simpa using h2)
        simpa [Nat.add_assoc] using this
      have h1' : (b.set i (some c)).take (i + 1) = (y ++ [c]).map some := by
        rw [List.take_add_one, List.take_set_of_le (Nat.le_refl i), h1]
        rw [List.getElem?_set]
        simp [show i < b.length by omega]
      have h3' : (b.set i (some c)).drop (src + (i + 1)) = z.map some ++ t := by
        rw [List.drop_set_of_lt (by omega), h2']
      obtain ⟨b', hb1, hb2, hb3⟩ := ih (y ++ [c]) (b.set i (some c)) t (i + 1) (by simp [hy]) h1' h3'
      refine ⟨b', ?_, by simpa using hb2, ?_⟩
      · simp only [List.length_cons, copyDown, load_some hc, Option.bind_eq_bind, Option.bind_some]
        rw [store_lt (by omega)]
        simp only [Option.bind_some]
        rw [show src + i + 1 = src + (i + 1) by omega]
        exact hb1
      · simp only [List.length_cons]
        rw [show i + (z.length + 1) = i + 1 + z.length by omega, hb3]
        simp
  obtain ⟨b', h1, h2, h3⟩ := gen [] x b t 0 rfl (by simp) (by simpa using h)
  exact ⟨b', by simpa using h1, h2, by simpa using h3⟩

theorem storeAll_spec {cs : Str} {b : Cells} {x : Str} (hx : b.take x.length = x.map some)
    (hlen : x.length + cs.length ≤ b.length) :
    ∃ b', storeAll b x.length cs = some b' ∧ b'.length = b.length ∧
      b'.take (x ++ cs).length = (x ++ cs).map some := by
  induction cs generalizing b x with
  | nil => exact ⟨b, rfl, rfl, by simpa using hx⟩
  | cons c cs ih =>
    simp only [List.length_cons] at hlen
    have hlt : x.length < b.length := by omega
    have h1 : (b.set x.length (some c)).take (x ++ [c]).length = (x ++ [c]).map some := by
      rw [List.length_append, List.length_singleton, List.take_add_one,
        List.take_set_of_le (Nat.le_refl _), hx, List.getElem?_set]
      simp [hlt]
    obtain ⟨b', h2, h3, h4⟩ := ih h1 (by simp; omega)
    refine ⟨b', ?_, by simpa using h3, by simpa using h4⟩
    simp only [storeAll, store_lt hlt, Option.bind_eq_bind, Option.bind_some]
    simpa using h2

theorem growSize_spec {moved size : Nat} (h : 0 < size) :
    ∃ size', growSize moved (moved + 2) size = some size' ∧ moved + 1 < size' ∧ size ≤ size' := by
  have gen : ∀ k size, 0 < size → moved + 1 < size + k →
      ∃ size', growSize moved (k + 1) size = some size' ∧ moved + 1 < size' ∧ size ≤ size' := by
    intro k
    induction k with
    | zero =>
      intro size _ h
      exact ⟨size, by simp only [growSize]; rw [if_pos (by omega)], by omega, Nat.le_refl _⟩
    | succ k ih =>
      intro size hs h
      by_cases hlt : moved + 1 < size
      · exact ⟨size, by simp [growSize, hlt], hlt, Nat.le_refl _⟩
      · obtain ⟨s', h1, h2, h3⟩ := ih (size * 2) (by omega) (by omega)
        refine ⟨s', ?_, h2, by omega⟩
        rw [growSize, if_neg hlt]; exact h1
  exact gen (moved + 1) size h (by omega)

theorem realloc_take {b : Cells} {n k : Nat} (hk : k ≤ b.length) (hn : b.length ≤ n) :
    (realloc b n).length = n ∧ (realloc b n).take k = b.take k := by
  refine ⟨by simp [realloc]; omega, ?_⟩
  rw [realloc, List.take_take, Nat.min_eq_left (by omega), List.take_append_of_le_length hk]

/-- Two characters stored after the others. -/
theorem store_two {b : Cells} {x : Str} (hx : b.take x.length = x.map some)
    (hl : x.length + 2 ≤ b.length) :
    ∃ b1 b2, store b x.length nul = some b1 ∧ store b1 (x.length + 1) nul = some b2 ∧
      b2.length = b.length ∧ ∃ t, b2 = x.map some ++ some nul :: some nul :: t := by
  refine ⟨_, _, store_lt (by omega), store_lt (by simp; omega), by simp, b.drop (x.length + 2), ?_⟩
  apply List.ext_getElem?
  intro j
  rw [List.getElem?_set, List.getElem?_set]
  rcases Nat.lt_or_ge j x.length with h | h
  · rw [if_neg (by omega), if_neg (by omega), List.getElem?_append_left (by simpa using h),
      ← hx, List.getElem?_take, if_pos h]
  · rw [List.getElem?_append_right (by simpa using h)]
    simp only [List.length_map, List.length_set]
    rcases Nat.lt_or_ge j (x.length + 2) with h2 | h2
    · have : j = x.length ∨ j = x.length + 1 := by omega
      rcases this with rfl | rfl
      · simp [show x.length < b.length by omega]
      · simp [show x.length + 1 < b.length by omega]
    · rw [if_neg (by omega), if_neg (by omega)]
      rw [show j - x.length = j - x.length - 2 + 1 + 1 by omega]
      simp only [List.getElem?_cons_succ, List.getElem?_drop]
      congr 1; omega

/-- What `refill` gets, when the buffer starts with the characters `x`. -/
theorem refill_spec {rd : Nat → Str → Nat} (hrd : Reader rd) {F : Flex} {x : Str}
    (hlen : F.buf.length = F.size + 2) (hpos : 0 < F.size) (hx : x.length ≤ F.size)
    (htake : F.buf.take x.length = x.map some) (hp : F.status = .eofPending → F.input = []) :
    ∃ F' got, refill rd F x.length = some F' ∧ F.input = got ++ F'.input ∧
      (F.input ≠ [] → got ≠ []) ∧ F'.nChars = got.length ∧ F'.bufChars = got.length ∧
      F'.status = F.status ∧ F'.st = F.st ∧ F'.buf.length = F'.size + 2 ∧ 0 < F'.size ∧
      x.length + got.length ≤ F'.size ∧
      F'.buf.take (x ++ got).length = (x ++ got).map some := by
  by_cases hs : F.status = .eofPending
  · refine ⟨{ F with bufChars := 0, nChars := 0 }, [], ?_, by simp, ?_, rfl, rfl, rfl, rfl, hlen,
      hpos, by simpa using hx, by simpa using htake⟩
    · simp [refill, hs]
    · intro h; exact absurd (hp hs) h
  · obtain ⟨size, hg, hroom, hle⟩ := growSize_spec (moved := x.length) hpos
    let k := rd (min (size - x.length - 1) 8192) F.input
    let b := if size = F.size then F.buf else realloc F.buf (size + 2)
    have hb : b.length = size + 2 ∧ b.take x.length = x.map some := by
      simp only [b]
      split
      · rename_i e; subst e; exact ⟨hlen, htake⟩
      · have := realloc_take (b := F.buf) (n := size + 2) (k := x.length) (by omega) (by omega)
        exact ⟨this.1, this.2.trans htake⟩
    have hk : F.input ≠ [] → 1 ≤ k ∧ k ≤ size - x.length - 1 := by
      intro h
      have := hrd (min (size - x.length - 1) 8192) F.input (by omega) h
      simp only [k]; omega
    have hgot : (F.input.take k).length ≤ size - x.length - 1 := by
      by_cases h : F.input = []
      · simp [h]
      · have := hk h; simp; omega
    obtain ⟨b', h1, h2, h3⟩ := storeAll_spec (cs := F.input.take k) hb.2 (by rw [hb.1]; omega)
    refine ⟨{ F with buf := b', size := size, bufChars := (F.input.take k).length,
                     nChars := (F.input.take k).length,
                     input := F.input.drop (F.input.take k).length },
      F.input.take k, ?_, ?_, ?_, rfl, rfl, rfl, rfl, ?_, ?_, ?_, h3⟩
    · simp only [refill, hs, if_false, hg, Option.bind_eq_bind, Option.bind_some]
      simp only [b, k] at h1
      rw [h1]
      rfl
    · simp only [List.length_take]
      rcases Nat.le_total k F.input.length with h | h
      · rw [Nat.min_eq_left h, List.take_append_drop]
      · rw [Nat.min_eq_right h, List.take_of_length_le h]; simp
    · intro h
      have := hk h
      have h' : F.input.length ≠ 0 := by simpa using h
      intro e
      have := congrArg List.length e
      rw [List.length_take, List.length_nil] at this
      omega
    · simpa using h2.trans hb.1
    · show 0 < size; omega
    · show x.length + (F.input.take k).length ≤ size; omega

/-- `yy_get_next_buffer` at the end of the buffer, the characters `x` of the token matched so far. -/
theorem getNextBuffer_spec {rd : Nat → Str → Nat} (hrd : Reader rd) {F : Flex} {x : Str}
    (hF : BufOK F F.text x) (hcp : F.cp = F.text + x.length + 1) (hst : F.status ≠ .new) :
    ∃ r F', getNextBuffer rd F = some (r, F') ∧ F'.text = 0 ∧
      ((r = .endOfFile ∧ x = [] ∧ F.input = [] ∧ F'.input = [] ∧ F'.hold = nul ∧
          F'.st = { F.st with bol := true } ∧ BufOK F' 0 []) ∨
       (r = .lastMatch ∧ x ≠ [] ∧ F.input = [] ∧ F'.input = [] ∧ F'.st = F.st ∧ BufOK F' 0 x) ∨
       (r = .continueScan ∧ F'.st = F.st ∧ F'.status ≠ .new ∧
          ∃ got, got ≠ [] ∧ F.input = got ++ F'.input ∧ BufOK F' 0 (x ++ got))) := by
  obtain ⟨t, ht⟩ := hF.cells
  have hlen := hF.len
  have htop := hF.top
  have hnum := hF.num
  obtain ⟨b0, hc1, hc2, hc3⟩ := copyDown_spec ht
  obtain ⟨F1, got, hr1, hr2, hr3, hr4, hr5, hr6, hr7, hr8, hr9, hr10, hr11⟩ :=
    refill_spec hrd (F := { F with buf := b0 }) (x := x) (hc2.trans hlen) hF.pos (by show x.length ≤ F.size; omega) hc3
      hF.pend
  have hmoved : F.cp - F.text - 1 = x.length := by omega
  by_cases hg : got = []
  · subst hg
    have hin : F.input = [] := by
      rcases Classical.em (F.input = []) with h | h
      · exact h
      · exact absurd rfl (hr3 h)
    have hin1 : F1.input = [] := by
      have : F.input = F1.input := hr2
      rw [← this]; exact hin
    simp only [List.length_nil] at hr4
    by_cases hx : x = []
    · subst hx
      refine ⟨.endOfFile,
        { F1 with buf := (((F1.buf.set 0 (some nul)).set 1 (some nul)).set 0 (some nul)).set 1
                    (some nul),
                  bufChars := 0, status := .new, nChars := 0, text := 0, cp := 0, hold := nul,
                  st := { F1.st with bol := true } },
        ?_, rfl, .inl ⟨rfl, rfl, hin, hin1, rfl, ?_, ?_⟩⟩
      · have hfl : flush F1 = some
            { F1 with buf := (F1.buf.set 0 (some nul)).set 1 (some nul),
                      bufChars := 0, status := .new, nChars := 0, text := 0, cp := 0, hold := nul,
                      st := { F1.st with bol := true } } := by
          simp only [flush, Option.bind_eq_bind]
          rw [store_lt (by omega)]
          simp only [Option.bind_some]
          rw [store_lt (by simp; omega)]
          simp only [Option.bind_some]
          rw [load_some (c := nul) (by simp [show 0 < F1.buf.length by omega])]
          rfl
        simp only [List.length_nil] at hc1 hr1 hmoved hcp
        simp only [getNextBuffer]
        rw [if_neg (by simp at hnum; omega), if_neg (by omega)]
        simp only [hmoved, hc1, Option.bind_eq_bind, Option.bind_some, hr1, hr4, if_true, hfl]
        simp only [Nat.add_zero, Nat.not_lt_zero, if_false, gt_iff_lt]
        rw [store_lt (by simp; omega)]
        simp only [Option.bind_some]
        rw [store_lt (by simp; omega)]
        rfl
      · show ({ F1.st with bol := true } : LexSt) = _
        rw [hr7]
      · refine ⟨by simpa using hr8, hr9, Nat.zero_le _, rfl, ?_, ?_, fun _ => rfl⟩
        · refine ⟨F1.buf.drop 2, ?_⟩
          have : 2 ≤ F1.buf.length := by omega
          match hb : F1.buf with
          | [] => rw [hb] at this; simp at this
          | [_] => rw [hb] at this; simp at this
          | _ :: _ :: _ => simp
        · intro h; cases h
    · have hx0 : x.length ≠ 0 := by simpa using hx
      simp only [List.append_nil] at hr11
      obtain ⟨b1, b2, hs1, hs2, hs3, t2, hs4⟩ := store_two hr11 (by rw [hr8]; simp at hr10; omega)
      refine ⟨.lastMatch,
        { F1 with buf := b2, nChars := x.length, text := 0, status := .eofPending }, ?_, rfl,
        .inr (.inl ⟨rfl, hx, hin, hin1, hr7, ?_⟩)⟩
      · simp only [getNextBuffer]
        rw [if_neg (by omega), if_neg (by omega)]
        simp only [hmoved, hc1, Option.bind_eq_bind, Option.bind_some, hr1, hr4, if_true, if_neg hx0,
          Nat.zero_add]
        rw [if_neg (by simpa using hr10)]
        simp only [Nat.zero_add, hs1, hs2, Option.bind_some]
      · refine ⟨hs3.trans hr8, hr9, by simpa using hr10, by simp, ⟨t2, by simpa using hs4⟩,
          fun _ => hin1, ?_⟩
        intro h; cases h
  · have hg0 : got.length ≠ 0 := by simpa using hg
    obtain ⟨b1, b2, hs1, hs2, hs3, t2, hs4⟩ := store_two hr11 (by rw [hr8]; simp; omega)
    refine ⟨.continueScan, { F1 with buf := b2, nChars := got.length + x.length, text := 0 }, ?_, rfl,
      .inr (.inr ⟨rfl, hr7, ?_, got, hg, hr2, ?_⟩)⟩
    · simp only [getNextBuffer]
      rw [if_neg (by omega), if_neg (by omega)]
      simp only [hmoved, hc1, Option.bind_eq_bind, Option.bind_some, hr1, hr4, if_neg hg0]
      rw [if_neg (by omega)]
      simp only [hr4]
      simp only [List.length_append, Nat.add_comm x.length] at hs1 hs2
      simp only [hs1, hs2, Option.bind_some]
    · show F1.status ≠ .new
      rw [hr6]; exact hst
    · refine ⟨hs3.trans hr8, hr9, by show got.length + x.length ≤ F1.size; omega,
        by simp; omega, ⟨t2, by simpa using hs4⟩, ?_, ?_⟩
      · intro h
        have : F.input = [] := hF.pend (by rw [← h]; exact hr6.symm)
        exfalso
        have h2 : F.input = got ++ F1.input := hr2
        rw [this] at h2
        exact hg (List.append_eq_nil_iff.1 h2.symm).1
      · intro h
        exact absurd (hr6.symm.trans h) hst

/-! ### One turn -/

/-- The members when the end-of-buffer action has been entered, `n` characters of the token before
the NUL.  (Proof notion, models no code.) -/
def atEob (F : Flex) (bp n : Nat) (c : Char) : Flex :=
  { F with last := some (5, bp + n + 1), text := bp, hold := c, cp := bp + n + 1,
           nChars := if F.status = .new then F.bufChars else F.nChars,
           status := if F.status = .new then .normal else F.status }

theorem atEob_ok {F : Flex} {bp n : Nat} {c : Char} {x : Str} (h : BufOK F bp x) :
    BufOK (atEob F bp n c) bp x ∧ (atEob F bp n c).nChars = F.nChars ∧
      (atEob F bp n c).status ≠ .new := by
  have hn : (atEob F bp n c).nChars = F.nChars := by
    simp only [atEob]
    split
    · rename_i hs; exact h.fresh hs
    · rfl
  have hst : (atEob F bp n c).status ≠ .new := by
    simp only [atEob]
    split
    · intro h; cases h
    · assumption
  refine ⟨⟨h.len, h.pos, by rw [hn]; exact h.top, by rw [hn]; exact h.num, h.cells, ?_, ?_⟩, hn, hst⟩
  · intro hs
    simp only [atEob] at hs
    split at hs
    · cases hs
    · exact h.pend hs
  · intro hs; exact absurd hs hst

/-- The matching loop at a NUL, up to the test of the end-of-buffer action. -/
theorem runTurn_eob {rd : Nat → Str → Nat} {k : Nat} {F : Flex} {s cp bp n : Nat} {x : Str}
    (hF : BufOK F bp x) (hn : n ≤ x.length)
    (hm : matchLoop s cp F.last (F.buf.drop cp) = some (133, bp + n + 2, some (5, bp + n + 1))) :
    ∃ c, runTurn rd (k + 1) F (.atMatch s cp bp) =
      ((if n < x.length then eobNul (atEob F bp n c) n else eobMore rd (atEob F bp n c) n).bind
        fun p => match p.1 with
          | none => some (none, p.2)
          | some lbl => runTurn rd k p.2 lbl) := by
  obtain ⟨c, hc, hlt⟩ := hF.cell (m := n + 1) (by omega)
  refine ⟨c, ?_⟩
  simp only [runTurn, hm, Option.bind_eq_bind, Option.bind_some]
  have hfa : findAct { F with last := some (5, bp + n + 1) } 133 (bp + n + 2) bp
      = some (38, { F with last := some (5, bp + n + 1), text := bp, hold := c,
                           buf := F.buf.set (bp + (n + 1)) (some nul), cp := bp + (n + 1) }) := by
    simp only [findAct, accept_jam, accept_eob, Option.bind_eq_bind, Option.bind_some, if_true,
      doBefore, Nat.add_assoc, load_some hc, store_lt hlt]
  have hee : eobEnter
        { F with last := some (5, bp + n + 1), text := bp, hold := c,
                 buf := F.buf.set (bp + (n + 1)) (some nul), cp := bp + (n + 1) }
      = some (atEob F bp n c) := by
    simp only [eobEnter, Option.bind_eq_bind]
    rw [store_lt (by simpa using hlt)]
    simp only [Option.bind_some, set_back hc, atEob]
    split <;> rfl
  rw [hfa]
  simp only [Option.bind_some, show ¬(38 = 0 ∨ 38 < 38) by omega, if_false, if_true, endOfBuffer]
  rw [if_neg (by omega), show bp + (n + 1) - bp - 1 = n by omega]
  simp only [hee, Option.bind_eq_bind, Option.bind_some]
  have hnum := hF.num
  have hcmp : ((atEob F bp n c).cp ≤ (atEob F bp n c).nChars) = (n < x.length) := by
    rw [(atEob_ok hF).2.1]
    show (bp + n + 1 ≤ F.nChars) = _
    apply propext; omega
  simp only [hcmp]
  rfl

/-- `yy_get_previous_state` after the token's characters `p`. -/
theorem prevState_spec {F : Flex} {p y : Str} {s1 : Nat} {lastA1 : Option Match}
    (hF : BufOK F F.text (p ++ y)) (hcp : F.cp = F.text + p.length)
    (h : preRun (startState F.st.sc F.st.bol) 0 none p = some (s1, lastA1)) :
    ∃ last1, prevState F = some (s1, { F with last := last1 }) ∧
      LastOK last1 F.text p.length lastA1 := by
  obtain ⟨t, ht⟩ := hF.cells
  rw [List.map_append, List.append_assoc] at ht
  obtain ⟨last1, h1, h2⟩ := prevLoop_spec (b := F.buf) (n := 0) (bp := F.text) (last := F.last)
    (by simpa using ht) LastOK.none h
  refine ⟨last1, ?_, by simpa using h2⟩
  simp only [prevState, hcp, Nat.add_sub_cancel_left]
  simp only [Nat.add_zero] at h1
  simp [h1]

theorem BufOK.last {F : Flex} {bp : Nat} {x : Str} (h : BufOK F bp x)
    (l : Option (Nat × Nat)) (cp text : Nat) :
    BufOK { F with last := l, cp := cp, text := text } bp x :=
  ⟨h.len, h.pos, h.top, h.num, h.cells, h.pend, h.fresh⟩

/-- From `yy_find_action` with the right state and position. -/
theorem runTurn_find {rd : Nat → Str → Nat} {k : Nat} {F : Flex} {bp n s : Nat} {x : Str}
    {lastA : Option Match} {r m : Nat} (hF : BufOK F bp x) (hl : LastOK F.last bp n lastA)
    (hn : n ≤ x.length) (hf : findAction s n lastA = some (r, m)) (hr : 1 ≤ r ∧ r ≤ 37)
    (hm : 0 < adjLen r m) :
    adjLen r m ≤ x.length ∧ ∃ F', runTurn rd (k + 1) F (.atFind s (bp + n) bp)
      = some (some ⟨r, (x ++ F.input).take (adjLen r m),
          (F.st.next r ((x ++ F.input).take (adjLen r m))).loc⟩, F') ∧
      F'.st = F.st.next r ((x ++ F.input).take (adjLen r m)) ∧
      Inv F' ((x ++ F.input).drop (adjLen r m)) := by
  obtain ⟨hmn, F1, F2, h1, h2, h3, h4⟩ := act_spec hF hl hn hf hr.1 hm
  have hle : adjLen r m ≤ x.length := by
    have : adjLen r m ≤ m := by unfold adjLen; split <;> omega
    omega
  refine ⟨hle, F2, ?_, ?_, ?_⟩
  · rw [List.take_append_of_le_length hle]
    simp only [runTurn, h1, Option.bind_eq_bind, Option.bind_some, h2]
    rw [if_neg (by omega), if_neg (by omega)]
  · rw [List.take_append_of_le_length hle]; exact h3
  · rw [List.drop_append_of_le_length hle]; exact h4

/-- The end-of-buffer action on a NUL of the input. -/
theorem eobNul_spec {F : Flex} {p q : Str} {s1 : Nat} {lastA1 : Option Match}
    (hF : BufOK F F.text (p ++ nul :: q))
    (hpre : preRun (startState F.st.sc F.st.bol) 0 none p = some (s1, lastA1))
    (hs : scanning s1 = true) :
    ∃ a s2 last2, yyAccept[s1]? = some a ∧ delta s1 1 = some s2 ∧
      (scanning s2 = true ∨ s2 = 133) ∧
      LastOK last2 F.text p.length (if a = 0 then lastA1 else some (a, p.length)) ∧
      eobNul F p.length = some (if s2 = 133 then
          (some (.atFind s1 (F.text + p.length) F.text),
            { F with cp := F.text + p.length, last := last2 })
        else (some (.atMatch s2 (F.text + p.length + 1) F.text),
            { F with cp := F.text + p.length + 1, last := last2 })) := by
  obtain ⟨last1, hps, hl1⟩ := prevState_spec (F := { F with cp := F.text + p.length }) (p := p)
    (y := nul :: q) (hF.last _ _ _) rfl hpre
  obtain ⟨a, ha, _⟩ := accept_ok hs
  obtain ⟨last2, hrec, hl2⟩ := record_ok ha hl1
  obtain ⟨s2, hd, hs2, _⟩ := delta_ok (k := 1) hs (by omega) (by omega)
  refine ⟨a, s2, last2, ha, hd, hs2, hl2, ?_⟩
  simp only [eobNul, hps, tryNul, hrec, hd, Option.bind_eq_bind, Option.bind_some]
  by_cases hj : s2 = 133
  · simp [hj]
  · have hs20 : s2 ≠ 0 := by
      rcases hs2 with h | h
      · intro e; subst e; cases h
      · exact absurd h hj
    simp [hj, hs20]

theorem run_spec {rd : Nat → Str → Nat} (hrd : Reader rd) {r m : Nat} (hr : 1 ≤ r ∧ r ≤ 37)
    (hm : 0 < adjLen r m) (k : Nat) {F : Flex} {bp s : Nat} {p q : Str} {lastA : Option Match}
    (hF : BufOK F bp (p ++ q))
    (hp : preRun (startState F.st.sc F.st.bol) 0 none p = some (s, lastA))
    (hs : scanning s = true) (hl : LastOK F.last bp p.length lastA)
    (hy : yyMatch s p.length lastA (q ++ F.input) = some (r, m))
    (hk : q.length + 2 * F.input.length + 2 ≤ k) :
    ∃ F', runTurn rd k F (.atMatch s (bp + p.length) bp)
      = some (some ⟨r, (p ++ q ++ F.input).take (adjLen r m),
          (F.st.next r ((p ++ q ++ F.input).take (adjLen r m))).loc⟩, F') ∧
      F'.st = F.st.next r ((p ++ q ++ F.input).take (adjLen r m)) ∧
      Inv F' ((p ++ q ++ F.input).drop (adjLen r m)) := by
  induction k generalizing F bp s p q lastA with
  | zero => omega
  | succ k ih =>
    obtain ⟨t, ht⟩ := hF.cells
    have hdrop := drop_add_of_drop ht
    rcases matchLoop_spec (q := q) (rest := F.input) (t := t) (bp := bp) hs hl with h | h
    · obtain ⟨s', n', last', lastA', h1, h2, h3, h4, h5⟩ := h
      rw [hy] at h5
      have hF' : BufOK { F with last := last' } bp (p ++ q) := hF.last last' F.cp F.text
      obtain ⟨_, F2, e, h6, h7⟩ := runTurn_find (rd := rd) (k := k) hF' h2
        (by simp; omega) h5.symm hr hm
      refine ⟨F2, ?_, h6, h7⟩
      rw [← e]
      simp only [runTurn, hdrop, h1, Option.bind_eq_bind, Option.bind_some]
    · obtain ⟨q1, q2, s1, lastA1, rfl, h2, h3, h4, h5, h6⟩ := h
      have hpre : preRun (startState F.st.sc F.st.bol) 0 none (p ++ q1) = some (s1, lastA1) := by
        rw [preRun_append hp]; simpa using h4
      rw [hy] at h6
      have hlen : p.length + q1.length = (p ++ q1).length := by simp
      rw [hlen] at h3 h6
      have hx : p ++ (q1 ++ q2) = (p ++ q1) ++ q2 := by simp
      rw [hx] at hF ht ⊢
      generalize p ++ q1 = p1 at *
      rw [← hdrop] at h3
      obtain ⟨c, hc⟩ := runTurn_eob (rd := rd) (k := k) hF (n := p1.length) (by simp) h3
      rw [hc]
      obtain ⟨hE, hEn, hEs⟩ := atEob_ok (n := p1.length) (c := c) hF
      rcases h2 with rfl | ⟨q3, rfl⟩
      · simp only [List.append_nil, Nat.lt_irrefl, if_false] at hE ⊢
        obtain ⟨e, F4, hg, htext, hcases⟩ := getNextBuffer_spec hrd (F := atEob F bp p1.length c)
          hE rfl hEs
        simp only [eobMore, hg, Option.bind_eq_bind, Option.bind_some]
        rcases hcases with ⟨rfl, hx0, hin, _⟩ | ⟨rfl, hx0, hin, hin4, hst4, hB⟩ |
          ⟨rfl, hst4, hs4, got, hgot, hin, hB⟩
        · exfalso
          subst hx0
          have hin : F.input = [] := hin
          simp only [preRun, Option.some.injEq, Prod.mk.injEq] at hpre
          obtain ⟨rfl, rfl⟩ := hpre
          rw [hin] at h6
          simp only [List.append_nil, yyMatch, findAction] at h6
          revert h6
          cases F.st.sc <;> cases F.st.bol <;> simp [startState, yyAccept]
        · have hin : F.input = [] := hin
          have hst4 : F4.st = F.st := hst4
          have hnum := hB.num
          simp only [Nat.zero_add] at hnum
          obtain ⟨last1, hps, hl1⟩ := prevState_spec (F := { F4 with cp := F4.nChars }) (p := p1)
            (y := []) (by simp only [htext, List.append_nil]; exact hB.last _ _ _)
            (by simp only [htext, hnum]; omega) (by simp only [hst4]; exact hpre)
          simp only [hps, Option.bind_some]
          rw [hin] at h6 ⊢
          simp only [List.append_nil, yyMatch] at h6 ⊢
          cases k with
          | zero => omega
          | succ k =>
            obtain ⟨_, F2, e, h7, h8⟩ := runTurn_find (rd := rd) (k := k)
              (F := { F4 with cp := F4.nChars, last := last1 }) (bp := 0) (n := p1.length)
              (hB.last last1 F4.nChars F4.text) (by rw [htext] at hl1; exact hl1) (Nat.le_refl _)
              h6.symm hr hm
            simp only [hin4, List.append_nil, hst4, Nat.zero_add] at e h7 h8
            refine ⟨F2, ?_, h7, h8⟩
            rw [← e]
            simp only [htext, hnum, hin4, hst4]
        · have hin : F.input = got ++ F4.input := hin
          have hst4 : F4.st = F.st := hst4
          obtain ⟨last1, hps, hl1⟩ := prevState_spec (F := { F4 with cp := F4.text + p1.length })
            (p := p1) (y := got) (by simp only [htext]; exact hB.last _ _ _) rfl
            (by simp only [hst4]; exact hpre)
          simp only [hps, Option.bind_some]
          rw [hin] at h6 hk ⊢
          simp only [List.length_append] at hk
          have hgl : got.length ≠ 0 := by simpa using hgot
          obtain ⟨F2, e, h7, h8⟩ := ih (F := { F4 with cp := F4.text + p1.length, last := last1 })
            (bp := 0) (s := s1) (p := p1) (q := got) (lastA := lastA1)
            (hB.last last1 _ F4.text) (by simp only [hst4]; exact hpre) h5
            (by rw [htext] at hl1; exact hl1) h6.symm (by simp only; omega)
          simp only [hst4] at e h7
          refine ⟨F2, ?_, ?_, ?_⟩
          · rw [← List.append_assoc, ← e]
            simp only [htext, hst4, Nat.zero_add]
          · rw [← List.append_assoc]; exact h7
          · rw [← List.append_assoc]; exact h8
      · rw [if_pos (by simp)]
        obtain ⟨a, s2, last2, ha, hd, hs2, hl2, he⟩ := eobNul_spec (F := atEob F bp p1.length c)
          hE hpre h5
        rw [he]
        simp only [Option.bind_some]
        have hin : (atEob F bp p1.length c).input = F.input := rfl
        have hst : (atEob F bp p1.length c).st = F.st := rfl
        have htx : (atEob F bp p1.length c).text = bp := rfl
        generalize atEob F bp p1.length c = E at *
        simp only [List.cons_append] at h6
        rw [← hin] at h6 hk ⊢
        rw [← hst] at hpre ⊢
        rw [htx] at hl2 ⊢
        by_cases hj : s2 = 133
        · subst hj
          rw [yyMatch_nul_jam h5 hd] at h6
          have hfa : findAction s1 p1.length (if a = 0 then lastA1 else some (a, p1.length))
              = some (r, m) := by
            rw [h6]
            simp only [findAction, ha, Option.bind_eq_bind, Option.bind_some]
            split <;> rfl
          cases k with
          | zero => omega
          | succ k =>
            obtain ⟨_, F2, e, h7, h8⟩ := runTurn_find (rd := rd) (k := k)
              (F := { E with cp := bp + p1.length, last := last2 }) (bp := bp)
              (hE.last last2 _ _) hl2 (by simp) hfa hr hm
            exact ⟨F2, e, h7, h8⟩
        · have hs2 : scanning s2 = true := by
            rcases hs2 with h | h
            · exact h
            · exact absurd h hj
          rw [yyMatch_nul ha hd hs2] at h6
          simp only [if_neg hj]
          have hpre2 : preRun (startState E.st.sc E.st.bol) 0 none (p1 ++ [nul])
              = some (s2, if a = 0 then lastA1 else some (a, p1.length)) := by
            rw [preRun_append hpre]
            simp [preRun, ha, ec_nul, hd]
          obtain ⟨F2, e, h7, h8⟩ := ih
            (F := { E with cp := bp + p1.length + 1, last := last2 })
            (bp := bp) (s := s2) (p := p1 ++ [nul]) (q := q3)
            (lastA := if a = 0 then lastA1 else some (a, p1.length))
            (by simpa using hE.last last2 (bp + p1.length + 1) E.text) hpre2 hs2
            (by simpa using hl2.mono (Nat.le_succ _)) (by simpa using h6.symm)
            (by
              show q3.length + 2 * E.input.length + 2 ≤ k
              simp at hk; omega)
          have hx2 : p1 ++ [nul] ++ q3 = p1 ++ nul :: q3 := by simp
          rw [hx2] at e h7 h8
          refine ⟨F2, ?_, h7, h8⟩
          rw [← e]
          simp only [htx, List.length_append, List.length_singleton, Nat.add_assoc]

/-- A turn of the loop when there is text left: the lexeme of `lexStep`. -/
theorem turn_spec {rd : Nat → Str → Nat} (hrd : Reader rd) {F : Flex} {w : Str} (h : Inv F w)
    (hw : w ≠ []) {k : Nat} (hk : 2 * w.length + 2 ≤ k) :
    ∃ l st' w' F', lexStep F.st w = some (l, st', w') ∧ turn rd k F = some (some l, F') ∧
      F'.st = st' ∧ Inv F' w' ∧ w'.length < w.length := by
  obtain ⟨x, rfl, hB⟩ := h
  obtain ⟨r, n, hmunch, hpos, hle, hstep⟩ := lexStep_spec F.st (x ++ F.input) hw
  obtain ⟨r', n', hm', hmunch'⟩ := matchOne_spec F.st.sc F.st.bol (x ++ F.input) hw
  have hrn : r' = r ∧ n' = n := by
    simp only [lexStep, hm', Option.bind_eq_bind, Option.bind_some, Option.some.injEq,
      Prod.mk.injEq] at hstep
    have h1 : r' = r := congrArg Lexeme.rule hstep.1
    subst h1
    refine ⟨rfl, ?_⟩
    have hc := (cand_iff.1 hmunch'.cand)
    have h2 := congrArg List.length (congrArg Lexeme.text hstep.1)
    simp only [List.length_take] at h2
    have hp' := ruleLang_len hc.2.2
    have hlen : ((x ++ F.input).take n').length = n' := by
      rw [List.length_take]; omega
    rw [hlen] at hp'
    have h3 : adjLen r' n' ≤ n' := by unfold adjLen; split <;> omega
    have h4 : adjLen r' n' = adjLen r' n := by omega
    unfold adjLen at h4 hpos hp'
    split at h4 <;> simp_all <;> omega
  obtain ⟨rfl, rfl⟩ := hrn
  have hc := cand_iff.1 hmunch.cand
  have hr := ruleLang_rule hc.2.2
  have hlt : F.cp < F.buf.length := by
    have h1 := hB.len; have h2 := hB.top; have h3 := hB.num
    simp only [List.length_set] at h1 h2 h3
    omega
  obtain ⟨F', h1, h2, h3⟩ := run_spec hrd hr hpos k (bp := F.cp) (p := []) (q := x) (lastA := none)
    hB rfl (start_scanning _ _) LastOK.none hm'
    (by simp only [List.length_append] at hk; simp only; omega)
  refine ⟨_, _, _, F', hstep, ?_, h2, h3, ?_⟩
  · simp only [turn, store_lt hlt, Option.bind_eq_bind, Option.bind_some]
    exact h1
  · simp only [List.length_drop]; omega

/-- A turn of the loop when there is no text left: end of file, and again next time. -/
theorem turn_eof {rd : Nat → Str → Nat} (hrd : Reader rd) {F : Flex} (h : Inv F []) {k : Nat}
    (hk : 0 < k) : ∃ F', turn rd k F = some (none, F') ∧ Inv F' [] := by
  obtain ⟨x, hx, hB⟩ := h
  obtain ⟨rfl, hin⟩ := List.append_eq_nil_iff.1 hx.symm
  have hlt : F.cp < F.buf.length := by
    have h1 := hB.len; have h2 := hB.top; have h3 := hB.num
    simp only [List.length_set] at h1 h2 h3
    omega
  obtain ⟨t, ht⟩ := hB.cells
  obtain ⟨k, rfl⟩ : ∃ j, k = j + 1 := ⟨k - 1, by omega⟩
  simp only [turn, store_lt hlt, Option.bind_eq_bind, Option.bind_some]
  have hst := start_scanning F.st.sc F.st.bol
  generalize hG : ({ F with buf := F.buf.set F.cp (some F.hold) } : Flex) = G at *
  have hcp : F.cp = G.cp := by rw [← hG]
  have hin : G.input = [] := by rw [← hG]; exact hin
  rw [hcp] at hB ht ⊢
  simp only [List.map_nil, List.nil_append] at ht
  obtain ⟨c, hc⟩ := runTurn_eob (rd := rd) (k := k) hB (n := 0) (Nat.le_refl _)
    (s := startState F.st.sc F.st.bol) (cp := G.cp)
    (by rw [ht]; exact matchLoop_nul hst _ _ _ _)
  rw [hc]
  simp only [List.length_nil, Nat.lt_irrefl, if_false, eobMore]
  obtain ⟨hE, hEn, hEs⟩ := atEob_ok (n := 0) (c := c) hB
  obtain ⟨e, F4, hg, htext, hcases⟩ := getNextBuffer_spec hrd (F := atEob G G.cp 0 c) hE rfl hEs
  rcases hcases with ⟨rfl, _, _, hin4, hhold, hst4, hB4⟩ | ⟨_, hx0, _⟩ | ⟨_, _, _, got, hgot, hin', _⟩
  · refine ⟨{ F4 with cp := F4.text }, by simp [hg], [], by simp [hin4], ?_⟩
    obtain ⟨t4, ht4⟩ := hB4.cells
    have hset : F4.buf.set 0 (some nul) = F4.buf := by
      simp only [List.drop_zero, List.map_nil, List.nil_append] at ht4
      rw [ht4]; rfl
    simp only [htext, hhold, hset]
    exact ⟨hB4.len, hB4.pos, hB4.top, hB4.num, hB4.cells, hB4.pend, hB4.fresh⟩
  · exact absurd rfl hx0
  · have : G.input = got ++ F4.input := hin'
    rw [hin] at this
    exact absurd (List.append_eq_nil_iff.1 this.symm).1 hgot

theorem create_spec {size : Nat} (h : 0 < size) (w : Str) :
    ∃ F, Flex.create size w = some F ∧ F.st = LexSt.init ∧ Inv F w := by
  refine ⟨_, by
    simp only [Flex.create, flush, Option.bind_eq_bind]
    rw [store_lt (by simp)]
    simp only [Option.bind_some]
    rw [store_lt (by simp)]
    simp only [Option.bind_some]
    rw [load_some (c := nul) (by simp [List.replicate_succ])]
    rfl, rfl, [], rfl, ?_⟩
  refine ⟨by simp, h, Nat.zero_le _, rfl, ⟨List.replicate size none, ?_⟩, ?_, fun _ => rfl⟩
  · simp [List.replicate_succ]
  · intro h; cases h

/-- The turns up to end of file give the lexemes of the text. -/
theorem turns_spec {rd : Nat → Str → Nat} (hrd : Reader rd) {fuel : Nat} (n : Nat) {F : Flex}
    {w : Str} (h : Inv F w) (hn : w.length < n) (hk : 2 * w.length + 2 ≤ fuel) :
    ∃ ls F', lexFrom F.st w = some ls ∧ turns rd fuel n F = some (ls, F') ∧ Inv F' [] := by
  induction n generalizing F w with
  | zero => omega
  | succ n ih =>
    by_cases hw : w = []
    · subst hw
      obtain ⟨F', h1, h2⟩ := turn_eof hrd h (k := fuel) (by omega)
      exact ⟨[], F', rfl, by simp [turns, h1], h2⟩
    · obtain ⟨l, st', w', F1, h1, h2, h3, h4, h5⟩ := turn_spec hrd h hw hk
      obtain ⟨ls, F2, h6, h7, h8⟩ := ih h4 (by omega) (by omega)
      refine ⟨l :: ls, F2, ?_, by simp [turns, h2, h7], h8⟩
      rw [lexFrom_step hw h1, ← h3, h6]
      rfl

end Stfx.Lexer
