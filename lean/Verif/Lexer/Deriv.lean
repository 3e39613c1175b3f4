import Verif.Lexer.Regex
/-
Partial derivatives (Antimirov) of regular expressions and their correctness with respect to
`Re.Matches`.  Used to relate the scanner tables to the rules of struct_lex.l.
-/
namespace Stfx.Lexer.Re

/-- See the definition before it.  (Proof notion, models no code.) -/
def nullable : Re → Bool
  | .eps => true
  | .set _ => false
  | .seq a b => nullable a && nullable b
  | .alt a b => nullable a || nullable b
  | .star _ => true

/-- See the definition before it.  (Proof notion, models no code.) -/
def mkSeq (a b : Re) : Re := match a with
  | .eps => b
  | a => .seq a b

/-- Partial derivatives with respect to a code point.  (Proof notion, models no code.) -/
def pd (n : Nat) : Re → List Re
  | .eps => []
  | .set s => if s.memN n then [.eps] else []
  | .seq a b => (pd n a).map (mkSeq · b) ++ (if nullable a then pd n b else [])
  | .alt a b => pd n a ++ pd n b
  | .star a => (pd n a).map (mkSeq · (.star a))

/-- The character classes occurring in an expression.  (Proof notion, models no code.) -/
def atoms : Re → List CSet
  | .eps => []
  | .set s => [s]
  | .seq a b => atoms a ++ atoms b
  | .alt a b => atoms a ++ atoms b
  | .star a => atoms a

theorem matches_eps {w} : Matches .eps w ↔ w = [] :=
  ⟨fun h => by cases h; rfl, fun h => h ▸ .eps⟩

theorem matches_set {s w} : Matches (.set s) w ↔ ∃ c, s.mem c = true ∧ w = [c] :=
  ⟨fun h => by cases h; exact ⟨_, ‹_›, rfl⟩, fun ⟨_, h, e⟩ => e ▸ .set h⟩

theorem matches_seq {a b w} :
    Matches (.seq a b) w ↔ ∃ u v, Matches a u ∧ Matches b v ∧ w = u ++ v :=
  ⟨fun h => by cases h; exact ⟨_, _, ‹_›, ‹_›, rfl⟩, fun ⟨_, _, h, h', e⟩ => e ▸ .seq h h'⟩

theorem matches_alt {a b w} : Matches (.alt a b) w ↔ Matches a w ∨ Matches b w :=
  ⟨fun h => by cases h <;> simp [*], fun h => h.elim .altL .altR⟩

theorem matches_mkSeq {a b w} : Matches (mkSeq a b) w ↔ Matches (.seq a b) w := by
  cases a <;> simp [mkSeq, matches_seq, matches_eps]

theorem nullable_iff (r : Re) : nullable r = true ↔ Matches r [] := by
  induction r with
  | eps => simp [nullable, matches_eps]
  | set s => simp [nullable, matches_set]
  | seq a b iha ihb => simp [nullable, matches_seq, iha, ihb]
  | alt a b iha ihb => simp [nullable, matches_alt, iha, ihb]
  | star a _ => simp [nullable]; exact .starNil

theorem star_cons_inv {a : Re} {w : Str} (h : Matches (.star a) w) :
    ∀ c v, w = c :: v → ∃ u1 u2, v = u1 ++ u2 ∧ Matches a (c :: u1) ∧ Matches (.star a) u2 := by
  generalize hr : Re.star a = r at h
  induction h with
  | starNil => intro c v h; cases h
  | @starCons a' u v' h1 h2 _ ih2 =>
    cases hr
    intro c v e
    cases u with
    | nil => exact ih2 rfl c v e
    | cons d u =>
      simp only [List.cons_append, List.cons.injEq] at e
      obtain ⟨rfl, rfl⟩ := e
      exact ⟨u, v', rfl, h1, h2⟩
  | _ => cases hr

theorem pd_iff (r : Re) (c : Char) (v : Str) :
    Matches r (c :: v) ↔ ∃ r' ∈ pd c.toNat r, Matches r' v := by
  induction r generalizing v with
  | eps => simp [pd, matches_eps]
  | set s =>
    simp only [pd, matches_set]
    constructor
    · rintro ⟨d, hd, e⟩
      simp only [List.cons.injEq] at e
      obtain ⟨rfl, rfl⟩ := e
      have : s.memN c.toNat = true := hd
      simp [this, matches_eps]
    · rintro ⟨r', hr, hm⟩
      split at hr
      · simp only [List.mem_singleton] at hr
        subst hr
        exact ⟨c, by assumption, by rw [matches_eps.1 hm]⟩
      · simp at hr
  | seq a b iha ihb =>
    simp only [pd, List.mem_append, List.mem_map]
    constructor
    · intro h
      obtain ⟨u, w, hu, hw, e⟩ := matches_seq.1 h
      cases u with
      | nil =>
        simp only [List.nil_append] at e
        subst e
        obtain ⟨r', hr', hm⟩ := (ihb v).1 hw
        refine ⟨r', Or.inr ?_, hm⟩
        rw [if_pos ((nullable_iff a).2 hu)]; exact hr'
      | cons d u =>
        simp only [List.cons_append, List.cons.injEq] at e
        obtain ⟨rfl, rfl⟩ := e
        obtain ⟨r', hr', hm⟩ := (iha u).1 hu
        exact ⟨_, Or.inl ⟨r', hr', rfl⟩, matches_mkSeq.2 (.seq hm hw)⟩
    · rintro ⟨r', h | h, hm⟩
      · obtain ⟨q, hq, rfl⟩ := h
        obtain ⟨u, w, hu, hw, rfl⟩ := matches_seq.1 (matches_mkSeq.1 hm)
        have := (iha u).2 ⟨q, hq, hu⟩
        exact matches_seq.2 ⟨_, _, this, hw, rfl⟩
      · split at h
        · rename_i hn
          exact matches_seq.2 ⟨[], _, (nullable_iff a).1 hn, (ihb v).2 ⟨r', h, hm⟩, rfl⟩
        · simp at h
  | alt a b iha ihb =>
    simp only [pd, List.mem_append, matches_alt, iha, ihb]
    constructor
    · rintro (⟨r', h, hm⟩ | ⟨r', h, hm⟩)
      · exact ⟨r', Or.inl h, hm⟩
      · exact ⟨r', Or.inr h, hm⟩
    · rintro ⟨r', h | h, hm⟩
      · exact Or.inl ⟨r', h, hm⟩
      · exact Or.inr ⟨r', h, hm⟩
  | star a iha =>
    simp only [pd, List.mem_map]
    constructor
    · intro h
      obtain ⟨u1, u2, rfl, h1, h2⟩ := star_cons_inv h c v rfl
      obtain ⟨r', hr', hm⟩ := (iha u1).1 h1
      exact ⟨_, ⟨r', hr', rfl⟩, matches_mkSeq.2 (.seq hm h2)⟩
    · rintro ⟨r', ⟨q, hq, rfl⟩, hm⟩
      obtain ⟨u, w, hu, hw, rfl⟩ := matches_seq.1 (matches_mkSeq.1 hm)
      exact .starCons (u := c :: u) ((iha u).2 ⟨q, hq, hu⟩) hw

/-- The partial derivatives only depend on which character classes contain the code point. -/
theorem pd_congr (r : Re) (m n : Nat) (h : ∀ s ∈ atoms r, s.memN m = s.memN n) :
    pd m r = pd n r := by
  induction r with
  | eps => rfl
  | set s => simp [pd, h s (by simp [atoms])]
  | seq a b iha ihb =>
    simp only [atoms, List.mem_append] at h
    simp [pd, iha fun s hs => h s (Or.inl hs), ihb fun s hs => h s (Or.inr hs)]
  | alt a b iha ihb =>
    simp only [atoms, List.mem_append] at h
    simp [pd, iha fun s hs => h s (Or.inl hs), ihb fun s hs => h s (Or.inr hs)]
  | star a iha =>
    simp only [atoms] at h
    simp [pd, iha h]

end Stfx.Lexer.Re
