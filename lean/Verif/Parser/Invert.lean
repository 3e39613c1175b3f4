import Verif.Parser.Ast
/-
Every derivation of the grammar is a syntax tree.
-/
namespace Stfx.Parser

/-- Whether a token kind carries a string.  (Proof notion, models no code.) -/
def TokKind.valued : TokKind → Bool
  | .name | .enumValue | .value | .hexValue | .fValue | .stringConstant | .charConstant => true
  | _ => false

/-- A token as the scanner delivers it: not end of file, and text only if the kind carries one.  (Proof notion, models no code.) -/
def Token.Ok (t : Token) : Prop := t.kind ≠ .eof ∧ (TokKind.valued t.kind = false → t.text = [])

/-- All tokens are as the scanner delivers them.  (Proof notion, models no code.) -/
def AllOk (w : List Token) : Prop := ∀ t ∈ w, Token.Ok t

theorem AllOk.left {u w : List Token} (h : AllOk (u ++ w)) : AllOk u :=
  fun t ht => h t (List.mem_append.2 (Or.inl ht))
theorem AllOk.right {u w : List Token} (h : AllOk (u ++ w)) : AllOk w :=
  fun t ht => h t (List.mem_append.2 (Or.inr ht))

/-- Right-hand sides of a nonterminal.  (Proof notion, models no code.) -/
def rhss (x : NT) : List (List Sym) := (prods.tail.filter fun p => p.lhs == x).map Prod.rhs

theorem inv_nt {x : NT} {w : List Token} (h : Derives (.n x) w) : ∃ r ∈ rhss x, DerivesSeq r w := by
  generalize hy : Sym.n x = y at h
  cases h with
  | tok => cases hy
  | @prod p w hp h =>
    cases hy
    exact ⟨p.rhs, List.mem_map.2 ⟨p, List.mem_filter.2 ⟨hp, by simp⟩, rfl⟩, h⟩

theorem inv_tok {k : TokKind} {w : List Token} (h : Derives (.t k) w) : ∃ s, w = [⟨k, s⟩] := by
  generalize hy : Sym.t k = y at h
  cases h with
  | @tok t => cases hy; exact ⟨t.text, rfl⟩
  | prod => cases hy

theorem inv_nil {w : List Token} (h : DerivesSeq [] w) : w = [] := by cases h; rfl

theorem inv_cons {x : Sym} {xs : List Sym} {w : List Token} (h : DerivesSeq (x :: xs) w) :
    ∃ u v, w = u ++ v ∧ Derives x u ∧ DerivesSeq xs v := by
  cases h with
  | cons h hs => exact ⟨_, _, rfl, h, hs⟩

theorem inv_one {x : Sym} {w : List Token} (h : DerivesSeq [x] w) : Derives x w := by
  obtain ⟨u, v, rfl, h1, h2⟩ := inv_cons h
  cases inv_nil h2
  simpa using h1

/-- Nonterminals that stand for one token without text. -/
theorem inv_punct {x : NT} {k : TokKind} (hr : rhss x = [[.t k]]) (hk : TokKind.valued k = false)
    {w : List Token} (h : Derives (.n x) w) (ok : AllOk w) : w = [tk k] := by
  obtain ⟨r, hr', h'⟩ := inv_nt h
  rw [hr] at hr'
  simp at hr'
  subst hr'
  obtain ⟨s, rfl⟩ := inv_tok (inv_one h')
  have := (ok _ (List.mem_singleton.2 rfl)).2 hk
  simp only at this
  subst this
  rfl

theorem inv_name {w : List Token} (h : Derives (.n .name) w) : ∃ s, w = [⟨.name, s⟩] := by
  obtain ⟨r, hr', h'⟩ := inv_nt h
  rw [show rhss .name = [[.t .name]] by decide +kernel] at hr'
  simp at hr'
  subst hr'
  exact inv_tok (inv_one h')

theorem inv_type {w : List Token} (h : Derives (.n .simpleType) w) (ok : AllOk w) :
    ∃ ty : SimpleTy, w = ty.toks := by
  obtain ⟨r, hr, h'⟩ := inv_nt h
  rw [show rhss .simpleType = [[.n .bool], [.n .int], [.n .short], [.n .long], [.n .unsigned, .n .int],
    [.n .unsigned, .n .short], [.n .unsigned, .n .long], [.n .float], [.n .double], [.n .stdString]] by
      decide +kernel] at hr
  simp only [List.mem_cons, List.not_mem_nil, or_false] at hr
  have two : ∀ {x : NT} {k : TokKind}, rhss x = [[.t k]] → TokKind.valued k = false →
      DerivesSeq [.n .unsigned, .n x] w → w = [tk .unsigned, tk k] := by
    intro x k e1 e2 h
    obtain ⟨u, v, rfl, h1, h2⟩ := inv_cons h
    rw [inv_punct rfl rfl h1 ok.left, inv_punct e1 e2 (inv_one h2) ok.right]
    rfl
  rcases hr with rfl | rfl | rfl | rfl | rfl | rfl | rfl | rfl | rfl | rfl
  · exact ⟨.bool, inv_punct rfl rfl (inv_one h') ok⟩
  · exact ⟨.int, inv_punct rfl rfl (inv_one h') ok⟩
  · exact ⟨.short, inv_punct rfl rfl (inv_one h') ok⟩
  · exact ⟨.long, inv_punct rfl rfl (inv_one h') ok⟩
  · exact ⟨.unsignedInt, two (by decide +kernel) rfl h'⟩
  · exact ⟨.unsignedShort, two (by decide +kernel) rfl h'⟩
  · exact ⟨.unsignedLong, two (by decide +kernel) rfl h'⟩
  · exact ⟨.float, inv_punct rfl rfl (inv_one h') ok⟩
  · exact ⟨.double, inv_punct rfl rfl (inv_one h') ok⟩
  · exact ⟨.stdString, inv_punct rfl rfl (inv_one h') ok⟩

theorem inv_value {w : List Token} (h : Derives (.n .value) w) (ok : AllOk w) :
    ∃ v : DefVal, w = [v.tok] := by
  obtain ⟨r, hr, h'⟩ := inv_nt h
  rw [show rhss .value = [[.t .value], [.t .fValue], [.n .true_], [.n .false_], [.t .enumValue],
    [.t .stringConstant], [.t .charConstant]] by decide +kernel] at hr
  simp only [List.mem_cons, List.not_mem_nil, or_false] at hr
  rcases hr with rfl | rfl | rfl | rfl | rfl | rfl | rfl
  · obtain ⟨s, rfl⟩ := inv_tok (inv_one h'); exact ⟨.int s, rfl⟩
  · obtain ⟨s, rfl⟩ := inv_tok (inv_one h'); exact ⟨.float s, rfl⟩
  · exact ⟨.true_, inv_punct rfl rfl (inv_one h') ok⟩
  · exact ⟨.false_, inv_punct rfl rfl (inv_one h') ok⟩
  · obtain ⟨s, rfl⟩ := inv_tok (inv_one h'); exact ⟨.enumerator s, rfl⟩
  · obtain ⟨s, rfl⟩ := inv_tok (inv_one h'); exact ⟨.string s, rfl⟩
  · obtain ⟨s, rfl⟩ := inv_tok (inv_one h'); exact ⟨.chr s, rfl⟩

theorem inv_default {w : List Token} (h : Derives (.n .simpleDefaultValue) w) (ok : AllOk w) :
    ∃ d : Default, w = d.toks := by
  obtain ⟨r, hr, h'⟩ := inv_nt h
  rw [show rhss .simpleDefaultValue = [[.n .blockStart, .n .blockEnd],
    [.n .blockStart, .n .value, .n .blockEnd]] by decide +kernel] at hr
  simp only [List.mem_cons, List.not_mem_nil, or_false] at hr
  rcases hr with rfl | rfl
  · obtain ⟨u, v, rfl, h1, h2⟩ := inv_cons h'
    rw [inv_punct rfl rfl h1 ok.left, inv_punct rfl rfl (inv_one h2) ok.right]
    exact ⟨.empty, rfl⟩
  · obtain ⟨u, v, rfl, h1, h2⟩ := inv_cons h'
    obtain ⟨u', v', rfl, h3, h4⟩ := inv_cons h2
    obtain ⟨d, rfl⟩ := inv_value h3 ok.right.left
    rw [inv_punct rfl rfl h1 ok.left, inv_punct rfl rfl (inv_one h4) ok.right.right]
    exact ⟨.val d, rfl⟩

theorem inv_semicolon {w : List Token} (h : DerivesSeq [.n .semicolon] w) (ok : AllOk w) :
    w = [tk .semicolon] := inv_punct rfl rfl (inv_one h) ok

theorem inv_member {w : List Token} (h : Derives (.n .structBlockEnt) w) (ok : AllOk w) :
    ∃ m : Member, w = m.toks := by
  obtain ⟨r, hr, h'⟩ := inv_nt h
  rw [show rhss .structBlockEnt = [[.n .simpleType, .n .name, .n .semicolon],
    [.n .simpleType, .n .name, .n .simpleDefaultValue, .n .semicolon],
    [.n .name, .n .name, .n .semicolon],
    [.n .name, .n .name, .n .simpleDefaultValue, .n .semicolon],
    [.n .structBlockVector, .n .name, .n .semicolon]] by decide +kernel] at hr
  simp only [List.mem_cons, List.not_mem_nil, or_false] at hr
  rcases hr with rfl | rfl | rfl | rfl | rfl
  · obtain ⟨u, v, rfl, h1, h2⟩ := inv_cons h'
    obtain ⟨u', v', rfl, h3, h4⟩ := inv_cons h2
    obtain ⟨ty, rfl⟩ := inv_type h1 ok.left
    obtain ⟨s, rfl⟩ := inv_name h3
    rw [inv_semicolon h4 ok.right.right]
    exact ⟨.simple ty s .absent, by simp [Member.toks, Default.toks]⟩
  · obtain ⟨u, v, rfl, h1, h2⟩ := inv_cons h'
    obtain ⟨u', v', rfl, h3, h4⟩ := inv_cons h2
    obtain ⟨u'', v'', rfl, h5, h6⟩ := inv_cons h4
    obtain ⟨ty, rfl⟩ := inv_type h1 ok.left
    obtain ⟨s, rfl⟩ := inv_name h3
    obtain ⟨d, rfl⟩ := inv_default h5 ok.right.right.left
    rw [inv_semicolon h6 ok.right.right.right]
    exact ⟨.simple ty s d, by simp [Member.toks]⟩
  · obtain ⟨u, v, rfl, h1, h2⟩ := inv_cons h'
    obtain ⟨u', v', rfl, h3, h4⟩ := inv_cons h2
    obtain ⟨ty, rfl⟩ := inv_name h1
    obtain ⟨s, rfl⟩ := inv_name h3
    rw [inv_semicolon h4 ok.right.right]
    exact ⟨.named ty s .absent, rfl⟩
  · obtain ⟨u, v, rfl, h1, h2⟩ := inv_cons h'
    obtain ⟨u', v', rfl, h3, h4⟩ := inv_cons h2
    obtain ⟨u'', v'', rfl, h5, h6⟩ := inv_cons h4
    obtain ⟨ty, rfl⟩ := inv_name h1
    obtain ⟨s, rfl⟩ := inv_name h3
    obtain ⟨d, rfl⟩ := inv_default h5 ok.right.right.left
    rw [inv_semicolon h6 ok.right.right.right]
    exact ⟨.named ty s d, by simp [Member.toks]⟩
  · obtain ⟨u, v, rfl, h1, h2⟩ := inv_cons h'
    obtain ⟨u', v', rfl, h3, h4⟩ := inv_cons h2
    obtain ⟨s, rfl⟩ := inv_name h3
    obtain ⟨r, hr, h5⟩ := inv_nt h1
    rw [show rhss .structBlockVector = [[.n .stdVector, .n .lessthan, .n .name, .n .greaterthan]] by
      decide +kernel] at hr
    simp at hr
    subst hr
    obtain ⟨a, b, rfl, g1, g2⟩ := inv_cons h5
    obtain ⟨a', b', rfl, g3, g4⟩ := inv_cons g2
    obtain ⟨a'', b'', rfl, g5, g6⟩ := inv_cons g4
    obtain ⟨e, rfl⟩ := inv_name g5
    rw [inv_punct rfl rfl g1 ok.left.left, inv_punct rfl rfl g3 ok.left.right.left,
      inv_punct rfl rfl (inv_one g6) ok.left.right.right.right, inv_semicolon h4 ok.right.right]
    exact ⟨.vector e s, rfl⟩

theorem Member.toks_ne (m : Member) : m.toks ≠ [] := by cases m <;> simp [Member.toks]

theorem inv_members (n : Nat) {w : List Token} (hn : w.length ≤ n) (h : Derives (.n .structBlockEnts) w)
    (ok : AllOk w) : ∃ (m : Member) (ms : List Member), w = (m :: ms).flatMap Member.toks := by
  induction n generalizing w with
  | zero =>
    have : w = [] := List.length_eq_zero_iff.1 (by omega)
    subst this
    obtain ⟨r, hr, h'⟩ := inv_nt h
    rw [show rhss .structBlockEnts = [[.n .structBlockEnt], [.n .structBlockEnt, .n .structBlockEnts]] by
      decide +kernel] at hr
    simp only [List.mem_cons, List.not_mem_nil, or_false] at hr
    rcases hr with rfl | rfl
    · obtain ⟨m, e⟩ := inv_member (inv_one h') ok
      exact absurd e.symm m.toks_ne
    · obtain ⟨u, v, e, h1, h2⟩ := inv_cons h'
      have : u = [] := (List.append_eq_nil_iff.1 e.symm).1
      subst this
      obtain ⟨m, e⟩ := inv_member h1 (by intro t ht; cases ht)
      exact absurd e.symm m.toks_ne
  | succ n ih =>
    obtain ⟨r, hr, h'⟩ := inv_nt h
    rw [show rhss .structBlockEnts = [[.n .structBlockEnt], [.n .structBlockEnt, .n .structBlockEnts]] by
      decide +kernel] at hr
    simp only [List.mem_cons, List.not_mem_nil, or_false] at hr
    rcases hr with rfl | rfl
    · obtain ⟨m, e⟩ := inv_member (inv_one h') ok
      exact ⟨m, [], by simp [e]⟩
    · obtain ⟨u, v, rfl, h1, h2⟩ := inv_cons h'
      obtain ⟨m, rfl⟩ := inv_member h1 ok.left
      have : 0 < m.toks.length := List.length_pos_iff.2 m.toks_ne
      rw [List.length_append] at hn
      obtain ⟨m', ms, rfl⟩ := ih (by omega) (inv_one h2) ok.right
      exact ⟨m, m' :: ms, by simp⟩

theorem inv_enumerator {w : List Token} (h : Derives (.n .enumEnt) w) (ok : AllOk w) :
    ∃ e : Enumerator, w = e.toks := by
  obtain ⟨r, hr, h'⟩ := inv_nt h
  rw [show rhss .enumEnt = [[.n .name], [.n .name, .n .equals, .t .value],
    [.n .name, .n .equals, .t .hexValue], [.n .name, .n .equals, .t .charConstant]] by decide +kernel] at hr
  simp only [List.mem_cons, List.not_mem_nil, or_false] at hr
  have three : ∀ {k : TokKind}, DerivesSeq [.n .name, .n .equals, .t k] w →
      ∃ s x, w = [⟨.name, s⟩, tk .equals, ⟨k, x⟩] := by
    intro k h
    obtain ⟨u, v, rfl, h1, h2⟩ := inv_cons h
    obtain ⟨u', v', rfl, h3, h4⟩ := inv_cons h2
    obtain ⟨s, rfl⟩ := inv_name h1
    obtain ⟨x, rfl⟩ := inv_tok (inv_one h4)
    rw [inv_punct rfl rfl h3 ok.right.left]
    exact ⟨s, x, rfl⟩
  rcases hr with rfl | rfl | rfl | rfl
  · obtain ⟨s, rfl⟩ := inv_name (inv_one h'); exact ⟨⟨s, none⟩, rfl⟩
  · obtain ⟨s, x, rfl⟩ := three h'; exact ⟨⟨s, some (.dec x)⟩, rfl⟩
  · obtain ⟨s, x, rfl⟩ := three h'; exact ⟨⟨s, some (.hex x)⟩, rfl⟩
  · obtain ⟨s, x, rfl⟩ := three h'; exact ⟨⟨s, some (.chr x)⟩, rfl⟩

theorem inv_enumerators (n : Nat) {w : List Token} (hn : w.length ≤ n) (h : Derives (.n .enumBlockEnts) w)
    (ok : AllOk w) : ∃ (b : Bool) (e : Enumerator) (es : List Enumerator), w = enumeratorsToks b e es := by
  induction n generalizing w with
  | zero =>
    have : w = [] := List.length_eq_zero_iff.1 (by omega)
    subst this
    exfalso
    obtain ⟨r, hr, h'⟩ := inv_nt h
    have hd : ∃ rest, r = .n .enumEnt :: rest := by
      rw [show rhss .enumBlockEnts = [[.n .enumEnt], [.n .enumEnt, .n .comma, .n .enumBlockEnts],
        [.n .enumEnt, .n .comma]] by decide +kernel] at hr
      simp only [List.mem_cons, List.not_mem_nil, or_false] at hr
      rcases hr with rfl | rfl | rfl <;> exact ⟨_, rfl⟩
    obtain ⟨rest, rfl⟩ := hd
    obtain ⟨u, v, e, h1, h2⟩ := inv_cons h'
    have : u = [] := (List.append_eq_nil_iff.1 e.symm).1
    subst this
    obtain ⟨m, e⟩ := inv_enumerator h1 (by intro t ht; cases ht)
    obtain ⟨nm, v⟩ := m
    cases v <;> simp [Enumerator.toks] at e
  | succ n ih =>
    obtain ⟨r, hr, h'⟩ := inv_nt h
    rw [show rhss .enumBlockEnts = [[.n .enumEnt], [.n .enumEnt, .n .comma, .n .enumBlockEnts],
        [.n .enumEnt, .n .comma]] by decide +kernel] at hr
    simp only [List.mem_cons, List.not_mem_nil, or_false] at hr
    rcases hr with rfl | rfl | rfl
    · obtain ⟨e, rfl⟩ := inv_enumerator (inv_one h') ok
      exact ⟨false, e, [], by simp [enumeratorsToks]⟩
    · obtain ⟨u, v, rfl, h1, h2⟩ := inv_cons h'
      obtain ⟨u', v', rfl, h3, h4⟩ := inv_cons h2
      obtain ⟨e, rfl⟩ := inv_enumerator h1 ok.left
      rw [List.length_append, List.length_append] at hn
      have hc := inv_punct (k := .comma) (by decide +kernel) rfl h3 ok.right.left
      rw [hc, List.length_singleton] at hn
      obtain ⟨b, e', es, rfl⟩ := ih (by omega) (inv_one h4) ok.right.right
      rw [hc]
      exact ⟨b, e, e' :: es, by simp [enumeratorsToks]⟩
    · obtain ⟨u, v, rfl, h1, h2⟩ := inv_cons h'
      obtain ⟨e, rfl⟩ := inv_enumerator h1 ok.left
      rw [inv_punct (k := .comma) (by decide +kernel) rfl (inv_one h2) ok.right]
      exact ⟨true, e, [], by simp [enumeratorsToks]⟩

theorem inv_decl {w : List Token} (h : Derives (.n .part) w) (ok : AllOk w) : ∃ d : Decl, w = d.toks := by
  obtain ⟨r, hr, h'⟩ := inv_nt h
  rw [show rhss .part = [[.n .enumPart], [.n .structPart]] by decide +kernel] at hr
  simp only [List.mem_cons, List.not_mem_nil, or_false] at hr
  rcases hr with rfl | rfl
  · obtain ⟨r, hr, h'⟩ := inv_nt (inv_one h')
    rw [show rhss .enumPart = [[.n .enumStart, .n .enumBlock]] by decide +kernel] at hr
    simp at hr
    subst hr
    obtain ⟨u, v, rfl, h1, h2⟩ := inv_cons h'
    have hstart : ∃ (c : Bool) (s : Str), u = tk .enum :: (if c then [tk .class_] else []) ++ [⟨.name, s⟩] := by
      obtain ⟨r, hr, h'⟩ := inv_nt h1
      rw [show rhss .enumStart = [[.n .enum, .t .name], [.n .enum, .n .class_, .n .name]] by decide +kernel] at hr
      simp only [List.mem_cons, List.not_mem_nil, or_false] at hr
      have okl := ok.left
      rcases hr with rfl | rfl
      · obtain ⟨a, b, rfl, g1, g2⟩ := inv_cons h'
        obtain ⟨s, rfl⟩ := inv_tok (inv_one g2)
        rw [inv_punct rfl rfl g1 okl.left]
        exact ⟨false, s, rfl⟩
      · obtain ⟨a, b, rfl, g1, g2⟩ := inv_cons h'
        obtain ⟨a', b', rfl, g3, g4⟩ := inv_cons g2
        obtain ⟨s, rfl⟩ := inv_name (inv_one g4)
        rw [inv_punct rfl rfl g1 okl.left, inv_punct rfl rfl g3 okl.right.left]
        exact ⟨true, s, rfl⟩
    obtain ⟨c, s, rfl⟩ := hstart
    obtain ⟨r, hr, h'⟩ := inv_nt (inv_one h2)
    rw [show rhss .enumBlock = [[.n .blockStart, .n .enumBlockEnts, .n .blockEnd, .n .semicolon]] by
      decide +kernel] at hr
    simp at hr
    subst hr
    have okr := ok.right
    obtain ⟨a, b, rfl, g1, g2⟩ := inv_cons h'
    obtain ⟨a', b', rfl, g3, g4⟩ := inv_cons g2
    obtain ⟨a'', b'', rfl, g5, g6⟩ := inv_cons g4
    obtain ⟨t, e, es, rfl⟩ := inv_enumerators _ (Nat.le_refl _) g3 okr.right.left
    rw [inv_punct rfl rfl g1 okr.left, inv_punct rfl rfl g5 okr.right.right.left,
      inv_semicolon g6 okr.right.right.right]
    exact ⟨.enum c s e es t, by simp [Decl.toks]⟩
  · obtain ⟨r, hr, h'⟩ := inv_nt (inv_one h')
    rw [show rhss .structPart = [[.n .structStart, .n .blockStart, .n .structBlockEnts, .n .blockEnd,
      .n .semicolon]] by decide +kernel] at hr
    simp at hr
    subst hr
    obtain ⟨u, v, rfl, h1, h2⟩ := inv_cons h'
    obtain ⟨r, hr, h'⟩ := inv_nt h1
    rw [show rhss .structStart = [[.n .struct, .n .name]] by decide +kernel] at hr
    simp at hr
    subst hr
    obtain ⟨x, y, rfl, f1, f2⟩ := inv_cons h'
    obtain ⟨s, rfl⟩ := inv_name (inv_one f2)
    have okr := ok.right
    obtain ⟨a, b, rfl, g1, g2⟩ := inv_cons h2
    obtain ⟨a', b', rfl, g3, g4⟩ := inv_cons g2
    obtain ⟨a'', b'', rfl, g5, g6⟩ := inv_cons g4
    obtain ⟨m, ms, rfl⟩ := inv_members _ (Nat.le_refl _) g3 okr.right.left
    rw [inv_punct rfl rfl f1 ok.left.left,
      inv_punct rfl rfl g1 okr.left, inv_punct rfl rfl g5 okr.right.right.left,
      inv_semicolon g6 okr.right.right.right]
    exact ⟨.struct s m ms, by simp [Decl.toks]⟩

theorem Decl.toks_ne (d : Decl) : d.toks ≠ [] := by cases d <;> simp [Decl.toks]

theorem inv_decls (n : Nat) {w : List Token} (hn : w.length ≤ n) (h : Derives (.n .parts) w)
    (ok : AllOk w) : ∃ (d : Decl) (ds : List Decl), w = (d :: ds).flatMap Decl.toks := by
  induction n generalizing w with
  | zero =>
    have : w = [] := List.length_eq_zero_iff.1 (by omega)
    subst this
    exfalso
    obtain ⟨r, hr, h'⟩ := inv_nt h
    have hd : ∃ rest, r = .n .part :: rest := by
      rw [show rhss .parts = [[.n .part], [.n .part, .n .parts]] by decide +kernel] at hr
      simp only [List.mem_cons, List.not_mem_nil, or_false] at hr
      rcases hr with rfl | rfl <;> exact ⟨_, rfl⟩
    obtain ⟨rest, rfl⟩ := hd
    obtain ⟨u, v, e, h1, h2⟩ := inv_cons h'
    have : u = [] := (List.append_eq_nil_iff.1 e.symm).1
    subst this
    obtain ⟨m, e⟩ := inv_decl h1 (by intro t ht; cases ht)
    exact m.toks_ne e.symm
  | succ n ih =>
    obtain ⟨r, hr, h'⟩ := inv_nt h
    rw [show rhss .parts = [[.n .part], [.n .part, .n .parts]] by decide +kernel] at hr
    simp only [List.mem_cons, List.not_mem_nil, or_false] at hr
    rcases hr with rfl | rfl
    · obtain ⟨d, rfl⟩ := inv_decl (inv_one h') ok
      exact ⟨d, [], by simp⟩
    · obtain ⟨u, v, rfl, h1, h2⟩ := inv_cons h'
      obtain ⟨d, rfl⟩ := inv_decl h1 ok.left
      have : 0 < d.toks.length := List.length_pos_iff.2 d.toks_ne
      rw [List.length_append] at hn
      obtain ⟨d', ds, rfl⟩ := ih (by omega) (inv_one h2) ok.right
      exact ⟨d, d' :: ds, by simp⟩

/-- A sentence of the grammar is the token sequence of a header. -/
theorem inv_header {w : List Token} (h : InGrammar w) (ok : AllOk w) : ∃ hd : Header, w = hd.toks := by
  obtain ⟨r, hr, h'⟩ := inv_nt h
  rw [show rhss .fileContent = [[.n .parts]] by decide +kernel] at hr
  simp at hr
  subst hr
  obtain ⟨d, ds, rfl⟩ := inv_decls _ (Nat.le_refl _) (inv_one h') ok
  exact ⟨⟨d, ds⟩, rfl⟩

end Stfx.Parser
