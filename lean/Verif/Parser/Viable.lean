import Verif.Parser.Invert
import Verif.Parser.Reject
import Verif.Parser.Message
/-
What the parser has read when it reports a syntax error can be completed to a header, and the tokens it names as
expected are tokens that can come next.
-/
set_option autoImplicit false
namespace Stfx.Parser

/-! ### Every stack can be completed -/

/-- A token of each kind.  (Proof notion, models no code.) -/
def sampleTok (k : TokKind) : Token :=
  ⟨k, match k with
    | .name => c!"x"
    | .enumValue => c!"e::x"
    | .value => c!"0"
    | .hexValue => c!"0x0"
    | .fValue => c!"0.0"
    | .stringConstant => c!"\"\""
    | .charConstant => c!"'x'"
    | _ => []⟩

/-- A right-hand side for each nonterminal.  (Proof notion, models no code.) -/
def pick : NT → List Sym
  | .accept => [.n .fileContent, .t .eof]
  | .fileContent => [.n .parts]
  | .parts => [.n .part]
  | .part => [.n .enumPart]
  | .blockStart => [.t .blockStart]
  | .blockEnd => [.t .blockEnd]
  | .comma => [.t .comma]
  | .semicolon => [.t .semicolon]
  | .equals => [.t .equals]
  | .lessthan => [.t .lessthan]
  | .greaterthan => [.t .greaterthan]
  | .true_ => [.t .true_]
  | .false_ => [.t .false_]
  | .unsigned => [.t .unsigned]
  | .int => [.t .int]
  | .short => [.t .short]
  | .long => [.t .long]
  | .stdString => [.t .stdString]
  | .stdVector => [.t .stdVector]
  | .enum => [.t .enum]
  | .class_ => [.t .class_]
  | .struct => [.t .struct]
  | .float => [.t .float]
  | .double => [.t .double]
  | .bool => [.t .bool]
  | .name => [.t .name]
  | .enumPart => [.n .enumStart, .n .enumBlock]
  | .enumStart => [.n .enum, .t .name]
  | .enumBlock => [.n .blockStart, .n .enumBlockEnts, .n .blockEnd, .n .semicolon]
  | .enumBlockEnts => [.n .enumEnt]
  | .enumEnt => [.n .name]
  | .structPart => [.n .structStart, .n .blockStart, .n .structBlockEnts, .n .blockEnd, .n .semicolon]
  | .structStart => [.n .struct, .n .name]
  | .structBlockEnts => [.n .structBlockEnt]
  | .structBlockEnt => [.n .simpleType, .n .name, .n .semicolon]
  | .simpleType => [.n .bool]
  | .simpleDefaultValue => [.n .blockStart, .n .blockEnd]
  | .value => [.t .value]
  | .structBlockVector => [.n .stdVector, .n .lessthan, .n .name, .n .greaterthan]

/-- Height of a symbol above its left corners.  (Proof notion, models no code.) -/
def corner : Sym → Nat
  | .t _ => 0
  | .n .accept => 7
  | .n .fileContent => 6
  | .n .parts => 5
  | .n .part => 4
  | .n .structBlockEnts => 4
  | .n .enumPart | .n .structPart | .n .enumBlockEnts | .n .structBlockEnt => 3
  | .n .enumStart | .n .structStart | .n .enumBlock | .n .enumEnt | .n .simpleType
  | .n .structBlockVector | .n .simpleDefaultValue | .n .value => 2
  | .n _ => 1

/-- Nesting depth of the tokens chosen for a symbol.  (Proof notion, models no code.) -/
def depthOf : Sym → Nat
  | .t _ => 0
  | .n .accept => 9
  | .n .fileContent => 8
  | .n .parts => 7
  | .n .part => 6
  | .n .enumPart | .n .structPart => 5
  | .n .enumBlock | .n .structBlockEnts => 4
  | .n .enumBlockEnts | .n .structBlockEnt => 3
  | .n .enumEnt | .n .simpleType | .n .enumStart | .n .structStart | .n .structBlockVector
  | .n .simpleDefaultValue | .n .value => 2
  | .n _ => 1

/-- Tokens derived from a symbol.  (Proof notion, models no code.) -/
def expand : Nat → Sym → List Token
  | _, .t k => [sampleTok k]
  | 0, .n _ => []
  | f + 1, .n x => (pick x).flatMap (expand f)

/-- Tokens derived from a symbol.  (Proof notion, models no code.) -/
def someToks (x : Sym) : List Token := expand 10 x

theorem pick_ok (x : NT) : (⟨x, pick x⟩ : Prod) ∈ prods.tail ∧
    ∀ y ∈ pick x, depthOf y < depthOf (.n x) ∧ (x ≠ .accept → y ≠ .t .eof ∧ y ≠ .n .accept) := by
  cases x <;> decide

theorem expand_derives (f : Nat) (x : Sym) (h : depthOf x ≤ f) : Derives x (expand f x) := by
  induction f generalizing x with
  | zero =>
    cases x with
    | t k => exact .tok (t := sampleTok k)
    | n x => cases x <;> exact absurd h (by decide)
  | succ f ih =>
    cases x with
    | t k => exact .tok (t := sampleTok k)
    | n x =>
      refine .prod (p := ⟨x, pick x⟩) (pick_ok x).1 ?_
      have hall := (pick_ok x).2
      simp only [expand]
      generalize pick x = l at hall
      induction l with
      | nil => exact .nil
      | cons y l ihl =>
        rw [List.flatMap_cons]
        exact .cons (ih y (by have := (hall y (by simp)).1; omega)) (ihl fun z hz => hall z (by simp [hz]))

theorem sampleTok_ok {k : TokKind} (h : k ≠ .eof) : Token.Ok (sampleTok k) := by
  cases k <;> first | exact absurd rfl h | exact ⟨by decide, by decide⟩

theorem expand_ok (f : Nat) (x : Sym) (h : x ≠ .t .eof ∧ x ≠ .n .accept) : AllOk (expand f x) := by
  induction f generalizing x with
  | zero =>
    cases x with
    | t k =>
      intro t ht
      simp only [expand, List.mem_singleton] at ht
      subst ht
      exact sampleTok_ok (by rintro rfl; exact h.1 rfl)
    | n x => intro t ht; cases ht
  | succ f ih =>
    cases x with
    | t k =>
      intro t ht
      simp only [expand, List.mem_singleton] at ht
      subst ht
      exact sampleTok_ok (by rintro rfl; exact h.1 rfl)
    | n x =>
      intro t ht
      simp only [expand, List.mem_flatMap] at ht
      obtain ⟨y, hy, ht⟩ := ht
      exact ih y (((pick_ok x).2 y hy).2 (by rintro rfl; exact h.2 rfl)) t ht

theorem someToks_derives (x : Sym) : Derives x (someToks x) :=
  expand_derives 10 x (by cases x with | t => exact Nat.zero_le _ | n x => cases x <;> decide)

theorem someToks_seq (xs : List Sym) : DerivesSeq xs (xs.flatMap someToks) := by
  induction xs with
  | nil => exact .nil
  | cons x xs ih => rw [List.flatMap_cons]; exact .cons (someToks_derives x) ih

/-- For each state a rule and how many of its symbols are on top of the stack.  (Proof notion, models no code.) -/
def items : List (Nat × Nat) :=
  [(0, 0), (22, 1), (24, 1), (0, 0), (2, 1), (3, 1), (30, 1), (41, 1), (5, 1), (29, 1), (6, 1), (40, 1),
   (0, 0), (4, 2), (23, 1), (30, 2), (31, 2), (28, 1), (41, 2), (7, 1), (32, 1), (29, 2), (40, 2), (31, 3),
   (36, 1), (32, 2), (33, 1), (17, 1), (18, 1), (19, 1), (16, 1), (25, 1), (26, 1), (27, 1), (20, 1), (21, 1),
   (53, 1), (50, 1), (51, 1), (52, 1), (58, 1), (68, 1), (56, 1), (57, 1), (49, 1), (46, 1), (40, 3), (42, 1),
   (44, 1), (48, 1), (11, 1), (37, 2), (8, 1), (32, 3), (9, 1), (34, 2), (53, 2), (54, 2), (55, 2), (12, 1),
   (68, 2), (46, 2), (40, 4), (43, 2), (44, 2), (48, 2), (37, 3), (38, 3), (39, 3), (10, 1), (32, 4), (34, 3),
   (68, 3), (59, 1), (46, 3), (47, 3), (40, 5), (44, 3), (45, 3), (48, 3), (13, 1), (68, 4), (14, 1), (15, 1),
   (65, 1), (61, 1), (62, 1), (66, 1), (67, 1), (59, 2), (63, 1), (64, 1), (60, 2), (47, 4), (45, 4), (60, 3)]

/-- Symbols that end a declaration.  (Proof notion, models no code.) -/
def closers : List Sym := [.n .enumBlock, .n .enumPart, .n .structPart, .n .part, .n .parts, .n .fileContent]

/-- The entry of a state in `items` is right.  (Proof notion, models no code.) -/
def checkItem (s : Nat) : Bool :=
  match items[s]? with
  | none => false
  | some (n, d) =>
    match prods.tail[n - 1]?, symOf s with
    | some p, some x =>
      n != 0 && n != 1 && d != 0 && decide (d ≤ p.rhs.length) && checkPath p.lhs (p.rhs.take d).reverse s &&
        (d != 1 || decide (corner x < corner (.n p.lhs))) && p.lhs != .accept &&
        (p.rhs.drop d).all (fun y => y != .t .eof && y != .n .accept) &&
        (!closers.contains x || (decide (d = p.rhs.length) && closers.contains (.n p.lhs))) &&
        (!(s == 25 || s == 46) || (p.rhs.drop d == [.n .blockEnd, .n .semicolon] && closers.contains (.n p.lhs)))
    | _, _ => false

theorem check_items : ((List.range 96).all fun s => s == 0 || s == 3 || s == yyfinal || checkItem s) = true := by
  decide +kernel

/-- Rank of the top of the stack.  (Proof notion, models no code.) -/
def topCorner (st : List Cell) : Nat :=
  match st with
  | [] => 0
  | c :: _ => match symOf c.state with
    | some x => corner x
    | none => 0

theorem corner_le (x : Sym) : corner x ≤ 7 := by
  cases x with
  | t => simp [corner]
  | n x => cases x <;> simp [corner]

theorem topCorner_le (st : List Cell) : topCorner st ≤ 7 := by
  unfold topCorner
  split
  · simp
  · split
    · exact corner_le _
    · simp

theorem Chain.completes (n : Nat) {c : Cell} {rest : List Cell} {w : List Token} (h : Chain (c :: rest) w)
    (hf : c.state ≠ yyfinal) (hn : 10 * (c :: rest).length + (9 - topCorner (c :: rest)) ≤ n) :
    ∃ r, AllOk r ∧ InGrammar (w ++ r) ∧ (∀ x ∈ closers, symOf c.state = some x → r = []) ∧
      (c.state = 25 ∨ c.state = 46 → r = [tk .blockEnd, tk .semicolon]) := by
  induction n generalizing c rest w with
  | zero => simp at hn
  | succ n ih =>
    have hlt := h.top_lt
    have hck := List.all_eq_true.1 check_items _ (List.mem_range.2 hlt)
    simp only [Bool.or_eq_true, beq_iff_eq] at hck
    rcases hck with ((h0 | h3) | h12) | hck
    · cases h with
      | base =>
        refine ⟨someToks (.n .fileContent), expand_ok 10 _ ⟨by decide, by decide⟩, someToks_derives (.n .fileContent), ?_, ?_⟩
        · intro x _ hx
          have : symOf 0 = some (.t .eof) := by decide +kernel
          rw [show symOf _ = symOf 0 from rfl, this] at hx
          cases hx
          exact absurd ‹Sym.t TokKind.eof ∈ closers› (by decide)
        · intro hs
          exact absurd (show (0 : Nat) = 25 ∨ (0 : Nat) = 46 from hs) (by decide)
      | cons _ he => exact absurd h0 (edges_prop he).2.2.1
    · cases h with
      | base => exact absurd (show (0 : Nat) = 3 from h3) (by decide)
      | @cons c1 c2 rest2 w1 u1 x1 h1 he1 hx1 hd1 hv1 =>
        rw [h3] at he1 hx1
        have e3 : symOf 3 = some (.n .fileContent) := by decide +kernel
        rw [e3] at hx1
        cases hx1
        have hp3 : preds 3 = [0] := by decide +kernel
        have h00 := mem_preds he1
        rw [hp3] at h00
        simp at h00
        cases h1 with
        | cons _ he2 => rw [h00] at he2; exact absurd rfl (edges_prop he2).2.2.1
        | base =>
          refine ⟨[], (fun t ht => by cases ht), ?_, fun _ _ _ => rfl, ?_⟩
          · rw [List.append_nil]
            exact hd1
          · intro hs
            rw [h3] at hs
            exact absurd hs (by decide)
    · exact absurd h12 hf
    · unfold checkItem at hck
      cases hi : items[c.state]? with
      | none => rw [hi] at hck; cases hck
      | some nd =>
        obtain ⟨k, d⟩ := nd
        rw [hi] at hck
        simp only at hck
        cases hp : prods.tail[k - 1]? with
        | none => rw [hp] at hck; cases hck
        | some p =>
          cases hx : symOf c.state with
          | none => rw [hp, hx] at hck; cases hck
          | some x =>
            rw [hp, hx] at hck
            simp only [Bool.and_eq_true, bne_iff_ne, ne_eq, decide_eq_true_eq, Bool.or_eq_true] at hck
            obtain ⟨⟨⟨⟨⟨⟨⟨⟨⟨_, _⟩, hd0⟩, hdl⟩, hpath⟩, hrank⟩, hacc⟩, htail⟩, hclose⟩, hends⟩ := hck
            obtain ⟨w', u, below, rest', s2, e1, e2, e3, e4, _, e6, e7, e8⟩ := path_spec rfl h hpath
            have hlen : (p.rhs.take d).reverse.length = d := by simp; omega
            rw [hlen] at e1
            rw [List.reverse_reverse] at e4
            have hder : Derives (.n p.lhs) (u ++ (p.rhs.drop d).flatMap someToks) := by
              refine .prod (List.mem_of_getElem? hp) ?_
              have := e4.append (someToks_seq (p.rhs.drop d))
              rwa [List.take_append_drop] at this
            let v : SemVal := if p.lhs = .simpleType then .ty .bool else .str []
            have hv : ValOk (.n p.lhs) v := by
              by_cases hs : p.lhs = .simpleType
              · simp only [v, if_pos hs, hs]; exact ValOk.ty
              · simp only [v, if_neg hs]; exact ValOk.str (by simpa using hs)
            have hch : Chain (⟨s2, v⟩ :: below :: rest') (w' ++ (u ++ (p.rhs.drop d).flatMap someToks)) :=
              .cons e2 e7 e8 hder hv
            have h2 : s2 ≠ yyfinal := by
              rintro rfl
              have e12 : symOf yyfinal = some (.t .eof) := by decide +kernel
              rw [e12] at e8
              cases e8
            have hl : (below :: rest').length = (c :: rest).length - d := by rw [← e1, List.length_drop]
            have htop : topCorner (⟨s2, v⟩ :: below :: rest') = corner (.n p.lhs) := by
              simp only [topCorner, e8]
            have htop' : topCorner (c :: rest) = corner x := by simp only [topCorner, hx]
            have hc1 := corner_le x
            have hc2 := corner_le (.n p.lhs)
            have hle : 10 * (⟨s2, v⟩ :: below :: rest' : List Cell).length +
                (9 - topCorner (⟨s2, v⟩ :: below :: rest')) ≤ n := by
              rw [htop]
              rw [htop'] at hn
              simp only [List.length_cons] at hn hl ⊢
              rcases hrank with hr | hr <;> omega
            obtain ⟨r, hr1, hr2, hr3, _⟩ := ih hch h2 hle
            refine ⟨(p.rhs.drop d).flatMap someToks ++ r, ?_, ?_, ?_, ?_⟩
            · intro t ht
              rcases List.mem_append.1 ht with ht | ht
              · obtain ⟨y, hy, hty⟩ := List.mem_flatMap.1 ht
                have := List.all_eq_true.1 htail y hy
                simp only [Bool.and_eq_true, bne_iff_ne, ne_eq] at this
                exact expand_ok 10 y this t hty
              · exact hr1 t ht
            · rw [e3]
              simpa [List.append_assoc] using hr2
            · intro y hy hsy
              cases hsy
              simp only [Bool.not_eq_true', List.contains_iff_mem] at hclose
              rcases hclose with hc | ⟨hc, hcl⟩
              · rw [List.contains_iff_mem.2 hy] at hc; cases hc
              · rw [hr3 _ hcl e8, hc]; simp
            · intro hs
              simp only [Bool.not_eq_true', Bool.or_eq_false_iff, beq_eq_false_iff_ne, beq_iff_eq,
                List.contains_iff_mem] at hends
              rcases hends with hc | ⟨hc, hcl⟩
              · rcases hs with hs | hs
                · exact absurd hs hc.1
                · exact absurd hs hc.2
              · rw [hr3 _ hcl e8, hc]; rfl

/-- What is on a stack can be completed to a header. -/
theorem Chain.header {c : Cell} {rest : List Cell} {w : List Token} (h : Chain (c :: rest) w)
    (hf : c.state ≠ yyfinal) (ok : AllOk w) : ∃ hd : Header, w <+: hd.toks := by
  obtain ⟨r, hr1, hr2, _⟩ := h.completes _ hf (Nat.le_refl _)
  obtain ⟨hd, e⟩ := inv_header hr2 (by
    intro t ht
    rcases List.mem_append.1 ht with ht | ht
    · exact ok t ht
    · exact hr1 t ht)
  exact ⟨hd, r, e⟩

/-! ### The report of a run -/

theorem report_accepted (fuel : Nat) {c : Cfg} {log : List Call} (h : run fuel c = .accepted log) :
    runReport fuel c = .nothing := by
  induction fuel generalizing c with
  | zero => cases h
  | succ k ih =>
    unfold run at h
    unfold runReport
    split at h
    · cases h
    · next e => rw [e]
    · next e => split at h <;> cases h
    · next c' e => rw [e]; exact ih h

theorem report_rejected (fuel : Nat) {c : Cfg} {inp : List Token} {log : List Call} {la : Option Token}
    {rest : List Token} (hp : Pending c.la c.toks inp) (h : run fuel c = .rejected log la rest) :
    ∃ n st inp', asteps n ⟨c.stack, inp, c.log⟩ = some ⟨st, inp', log⟩ ∧
      astep ⟨st, inp', log⟩ = some .error ∧ Pending la rest inp' ∧
      ∀ top s, st[0]? = some top → errorText top.state la = some s → runReport fuel c = .text s := by
  induction fuel generalizing c inp with
  | zero => cases h
  | succ k ih =>
    unfold run at h
    unfold runReport
    rcases step_sim hp with ⟨e1, e2⟩ | ⟨e1, e2⟩ | ⟨e1, e2, e3⟩ | ⟨c', inp', e1, e2, e3⟩
    · rw [e1] at h; cases h
    · rw [e1] at h; cases h
    · rw [e1] at h
      simp only at h
      split at h
      · cases h
      · cases h
      · simp only [Result.rejected.injEq] at h
        obtain ⟨rfl, rfl, rfl⟩ := h
        refine ⟨0, c.stack, inp, rfl, e2, e3, ?_⟩
        intro top s ht hs
        rw [e1]
        simp only [ht, hs]
    · rw [e1] at h
      obtain ⟨n, st, inp2, g1, g2, g3, g4⟩ := ih e2 h
      refine ⟨n + 1, st, inp2, ?_, g2, g3, ?_⟩
      · unfold asteps; rw [e3]; exact g1
      · rw [e1]; exact g4

/-! ### The row of the state in which the error is found -/

/-- The tokens a state shifts.  (Proof notion, models no code.) -/
def shiftKinds (s : Nat) : List TokKind :=
  allKinds.filter fun k => match action s k with
    | some (.shift _) => true
    | _ => false

/-- What a message calls a token.  (Specification notion, models no code.) -/
def kindName : TokKind → Str
  | .eof => c!"end of file" | .blockStart => c!"{" | .blockEnd => c!"}" | .equals => c!"=" | .comma => c!","
  | .semicolon => c!";" | .lessthan => c!"<" | .greaterthan => c!">" | .enum => c!"enum" | .class_ => c!"class"
  | .struct => c!"struct" | .int => c!"int" | .short => c!"short" | .long => c!"long" | .unsigned => c!"unsigned"
  | .float => c!"float" | .double => c!"double" | .bool => c!"bool" | .true_ => c!"true" | .false_ => c!"false"
  | .stdString => c!"std::string" | .stdVector => c!"std::vector" | .name => c!"NAME" | .enumValue => c!"ENUM_VALUE"
  | .value => c!"VALUE" | .hexValue => c!"HEXVALUE" | .fValue => c!"FVALUE" | .stringConstant => c!"STRING_CONSTANT"
  | .charConstant => c!"CHAR_CONSTANT"

/-- The part of a message about the tokens expected.  (Specification notion, models no code.) -/
def expecting : List TokKind → Str
  | [] => []
  | k :: ks => c!", expecting " ++ kindName k ++ ks.flatMap fun k => c!" or " ++ kindName k

/-- The tokens listed in a message: at most four.  (Proof notion, models no code.) -/
def listed (s : Nat) : List TokKind := if (shiftKinds s).length ≤ 4 then shiftKinds s else []

/-- A state with an error action reduces on no token, and the message is made of what it shifts; of the quiet states
only 3, 25 and 46 have error actions.  (Proof notion, models no code.) -/
def checkRow (s : Nat) : Bool :=
  allKinds.all (fun k => action s k != some .error) ||
  (allKinds.all (fun k => (match action s k with
      | some (.reduce _) => false
      | _ => true) &&
    errorText s (some ⟨k, []⟩) == some (c!"syntax error, unexpected " ++ kindName k ++ expecting (listed s))) &&
   (!quiet.contains s || s == 3 || s == 25 || s == 46))

theorem check_rows : liveStates.all checkRow = true := by decide +kernel

theorem nodup_kinds : allKinds.Nodup := by decide

theorem row {s : Nat} {k : TokKind} (h : s < 96) (hf : s ≠ yyfinal) (he : action s k = some .error) :
    (∀ k' n, action s k' ≠ some (.reduce n)) ∧
    (∀ t : Token, errorText s (some t) =
      some (c!"syntax error, unexpected " ++ kindName t.kind ++ expecting (listed s))) ∧
    (s ∈ quiet → s = 3 ∨ s = 25 ∨ s = 46) := by
  have h1 := List.all_eq_true.1 check_rows _ (mem_live h hf)
  unfold checkRow at h1
  rw [Bool.or_eq_true] at h1
  rcases h1 with h1 | h1
  · have := List.all_eq_true.1 h1 k (mem_allKinds k)
    rw [he] at this
    simp at this
  · rw [Bool.and_eq_true] at h1
    obtain ⟨h1, h2⟩ := h1
    refine ⟨?_, ?_, ?_⟩
    · intro k' n e
      have := List.all_eq_true.1 h1 k' (mem_allKinds k')
      rw [e] at this
      simp at this
    · intro t
      have := List.all_eq_true.1 h1 t.kind (mem_allKinds _)
      rw [Bool.and_eq_true, beq_iff_eq] at this
      exact this.2
    · intro hq
      simp only [Bool.or_eq_true, Bool.not_eq_true', beq_iff_eq] at h2
      rcases h2 with ((h2 | h2) | h2) | h2
      · rw [List.contains_iff_mem.2 hq] at h2; cases h2
      · exact Or.inl h2
      · exact Or.inr (Or.inl h2)
      · exact Or.inr (Or.inr h2)

theorem mem_shiftKinds {s : Nat} {k : TokKind} : k ∈ shiftKinds s ↔ ∃ n, action s k = some (.shift n) := by
  unfold shiftKinds
  rw [List.mem_filter]
  constructor
  · rintro ⟨_, h⟩
    split at h
    · next n e => exact ⟨n, e⟩
    · cases h
  · rintro ⟨n, e⟩
    exact ⟨mem_allKinds k, by rw [e]⟩

theorem shiftKinds_nodup (s : Nat) : (shiftKinds s).Nodup := nodup_kinds.filter _

/-! ### Which tokens can come next -/

/-- After the tokens `p` a header can go on with a token of kind `k`, or end.  (Specification notion, models no code.) -/
def CanFollow (p : List Token) (k : TokKind) : Prop :=
  if k = .eof then ∃ h : Header, p = h.toks else ∃ (h : Header) (s : Str), p ++ [⟨k, s⟩] <+: h.toks

theorem AllOk.snoc {p : List Token} {t : Token} (h : AllOk p) (ht : Token.Ok t) : AllOk (p ++ [t]) := by
  intro x hx
  rcases List.mem_append.1 hx with hx | hx
  · exact h x hx
  · rw [List.mem_singleton] at hx; subst hx; exact ht

/-- The state that shifts the end of the file has read a header. -/
theorem Chain.at_end {c : Cell} {rest : List Cell} {w : List Token} (h : Chain (c :: rest) w) (h3 : c.state = 3)
    (ok : AllOk w) : ∃ hd : Header, w = hd.toks := by
  cases h with
  | base => exact absurd (show (0 : Nat) = 3 from h3) (by decide)
  | @cons c1 c2 rest2 w1 u1 x1 h1 he1 hx1 hd1 hv1 =>
    rw [h3] at he1 hx1
    have e3 : symOf 3 = some (.n .fileContent) := by decide +kernel
    rw [e3] at hx1
    cases hx1
    have hp3 : preds 3 = [0] := by decide +kernel
    have h00 := mem_preds he1
    rw [hp3] at h00
    simp at h00
    cases h1 with
    | cons _ he2 => rw [h00] at he2; exact absurd rfl (edges_prop he2).2.2.1
    | base => exact inv_header hd1 ok

theorem shift_eof {s n : Nat} (h : s < 96) (hf : s ≠ yyfinal) (ha : action s .eof = some (.shift n)) : s = 3 := by
  have h1 : liveStates.all (fun s => match action s .eof with
      | some (.shift _) => s == 3
      | _ => true) = true := by decide +kernel
  have := List.all_eq_true.1 h1 s (mem_live h hf)
  rw [ha] at this
  simpa using this

/-- What the top state shifts can come next. -/
theorem Chain.follow {c : Cell} {rest : List Cell} {w : List Token} {k : TokKind} {n : Nat} (h : Chain (c :: rest) w)
    (hf : c.state ≠ yyfinal) (ok : AllOk w) (ha : action c.state k = some (.shift n)) : CanFollow w k := by
  unfold CanFollow
  split
  · next e =>
    subst e
    exact h.at_end (shift_eof h.top_lt hf ha) ok
  · next hk =>
    have hck := check_action h.top_lt hf k
    unfold checkAction at hck
    rw [ha] at hck
    simp only [Bool.and_eq_true, beq_iff_eq, List.contains_iff_mem] at hck
    have hch : Chain (⟨n, tokVal (sampleTok k)⟩ :: c :: rest) (w ++ [sampleTok k]) :=
      .cons (x := .t k) h hck.1 hck.2 (.tok (t := sampleTok k)) (tokVal_ok (sampleTok k))
    have h2 : n ≠ yyfinal := by
      rintro rfl
      have e12 : symOf yyfinal = some (.t .eof) := by decide +kernel
      rw [e12] at hck
      exact hk (by simpa using hck.2.symm)
    obtain ⟨hd, hpre⟩ := hch.header h2 (ok.snoc (sampleTok_ok hk))
    exact ⟨hd, (sampleTok k).text, hpre⟩

/-- A header that only lacks its last two tokens. -/
theorem Chain.almost {c : Cell} {rest : List Cell} {w : List Token} (h : Chain (c :: rest) w)
    (hs : c.state = 25 ∨ c.state = 46) (ok : AllOk w) :
    ∃ hd : Header, w ++ [tk .blockEnd, tk .semicolon] = hd.toks := by
  obtain ⟨r, hr1, hr2, _, hr4⟩ := h.completes _ (by rcases hs with e | e <;> rw [e] <;> decide) (Nat.le_refl _)
  obtain ⟨hd, e⟩ := inv_header hr2 (by
    intro t ht
    rcases List.mem_append.1 ht with ht | ht
    · exact ok t ht
    · exact hr1 t ht)
  rw [hr4 hs] at e
  exact ⟨hd, e⟩

/-! ### Runs with another next token -/

/-- The steps between the last shift and the error depend on the kind of the next token only. -/
theorem asteps_kind {toks : List Token} (n : Nat) {st : List Cell} {inp : List Token} {log : List Call} {b : ACfg}
    (hi : Inv toks ⟨st, inp, log⟩) (hr : asteps n ⟨st, inp, log⟩ = some b) (he : astep b = some .error)
    (hinp : b.inp = inp) {inp' : List Token} (hk : (inp.headD eofTok).kind = (inp'.headD eofTok).kind) :
    asteps n ⟨st, inp', log⟩ = some ⟨b.stack, inp', b.log⟩ := by
  induction n generalizing st log with
  | zero => cases hr; rfl
  | succ n ih =>
    unfold asteps at hr ⊢
    split at hr
    · next a' e =>
      obtain ⟨k, st2, calls, ha', top, rest, hst, hlt, hf, hact, hred⟩ := step_to_error hi e hr he hinp
      simp only at ha' hst hact hred
      subst ha'
      have htop : st[0]? = some top := by rw [hst]; rfl
      have hact' : action top.state (inp'.headD eofTok).kind = some (.reduce k) := by rw [← hk]; exact hact
      rw [astep_reduce_local (log := log) htop hf hact' hred]
      exact ih (hi.step e) hr
    · cases hr

/-- Reductions from a quiet state lead to a quiet state. -/
theorem quiet_stays {toks : List Token} (n : Nat) {a b : ACfg} (hi : Inv toks a)
    (hq : ∃ top rest, a.stack = top :: rest ∧ top.state ∈ quiet) (hr : asteps n a = some b)
    (he : astep b = some .error) (hinp : b.inp = a.inp) : ∃ top rest, b.stack = top :: rest ∧ top.state ∈ quiet := by
  induction n generalizing a with
  | zero => cases hr; exact hq
  | succ n ih =>
    unfold asteps at hr
    split at hr
    · next a' e =>
      obtain ⟨m, st, calls, ha', top, rest, hst, hlt, hf, hact, hred⟩ := step_to_error hi e hr he hinp
      obtain ⟨top', rest', hst', hq⟩ := hq
      rw [hst] at hst'
      cases hst'
      rcases reduce_quiet hlt hf hact with ⟨_, e2⟩ | ⟨⟨x, hx, hx'⟩, e2⟩
      · exact absurd hq e2
      · obtain ⟨below, hb, x', s, v, rest2, g1, g2, g3, g4⟩ := areduce_parts (hred a.inp a.log) rfl
        have hxx : x' = x := by rw [hx'] at g1; cases g1; rfl
        subst hxx
        have hs := goto_quiet (hi.lt below hb) hx g2
        refine ih (hi.step e) ⟨⟨s, v⟩, rest2, by rw [ha', g4], hs⟩ hr ?_
        rw [hinp, ha']
    · cases hr

/-- The steps between the last shift and the error do not depend on the next token, or the error is found in a quiet
state. -/
theorem asteps_blind {toks : List Token} (n : Nat) {st : List Cell} {inp : List Token} {log : List Call} {b : ACfg}
    (hi : Inv toks ⟨st, inp, log⟩) (hr : asteps n ⟨st, inp, log⟩ = some b) (he : astep b = some .error)
    (hinp : b.inp = inp) :
    (∀ inp', asteps n ⟨st, inp', log⟩ = some ⟨b.stack, inp', b.log⟩) ∨
    ∃ top rest, b.stack = top :: rest ∧ top.state ∈ quiet := by
  induction n generalizing st log with
  | zero => cases hr; left; intro inp'; rfl
  | succ n ih =>
    unfold asteps at hr
    split at hr
    · next a' e =>
      obtain ⟨k, st2, calls, ha', top, rest, hst, hlt, hf, hact, hred⟩ := step_to_error hi e hr he hinp
      simp only at ha' hst hact hred
      subst ha'
      have htop : st[0]? = some top := by rw [hst]; rfl
      rcases reduce_quiet hlt hf hact with ⟨e1, _⟩ | ⟨⟨x, hx, hx'⟩, e2⟩
      · rcases ih (hi.step e) hr with h | h
        · left
          intro inp'
          have hact' : action top.state (inp'.headD eofTok).kind = some (.reduce k) := by
            rw [← hact]; exact blind hlt hf e1 _ _
          unfold asteps
          rw [astep_reduce_local (log := log) htop hf hact' hred]
          exact h inp'
        · exact Or.inr h
      · right
        obtain ⟨below, hb, x', s, v, rest2, g1, g2, g3, g4⟩ := areduce_parts (hred inp log) rfl
        have hxx : x' = x := by rw [hx'] at g1; cases g1; rfl
        subst hxx
        exact quiet_stays n (hi.step e) ⟨⟨s, v⟩, rest2, g4, goto_quiet (hi.lt below hb) hx g2⟩ hr he (by rw [hinp])
    · cases hr

/-- A run that gets to an error does not accept. -/
theorem error_rejects {toks : List Token} {n : Nat} {b : ACfg} (h : asteps n ⟨[⟨0, .none⟩], toks, []⟩ = some b)
    (he : astep b = some .error) (hd : Header) : toks ≠ hd.toks := by
  rintro rfl
  have hacc := aparse_header hd
  obtain ⟨m, c, g1, g2, _⟩ := arun_accepted hacc
  obtain ⟨j, hj⟩ := asteps_prefix h g1 g2
  cases j with
  | zero => cases hj; rw [he] at g2; cases g2
  | succ j => unfold asteps at hj; rw [he] at hj; cases hj

/-! ### Summary -/

/-- What is known when the parser stops at an error with `inp` left after `p`. -/
theorem error_facts {p inp : List Token} {log : List Call} {st : List Cell} {n : Nat} (ok : AllOk p)
    (hne : ∀ t ∈ inp, t.kind ≠ .eof)
    (h : asteps n ⟨[⟨0, .none⟩], p ++ inp, []⟩ = some ⟨st, inp, log⟩)
    (he : astep ⟨st, inp, log⟩ = some .error) :
    ∃ top rest, st = top :: rest ∧ top.state < 96 ∧ top.state ≠ yyfinal ∧
      action top.state (inp.headD eofTok).kind = some .error ∧
      (∃ hd : Header, p <+: hd.toks) ∧ ¬ CanFollow p (inp.headD eofTok).kind ∧
      (∀ k ∈ shiftKinds top.state, CanFollow p k) ∧
      ((∀ k, CanFollow p k → k ∈ shiftKinds top.state) ∨
        (shiftKinds top.state = [.eof] ∧ ∃ hd : Header, p = hd.toks) ∨
        (shiftKinds top.state = [.blockEnd] ∧ ∃ hd : Header, p ++ [tk .blockEnd, tk .semicolon] = hd.toks)) := by
  have hinv : Inv (p ++ inp) ⟨st, inp, log⟩ := (inv_init (p ++ inp)).steps n h
  obtain ⟨w, hch, hw⟩ := hinv
  obtain ⟨top, rest, rfl⟩ := hch.ne
  have hlt := hch.top_lt
  have hf : top.state ≠ yyfinal := by
    intro e
    unfold astep at he
    simp [e] at he
  have hact : action top.state (inp.headD eofTok).kind = some .error := by
    unfold astep at he
    simp only [List.getElem?_cons_zero, Option.bind_eq_bind, Option.bind_some, if_neg hf, ACfg.next] at he
    have hck := check_action hlt hf (inp.headD eofTok).kind
    unfold checkAction at hck
    cases ha : action top.state (inp.headD eofTok).kind with
    | none => rw [ha] at hck; cases hck
    | some x =>
      rw [ha] at he
      cases x with
      | error => rfl
      | shift s => cases he
      | reduce m =>
        simp only at he
        rcases reduce_areduce (c := ⟨top :: rest, none, inp, log⟩) (n := m) (inp := inp) (Or.inl rfl) with ⟨_, e⟩ | ⟨_, _, _, e⟩
        · rw [show areduce ⟨top :: rest, inp, log⟩ m = none from e] at he; cases he
        · rw [show areduce ⟨top :: rest, inp, log⟩ m = _ from e] at he; cases he
  have hwp : w = p := by
    rcases hw with hw | ⟨_, _, e⟩
    · exact List.append_cancel_right hw
    · simp at e; exact absurd e hf
  subst hwp
  obtain ⟨k, j, st2, log2, e1, e2, e3⟩ := asteps_split n h rfl
  have hi2 : Inv (w ++ inp) ⟨st2, inp, log2⟩ := (inv_init (w ++ inp)).steps k e1
  obtain ⟨hrow, _, hquiet⟩ := row hlt hf hact
  refine ⟨top, rest, rfl, hlt, hf, hact, hch.header hf ok, ?_, ?_, ?_⟩
  · -- the offending kind can not come next
    intro hcan
    unfold CanFollow at hcan
    split at hcan
    · next hk =>
      have hnil : inp = [] := by
        cases inp with
        | nil => rfl
        | cons t ts => exact absurd hk (hne t (by simp))
      subst hnil
      obtain ⟨hd, e⟩ := hcan
      rw [List.append_nil] at h
      exact error_rejects h he hd e
    · obtain ⟨hd, s, r, e⟩ := hcan
      have hrun := asteps_kind j (inp' := ⟨(inp.headD eofTok).kind, s⟩ :: r) hi2 e2 he rfl rfl
      have hall : asteps (k + j) ⟨[⟨0, .none⟩], w ++ ⟨(inp.headD eofTok).kind, s⟩ :: r, []⟩ =
          some ⟨top :: rest, ⟨(inp.headD eofTok).kind, s⟩ :: r, log⟩ := by
        rw [asteps_add, e3]
        exact hrun
      refine error_rejects hall (astep_error_local (inp := inp) rfl he) hd ?_
      rw [← e]
      simp
  · intro k hk
    obtain ⟨m, hm⟩ := mem_shiftKinds.1 hk
    exact hch.follow hf ok hm
  · by_cases hq : top.state ∈ quiet
    · right
      rcases hquiet hq with e | e | e
      · left
        exact ⟨by rw [e]; decide +kernel, hch.at_end e ok⟩
      · right
        exact ⟨by rw [e]; decide +kernel, hch.almost (Or.inl e) ok⟩
      · right
        exact ⟨by rw [e]; decide +kernel, hch.almost (Or.inr e) ok⟩
    · left
      rcases asteps_blind j hi2 e2 he rfl with hb | ⟨t', r', e, hq'⟩
      · intro k' hcan
        -- a header that goes on with `k'`
        have hex : ∃ (hd : Header) (inp' : List Token), w ++ inp' = hd.toks ∧ (inp'.headD eofTok).kind = k' := by
          unfold CanFollow at hcan
          split at hcan
          · next hk =>
            obtain ⟨hd, e⟩ := hcan
            exact ⟨hd, [], by rw [List.append_nil, e], by rw [hk]; rfl⟩
          · obtain ⟨hd, s, r, e⟩ := hcan
            exact ⟨hd, ⟨k', s⟩ :: r, by rw [← e]; simp, rfl⟩
        obtain ⟨hd, inp', heq, hk'⟩ := hex
        have hall : asteps (k + j) ⟨[⟨0, .none⟩], w ++ inp', []⟩ = some ⟨top :: rest, inp', log⟩ := by
          rw [asteps_add, e3]
          exact hb inp'
        rw [mem_shiftKinds]
        have hck := check_action hlt hf k'
        unfold checkAction at hck
        cases ha : action top.state k' with
        | none => rw [ha] at hck; cases hck
        | some x =>
          cases x with
          | shift s => exact ⟨s, rfl⟩
          | reduce m => exact absurd ha (hrow k' m)
          | error =>
            exfalso
            refine error_rejects hall ?_ hd heq
            unfold astep
            simp only [List.getElem?_cons_zero, Option.bind_eq_bind, Option.bind_some, if_neg hf, ACfg.next, hk', ha]
      · cases e
        exact absurd hq' hq

end Stfx.Parser
