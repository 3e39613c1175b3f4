import Verif.Main.Stream
import Verif.Parser.StreamFacts
import Verif.Items.Facts
import Verif.Props.C76_Skipped
/-
Property C84: standard output while a file is read.
-/
set_option autoImplicit false
namespace Stfx.Main
open Stfx.Lexer Stfx.Parser Stfx.Items Stfx.Gen

/-- The texts of the scanner, joined.  (Specification notion, models no code.) -/
def scannerText : List Piece → Str
  | [] => []
  | .scanner t :: ps => t ++ scannerText ps
  | .message _ :: ps => scannerText ps

/-- The messages.  (Specification notion, models no code.) -/
def messages : List Piece → List Str
  | [] => []
  | .scanner _ :: ps => messages ps
  | .message t :: ps => t :: messages ps

/-- How the declaration of a name begins, as tokens.  (Specification notion, models no code.) -/
def Opening (w : List Token) : Prop :=
  (∃ p a, w = p ++ [⟨.struct, a⟩]) ∨ (∃ p a, w = p ++ [⟨.enum, a⟩]) ∨ ∃ p a b, w = p ++ [⟨.enum, a⟩, ⟨.class_, b⟩]

theorem scannerText_append (a b : List Piece) : scannerText (a ++ b) = scannerText a ++ scannerText b := by
  induction a with
  | nil => rfl
  | cons x a ih => cases x <;> simp [scannerText, ih]

theorem messages_append (a b : List Piece) : messages (a ++ b) = messages a ++ messages b := by
  induction a with
  | nil => rfl
  | cons x a ih => cases x <;> simp [messages, ih]

theorem scannerText_messages (ms : List Str) : scannerText (ms.map .message) = [] := by
  induction ms with
  | nil => rfl
  | cons x a ih => simp [scannerText, ih]

theorem messages_messages (ms : List Str) : messages (ms.map .message) = ms := by
  induction ms with
  | nil => rfl
  | cons x a ih => simp [messages, ih]

theorem upTo_one_cons (l : Lexeme) (ls : List Lexeme) :
    upTo 1 (l :: ls) = if l.token?.isSome then [l] else l :: upTo 1 ls := by
  cases h : l.token?.isSome <;> simp [upTo, h]

theorem upTo_succ (k : Nat) (ls : List Lexeme) :
    upTo (k + 1) ls = upTo 1 ls ++ upTo k (ls.drop (upTo 1 ls).length) := by
  induction ls with
  | nil => cases k <;> simp [upTo]
  | cons l ls ih =>
    cases h : l.token?.isSome with
    | true => rw [upTo_one_cons, h]; simp [upTo, h]
    | false =>
      rw [upTo_one_cons, h]
      simp only [Bool.false_eq_true, if_false, List.length_cons, List.drop_succ_cons, List.cons_append]
      rw [← ih, upTo, h]
      simp

theorem upTo_all (k : Nat) (ls : List Lexeme) (h : (tokensOf ls).length < k) : upTo k ls = ls := by
  induction ls generalizing k with
  | nil => cases k <;> rfl
  | cons l ls ih =>
    cases k with
    | zero => omega
    | succ k =>
      rw [upTo]
      congr 1
      cases hl : l.token? with
      | none =>
        have e : tokensOf (l :: ls) = tokensOf ls := by simp [tokensOf, hl]
        rw [e] at h
        exact ih _ (by simpa using h)
      | some t =>
        have e : tokensOf (l :: ls) = t :: tokensOf ls := by simp [tokensOf, hl]
        rw [e, List.length_cons] at h
        exact ih _ (by simp; omega)

/-- What the scanner prints by a number of calls. -/
theorem pieces_scanner {self : Nat} {es : List Event} {ls : List Lexeme} {h : Heap} (hok : HeapOk h) (hs : self < h.length) :
    scannerText (piecesOf self es ls h) = (upTo (readsOf es) ls).flatMap lexemeSays ∧
      messages (piecesOf self es ls h) = callsSay self (callsOf es) h := by
  induction es generalizing ls h with
  | nil => exact ⟨by simp [piecesOf, scannerText, readsOf, upTo], rfl⟩
  | cons e es ih =>
    cases e with
    | read =>
      obtain ⟨i1, i2⟩ := ih (ls := ls.drop (upTo 1 ls).length) hok hs
      have e : readsOf (.read :: es) = readsOf es + 1 := by simp [readsOf]
      refine ⟨?_, ?_⟩
      · rw [e, upTo_succ, List.flatMap_append, ← i1]; rfl
      · exact i2
    | call c =>
      obtain ⟨h', e1, ok1, l1⟩ := applyCall_ok hok hs c
      obtain ⟨i1, i2⟩ := ih (ls := ls) ok1 (by omega)
      have e : readsOf (.call c :: es) = readsOf es := by simp [readsOf]
      simp only [piecesOf, e1, scannerText_append, scannerText_messages, messages_append, messages_messages, i1, i2, callsOf,
        callsSay, e, List.nil_append]
      exact ⟨trivial, trivial⟩

theorem pieces_split {self : Nat} {es : List Event} {ls : List Lexeme} {h : Heap} {a b : List Piece} {m : Str}
    (he : piecesOf self es ls h = a ++ .message m :: b) :
    ∃ es1 c es2 h', es = es1 ++ .call c :: es2 ∧ m ∈ callSays self h' c ∧
      scannerText a = (upTo (readsOf es1) ls).flatMap lexemeSays := by
  induction es generalizing ls h a with
  | nil => simp [piecesOf] at he
  | cons e es ih =>
    cases e with
    | read =>
      cases a with
      | nil => simp [piecesOf] at he
      | cons x a =>
        simp only [piecesOf, List.cons_append, List.cons.injEq] at he
        obtain ⟨rfl, he⟩ := he
        obtain ⟨es1, c, es2, h', rfl, h2, h3⟩ := ih he
        refine ⟨.read :: es1, c, es2, h', rfl, h2, ?_⟩
        have e : readsOf (.read :: es1) = readsOf es1 + 1 := by simp [readsOf]
        rw [e, upTo_succ (readsOf es1), List.flatMap_append, ← h3]; rfl
    | call c =>
      simp only [piecesOf] at he
      rcases List.append_eq_append_iff.1 he with ⟨x, e1, e2⟩ | ⟨x, e1, e2⟩
      · cases hap : applyCall self h c with
        | none => rw [hap] at e2; simp at e2
        | some h1 =>
          rw [hap] at e2
          obtain ⟨es1, c', es2, h', rfl, h2, h3⟩ := ih e2
          refine ⟨.call c :: es1, c', es2, h', rfl, h2, ?_⟩
          have e : readsOf (.call c :: es1) = readsOf es1 := by simp [readsOf]
          rw [e, ← h3, e1, scannerText_append, scannerText_messages, List.nil_append]
      · cases x with
        | nil =>
          rw [List.append_nil] at e1
          cases hap : applyCall self h c with
          | none => rw [hap] at e2; simp at e2
          | some h1 =>
            rw [hap] at e2
            obtain ⟨es1, c', es2, h', rfl, h2, h3⟩ := ih (a := []) e2.symm
            refine ⟨.call c :: es1, c', es2, h', rfl, h2, ?_⟩
            have e : readsOf (.call c :: es1) = readsOf es1 := by simp [readsOf]
            rw [e, ← h3, ← e1, scannerText_messages]; rfl
        | cons y x =>
          simp only [List.cons_append, List.cons.injEq] at e2
          obtain ⟨rfl, _⟩ := e2
          have hm : Piece.message m ∈ (callSays self h c).map Piece.message := by rw [e1]; simp
          obtain ⟨m', hm', e⟩ := List.mem_map.1 hm
          cases e
          refine ⟨[], c, es, h, rfl, hm', ?_⟩
          have hz : scannerText ((callSays self h c).map Piece.message) = [] := scannerText_messages _
          rw [e1, scannerText_append] at hz
          rw [(List.append_eq_nil_iff.1 hz).1]
          simp [readsOf, upTo]

/-! ### C84 -/

/-- C84: on standard output there is what the scanner prints (C76) and the messages of the program (C73), all of it. -/
theorem C84_parts (self : Nat) (path w : Str) {h : Heap} (hok : HeapOk h) (hs : self < h.length) :
    ∃ ps, fileStream self path w h = some ps ∧ fileEchoes w = some (scannerText ps) ∧
      messages ps = inputSays self path (some w) h := by
  obtain ⟨ls, hls, _⟩ := C02_total_lossless w
  have hts : toksFile w = some (tokensOf ls) := by
    unfold toksFile toksFrom
    rw [show lexFrom LexSt.init w = some ls from hls]
    rfl
  have ok : ∀ t ∈ tokensOf ls, t.kind ≠ .eof := fun t ht => (scanned_ok hts t ht).1
  refine ⟨_, by unfold fileStream; rw [hls], ?_⟩
  simp only [scannerText, messages]
  obtain ⟨p1, p2⟩ := pieces_scanner (es := parseEvents (tokensOf ls)) (ls := ls) hok hs
  rw [p1, p2]
  have hend : AtEnd (tokensOf ls) (Cfg.init (tokensOf ls)) 0 := by
    intro e
    simp only [Cfg.init, List.map_cons, List.head?_cons, Option.some.injEq] at e
    cases e
  obtain ⟨r1, r2⟩ := events_reads ok (fuelFor (tokensOf ls)) (Place.init _) hend
  unfold fileEchoes inputSays parseEvents
  rw [hls]
  simp only [hts]
  rcases C09_total (tokensOf ls) with ⟨log, h1⟩ | ⟨log, t, rest, h1⟩
  · have e1 := r1 log h1
    have e2 := events_calls (fuelFor (tokensOf ls)) (c := Cfg.init (tokensOf ls)) (Or.inl h1)
    rw [h1]
    simp only [Cfg.init, List.nil_append] at e2
    rw [Nat.zero_add] at e1
    refine ⟨?_, ?_⟩
    · rw [e1, upTo_all _ _ (by omega)]
    · rw [show callsOf (events (fuelFor (tokensOf ls)) (Cfg.init (tokensOf ls))) = log from e2]
  · obtain ⟨e1, e1'⟩ := r2 log t rest h1
    have e2 := events_calls (fuelFor (tokensOf ls)) (c := Cfg.init (tokensOf ls)) (Or.inr ⟨_, _, h1⟩)
    rw [h1]
    simp only [Cfg.init, List.nil_append] at e2
    rw [Nat.zero_add] at e1 e1'
    refine ⟨?_, ?_⟩
    · simp only [matched]
      by_cases hk : t.kind = .eof
      · rw [if_pos hk, e1 hk, upTo_all _ _ (by omega)]
      · rw [if_neg hk, e1' hk]
    · rw [show callsOf (events (fuelFor (tokensOf ls)) (Cfg.init (tokensOf ls))) = log from e2]

theorem callSays_open {self : Nat} {h : Heap} {c : Call} {m : Str} (hm : m ∈ callSays self h c) :
    ∃ n, ((∃ b, c = .enum n b) ∧ m = c!"ERROR process_enum : name '" ++ n ++ c!" already in use") ∨
      (c = .struct n ∧ m = c!"ERROR process_struct : name '" ++ n ++ c!" already in use") := by
  unfold callSays at hm
  split at hm
  · split at hm
    · cases hm
    · split at hm
      · exact ⟨_, Or.inl ⟨⟨_, rfl⟩, List.mem_singleton.1 hm⟩⟩
      · cases hm
  · split at hm
    · cases hm
    · split at hm
      · exact ⟨_, Or.inr ⟨rfl, List.mem_singleton.1 hm⟩⟩
      · cases hm
  all_goals cases hm

/-- C84: a message about a name in use is printed when the scanner has just read the name: what is skipped in the file before
the name has been reported, nothing behind it. -/
theorem C84_order {self : Nat} {path w m : Str} {h : Heap} {a b : List Piece}
    (hw : fileStream self path w h = some (a ++ .message m :: b)) (ha : a ≠ []) :
    ∃ pre l post n, lexFile w = some (pre ++ l :: post) ∧ l.token? = some ⟨.name, n⟩ ∧ Opening (tokensOf pre) ∧
      (m = c!"ERROR process_enum : name '" ++ n ++ c!" already in use" ∨
       m = c!"ERROR process_struct : name '" ++ n ++ c!" already in use") ∧
      scannerText a = pre.flatMap lexemeSays := by
  unfold fileStream at hw
  cases hls : lexFile w with
  | none => rw [hls] at hw; cases hw
  | some ls =>
    rw [hls] at hw
    simp only [Option.some.injEq] at hw
    cases a with
    | nil => exact absurd rfl ha
    | cons x a =>
      simp only [List.cons_append, List.cons.injEq] at hw
      obtain ⟨rfl, hw⟩ := hw
      obtain ⟨es1, c, es2, h', e1, e2, e3⟩ := pieces_split hw
      obtain ⟨o1, o2⟩ := events_opens _ (Place.init (tokensOf ls)) e1
      rw [Nat.zero_add] at o1 o2
      -- the last token read is the name
      have key : ∀ (p : List Token) (n : Str), (tokensOf ls).take (readsOf es1) = p ++ [⟨.name, n⟩] → openRule c ≠ none →
          ∃ pre l post, ls = pre ++ l :: post ∧ l.token? = some ⟨.name, n⟩ ∧ tokensOf pre = p ∧
            scannerText a = pre.flatMap lexemeSays := by
        intro p n hp hc
        have hlen := o2 hc
        have hk : readsOf es1 = p.length + 1 := by
          have := congrArg List.length hp
          simp only [List.length_take, List.length_append, List.length_singleton] at this
          omega
        have hb : tokensOf ls = p ++ ⟨.name, n⟩ :: (tokensOf ls).drop (readsOf es1) := by
          have := List.take_append_drop (readsOf es1) (tokensOf ls)
          rw [hp] at this
          rw [List.append_assoc] at this
          exact this.symm
        obtain ⟨pre, l, post, q1, q2, q3, q4⟩ := lexeme_of hb
        refine ⟨pre, l, post, q1, q2, q3, ?_⟩
        rw [e3, hk, ← q3, q1, upTo_spec pre post (by rw [q2]; rfl), List.flatMap_append, List.flatMap_cons,
          token_silent (by rw [q2]; rfl)]
        simp
      obtain ⟨n, hcase⟩ := callSays_open e2
      rcases hcase with ⟨⟨bl, rfl⟩, hm⟩ | ⟨rfl, hm⟩
      · cases bl with
        | false =>
          obtain ⟨p, s, hp⟩ := o1
          obtain ⟨pre, l, post, q1, q2, q3, q4⟩ := key (p ++ [⟨.enum, s⟩]) n (by rw [hp]; simp) (by simp [openRule])
          exact ⟨pre, l, post, n, by rw [q1], q2, Or.inr (Or.inl ⟨p, s, q3⟩), Or.inl hm, q4⟩
        | true =>
          obtain ⟨p, s, s2, hp⟩ := o1
          obtain ⟨pre, l, post, q1, q2, q3, q4⟩ := key (p ++ [⟨.enum, s⟩, ⟨.class_, s2⟩]) n (by rw [hp]; simp) (by simp [openRule])
          exact ⟨pre, l, post, n, by rw [q1], q2, Or.inr (Or.inr ⟨p, s, s2, q3⟩), Or.inl hm, q4⟩
      · obtain ⟨p, s, hp⟩ := o1
        obtain ⟨pre, l, post, q1, q2, q3, q4⟩ := key (p ++ [⟨.struct, s⟩]) n (by rw [hp]; simp) (by simp [openRule])
        exact ⟨pre, l, post, n, by rw [q1], q2, Or.inl ⟨p, s, q3⟩, Or.inr hm, q4⟩

/-- A header that declares a name twice, with characters that are skipped around the second one. -/
example : (fileStream 0 c!"a.h" c!"#pragma once\nstruct S { int i; };\nstruct ? S @ { int j; };\n#end\n" [Info.empty]).map
      (fun ps => (ps.map Piece.text).flatten) =
    some (c!"\nFile opened for input:\t\ta.h\n" ++ c!"WARNING : [1, 1] ignoring pre-processor line : #pragma once\n" ++
      c!"?" ++ c!"ERROR process_struct : name 'S already in use\n" ++ c!"@" ++
      c!"WARNING : [4, 1] ignoring pre-processor line : #end\n") := by decide +kernel

/-- A file that ends behind a name in use: the message comes between the texts of the scanner. -/
example : fileStream 0 c!"a.h" c!"struct S{int i;};struct ?S" [Info.empty] =
    some ((.message c!"\nFile opened for input:\t\ta.h" :: (List.replicate 9 (.scanner []) ++ [.scanner c!"?"])) ++
      .message c!"ERROR process_struct : name 'S already in use" :: [.scanner []]) := by decide +kernel

end Stfx.Main
