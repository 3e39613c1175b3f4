import Verif.Parser.Static
/-
The life of the semantic values: the parser of Driver.lean once more, with the storage of every symbol (`semantic_type`, a raw
buffer) and the objects in it.  The buffer does not know what it holds: it is told the type to move or to destroy from the kind
of the symbol, Parser.hpp:193-400, Parser.cpp:190-540.
-/
set_option autoImplicit false
namespace Stfx.Parser
open Stfx.Lexer

/-- Code that makes and destroys objects; the state is the number of objects that are alive.  `none`: undefined behaviour, an object is
used or destroyed that is not there or has another type.  C++ [basic.life]. -/
abbrev Life := StateT Nat Option

/-- Undefined behaviour.  C++ [basic.life]. -/
def Life.ub {α : Type} : Life α := fun _ => none
/-- A look-up that can fail, table and stack accesses of Parser.cpp:568-1077. -/
def Life.get {α : Type} (o : Option α) : Life α := fun n => o.map fun a => (a, n)

/-- The types of semantic values, Parser.hpp:370-390. -/
inductive VTy where
  | str | ty
deriving DecidableEq, Repr

/-- The type of the object in a buffer.  (Specification notion, models no code.) -/
def SemVal.holds : SemVal → Option VTy
  | .none => .none
  | .str _ => some .str
  | .ty _ => some .ty

/-- `emplace<T> (...)`, Parser.hpp:229-234: a new object in the buffer, whatever is in it. -/
def emplace (v : SemVal) : Life SemVal := fun n => some (v, n + 1)

/-- `destroy<T> ()`, Parser.hpp:338-343. -/
def destroy (t : VTy) (v : SemVal) : Life SemVal := fun n => if v.holds = some t ∧ 0 < n then some (.none, n - 1) else none

/-- `move<T> (that)`, Parser.hpp:320-326: the buffers afterwards.  What was in the own buffer is not destroyed. -/
def moveVal (t : VTy) (that : SemVal) : Life (SemVal × SemVal) :=
  if that.holds = some t then do
    let this ← emplace that
    let that ← destroy t that
    return (this, that)
  else Life.ub

/-- The cases of the switch statements over symbol kinds (`none`: `S_YYEMPTY`), Parser.cpp:243-265, 359-380, 391-412, 734-757,
Parser.hpp:586-607, 673-696. -/
def kindTy : Option Nat → Option VTy
  | none => none
  | some k => if k = 66 then some .ty else if k ∈ [24, 25, 26, 27, 28, 29, 30, 56, 67, 68, 69] then some .str else none

/-- Those switch statements with `value.move< T > (that.value)`, Parser.cpp:243-265, 359-380, 391-412. -/
def moveBy (k : Option Nat) (this that : SemVal) : Life (SemVal × SemVal) :=
  match kindTy k with
  | some t => moveVal t that
  | none => return (this, that)

/-- `by_state::kind`, Parser.cpp:343-350. -/
def Cell.kind (c : Cell) : Life (Option Nat) := if c.state = 0 then return none else return some (← Life.get yystos[c.state]?)

/-- The destructor of `stack_symbol_type`: `clear`, Parser.hpp:659-701.  The result is the buffer as it is left. -/
def Cell.clear (c : Cell) : Life SemVal := do
  match kindTy (← c.kind) with
  | some t => destroy t c.val
  | none => return c.val

/-- `yyla`: `symbol_type`, a token kind (`none`: `S_YYEMPTY`) and a buffer, Parser.cpp:604. -/
structure La where
  kind : Option TokKind
  val : SemVal
deriving DecidableEq, Repr

/-- The destructor of `symbol_type`: `clear`, Parser.hpp:659-701. -/
def La.clear (la : La) : Life SemVal :=
  match kindTy (la.kind.map TokKind.code) with
  | some t => destroy t la.val
  | none => return la.val

/-- `stack_symbol_type (s, symbol_type&& that)`, Parser.cpp:388-417: the new symbol and `that`. -/
def Cell.ofToken (s : Nat) (that : La) : Life (Cell × La) := do
  let (v, w) ← moveBy (that.kind.map TokKind.code) .none that.val
  return (⟨s, v⟩, ⟨none, w⟩)

/-- `stack_symbol_type (stack_symbol_type&& that)`, Parser.cpp:355-386: the new symbol and `that`. -/
def Cell.ofCell (that : Cell) : Life (Cell × Cell) := do
  let (v, w) ← moveBy (← that.kind) .none that.val
  return (⟨that.state, v⟩, ⟨0, w⟩)

/-- `basic_symbol::move (s)`, Parser.cpp:238-268, after `by_state::move`, Parser.cpp:332-337. -/
def Cell.move (this that : Cell) : Life (Cell × Cell) := do
  let (v, w) ← moveBy (← Cell.kind ⟨that.state, this.val⟩) this.val that.val
  return (⟨that.state, v⟩, ⟨0, w⟩)

/-- The elements move to a larger array when the `std::vector` of Parser.hpp:1575 (`seq_`) is full: each is constructed anew and the old one
destroyed.  C++ [vector.modifiers]. -/
def moveAll : List Cell → Life (List Cell)
  | [] => return []
  | c :: cs => do
    let cs' ← moveAll cs
    let (c', old) ← c.ofCell
    let _ ← old.clear
    return c' :: cs'

/-- `grow`: at which sizes the vector gets a larger array (Parser.hpp:1539 needs room for one more).  C++ [vector.capacity]. -/
def makeRoom (grow : Nat → Bool) (st : List Cell) : Life (List Cell) := if grow st.length then moveAll st else pure st

/-- `seq_.push_back (T ())`, Parser.hpp:1539. -/
def pushBack (grow : Nat → Bool) (st : List Cell) : Life (List Cell) := do
  let st ← makeRoom grow st
  let (top, tmp) ← Cell.ofCell ⟨0, .none⟩
  let _ ← tmp.clear
  return top :: st

/-- `stack::push (t)`, Parser.hpp:1536-1541: the stack and `t`. -/
def push (grow : Nat → Bool) (st : List Cell) (t : Cell) : Life (List Cell × Cell) := do
  match ← pushBack grow st with
  | top :: st =>
    let (top, t) ← top.move t
    return (top :: st, t)
  | [] => Life.ub

/-- `stack::pop (n)`, Parser.hpp:1544-1549. -/
def pop : Nat → List Cell → Life (List Cell)
  | 0, st => return st
  | n + 1, c :: st => do
    let _ ← c.clear
    pop n st
  | _ + 1, [] => Life.ub

/-- The parser while it runs, Parser.cpp:590-640: `yystack_`, `yyla`, the tokens that the scanner has still to deliver, the calls made. -/
structure LCfg where
  stack : List Cell
  la : La
  toks : List Token
  log : List Call

/-- Where a turn of the driver leads, Parser.cpp:630-1049. -/
inductive LStep where
  | cont (c : LCfg)
  | accept (c : LCfg)
  | error (c : LCfg)

/-- `yypush_ (m, s, yyla)`, Parser.cpp:524-533, 706: the stack symbol made of the token is a temporary, which is moved onto the stack. -/
def LCfg.shift (grow : Nat → Bool) (c : LCfg) (s : Nat) : Life LCfg := do
  let (sym, la) ← Cell.ofToken s c.la
  let (st, sym) ← push grow c.stack sym
  let _ ← sym.clear
  return { c with stack := st, la := la }

/-- `yylhs.value.emplace< T > ()`, Parser.cpp:734-757: the buffer of `yylhs`. -/
def lhsMake (sym : Nat) : Life SemVal := if (kindTy (some sym)).isSome then emplace (lhsInit sym) else pure .none

/-- `yyreduce`, Parser.cpp:725-992.  The action assigns through `yylhs.value.as< T > ()`, which must be the type of the object made at
the start. -/
def LCfg.reduce (grow : Nat → Bool) (c : LCfg) (n : Nat) : Life LStep := do
  let len ← Life.get yyr2[n]?
  let sym ← Life.get yyr1[n]?
  let below ← Life.get c.stack[len]?
  let s ← Life.get (gotoState below.state sym)
  let init ← lhsMake sym
  let (v, calls) ← Life.get (act n c.stack init)
  if v.holds = init.holds then do
    let st ← pop len c.stack
    let (st, lhs) ← push grow st ⟨s, v⟩
    let _ ← lhs.clear
    return .cont { c with stack := st, log := c.log ++ calls }
  else Life.ub

/-- `yydefault`, Parser.cpp:714-719. -/
def LCfg.default (grow : Nat → Bool) (c : LCfg) (state : Nat) : Life LStep := do
  let n ← Life.get yydefact[state]?
  if n = 0 then return .error c else c.reduce grow n

/-- `value->emplace<std::string> (...)` for some tokens, struct_lex.l:179-219; the buffer of the others stays as it is. -/
def tokMake (t : Token) (old : SemVal) : Life SemVal := if (tokVal t).holds.isSome then emplace (tokVal t) else pure old

/-- `yyla.kind_ = yytranslate_ (yylex (&yyla.value, &yyla.location))` if `yyla` is empty, Parser.cpp:653-668. -/
def LCfg.scan (c : LCfg) : Life (TokKind × LCfg) :=
  match c.la.kind with
  | some k => return (k, c)
  | none => do
    let t : Token := c.toks.headD ⟨.eof, []⟩
    let v ← tokMake t c.la.val
    return (t.kind, { c with la := ⟨some t.kind, v⟩, toks := c.toks.tail })

/-- One turn, Parser.cpp:630-719; see `step`. -/
def LCfg.step (grow : Nat → Bool) (c : LCfg) : Life LStep := do
  let top ← Life.get c.stack[0]?
  if top.state = yyfinal then return .accept c
  else
    let p ← Life.get yypact[top.state]?
    if p = ninf then c.default grow top.state
    else
      let (k, c) ← c.scan
      let i := p + k.code
      if i < 0 ∨ yylast < i then c.default grow top.state
      else
        let chk ← Life.get (at? yycheck i)
        if chk ≠ k.code then c.default grow top.state
        else
          let n ← Life.get (at? yytable i)
          if n = 0 then c.reduce grow 0
          else return .cont (← c.shift grow n)

/-- `yyerrlab1`, Parser.cpp:1049-1077: symbols are popped until a state shifts the error token (the result is true) or one symbol is
left. -/
def popError : List Cell → Life (Bool × List Cell)
  | [] => Life.ub
  | c :: rest => do
    if ← Life.get (shiftsError c.state) then return (true, c :: rest)
    else if rest = [] then return (false, c :: rest)
    else
      let _ ← c.clear
      popError rest

/-- The end of `parse` and of the parser, Parser.cpp:1108-1124, items.cpp:66-68: all symbols but one are popped (`yylen` is 0 here), then
`yyla` is destroyed, then the stack with the rest. -/
def LCfg.finish (c : LCfg) : Life Unit := do
  let st ← pop (c.stack.length - 1) c.stack
  let _ ← c.la.clear
  let _ ← pop st.length st

/-- What `parse` does, Parser.cpp:590-1140. -/
inductive LResult where
  /-- it returns 0 or 1 -/
  | returned (rv : Nat) (log : List Call)
  /-- it shifts the error token -/
  | recovering
  /-- it does not stop within the given number of steps -/
  | timeout
deriving DecidableEq, Repr

/-- The driver loop, Parser.cpp:630-1077, to the end of the life of the parser. -/
def LCfg.run (grow : Nat → Bool) : Nat → LCfg → Life LResult
  | 0, _ => return .timeout
  | fuel + 1, c => do
    match ← c.step grow with
    | .accept c => do
      c.finish
      return .returned 0 c.log
    | .error c => do
      match ← popError c.stack with
      | (true, _) => return .recovering
      | (false, st) => do
        LCfg.finish { c with stack := st }
        return .returned 1 c.log
    | .cont c => LCfg.run grow fuel c

/-- `process_input_file`, items.cpp:63-66: the parser is made, with 200 empty symbols, which `parse` destroys before it pushes state 0,
Parser.hpp:1504-1506, Parser.cpp:627-628; then it runs. -/
def lifeOf (grow : Nat → Bool) (toks : List Token) : Life LResult := do
  let st ← pop 200 (List.replicate 200 ⟨0, .none⟩)
  let c ← LCfg.shift grow ⟨st, ⟨none, .none⟩, toks, []⟩ 0
  c.run grow (fuelFor toks)

/-! ### Single operations -/

/-- The number of objects in a buffer.  (Proof notion, models no code.) -/
def SemVal.objs : SemVal → Nat
  | .none => 0
  | _ => 1

/-- The number of objects on a stack.  (Proof notion, models no code.) -/
def objs (st : List Cell) : Nat := (st.map fun c => c.val.objs).sum

/-- The object in the buffer is of the type that the kind of the symbol announces.  (Proof notion, models no code.) -/
def Typed (c : Cell) : Prop := c.state < 96 ∧ c.val.holds = if c.state = 0 then none else kindTy yystos[c.state]?

theorem life_bind {α β : Type} {x : Life α} {f : α → Life β} {n m : Nat} {a : α} (h : x n = some (a, m)) : (x >>= f) n = f a m := by
  show (x n).bind _ = _
  rw [h]
  rfl

theorem life_get {α β : Type} {o : Option α} {f : α → Life β} {n : Nat} {a : α} (h : o = some a) : (Life.get o >>= f) n = f a n :=
  life_bind (by rw [h]; rfl)

theorem life_pure {α : Type} (a : α) (n : Nat) : (pure a : Life α) n = some (a, n) := rfl

theorem holds_objs {v : SemVal} : v.objs = if v.holds.isSome then 1 else 0 := by cases v <;> rfl

theorem objs_none {v : SemVal} (h : v.holds = none) : v = .none := by cases v <;> first | rfl | cases h

theorem destroy_ok {t : VTy} {v : SemVal} (h : v.holds = some t) (n : Nat) : destroy t v (n + v.objs) = some (.none, n) := by
  have h1 : v.objs = 1 := by rw [holds_objs, h]; rfl
  simp [destroy, h, h1]

theorem moveVal_ok {t : VTy} {v : SemVal} (h : v.holds = some t) (n : Nat) : moveVal t v n = some ((v, .none), n) := by
  have h1 : v.objs = 1 := by rw [holds_objs, h]; rfl
  unfold moveVal
  rw [if_pos h, life_bind (x := emplace v) (m := n + 1) (a := v) rfl, life_bind (by rw [← h1]; exact destroy_ok h n)]
  rfl

theorem moveBy_ok {k : Option Nat} {v : SemVal} (h : v.holds = kindTy k) (n : Nat) : moveBy k .none v n = some ((v, .none), n) := by
  unfold moveBy
  cases ht : kindTy k with
  | some t => exact moveVal_ok (h.trans ht) n
  | none =>
    rw [objs_none (h.trans ht)]
    rfl

theorem stos_some {s : Nat} (h : s < 96) : ∃ k, yystos[s]? = some k := by
  have : s < yystos.length := by rw [show yystos.length = 96 from by decide +kernel]; exact h
  exact ⟨_, List.getElem?_eq_getElem this⟩

theorem Typed.kind {c : Cell} (h : Typed c) : ∃ k, (∀ n, c.kind n = some (k, n)) ∧ c.val.holds = kindTy k := by
  obtain ⟨h1, h2⟩ := h
  unfold Cell.kind
  by_cases h0 : c.state = 0
  · rw [if_pos h0] at h2
    exact ⟨none, fun n => by rw [if_pos h0]; rfl, h2⟩
  · rw [if_neg h0] at h2
    obtain ⟨k, hk⟩ := stos_some h1
    rw [hk] at h2
    refine ⟨some k, fun n => ?_, h2⟩
    rw [if_neg h0, life_get hk]
    rfl

theorem clear_ok {c : Cell} (h : Typed c) (n : Nat) : c.clear (n + c.val.objs) = some (.none, n) := by
  obtain ⟨k, h1, h2⟩ := h.kind
  unfold Cell.clear
  rw [life_bind (h1 _)]
  cases ht : kindTy k with
  | some t => exact destroy_ok (h2.trans ht) n
  | none =>
    rw [objs_none (h2.trans ht)]
    rfl

theorem empty_typed : Typed ⟨0, .none⟩ := ⟨by decide, rfl⟩

theorem clear_empty (n : Nat) : Cell.clear ⟨0, .none⟩ n = some (.none, n) := clear_ok empty_typed n

theorem ofCell_ok {c : Cell} (h : Typed c) (n : Nat) : c.ofCell n = some ((c, ⟨0, .none⟩), n) := by
  obtain ⟨k, h1, h2⟩ := h.kind
  unfold Cell.ofCell
  rw [life_bind (h1 _), life_bind (moveBy_ok h2 n)]
  rfl

theorem moveAll_ok {st : List Cell} (h : ∀ c ∈ st, Typed c) (n : Nat) : moveAll st n = some (st, n) := by
  induction st with
  | nil => rfl
  | cons c st ih =>
    unfold moveAll
    rw [life_bind (ih fun c hc => h c (by simp [hc])), life_bind (ofCell_ok (h c (by simp)) n)]
    dsimp only
    rw [life_bind (clear_empty n)]
    rfl

theorem pushBack_ok (grow : Nat → Bool) {st : List Cell} (h : ∀ c ∈ st, Typed c) (n : Nat) :
    pushBack grow st n = some (⟨0, .none⟩ :: st, n) := by
  unfold pushBack
  rw [life_bind (a := st) (m := n) (by unfold makeRoom; split <;> first | exact moveAll_ok h n | rfl), life_bind (ofCell_ok empty_typed n)]
  dsimp only
  rw [life_bind (clear_empty n)]
  rfl

theorem push_ok (grow : Nat → Bool) {st : List Cell} {t : Cell} (h : ∀ c ∈ st, Typed c) (ht : Typed t) (n : Nat) :
    push grow st t n = some ((t :: st, ⟨0, .none⟩), n) := by
  unfold push
  rw [life_bind (pushBack_ok grow h n)]
  dsimp only
  have : Cell.move ⟨0, .none⟩ t n = some ((t, ⟨0, .none⟩), n) := by
    obtain ⟨k, h1, h2⟩ := ht.kind
    unfold Cell.move
    rw [life_bind (x := Cell.kind ⟨t.state, .none⟩) (a := k) (m := n) (h1 n), life_bind (moveBy_ok h2 n)]
    rfl
  rw [life_bind this]
  rfl

theorem pop_ok {st : List Cell} (h : ∀ c ∈ st, Typed c) (k : Nat) (hk : k ≤ st.length) (n : Nat) :
    pop k st (n + objs (st.take k)) = some (st.drop k, n) := by
  induction k generalizing st n with
  | zero => rfl
  | succ k ih =>
    cases st with
    | nil => simp at hk
    | cons c st =>
      unfold pop
      have h1 : n + objs ((c :: st).take (k + 1)) = (n + objs (st.take k)) + c.val.objs := by simp [objs]; omega
      rw [h1, life_bind (clear_ok (h c (by simp)) _), ih (fun c hc => h c (by simp [hc])) (by simpa using hk) n]
      rfl

theorem objs_split (st : List Cell) (k : Nat) : objs st = objs (st.drop k) + objs (st.take k) := by
  have : objs (st.take k ++ st.drop k) = objs (st.drop k) + objs (st.take k) := by
    simp only [objs, List.map_append, List.sum_append]
    omega
  rwa [List.take_append_drop] at this

theorem objs_cons (c : Cell) (st : List Cell) : objs (c :: st) = objs st + c.val.objs := by simp [objs]; omega

/-! ### The driver -/

theorem goto_typed {s sym s' : Nat} (hs : s < 96) (h : gotoState s sym = some s') : s' < 96 ∧ s' ≠ 0 ∧ yystos[s']? = some sym := by
  have hall : ((List.range 96).all fun s => (List.range 70).all fun sym => match gotoState s sym with
      | some t => decide (t < 96 ∧ t ≠ 0 ∧ yystos[t]? = some sym)
      | none => true) = true := by decide +kernel
  have hsym : sym < 70 := by
    unfold gotoState at h
    rw [Option.bind_eq_bind, Option.bind_eq_some_iff] at h
    obtain ⟨p, hp, _⟩ := h
    unfold at? at hp
    split at hp
    · cases hp
    · have := (List.getElem?_eq_some_iff.1 hp).1
      rw [show yypgoto.length = 39 from by decide +kernel] at this
      unfold ntokens at *
      omega
  have := List.all_eq_true.1 (List.all_eq_true.1 hall s (List.mem_range.2 hs)) sym (List.mem_range.2 hsym)
  rw [h] at this
  simpa using this

theorem shift_typed {s n : Nat} {k : TokKind} {p : Int} (hs : s < 96) (hp : yypact[s]? = some p) (hne : p ≠ ninf)
    (hc : at? yycheck (p + k.code) = some (k.code : Int)) (hn : at? yytable (p + k.code) = some n) (h0 : n ≠ 0) :
    n < 96 ∧ yystos[n]? = some k.code := by
  have hall : ((List.range 96).all fun s => allKinds.all fun k => match yypact[s]? with
      | some p => decide (p ≠ ninf → at? yycheck (p + k.code) = some (k.code : Int) → ∀ n ∈ (at? yytable (p + k.code)).toList, n ≠ 0 →
          n < 96 ∧ yystos[n]? = some k.code)
      | none => true) = true := by decide +kernel
  have := List.all_eq_true.1 (List.all_eq_true.1 hall s (List.mem_range.2 hs)) k (mem_allKinds k)
  rw [hp] at this
  simp only [decide_eq_true_eq] at this
  exact this hne hc n (by rw [hn]; simp) h0

theorem lhsInit_holds (sym : Nat) : (lhsInit sym).holds = kindTy (some sym) := by
  simp only [lhsInit, kindTy]
  split
  · rfl
  · split <;> rfl

theorem tokVal_holds (t : Token) : (tokVal t).holds = kindTy (some t.kind.code) := by
  unfold tokVal
  cases t.kind <;> rfl

theorem lhsMake_ok (sym n : Nat) : lhsMake sym n = some (lhsInit sym, n + (lhsInit sym).objs) := by
  unfold lhsMake
  rw [holds_objs, lhsInit_holds]
  split
  · rfl
  · rename_i h
    rw [objs_none (v := lhsInit sym) (by rw [lhsInit_holds]; simpa using h)]
    rfl

theorem act_typed {n sym : Nat} {st : List Cell} {v : SemVal} {calls : List Call} (hr : yyr1[n]? = some sym)
    (h : act n st (lhsInit sym) = some (v, calls)) : v.holds = (lhsInit sym).holds := by
  rw [lhsInit_holds]
  unfold act at h
  split at h <;>
  first
  | (simp only [Option.bind_eq_bind, Option.bind_eq_some_iff, Option.some.injEq, Prod.mk.injEq] at h
     first
     | (obtain ⟨_, _, rfl, _⟩ := h
        first
        | exact lhsInit_holds sym
        | (have : sym = _ := (Option.some.inj hr).symm
           subst this
           rfl))
     | (obtain ⟨_, _, _, _, rfl, _⟩ := h
        exact lhsInit_holds sym)
     | (obtain ⟨_, _, _, _, _, _, rfl, _⟩ := h
        exact lhsInit_holds sym)
     | (obtain ⟨rfl, _⟩ := h
        first
        | exact lhsInit_holds sym
        | (have : sym = _ := (Option.some.inj hr).symm
           subst this
           rfl)))

/-- The parser of Driver.lean with buffers.  (Proof notion, models no code.) -/
def low (c : Cfg) : LCfg := ⟨c.stack, match c.la with | some t => ⟨some t.kind, tokVal t⟩ | none => ⟨none, .none⟩, c.toks, c.log⟩
/-- The objects that are alive.  (Proof notion, models no code.) -/
def laObjs : Option Token → Nat
  | some t => (tokVal t).objs
  | none => 0
/-- The objects that are alive.  (Proof notion, models no code.) -/
def alive (c : Cfg) : Nat := objs c.stack + laObjs c.la

theorem reduce_low (grow : Nat → Bool) {c : Cfg} (h : ∀ x ∈ c.stack, Typed x) {n : Nat} {r : Step} (hr : reduce c n = some r) :
    ∃ c', r = .cont c' ∧ (∀ x ∈ c'.stack, Typed x) ∧ (low c).reduce grow n (alive c) = some (.cont (low c'), alive c') := by
  unfold reduce at hr
  simp only [Option.bind_eq_bind, Option.bind_eq_some_iff, Option.some.injEq] at hr
  obtain ⟨len, h1, sym, h2, below, h3, s, h4, ⟨v, calls⟩, h5, rfl⟩ := hr
  have hlen : len ≤ c.stack.length := Nat.le_of_lt (List.getElem?_eq_some_iff.1 h3).1
  have hb := (h below (List.mem_of_getElem? h3)).1
  obtain ⟨g1, g2, g3⟩ := goto_typed hb h4
  have hv := act_typed h2 h5
  have hcell : Typed ⟨s, v⟩ := ⟨g1, by rw [if_neg g2, hv, lhsInit_holds, g3]⟩
  have hdrop : ∀ x ∈ c.stack.drop len, Typed x := fun x hx => h x (List.mem_of_mem_drop hx)
  refine ⟨_, rfl, ?_, ?_⟩
  · intro x hx
    rcases List.mem_cons.1 hx with rfl | hx
    · exact hcell
    · exact hdrop x hx
  · unfold LCfg.reduce
    rw [life_get h1, life_get h2, life_get (show (low c).stack[len]? = _ from h3), life_get h4, life_bind (lhsMake_ok sym _), life_get (show act n (low c).stack _ = _ from h5)]
    dsimp only
    rw [if_pos hv]
    have ha : alive c + (lhsInit sym).objs = (objs (c.stack.drop len) + laObjs c.la + (lhsInit sym).objs) + objs (c.stack.take len) := by
      have := objs_split c.stack len
      unfold alive
      omega
    rw [ha, life_bind (show pop len (low c).stack _ = _ from pop_ok h len hlen _), life_bind (push_ok grow hdrop hcell _)]
    dsimp only
    rw [life_bind (clear_empty _), life_pure]
    have ho : v.objs = (lhsInit sym).objs := by rw [holds_objs, holds_objs, hv]
    simp only [alive, objs_cons, ho, low]
    congr 2
    omega

/-- The outcome of a turn, with buffers.  (Proof notion, models no code.) -/
def LowStep (c : Cfg) (r : Step) (o : Option (LStep × Nat)) : Prop :=
  match r with
  | .cont c' => (∀ x ∈ c'.stack, Typed x) ∧ o = some (.cont (low c'), alive c')
  | .accept => o = some (.accept (low c), alive c)
  | .error => ∃ c', c'.stack = c.stack ∧ c'.log = c.log ∧ o = some (.error (low c'), alive c')

theorem default_low (grow : Nat → Bool) {c : Cfg} (h : ∀ x ∈ c.stack, Typed x) {s : Nat} {r : Step} (hr : default c s = some r) :
    LowStep c r ((low c).default grow s (alive c)) := by
  unfold default at hr
  simp only [Option.bind_eq_bind, Option.bind_eq_some_iff] at hr
  obtain ⟨n, h1, hr⟩ := hr
  unfold LCfg.default
  rw [life_get h1]
  split at hr
  · rename_i h0
    cases hr
    rw [if_pos h0]
    exact ⟨c, rfl, rfl, rfl⟩
  · rename_i h0
    rw [if_neg h0]
    obtain ⟨c', rfl, h2, h3⟩ := reduce_low grow h hr
    exact ⟨h2, h3⟩

theorem tokMake_ok (t : Token) (n : Nat) : tokMake t .none n = some (tokVal t, n + (tokVal t).objs) := by
  unfold tokMake
  rw [holds_objs]
  split
  · rfl
  · rename_i h
    rw [objs_none (v := tokVal t) (by simpa using h)]
    rfl

theorem scan_low (c : Cfg) : (low c).scan (alive c) =
    some ((c.read.1.kind, low { c with la := some c.read.1, toks := c.read.2 }), alive { c with la := some c.read.1, toks := c.read.2 }) := by
  obtain ⟨st, la, toks, log⟩ := c
  cases la with
  | some t => rfl
  | none =>
    refine (life_bind (tokMake_ok (toks.headD ⟨.eof, []⟩) (alive ⟨st, none, toks, log⟩))).trans ?_
    cases toks <;> rfl

theorem shift_low (grow : Nat → Bool) {c : Cfg} (h : ∀ x ∈ c.stack, Typed x) {t : Token} (hla : c.la = some t) {n : Nat} (hn : Typed ⟨n, tokVal t⟩) :
    (low c).shift grow n (alive c) = some (low { c with stack := ⟨n, tokVal t⟩ :: c.stack, la := none },
      alive { c with stack := ⟨n, tokVal t⟩ :: c.stack, la := none }) := by
  obtain ⟨st, la, toks, log⟩ := c
  cases hla
  have h1 : ∀ m, Cell.ofToken n ⟨some t.kind, tokVal t⟩ m = some ((⟨n, tokVal t⟩, ⟨none, .none⟩), m) := by
    intro m
    unfold Cell.ofToken
    rw [life_bind (moveBy_ok (by exact tokVal_holds t) m)]
    rfl
  unfold LCfg.shift
  rw [life_bind (show Cell.ofToken n (low ⟨st, some t, toks, log⟩).la _ = _ from h1 _)]
  dsimp only
  rw [life_bind (show push grow (low ⟨st, some t, toks, log⟩).stack _ _ = _ from push_ok grow h hn _)]
  dsimp only
  rw [life_bind (clear_empty _), life_pure]
  simp only [alive, objs_cons, low, laObjs]
  congr 2

theorem step_low (grow : Nat → Bool) {c : Cfg} (h : ∀ x ∈ c.stack, Typed x) {r : Step} (hr : step c = some r) :
    LowStep c r ((low c).step grow (alive c)) := by
  unfold step at hr
  simp only [Option.bind_eq_bind, Option.bind_eq_some_iff] at hr
  obtain ⟨top, h1, hr⟩ := hr
  unfold LCfg.step
  rw [life_get (show (low c).stack[0]? = _ from h1)]
  split at hr
  · rename_i h2
    cases hr
    rw [if_pos h2]
    rfl
  rename_i h2
  rw [if_neg h2]
  simp only [Option.bind_eq_some_iff] at hr
  obtain ⟨p, h3, hr⟩ := hr
  rw [life_get h3]
  split at hr
  · rename_i h4
    rw [if_pos h4]
    exact default_low grow h hr
  rename_i h4
  rw [if_neg h4, life_bind (scan_low c)]
  dsimp only
  generalize hc1 : ({ c with la := some c.read.1, toks := c.read.2 } : Cfg) = c1 at hr ⊢
  have hst : ∀ x ∈ c1.stack, Typed x := by rw [← hc1]; exact h
  have lift : ∀ {r o}, LowStep c1 r o → r ≠ .accept → LowStep c r o := by
    intro r o hl hne
    cases r with
    | cont _ => exact hl
    | accept => exact absurd rfl hne
    | error =>
      obtain ⟨c', e1, e2, e3⟩ := hl
      exact ⟨c', by rw [e1, ← hc1], by rw [e2, ← hc1], e3⟩
  have hdef : ∀ {s r}, default c1 s = some r → r ≠ .accept := by
    intro s r hd e
    subst e
    unfold default at hd
    simp only [Option.bind_eq_bind, Option.bind_eq_some_iff] at hd
    obtain ⟨n, _, hd⟩ := hd
    split at hd
    · cases hd
    · obtain ⟨_, e, _⟩ := reduce_low grow hst hd
      cases e
  split at hr
  · rename_i h5
    rw [if_pos h5]
    exact lift (default_low grow hst hr) (hdef hr)
  rename_i h5
  rw [if_neg h5]
  simp only [Option.bind_eq_some_iff] at hr
  obtain ⟨chk, h6, hr⟩ := hr
  rw [life_get h6]
  split at hr
  · rename_i h7
    rw [if_pos h7]
    exact lift (default_low grow hst hr) (hdef hr)
  rename_i h7
  rw [if_neg h7]
  simp only [Option.bind_eq_some_iff] at hr
  obtain ⟨n, h8, hr⟩ := hr
  rw [life_get h8]
  split at hr
  · rename_i h9
    rw [if_pos h9]
    obtain ⟨c', rfl, e1, e2⟩ := reduce_low grow hst hr
    exact ⟨e1, e2⟩
  · rename_i h9
    rw [if_neg h9]
    cases hr
    have h7' : chk = c.read.1.kind.code := Classical.not_not.1 h7
    subst hc1
    obtain ⟨g1, g2⟩ := shift_typed (h top (List.mem_of_getElem? h1)).1 h3 h4 (h7' ▸ h6) h8 h9
    have hty : Typed ⟨n, tokVal c.read.1⟩ := ⟨g1, by rw [if_neg h9, tokVal_holds, g2]⟩
    refine ⟨fun x hx => ?_, ?_⟩
    · rcases List.mem_cons.1 hx with rfl | hx
      · exact hty
      · exact hst x hx
    · rw [life_bind (shift_low grow hst rfl hty)]
      rfl

/-! ### The end -/

theorem popAll_ok {st : List Cell} (h : ∀ x ∈ st, Typed x) (n : Nat) : pop st.length st (n + objs st) = some ([], n) := by
  have := pop_ok h st.length (Nat.le_refl _) n
  rwa [List.take_length, List.drop_length] at this

theorem laClear_ok (la : Option Token) (n : Nat) : (low ⟨[], la, [], []⟩).la.clear (n + laObjs la) = some (.none, n) := by
  cases la with
  | none => rfl
  | some t =>
    show La.clear ⟨some t.kind, tokVal t⟩ _ = _
    unfold La.clear
    have ht := tokVal_holds t
    cases hk : kindTy (some t.kind.code) with
    | some ty =>
      simp only [Option.map, hk]
      exact destroy_ok (ht.trans hk) n
    | none =>
      simp only [Option.map, hk, laObjs]
      rw [objs_none (ht.trans hk)]
      rfl

theorem finish_low {c : Cfg} (h : ∀ x ∈ c.stack, Typed x) : (low c).finish (alive c) = some ((), 0) := by
  unfold LCfg.finish
  have e1 : alive c = (objs (c.stack.drop (c.stack.length - 1)) + laObjs c.la) + objs (c.stack.take (c.stack.length - 1)) := by
    have := objs_split c.stack (c.stack.length - 1)
    unfold alive
    omega
  rw [e1, life_bind (show pop ((low c).stack.length - 1) (low c).stack _ = _ from pop_ok h _ (Nat.sub_le _ _) _), life_bind (show (low c).la.clear _ = _ from laClear_ok c.la _)]
  have := popAll_ok (fun x hx => h x (List.mem_of_mem_drop hx) : ∀ x ∈ c.stack.drop (c.stack.length - 1), Typed x) 0
  rw [Nat.zero_add] at this
  rw [life_bind this]
  rfl

theorem popError_low : ∀ {st : List Cell} {b : Bool} (_ : ∀ x ∈ st, Typed x) (_ : recovers st = some b) (n : Nat),
    ∃ st', (∀ x ∈ st', Typed x) ∧ popError st (n + objs st) = some ((b, st'), n + objs st')
  | [], b, _, hr, _ => by cases hr
  | c :: rest, b, h, hr, n => by
    unfold recovers at hr
    simp only [Option.bind_eq_bind, Option.bind_eq_some_iff] at hr
    obtain ⟨here, h1, hr⟩ := hr
    unfold popError
    rw [life_get h1]
    split at hr
    · rename_i h2
      cases hr
      rw [if_pos h2]
      exact ⟨c :: rest, h, rfl⟩
    rename_i h2
    rw [if_neg h2]
    split at hr
    · rename_i h3
      cases hr
      rw [if_pos h3]
      exact ⟨c :: rest, h, rfl⟩
    · rename_i h3
      rw [if_neg h3]
      have e : n + objs (c :: rest) = (n + objs rest) + c.val.objs := by rw [objs_cons]; omega
      obtain ⟨st', h4, h5⟩ := popError_low (fun x hx => h x (List.mem_cons_of_mem _ hx)) hr n
      refine ⟨st', h4, ?_⟩
      rw [e, life_bind (clear_ok (h c (List.mem_cons_self ..)) _)]
      exact h5

/-- What `parse` returns, with buffers.  (Proof notion, models no code.) -/
def LowResult : Result → LResult → Prop
  | .accepted log, .returned rv log' => rv = 0 ∧ log' = log
  | .rejected log _ _, .returned rv log' => rv = 1 ∧ log' = log
  | _, _ => False

theorem run_low (grow : Nat → Bool) : ∀ (fuel : Nat) {c : Cfg} (_ : ∀ x ∈ c.stack, Typed x)
    (_ : (∃ log, run fuel c = .accepted log) ∨ ∃ log la rest, run fuel c = .rejected log la rest),
    ∃ r, LowResult (run fuel c) r ∧ (low c).run grow fuel (alive c) = some (r, 0)
  | 0, c, _, hr => by
    rcases hr with ⟨log, hr⟩ | ⟨log, la, rest, hr⟩ <;> cases hr
  | fuel + 1, c, h, hr => by
    unfold run at hr ⊢
    unfold LCfg.run
    cases hs : step c with
    | none =>
      rw [hs] at hr
      rcases hr with ⟨log, hr⟩ | ⟨log, la, rest, hr⟩ <;> cases hr
    | some r =>
      have hl := step_low grow h hs
      rw [hs] at hr
      cases r with
      | cont c' =>
        obtain ⟨h1, h2⟩ := hl
        rw [life_bind h2]
        exact run_low grow fuel h1 hr
      | accept =>
        rw [life_bind (show _ = some (LStep.accept (low c), alive c) from hl)]
        refine ⟨.returned 0 c.log, ⟨rfl, rfl⟩, ?_⟩
        dsimp only
        rw [life_bind (finish_low h)]
        rfl
      | error =>
        obtain ⟨c', e1, e2, e3⟩ := hl
        rw [life_bind e3]
        dsimp only at hr ⊢
        cases hv : recovers c.stack with
        | none =>
          rw [hv] at hr
          rcases hr with ⟨log, hr⟩ | ⟨log, la, rest, hr⟩ <;> cases hr
        | some b =>
          rw [hv] at hr
          cases b with
          | true => rcases hr with ⟨log, hr⟩ | ⟨log, la, rest, hr⟩ <;> cases hr
          | false =>
            refine ⟨.returned 1 c.log, ⟨rfl, rfl⟩, ?_⟩
            have ha : alive c' = laObjs c'.la + objs c'.stack := Nat.add_comm _ _
            obtain ⟨st', h4, h5⟩ := popError_low (show ∀ x ∈ c'.stack, Typed x from e1 ▸ h) (e1 ▸ hv) (laObjs c'.la)
            rw [ha, life_bind (show popError (low c').stack _ = _ from h5)]
            dsimp only
            have := finish_low (c := { c' with stack := st' }) h4
            rw [show alive { c' with stack := st' } = laObjs c'.la + objs st' from Nat.add_comm _ _] at this
            rw [life_bind (show LCfg.finish { low c' with stack := st' } _ = _ from this)]
            show some (LResult.returned 1 c'.log, 0) = _
            rw [e2]

theorem life_start (grow : Nat → Bool) (toks : List Token) : lifeOf grow toks 0 = (low (Cfg.init toks)).run grow (fuelFor toks) 0 := by
  unfold lifeOf
  have h1 : pop 200 (List.replicate 200 ⟨0, .none⟩) 0 = some ([], 0) := by
    have := popAll_ok (st := List.replicate 200 ⟨0, .none⟩) (fun x hx => by rw [(List.mem_replicate.1 hx).2]; exact empty_typed) 0
    rwa [List.length_replicate, show objs (List.replicate 200 ⟨0, .none⟩) = 0 from by decide +kernel] at this
  rw [life_bind h1]
  have h2 : LCfg.shift grow ⟨[], ⟨none, .none⟩, toks, []⟩ 0 0 = some (low (Cfg.init toks), 0) := by
    unfold LCfg.shift
    rw [life_bind (x := Cell.ofToken 0 ⟨none, .none⟩) (a := (⟨0, .none⟩, ⟨none, .none⟩)) (m := 0) rfl]
    dsimp only
    rw [life_bind (push_ok grow (st := []) (by simp) empty_typed 0)]
    dsimp only
    rw [life_bind (clear_empty _)]
    rfl
  rw [life_bind h2]

end Stfx.Parser
