import Verif.Lexer.Split
import Verif.Props.C77_Repeat
/-
C85: how the declarations are divided among the input files does not matter.
-/
set_option autoImplicit false
namespace Stfx.Main
open Stfx.Lexer Stfx.Parser Stfx.Items Stfx.Gen

/-! ### Tokens -/

/-- No comment is open at the end of the text.  (Specification notion, models no code.) -/
def CommentsClosed (t : Str) : Prop := ∀ ls, lexFile t = some ls → (LexSt.init.after ls).sc = .initial

theorem after_bol {t : Str} {ls : List Lexeme} (ht : WholeLines t) (h : lexFile t = some ls) : (LexSt.init.after ls).bol = true := by
  obtain ⟨h1, h2⟩ := lexFrom_flatten h
  rcases List.eq_nil_or_concat ls with rfl | ⟨pre, l, rfl⟩
  · rfl
  · rw [List.concat_eq_append] at h1 h2 ⊢
    have hl := h2 l (by simp)
    simp only [LexSt.after, List.foldl_append, List.foldl_cons, List.foldl_nil, LexSt.next]
    simp only [List.map_append, List.map_cons, List.map_nil, List.flatten_append, List.flatten_cons, List.flatten_nil, List.append_nil] at h1
    rcases ht with rfl | ht
    · exact absurd (List.append_eq_nil_iff.1 h1).2 hl
    · rw [← h1, List.getLast?_append, List.getLast?_eq_some_getLast hl, Option.some_or] at ht
      rw [List.getLast?_eq_some_getLast hl, ht]
      rfl

/-- C85: the tokens of two texts put together. -/
theorem C85_tokens {t u : Str} {ts us : List Token} (ht : WholeLines t) (hc : CommentsClosed t) (h1 : toksFile t = some ts)
    (h2 : toksFile u = some us) : toksFile (t ++ u) = some (ts ++ us) := by
  unfold toksFile toksFrom at h1
  cases h3 : lexFrom LexSt.init t with
  | none => rw [h3] at h1; cases h1
  | some ls =>
    rw [h3] at h1
    cases h1
    have hst : (LexSt.init.after ls).sc = LexSt.init.sc ∧ (LexSt.init.after ls).bol = LexSt.init.bol := ⟨hc ls h3, after_bol ht h3⟩
    have h4 : toksFrom (LexSt.init.after ls) u = some us := by
      rw [← h2, toksFile, toksFrom_eq, toksFrom_eq, hst.1, hst.2]
    unfold toksFile toksFrom
    rw [lexFrom_split u ht h3]
    unfold toksFrom at h4
    cases h5 : lexFrom (LexSt.init.after ls) u with
    | none => rw [h5] at h4; cases h4
    | some ls' =>
      rw [h5] at h4
      cases h4
      simp [tokensOf]

/-! ### Tables -/

theorem get_setRv (h : Heap) (s rv j : Nat) :
    (setRv s rv h)[j]? = (h[j]?).map fun i => if j = s then { i with parseRv := rv } else i := by
  unfold setRv
  cases hs : h[s]? with
  | none =>
    by_cases e : j = s
    · subst e; rw [hs]; rfl
    · simp only [if_neg e]; cases h[j]? <;> rfl
  | some i =>
    have hlt : s < h.length := (List.getElem?_eq_some_iff.1 hs).1
    by_cases e : j = s
    · subst e
      rw [List.getElem?_set_self hlt, hs]
      simp
    · rw [List.getElem?_set_ne (Ne.symm e)]
      simp only [if_neg e]
      cases h[j]? <;> rfl

theorem set_setRv (h : Heap) (s rv j : Nat) (x : Info) :
    setRv s rv (h.set j x) = (setRv s rv h).set j (if j = s then { x with parseRv := rv } else x) := by
  refine List.ext_getElem? fun k => ?_
  rw [get_setRv]
  by_cases e : j = k
  · subst e
    by_cases hl : j < h.length
    · rw [List.getElem?_set_self hl, List.getElem?_set_self (by rw [length_setRv]; exact hl)]
      rfl
    · rw [List.getElem?_eq_none (by simp; omega), List.getElem?_eq_none (by simp [length_setRv]; omega)]
      rfl
  · rw [List.getElem?_set_ne e, List.getElem?_set_ne e, get_setRv]

theorem setRv_setRv (h : Heap) (s rv rv' : Nat) : setRv s rv (setRv s rv' h) = setRv s rv h := by
  refine List.ext_getElem? fun k => ?_
  rw [get_setRv, get_setRv, get_setRv, Option.map_map]
  congr 1
  funext i
  by_cases e : k = s <;> simp [e]

/-- The functions called by the parser do not look at the result of the last parse, and do not change it. -/
theorem applyCall_setRv (self s rv : Nat) (h : Heap) (c : Call) :
    applyCall self (setRv s rv h) c = (applyCall self h c).map (setRv s rv) := by
  have hty : ∀ (i : Info) (n : Str), getItemType (if self = s then { i with parseRv := rv } else i) n = getItemType i n := by
    intro i n
    by_cases e : self = s <;> simp [e, getItemType]
  cases c with
  | enum n b =>
    simp only [applyCall, processEnum, get_setRv]
    cases hi : h[self]? with
    | none => rfl
    | some i =>
      simp only [Option.map_some, Option.bind_eq_bind, Option.bind_some, hty]
      by_cases hu : getItemType i n ≠ .unknown
      · rw [if_pos hu, if_pos hu]; rfl
      · rw [if_neg hu, if_neg hu, Option.map_some, set_setRv]
        by_cases e : self = s <;> simp [e]
  | struct n =>
    simp only [applyCall, processStruct, get_setRv]
    cases hi : h[self]? with
    | none => rfl
    | some i =>
      simp only [Option.map_some, Option.bind_eq_bind, Option.bind_some, hty]
      by_cases hu : getItemType i n ≠ .unknown
      · rw [if_pos hu, if_pos hu]; rfl
      · rw [if_neg hu, if_neg hu, Option.map_some, set_setRv]
        by_cases e : self = s <;> simp [e]
  | enumLine a b d =>
    simp only [applyCall, processEnumLine, get_setRv]
    cases hi : h[self]? with
    | none => rfl
    | some i =>
      have hcur : (if self = s then { i with parseRv := rv } else i).curEnum = i.curEnum := by by_cases e : self = s <;> simp [e]
      simp only [Option.map_some, Option.bind_eq_bind, Option.bind_some, hcur]
      cases i.curEnum with
      | none => rfl
      | some p =>
        simp only [get_setRv]
        cases ho : h[p.obj]? with
        | none => rfl
        | some o =>
          have hf : (if p.obj = s then { o with parseRv := rv } else o).enums = o.enums := by by_cases e : p.obj = s <;> simp [e]
          simp only [Option.map_some, Option.bind_some, hf]
          cases o.enums.find? p.key with
          | none => rfl
          | some x =>
            simp only [Option.bind_some, Option.map_some, set_setRv]
            by_cases e : p.obj = s <;> simp [e]
  | simple a b d =>
    simp only [applyCall, processSimple, get_setRv]
    cases hi : h[self]? with
    | none => rfl
    | some i =>
      have hcur : (if self = s then { i with parseRv := rv } else i).curStruct = i.curStruct := by by_cases e : self = s <;> simp [e]
      simp only [Option.map_some, Option.bind_eq_bind, Option.bind_some, hcur]
      cases i.curStruct with
      | none => rfl
      | some p =>
        simp only [get_setRv]
        cases ho : h[p.obj]? with
        | none => rfl
        | some o =>
          have hf : (if p.obj = s then { o with parseRv := rv } else o).structs = o.structs := by by_cases e : p.obj = s <;> simp [e]
          simp only [Option.map_some, Option.bind_some, hf]
          cases o.structs.find? p.key with
          | none => rfl
          | some x =>
            simp only [Option.bind_some, Option.map_some, set_setRv]
            by_cases e : p.obj = s <;> simp [e]
  | complex a b d =>
    simp only [applyCall, processComplex, get_setRv]
    cases hi : h[self]? with
    | none => rfl
    | some i =>
      have hcur : (if self = s then { i with parseRv := rv } else i).curStruct = i.curStruct := by by_cases e : self = s <;> simp [e]
      simp only [Option.map_some, Option.bind_eq_bind, Option.bind_some, hcur]
      cases i.curStruct with
      | none => rfl
      | some p =>
        simp only [get_setRv]
        cases ho : h[p.obj]? with
        | none => rfl
        | some o =>
          have hf : (if p.obj = s then { o with parseRv := rv } else o).structs = o.structs := by by_cases e : p.obj = s <;> simp [e]
          simp only [Option.map_some, Option.bind_some, hf]
          cases o.structs.find? p.key with
          | none => rfl
          | some x =>
            simp only [Option.bind_some, Option.map_some, set_setRv]
            by_cases e : p.obj = s <;> simp [e]

theorem applyCalls_setRv (self s rv : Nat) (cs : List Call) (h : Heap) :
    applyCalls self cs (setRv s rv h) = (applyCalls self cs h).map (setRv s rv) := by
  induction cs generalizing h with
  | nil => rfl
  | cons c cs ih =>
    simp only [applyCalls, applyCall_setRv]
    cases applyCall self h c with
    | none => rfl
    | some h' => exact ih h'

theorem applyCalls_two (self : Nat) (cs ds : List Call) (h : Heap) :
    applyCalls self (cs ++ ds) h = (applyCalls self cs h).bind (applyCalls self ds) := by
  induction cs generalizing h with
  | nil => rfl
  | cons c cs ih =>
    simp only [List.cons_append, applyCalls]
    cases applyCall self h c with
    | none => rfl
    | some h' => exact ih h'

/-- Two headers read as one.  (Specification notion, models no code.) -/
structure Joins (t u : Str) : Prop where
  lines : WholeLines t
  closed : CommentsClosed t
  first : ∃ hd : Header, toksFile t = some hd.toks
  second : ∃ hd : Header, toksFile u = some hd.toks

/-- C85: reading two headers into the tables is reading the one that has the text of both. -/
theorem C85_files {t u : Str} (hj : Joins t u) (self : Nat) (pre post : List (Option Str)) (h : Heap) :
    processFiles self (pre ++ some t :: some u :: post) h = processFiles self (pre ++ some (t ++ u) :: post) h := by
  obtain ⟨hl, hc, ⟨a, ha⟩, ⟨b, hb⟩⟩ := hj
  have hab : toksFile (t ++ u) = some (⟨a.first, a.more ++ b.decls⟩ : Header).toks := by
    rw [C85_tokens hl hc ha hb]
    simp [Header.toks, Header.decls]
  have hcalls : (⟨a.first, a.more ++ b.decls⟩ : Header).calls = a.calls ++ b.calls := by simp [Header.calls, Header.decls]
  have one : ∀ {x : Str} {hd : Header}, toksFile x = some hd.toks → ∀ h, processInputFile self (some x) h =
      (applyCalls self hd.calls h).map fun h' => (setRv self 0 h', true) := by
    intro x hd hx h
    simp only [processInputFile, hx, Option.bind_eq_bind, Option.bind_some, C10_header]
    cases applyCalls self hd.calls h <;> rfl
  induction pre generalizing h with
  | nil =>
    simp only [List.nil_append, processFiles, one ha, one hab, hcalls, applyCalls_two]
    cases applyCalls self a.calls h with
    | none => rfl
    | some h1 =>
      simp only [Option.map_some, Option.bind_some, one hb, applyCalls_setRv]
      cases applyCalls self b.calls h1 with
      | none => rfl
      | some h2 => simp only [Option.map_some, Option.bind_some, setRv_setRv]
  | cons c pre ih =>
    simp only [List.cons_append, processFiles]
    cases processInputFile self c h with
    | none => rfl
    | some r => exact ih r.1

/-! ### Runs -/

/-- The lines that include the headers.  (Specification notion, models no code.) -/
def includesOf (names : List Str) : Str := names.flatMap fun n => c!"#include \"" ++ n ++ c!"\"\n"

/-- Two texts that are the same but that one includes the headers `C` where the other includes the headers `C'`.
(Specification notion, models no code.) -/
def OtherIncludes (C C' : List Str) (x x' : Str) : Prop := ∃ a b, x = a ++ includesOf C ++ b ∧ x' = a ++ includesOf C' ++ b

/-- Two files that are the same, or the same but for the includes.  (Specification notion, models no code.) -/
def FileAlike (C C' : List Str) : Option Str → Option Str → Prop
  | some x, some x' => x = x' ∨ OtherIncludes C C' x x'
  | none, none => True
  | _, _ => False

theorem FileAlike.refl (C C' : List Str) (x : Option Str) : FileAlike C C' x x := by
  cases x with
  | none => trivial
  | some x => exact .inl rfl

theorem fileText_raws (f : Str → Str) (hf : ∀ n, f n = c!"#include \"" ++ n ++ c!"\"\n") (C : List Str) :
    fileText (C.map fun n => .raw (f n)) = includesOf C := by
  unfold fileText includesOf
  induction C with
  | nil => rfl
  | cons n C ih => rw [List.map_cons, List.flatMap_cons, List.flatMap_cons, ih, Item.text, hf]

theorem fileText_append (a b : List Item) : fileText (a ++ b) = fileText a ++ fileText b := by
  unfold fileText
  exact List.flatMap_append

/-- Lists of items in which the headers are included in one place. -/
theorem otherIncludes_items {C C' more : List Str} {f : Str → Str} (hf : ∀ n, f n = c!"#include \"" ++ n ++ c!"\"\n") {X X' A B : List Item}
    (h : X = A ++ (C ++ more).map (fun n => .raw (f n)) ++ B) (h' : X' = A ++ (C' ++ more).map (fun n => .raw (f n)) ++ B) :
    OtherIncludes C C' (fileText X) (fileText X') := by
  refine ⟨fileText A, includesOf more ++ fileText B, ?_, ?_⟩
  · rw [h, List.map_append, fileText_append, fileText_append, fileText_append, fileText_raws f hf, fileText_raws f hf]
    simp only [List.append_assoc]
  · rw [h', List.map_append, fileText_append, fileText_append, fileText_append, fileText_raws f hf, fileText_raws f hf]
    simp only [List.append_assoc]

theorem enumsCpp_includes (stamp a b : Str) (C C' more : List Str) (E : SMap EnumS) :
    OtherIncludes C C' (fileText (enumsCpp stamp a b (C ++ more) E)) (fileText (enumsCpp stamp a b (C' ++ more) E)) :=
  otherIncludes_items (more := more) (f := T.base93) (fun _ => by simp [T.base93])
    (A := [.raw (T.base87 a), .raw (T.base88 (stfxInfo stamp)), .raw (T.base89 b), .raw T.base90])
    (B := [.raw T.base95] ++ E.flatMap (fun p => [.defSFromE p.2, .defSToE p.2]))
    (by simp only [enumsCpp, List.append_assoc]) (by simp only [enumsCpp, List.append_assoc])

theorem enumsH_includes (stamp a : Str) (C C' more : List Str) (E : SMap EnumS) :
    OtherIncludes C C' (fileText (enumsH stamp a (C ++ more) E)) (fileText (enumsH stamp a (C' ++ more) E)) :=
  otherIncludes_items (more := more) (f := T.base104) (fun _ => by simp [T.base104])
    (A := [.raw (T.base97 a), .raw (T.base98 (stfxInfo stamp)), .raw T.base99, .raw T.base100, .raw T.base101])
    (B := [.raw T.base106, .raw T.base107] ++ (E.flatMap (fun p => [.declSFromE p.2.name, .declSToE p.2.name]) ++
      ([.raw T.base115] ++ E.map (fun p => .formatter p.2.name))))
    (by simp only [enumsH, List.append_assoc]) (by simp only [enumsH, List.append_assoc])

theorem structsCpp_includes (k : Kind) (stamp a b : Str) (C C' more : List Str) (out : OutSpec) (S : SMap StructS) :
    OtherIncludes C C' (fileText (structsCpp k stamp a b (C ++ more) out S)) (fileText (structsCpp k stamp a b (C' ++ more) out S)) := by
  have hsp : ∃ B, ∀ names, structsCpp k stamp a b names out S = structsCppHead k stamp a b names out ++ B :=
    ⟨_, fun names => by simp only [structsCpp, List.append_assoc]; rfl⟩
  obtain ⟨B, h⟩ := hsp
  rw [h, h]
  unfold structsCppHead
  by_cases hx : k.isXml = true
  · rw [if_pos hx, if_pos hx]
    exact otherIncludes_items (f := T.xml68) (fun _ => by simp [T.xml68]) rfl rfl
  · rw [if_neg hx, if_neg hx]
    exact otherIncludes_items (f := T.ini73) (fun _ => by simp [T.ini73]) rfl rfl

theorem structsH_includes (k : Kind) (stamp a : Str) (C C' more : List Str) (out : OutSpec) (S : SMap StructS) :
    OtherIncludes C C' (fileText (structsH k stamp a (C ++ more) out S)) (fileText (structsH k stamp a (C' ++ more) out S)) := by
  have hsp : ∃ A B, ∀ names, structsH k stamp a names out S = A ++ names.map (fun f => .raw (if k.isXml then T.xml81 f else T.ini87 f)) ++ B :=
    ⟨_, _, fun names => by simp only [structsH, List.append_assoc]; rfl⟩
  obtain ⟨A, B, h⟩ := hsp
  exact otherIncludes_items (f := fun f => if k.isXml then T.xml81 f else T.ini87 f)
    (fun n => by cases k.isXml <;> simp [T.xml81, T.ini87]) (h _) (h _)

/-- The invariant of two runs, one with the headers `C`, the other with the headers `C'`, on the files of `w`; `outs` are the files they
write.  (Proof notion, models no code.) -/
structure Beside (env : Env) (C C' outs : List Str) (w a b : World) : Prop where
  heap : a.heap = b.heap
  attempts : a.attempts = b.attempts
  files : ∀ q, FileAlike C C' (a.files q) (b.files q)
  keep : ∀ q, (∀ o ∈ outs, env.ident o ≠ q) → a.files q = w.files q ∧ b.files q = w.files q

/-- Results of such runs.  (Proof notion, models no code.) -/
def BesideR {α : Type} (env : Env) (C C' outs : List Str) (w : World) (r r' : Res α) : Prop :=
  SameEnd r r' ∧ Beside env C C' outs w r.world r'.world

section
variable {env : Env} {C C' outs : List Str} {w : World}

theorem BesideR.bind {α β : Type} {r r' : Res α} {f g : α → World → Res β} (h : BesideR env C C' outs w r r')
    (hf : ∀ x a b, Beside env C C' outs w a b → BesideR env C C' outs w (f x a) (g x b)) : BesideR env C C' outs w (r.bind f) (r'.bind g) := by
  obtain ⟨h1, h2⟩ := h
  match r, r', h1, h2 with
  | .ok x a, .ok _ b, rfl, h2 => exact hf x a b h2
  | .stop e a, .stop _ b, rfl, h2 => exact ⟨rfl, h2⟩

theorem Beside.newHeap {a b : World} (h : Beside env C C' outs w a b) (x : Heap) :
    Beside env C C' outs w { a with heap := x } { b with heap := x } := ⟨rfl, h.attempts, h.files, h.keep⟩

theorem Beside.put {a b : World} (h : Beside env C C' outs w a b) {p x x' : Str} (hp : p ∈ outs) (hx : x = x' ∨ OtherIncludes C C' x x') :
    Beside env C C' outs w (a.put env p x) (b.put env p x') := by
  refine ⟨h.heap, h.attempts, fun q => ?_, fun q hq => ?_⟩
  · unfold World.put
    by_cases e : q = env.ident p
    · simp only [if_pos e]; exact hx
    · simp only [if_neg e]; exact h.files q
  · unfold World.put
    simp only [if_neg (fun e => hq p hp (Eq.symm e) : ¬ q = env.ident p)]
    exact h.keep q hq

theorem Beside.writePair {a b : World} (h : Beside env C C' outs w a b) {cpp hh x x' y y' : Str} (h1 : cpp ∈ outs) (h2 : env.canWrite cpp = true → hh ∈ outs)
    (hx : OtherIncludes C C' x x') (hy : OtherIncludes C C' y y') :
    (Main.writePair env cpp hh x y a).1 = (Main.writePair env cpp hh x' y' b).1 ∧
    Beside env C C' outs w (Main.writePair env cpp hh x y a).2 (Main.writePair env cpp hh x' y' b).2 := by
  refine ⟨by rw [writePair_ok, writePair_ok], ?_⟩
  have h0 : ∀ {a b : World}, Beside env C C' outs w a b → ∀ p, Beside env C C' outs w (a.attempt p) (b.attempt p) :=
    fun h p => ⟨h.heap, by unfold World.attempt; simp only [h.attempts], h.files, h.keep⟩
  unfold Main.writePair
  cases hc : env.canWrite cpp
  · exact h0 h cpp
  · have h3 := h0 ((h0 h cpp).put (p := cpp) (x := []) h1 (.inl rfl)) hh
    cases env.canWrite hh
    · exact h3
    · exact (h3.put h1 (.inr hx)).put (h2 hc) (.inr hy)

theorem Beside.processItems {a b : World} (h : Beside env C C' outs w a b) (k : Kind) (base : Str) (self : Nat) (more : List Str) (out : OutSpec)
    (ho : ∀ p ∈ specPaths env base out, p ∈ outs) :
    BesideR env C C' outs w (Main.processItems env k base self (C ++ more) out a) (Main.processItems env k base self (C' ++ more) out b) := by
  unfold Main.processItems
  rw [h.heap]
  cases prepare self b.heap with
  | none => exact ⟨rfl, h⟩
  | some r =>
    obtain ⟨heap, ok1⟩ := r
    simp only
    cases heap[self]? with
    | none => exact ⟨rfl, h⟩
    | some i =>
      simp only
      have hpaths : ∀ dir, outDir env base out = some dir → ∀ f, (f = out.enumFile ∨ f = out.structsFile) → disabled f = false →
          cppPath dir f ∈ outs ∧ (env.canWrite (cppPath dir f) = true → hPath dir f ∈ outs) := by
        intro dir hd f hf hdis
        have hsp : specPaths env base out = pairPaths env dir out.enumFile ++ pairPaths env dir out.structsFile := by
          unfold specPaths
          unfold outDir at hd
          rw [hd]
        have hsub : ∀ p ∈ pairPaths env dir f, p ∈ outs := by
          intro p hp
          refine ho p ?_
          rw [hsp]
          rcases hf with rfl | rfl
          · exact List.mem_append_left _ hp
          · exact List.mem_append_right _ hp
        have hpp : pairPaths env dir f = cppPath dir f :: (if env.canWrite (cppPath dir f) then [hPath dir f] else []) := by
          unfold pairPaths
          rw [if_neg]
          intro e
          rw [(disabled_iff f).2 e] at hdis
          cases hdis
        rw [hpp] at hsub
        exact ⟨hsub _ List.mem_cons_self, fun hc => hsub _ (by rw [if_pos hc]; simp)⟩
      have h1 : BesideR env C C' outs w
          (if disabled out.enumFile then Res.ok true { a with heap := heap } else processAllEnums env base (C ++ more) out i { a with heap := heap })
          (if disabled out.enumFile then Res.ok true { b with heap := heap } else processAllEnums env base (C' ++ more) out i { b with heap := heap }) := by
        cases hdis : disabled out.enumFile
        · simp only [Bool.false_eq_true, if_false, processAllEnums]
          cases hd : outDir env base out with
          | none => exact ⟨rfl, h.newHeap heap⟩
          | some dir =>
            obtain ⟨p1, p2⟩ := hpaths dir hd out.enumFile (.inl rfl) hdis
            exact ⟨rfl, ((h.newHeap heap).writePair p1 p2 (enumsCpp_includes _ _ _ _ _ _ _) (enumsH_includes _ _ _ _ _ _)).2⟩
        · exact ⟨rfl, h.newHeap heap⟩
      refine h1.bind fun ok2 u v huv => BesideR.bind (r := if disabled out.structsFile then Res.ok true u else processAllStructs env k base (C ++ more) out i u)
        (r' := if disabled out.structsFile then Res.ok true v else processAllStructs env k base (C' ++ more) out i v) ?_ fun ok3 u v huv => ⟨rfl, huv⟩
      cases hdis : disabled out.structsFile
      · simp only [Bool.false_eq_true, if_false, processAllStructs]
        cases hd : outDir env base out with
        | none => exact ⟨rfl, huv⟩
        | some dir =>
          obtain ⟨p1, p2⟩ := hpaths dir hd out.structsFile (.inr rfl) hdis
          obtain ⟨q1, q2⟩ := huv.writePair p1 p2 (structsCpp_includes k env.stamp (filename (cppPath dir out.structsFile)) (filename (hPath dir out.structsFile)) C C' more out i.structs)
            (structsH_includes k env.stamp (filename (hPath dir out.structsFile)) C C' more out i.structs)
          refine ⟨?_, q2⟩
          show (_ && _) = (_ && _)
          rw [q1]
      · exact ⟨rfl, huv⟩

theorem Beside.generate {a b : World} (h : Beside env C C' outs w a b) (base : Str) (self : Nat) (more : List Str) (out : OutSpec)
    (ho : ∀ p ∈ runPaths env base out, p ∈ outs) :
    BesideR env C C' outs w (Main.generate env base self (C ++ more) out a) (Main.generate env base self (C' ++ more) out b) := by
  unfold Main.generate
  cases hk : kindOf out.fileType with
  | none => exact ⟨rfl, h⟩
  | some k =>
    have hr : runPaths env base out = specPaths env base out := by
      unfold runPaths
      rw [if_pos ((kindOf_iff _).1 ⟨k, hk⟩)]
    exact (h.processItems k base self more out (by rwa [hr] at ho)).bind fun _ _ _ huv => ⟨rfl, huv⟩

theorem Beside.runGroup {a b : World} (h : Beside env C C' outs w a b) (base : Str) (g : List Str × OutSpec)
    (ho : ∀ p ∈ runPaths env base g.2, p ∈ outs) (hi : ∀ n ∈ g.1, ∀ o ∈ outs, env.ident o ≠ env.ident (join base n)) :
    BesideR env C C' outs w (Main.runGroup env base C g a) (Main.runGroup env base C' g b) := by
  unfold Main.runGroup
  rw [h.heap]
  cases copyInfo 0 b.heap with
  | none => exact ⟨rfl, h⟩
  | some heap =>
    simp only
    refine BesideR.bind (r := Main.readInputs env base b.heap.length g.1 { a with heap := heap })
      (r' := Main.readInputs env base b.heap.length g.1 { b with heap := heap }) ?_ fun _ u v huv => ?_
    · have hr : (g.1.map fun n => World.read { a with heap := heap } env (join base n)) = g.1.map fun n => World.read { b with heap := heap } env (join base n) := by
        refine List.map_congr_left fun n hn => ?_
        obtain ⟨e1, e2⟩ := h.keep _ (hi n hn)
        exact e1.trans e2.symm
      unfold Main.readInputs
      rw [hr]
      cases processFiles b.heap.length (g.1.map fun n => World.read { b with heap := heap } env (join base n)) heap with
      | none => exact ⟨rfl, h.newHeap heap⟩
      | some x => exact ⟨rfl, h.newHeap x⟩
    · refine (huv.generate base b.heap.length g.1 g.2 ho).bind fun _ x y hxy => ⟨rfl, ?_⟩
      have := hxy.newHeap x.heap.dropLast
      rw [hxy.heap] at this ⊢
      exact this

theorem Beside.runGroups (base : Str) : ∀ (gs : List (List Str × OutSpec)) {a b : World}, Beside env C C' outs w a b →
    (∀ g ∈ gs, ∀ p ∈ runPaths env base g.2, p ∈ outs) → (∀ g ∈ gs, ∀ n ∈ g.1, ∀ o ∈ outs, env.ident o ≠ env.ident (join base n)) →
    BesideR env C C' outs w (Main.runGroups env base C gs a) (Main.runGroups env base C' gs b)
  | [], _, _, h, _, _ => ⟨rfl, h⟩
  | g :: gs, a, b, h, ho, hi => by
    unfold Main.runGroups
    exact (h.runGroup base g (ho g List.mem_cons_self) (hi g List.mem_cons_self)).bind fun _ u v huv =>
      Beside.runGroups base gs huv (fun g hg => ho g (List.mem_cons_of_mem _ hg)) fun g hg => hi g (List.mem_cons_of_mem _ hg)

end

/-- The configuration with other input files for the common output.  (Specification notion, models no code.) -/
def Config.withIn (c : Config) (names : List Str) : Config := { c with commonIn := names }

/-- C85: two runs, with a configuration that names the headers `x` and `y` one after the other and with one that instead names a header
with the text of both, end the same way, open the same files in the same order and write them with the same text, but that the one includes `x` and `y` where the
other includes `xy`; provided no output file is an input file of a group. -/
theorem C85_run (env : Env) (p : Str) (c : Config) (w : World) {pre post : List Str} {x y xy t u : Str} (hj : Joins t u)
    (hx : w.read env (join (parentPath p) x) = some t) (hy : w.read env (join (parentPath p) y) = some u)
    (hxy : w.read env (join (parentPath p) xy) = some (t ++ u))
    (hi : ∀ g ∈ c.nonCommon, ∀ n ∈ g.1, ∀ out ∈ c.commonOut :: c.nonCommon.map Prod.snd, ∀ o ∈ runPaths env (parentPath p) out,
      env.ident o ≠ env.ident (join (parentPath p) n)) :
    let r := processStfxFile env p (.loaded (c.withIn (pre ++ x :: y :: post))) w
    let r' := processStfxFile env p (.loaded (c.withIn (pre ++ xy :: post))) w
    SameEnd r r' ∧ r.world.attempts = r'.world.attempts ∧
    ∀ q, FileAlike (pre ++ x :: y :: post) (pre ++ xy :: post) (r.world.files q) (r'.world.files q) := by
  simp only [processStfxFile, Config.withIn]
  have hread : readInputs env (parentPath p) 0 (pre ++ x :: y :: post) { w with heap := [Info.empty] } =
      readInputs env (parentPath p) 0 (pre ++ xy :: post) { w with heap := [Info.empty] } := by
    have e : ∀ n, World.read { w with heap := [Info.empty] } env n = w.read env n := fun _ => rfl
    unfold readInputs
    simp only [e, List.map_append, List.map_cons, hx, hy, hxy]
    rw [C85_files hj]
  rw [hread]
  have key : BesideR env (pre ++ x :: y :: post) (pre ++ xy :: post) ((c.commonOut :: c.nonCommon.map Prod.snd).flatMap (runPaths env (parentPath p))) w
      ((readInputs env (parentPath p) 0 (pre ++ xy :: post) { w with heap := [Info.empty] }).bind fun _ w =>
        (generate env (parentPath p) 0 (pre ++ x :: y :: post) c.commonOut w).bind fun _ w =>
        (runGroups env (parentPath p) (pre ++ x :: y :: post) c.nonCommon w).bind fun _ w => Res.ok 0 w)
      ((readInputs env (parentPath p) 0 (pre ++ xy :: post) { w with heap := [Info.empty] }).bind fun _ w =>
        (generate env (parentPath p) 0 (pre ++ xy :: post) c.commonOut w).bind fun _ w =>
        (runGroups env (parentPath p) (pre ++ xy :: post) c.nonCommon w).bind fun _ w => Res.ok 0 w) := by
    have h0 : ∀ heap, Beside env (pre ++ x :: y :: post) (pre ++ xy :: post) ((c.commonOut :: c.nonCommon.map Prod.snd).flatMap (runPaths env (parentPath p))) w
        { w with heap := heap } { w with heap := heap } := fun heap => ⟨rfl, rfl, fun q => .refl _ _ _, fun q _ => ⟨rfl, rfl⟩⟩
    refine BesideR.bind ?_ fun _ a b hab => BesideR.bind ?_ fun _ a b hab =>
      BesideR.bind (Beside.runGroups (parentPath p) c.nonCommon hab ?_ ?_) fun _ a b hab => ⟨rfl, hab⟩
    · unfold readInputs
      cases processFiles 0 ((pre ++ xy :: post).map fun n => World.read { w with heap := [Info.empty] } env (join (parentPath p) n)) [Info.empty] with
      | none => exact ⟨rfl, h0 _⟩
      | some heap => exact ⟨rfl, h0 heap⟩
    · have := hab.generate (parentPath p) 0 [] c.commonOut fun o ho => List.mem_flatMap.2 ⟨_, List.mem_cons_self, ho⟩
      simpa only [List.append_nil] using this
    · exact fun g hg o ho => List.mem_flatMap.2 ⟨g.2, List.mem_cons_of_mem _ (List.mem_map_of_mem hg), ho⟩
    · intro g hg n hn o ho
      obtain ⟨out, h1, h2⟩ := List.mem_flatMap.1 ho
      exact hi g hg n hn out h1 o h2
  exact ⟨key.1, key.2.attempts, key.2.files⟩

theorem CommentsClosed.intro {t : Str} (h : (lexFile t).map (fun ls => (LexSt.init.after ls).sc) = some .initial) : CommentsClosed t := by
  intro ls e
  rw [e] at h
  exact Option.some.inj h

/-- The struct of the second header is declared with the enum of the first. -/
theorem joins_example : Joins c!"// types\nenum B { X }; /* B */\n" c!"#pragma once\nstruct A { B b; };" :=
  ⟨.inr (by decide), CommentsClosed.intro (by decide +kernel), ⟨⟨orderB, []⟩, by decide +kernel⟩, ⟨⟨orderA, []⟩, by decide +kernel⟩⟩

/-- Files for `C85_run`.  (Example, models no code.) -/
def splitWorld : World :=
  ⟨[], fun q => if q = c!"/d/x.h" then some c!"// types\nenum B { X }; /* B */\n" else if q = c!"/d/y.h" then some c!"#pragma once\nstruct A { B b; };"
    else if q = c!"/d/xy.h" then some c!"// types\nenum B { X }; /* B */\n#pragma once\nstruct A { B b; };"
    else if q = c!"/d/b.h" then some c!"struct C { int c; };" else none, []⟩

/-- The hypotheses of `C85_run` hold for a configuration with a group. -/
example :
    let r := processStfxFile orderEnv c!"/d/x.stfx" (.loaded (orderConfig.withIn [c!"x.h", c!"y.h"])) splitWorld
    let r' := processStfxFile orderEnv c!"/d/x.stfx" (.loaded (orderConfig.withIn [c!"xy.h"])) splitWorld
    SameEnd r r' ∧ r.world.attempts = r'.world.attempts ∧ ∀ q, FileAlike [c!"x.h", c!"y.h"] [c!"xy.h"] (r.world.files q) (r'.world.files q) :=
  C85_run orderEnv c!"/d/x.stfx" orderConfig splitWorld (pre := []) (post := []) joins_example (by decide) (by decide) (by decide) (by decide +kernel)

/-- Files are generated in that run. -/
example : (processStfxFile orderEnv c!"/d/x.stfx" (.loaded (orderConfig.withIn [c!"x.h", c!"y.h"])) splitWorld).status = some 0 ∧
    ((processStfxFile orderEnv c!"/d/x.stfx" (.loaded (orderConfig.withIn [c!"x.h", c!"y.h"])) splitWorld).world.files c!"/d/s.h").isSome = true ∧
    ((processStfxFile orderEnv c!"/d/x.stfx" (.loaded (orderConfig.withIn [c!"x.h", c!"y.h"])) splitWorld).world.files c!"/d/e.h").isSome = true := by
  decide +kernel

/-- Without `CommentsClosed` the tokens are not those of both texts: the comment goes on in the second header. -/
example : toksFile (c!"enum B { X };\n/*\n" ++ c!"struct A { B b; };") ≠
    (toksFile c!"enum B { X };\n/*\n").bind fun ts => (toksFile c!"struct A { B b; };").map (ts ++ ·) := by decide +kernel

/-- Without `WholeLines` neither: the names at the seam become one. -/
example : toksFile (c!"enum B" ++ c!"C { X };") ≠ (toksFile c!"enum B").bind fun ts => (toksFile c!"C { X };").map (ts ++ ·) := by decide +kernel

/-- Two headers that are not read as one: the second begins where the first has a syntax error, and is read nevertheless. -/
example : (processFiles 0 [some c!"enum B { X\n", some c!"struct A { int a; };"] [Info.empty]).map (fun h => h.map fun i => i.structs.map Prod.fst) = some [[c!"A"]] ∧
    (processFiles 0 [some (c!"enum B { X\n" ++ c!"struct A { int a; };")] [Info.empty]).map (fun h => h.map fun i => i.structs.map Prod.fst) = some [[]] := by
  decide +kernel

end Stfx.Main
