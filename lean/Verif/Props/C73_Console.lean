import Verif.Main.ConsoleFacts
import Verif.Props.C20_C22_Main
import Verif.Props.C23_Order
import Verif.Run.ConfigData
/-
C73: what a run reports on the console.
-/
set_option autoImplicit false
namespace Stfx.Main
open Stfx.Lexer Stfx.Parser Stfx.Items Stfx.Gen

/-! ### How messages begin -/

/-- How the messages between the first and the last one begin, except for the message about an output type.
(Proof notion, models no code.) -/
def openings : List Str :=
  [c!"ERROR process_", c!"ERROR: could", c!"\nFile", c!"// ", c!"\t// WARNING", c!"Opened ", c!"\nERROR", c!"\nStarting",
   c!"Not generating", c!"Successfully", c!"ERROR : failed", c!"Failed", c!"failed", c!"Processing items"]

/-- The message begins like that.  (Proof notion, models no code.) -/
def Plain (l : Str) : Prop := openings.any (·.isPrefixOf l) = true

/-- All messages begin like that.  (Proof notion, models no code.) -/
def Plains (ls : List Str) : Prop := ∀ l ∈ ls, Plain l

theorem plains_nil : Plains [] := fun _ h => by cases h

theorem plains_cons {l : Str} {ls : List Str} (h : Plain l) (hs : Plains ls) : Plains (l :: ls) :=
  List.forall_mem_cons.2 ⟨h, hs⟩

theorem plains_append {a b : List Str} (ha : Plains a) (hb : Plains b) : Plains (a ++ b) :=
  List.forall_mem_append.2 ⟨ha, hb⟩

theorem plains_flatMap {α : Type} {f : α → List Str} {xs : List α} (h : ∀ x, Plains (f x)) : Plains (xs.flatMap f) := by
  intro l hl
  obtain ⟨x, _, hl⟩ := List.mem_flatMap.1 hl
  exact h x l hl

theorem plains_one {l : Str} (h : Plain l) : Plains [l] := plains_cons h plains_nil

theorem call_plains (self : Nat) (h : Heap) (c : Call) : Plains (callSays self h c) := by
  cases c with
  | enum n b =>
    simp only [callSays]
    split
    · exact plains_nil
    · split
      · exact plains_one rfl
      · exact plains_nil
  | struct n =>
    simp only [callSays]
    split
    · exact plains_nil
    · split
      · exact plains_one rfl
      · exact plains_nil
  | enumLine => exact plains_nil
  | simple => exact plains_nil
  | complex => exact plains_nil

theorem calls_plains (self : Nat) (cs : List Call) (h : Heap) : Plains (callsSay self cs h) := by
  induction cs generalizing h with
  | nil => exact plains_nil
  | cons c cs ih =>
    unfold callsSay
    refine plains_append (call_plains _ _ _) ?_
    split
    · exact plains_nil
    · exact ih _

theorem input_plains (self : Nat) (path : Str) (c : Option Str) (h : Heap) : Plains (inputSays self path c h) := by
  cases c with
  | none => exact plains_one rfl
  | some t =>
    unfold inputSays
    refine plains_cons rfl ?_
    split
    · exact plains_nil
    · split
      · exact calls_plains _ _ _
      · exact calls_plains _ _ _
      · exact plains_nil

theorem reads_plains (env : Env) (base : Str) (self : Nat) (ns : List Str) (w : World) :
    Plains (readsSay env base self ns w) := by
  induction ns generalizing w with
  | nil => exact plains_nil
  | cons n ns ih =>
    unfold readsSay
    refine plains_append (input_plains _ _ _ _) ?_
    split
    · exact plains_nil
    · rename_i heap ok _
      refine plains_cons ?_ (ih _)
      cases ok
      · exact rfl
      · exact rfl

theorem struct_plains (k : Kind) (s : StructS) : Plains (structSays k s) := by
  unfold structSays
  refine plains_flatMap fun co => ?_
  obtain ⟨ty, tn, n⟩ := co
  cases k <;> cases ty
  all_goals first
    | exact plains_nil
    | exact plains_one rfl

theorem pair_plains (env : Env) (what tabs cpp h : Str) {inner : List Str} (hi : Plains inner) :
    Plains (pairSays env what tabs cpp h inner) := by
  have good : ∀ l : Str, Plain (c!"Opened " ++ l) := fun _ => rfl
  unfold pairSays
  simp only [List.append_assoc]
  split
  · refine plains_cons (good _) ?_
    split
    · exact plains_cons (good _) hi
    · exact plains_one rfl
  · exact plains_one rfl

theorem items_plains (env : Env) (k : Kind) (base : Str) (self : Nat) (inputs : List Str) (out : OutSpec) (w : World) :
    Plains (processItemsSays env k base self inputs out w) := by
  unfold processItemsSays
  refine plains_cons rfl ?_
  split
  · exact plains_nil
  · split
    · exact plains_nil
    · refine plains_append ?_ ?_
      · split
        · exact plains_one rfl
        · unfold enumsSay
          split
          · exact plains_nil
          · exact pair_plains _ _ _ _ _ plains_nil
      · split
        · exact plains_nil
        · split
          · exact plains_one rfl
          · unfold structsSay
            split
            · exact plains_nil
            · refine pair_plains _ _ _ _ _ (plains_append (plains_flatMap fun p => struct_plains _ _) ?_)
              split
              · exact plains_nil
              · exact plains_flatMap fun p => struct_plains _ _

theorem header_plains (env : Env) (p : Str) (w : World) : Plains (headerSays env p w) := by
  unfold headerSays
  refine plains_append (input_plains _ _ _ _) ?_
  split
  · exact plains_nil
  · split
    · refine plains_cons rfl (plains_append (items_plains _ _ _ _ _ _ _) ?_)
      split
      · exact plains_nil
      · exact plains_one rfl
    · exact plains_one rfl

/-! ### The last message -/

/-- Does a message announce the result of the run?  (Specification notion, models no code.) -/
def announces (l : Str) : Bool := List.isPrefixOf c!"\nProcessing " l

theorem plain_announces {l : Str} (h : Plain l) : announces l = false := by
  unfold Plain openings at h
  simp only [List.any_cons, List.any_nil, Bool.or_false, Bool.or_eq_true, List.isPrefixOf_iff_prefix] at h
  rcases h with h | h | h | h | h | h | h | h | h | h | h | h | h | h <;> (obtain ⟨x, rfl⟩ := h; rfl)

/-- The messages before the last one do not announce a result. -/
theorem stfx_announces (env : Env) (f : Str) (load : LoadRes) (w : World) : ∀ l ∈ stfxSays env f load w, announces l = false := by
  have gen : ∀ base self inputs out named w, ∀ l ∈ generateSays env base self inputs out named w, announces l = false := by
    intro base self inputs out named w l hl
    unfold generateSays at hl
    split at hl
    · rw [List.mem_singleton] at hl
      subst hl
      rfl
    · exact plain_announces (items_plains _ _ _ _ _ _ _ l hl)
  have groups : ∀ base ci co gs w, ∀ l ∈ groupsSay env base ci co gs w, announces l = false := by
    intro base ci co gs
    induction gs with
    | nil => intro w l hl; cases hl
    | cons g gs ih =>
      intro w l hl
      unfold groupsSay at hl
      rcases List.mem_append.1 hl with hl | hl
      · unfold groupSays at hl
        split at hl
        · cases hl
        · rcases List.mem_append.1 hl with hl | hl
          · exact plain_announces (reads_plains _ _ _ _ _ l hl)
          · split at hl
            · cases hl
            · exact gen _ _ _ _ _ _ l hl
      · split at hl
        · cases hl
        · exact ih _ l hl
  intro l hl
  unfold stfxSays at hl
  split at hl
  · rw [List.mem_singleton] at hl
    subst hl
    rfl
  · cases hl
  · rcases List.mem_append.1 hl with hl | hl
    · exact plain_announces (reads_plains _ _ _ _ _ l hl)
    · split at hl
      · cases hl
      · rcases List.mem_cons.1 hl with rfl | hl
        · rfl
        · rcases List.mem_append.1 hl with hl | hl
          · exact gen _ _ _ _ _ _ l hl
          · split at hl
            · cases hl
            · exact groups _ _ _ _ _ l hl

/-- C73: a run on an existing file announces its result iff it returns, once, in its last message, and announces the
exit status it returns. -/
theorem C73_verdict (env : Env) (program a p : Str) (locate : Str → Located) (load : Str → LoadRes) (w : World)
    (hl : locate a = .canonical p) (hs : announces env.stamp = false) :
    (∀ st w', main env (some a) locate load w = .ok st w' →
      ∃ ls, mainSays env program (some a) locate load w = ls ++
          [if st = 0 then c!"\nProcessing successful. Returning 0 to caller"
           else c!"\nProcessing failed. Returning 1 to caller"] ∧
        st ≤ 1 ∧ ∀ l ∈ ls, announces l = false) ∧
    (∀ e w', main env (some a) locate load w = .stop e w' →
      ∀ l ∈ mainSays env program (some a) locate load w, announces l = false) := by
  have hbody : ∀ l ∈ (if extension p = c!".stfx" then stfxSays env p (load p) w else headerSays env p w), announces l = false := by
    intro l hl
    split at hl
    · exact stfx_announces _ _ _ _ l hl
    · exact plain_announces (header_plains _ _ _ l hl)
  have hst : ∀ st w', (if extension p = c!".stfx" then processStfxFile env p (load p) w else processSingleHeader env p w) = .ok st w' → st ≤ 1 := by
    intro st w' h
    have key : ∀ {r : Res Bool}, r.bind (fun _ w => Res.ok 0 w) = .ok st w' → st ≤ 1 := by
      intro r h
      cases r with
      | ok b x => cases h; decide
      | stop f x => cases h
    split at h
    · cases hc : load p with
      | failed => rw [hc] at h; cases h; decide
      | ub => rw [hc] at h; cases h
      | loaded c =>
        rw [hc] at h
        have := ((C21_exit_partial env p w).2 c).2.1 st w' h
        omega
    · unfold processSingleHeader at h
      split at h
      · cases h
      · split at h
        · exact key h
        · cases h; decide
  unfold main mainSays
  simp only [hl]
  generalize (if extension p = c!".stfx" then processStfxFile env p (load p) w else processSingleHeader env p w) = r at hst ⊢
  generalize (if extension p = c!".stfx" then stfxSays env p (load p) w else headerSays env p w) = body at hbody ⊢
  constructor
  · intro st w' e
    subst e
    have h1 := hst st w' rfl
    refine ⟨env.stamp :: body, ?_, h1, List.forall_mem_cons.2 ⟨hs, hbody⟩⟩
    rw [List.cons_append]
    have : st = 0 ∨ st = 1 := by omega
    have n0 : numText 0 = c!"0" := by decide +kernel
    have n1 : numText 1 = c!"1" := by decide +kernel
    rcases this with rfl | rfl
    · simp only [verdict, n0, if_true]; rfl
    · simp only [verdict, n1, Nat.one_ne_zero, if_false]; rfl
  · intro e w' he
    subst he
    dsimp only
    rw [List.append_nil]
    exact List.forall_mem_cons.2 ⟨hs, hbody⟩

/-! ### A single header -/

/-- C73 for a single header: a run that returns reports no problem iff the file can be read, is a sentence of the
grammar, declares different names, all four files can be opened, and generation succeeds. -/
theorem C73_header (env : Env) (program a p : Str) (locate : Str → Located) (load : Str → LoadRes) (w w' : World) (st : Nat)
    (hl : locate a = .canonical p) (hx : extension p ≠ c!".stfx") (hs : complains env.stamp = false)
    (e : main env (some a) locate load w = .ok st w') :
    Quiet (mainSays env program (some a) locate load w) ↔
      ∃ t hd heap w'', w.read env p = some t ∧ toksFile t = some (Header.toks hd) ∧ (hd.decls.map Decl.name).Nodup ∧
        processInputFile 0 (some t) [Info.empty] = some (heap, true) ∧
        processItems env .attrib (parentPath p) 0 [filename p] headerSpec { w with heap := heap } = .ok true w'' ∧
        Opens env (parentPath p) headerSpec c!"enums" ∧ Opens env (parentPath p) headerSpec c!"structs" := by
  unfold main at e
  unfold mainSays
  simp only [hl, hx, if_false] at e ⊢
  have hv : complains (verdict st) = false := by
    unfold verdict
    split <;> rfl
  rw [e, quiet_cons, quiet_append, quiet_one]
  simp only [hs, hv, true_and, and_true]
  unfold processSingleHeader at e
  unfold headerSays
  rw [quiet_append]
  obtain ⟨heap, ok, he, hok, hlen⟩ := processInputFile_ok (HeapOk.new HeapOk.nil) (self := 0) (by simp) (w.read env p)
  simp only [List.nil_append] at he hlen
  rw [he] at e ⊢
  dsimp only at e ⊢
  have hq := quiet_input (path := p) he
  cases ok with
  | false =>
    rw [if_neg (by decide), quiet_one]
    constructor
    · rintro ⟨_, h⟩; cases h
    · rintro ⟨t, hd, heap', w'', h1, _, _, h4, _⟩
      rw [h1] at he
      rw [he] at h4
      cases h4
  | true =>
    rw [if_pos rfl] at e ⊢
    cases hi : processItems env .attrib (parentPath p) 0 [filename p] headerSpec { w with heap := heap } with
    | stop f x => rw [hi] at e; cases e
    | ok b x =>
      dsimp only
      have hs1 : complains (c!"Successfully parsed file:\t" ++ p) = false := rfl
      have hb : complains (c!"Processing items done. Success = " ++ boolText b) = false ↔ b = true := by
        cases b
        · exact ⟨fun h => (by cases h), fun h => (by cases h)⟩
        · exact ⟨fun _ => rfl, fun _ => rfl⟩
      rw [quiet_cons, quiet_append, quiet_one, quiet_items hok hi, hb, hs1]
      have d1 : disabled headerSpec.enumFile = false := rfl
      have d2 : disabled headerSpec.structsFile = false := rfl
      simp only [true_and, d1, d2, forall_const, ne_eq, reduceCtorEq, not_false_eq_true]
      constructor
      · rintro ⟨hin, ⟨ho1, ho2, _⟩, hbt⟩
        obtain ⟨t, hd, h1, h2, h3, _⟩ := hq.1 ⟨hin, rfl⟩
        subst hbt
        rw [h1] at he
        exact ⟨t, hd, heap, x, h1, h2, h3, he, hi, ho1, ho2⟩
      · rintro ⟨t, hd, heap', w'', h1, h2, h3, h4, h5, h6, h7⟩
        rw [h1] at he
        rw [he] at h4
        cases h4
        rw [hi] at h5
        cases h5
        refine ⟨(hq.2 ⟨t, hd, h1, h2, h3, ?_⟩).1, ⟨h6, h7, rfl⟩, rfl⟩
        rintro d _ ⟨i, hi0, hne⟩
        cases hi0
        exact hne rfl

/-! ### Configurations -/

/-- All input files of a configuration hold headers, the declarations read into one object have different names, and
`Q` holds for every output specification, with the object and the state in which it is carried out.  (Specification
notion, models no code.) -/
def RunWith (env : Env) (base : Str) (c : Config) (w : World) (Q : Nat → List Str → OutSpec → World → Prop) : Prop :=
  ∃ hc w1 w2, HoldsAll env base w c.commonIn hc ∧ (declared hc).Nodup ∧
    readInputs env base 0 c.commonIn { w with heap := [Info.empty] } = .ok () w1 ∧
    Q 0 c.commonIn c.commonOut w1 ∧
    generate env base 0 c.commonIn c.commonOut w1 = .ok () w2 ∧
    ∀ before g after, c.nonCommon = before ++ g :: after → ∃ wg hg i w3,
      runGroups env base c.commonIn before w2 = .ok () wg ∧ HoldsAll env base wg g.1 hg ∧ (declared (hc ++ hg)).Nodup ∧
      wg.heap[0]? = some i ∧ readInputs env base wg.heap.length g.1 { wg with heap := wg.heap ++ [i] } = .ok () w3 ∧
      Q wg.heap.length (c.commonIn ++ g.1) g.2 w3

theorem RunWith.mono {env : Env} {base : Str} {c : Config} {w : World} {P Q : Nat → List Str → OutSpec → World → Prop}
    (h : ∀ self inputs out w, out = c.commonOut ∨ (∃ g ∈ c.nonCommon, out = g.2) → P self inputs out w → Q self inputs out w)
    (hr : RunWith env base c w P) : RunWith env base c w Q := by
  obtain ⟨hc, w1, w2, h1, h2, h3, h4, h5, h6⟩ := hr
  refine ⟨hc, w1, w2, h1, h2, h3, h _ _ _ _ (Or.inl rfl) h4, h5, fun before g after hg => ?_⟩
  obtain ⟨wg, hh, i, w3, g1, g2, g3, g4, g5, g6⟩ := h6 before g after hg
  exact ⟨wg, hh, i, w3, g1, g2, g3, g4, g5, h _ _ _ _ (Or.inr ⟨g, by rw [hg]; simp, rfl⟩) g6⟩

theorem declared_append (a b : List Header) : declared (a ++ b) = declared a ++ declared b := by
  simp [declared]

/-- C73 for a configuration: a run that returns reports no problem iff all input files can be read, are sentences of
the grammar and declare different names, every output type is supported, all files can be opened and, except for the
ini generator and for specifications without struct files, generation succeeds. -/
theorem C73_config (env : Env) (program a p : Str) (c : Config) (locate : Str → Located) (load : Str → LoadRes)
    (w w' : World) (st : Nat) (hl : locate a = .canonical p) (hx : extension p = c!".stfx") (hc : load p = .loaded c)
    (hs : complains env.stamp = false) (e : main env (some a) locate load w = .ok st w') :
    Quiet (mainSays env program (some a) locate load w) ↔ RunWith env (parentPath p) c w (Fine env (parentPath p)) := by
  unfold main at e
  unfold mainSays
  simp only [hl, hx, hc, if_true] at e ⊢
  have hv : complains (verdict st) = false := by
    unfold verdict
    split <;> rfl
  rw [e, quiet_cons, quiet_append, quiet_one]
  simp only [hs, hv, true_and, and_true]
  have hok : HeapOk [Info.empty] := HeapOk.new HeapOk.nil
  obtain ⟨h1, e1, hok1, hl1, _⟩ := readInputs_spec (w := { w with heap := [Info.empty] }) (self := 0) hok (by simp) env
    (parentPath p) c.commonIn
  obtain ⟨_, g2, g3, _, _⟩ := generate_spec (w := { w with heap := h1 }) (self := 0) hok1 (by simp [hl1]) env
    (parentPath p) c.commonIn c.commonOut
  unfold processStfxFile at e
  unfold stfxSays
  simp only [e1, Res.bind] at e ⊢
  cases hg : generate env (parentPath p) 0 c.commonIn c.commonOut { w with heap := h1 } with
  | stop f x => rw [hg] at e; cases e
  | ok u w2 =>
    rw [hg] at e g2 g3
    simp only [Res.world, List.length_cons, List.length_nil] at g2 g3 hl1
    dsimp only at e ⊢
    cases hr : runGroups env (parentPath p) c.commonIn c.nonCommon w2 with
    | stop f x => rw [hr] at e; cases e
    | ok u' w3 =>
      have h0 : complains [] = false := rfl
      rw [quiet_append, quiet_cons, quiet_append, quiet_reads e1, quiet_generate hok1 hg, quiet_groups g2 (by omega) hr, h0]
      have hempty : ∀ n, ¬ Known [Info.empty] 0 n := by
        rintro n ⟨i, hi, hne⟩
        cases hi
        exact hne rfl
      have hnames : ∀ {hds}, HoldsAll env (parentPath p) w c.commonIn hds → ∀ {before wg},
          runGroups env (parentPath p) c.commonIn before w2 = .ok () wg → ∀ n, Known wg.heap 0 n ↔ n ∈ declared hds := by
        intro hds hh before wg hb n
        rw [groups_known g2 (by omega) hb, generate_known hg, reads_known e1 (holdsAll_heap.2 hh)]
        simp [hempty]
      constructor
      · rintro ⟨⟨hds, hh, hn, -⟩, -, hf, hgs⟩
        refine ⟨hds, _, w2, holdsAll_heap.1 hh, hn, e1, hf, hg, fun before g after hsplit => ?_⟩
        obtain ⟨wg, hb, hg', i, w4, k1, k2, k3, k4, k5, k6⟩ := hgs before g after hsplit
        refine ⟨wg, hg', i, w4, hb, k1, ?_, k4, k5, k6⟩
        rw [declared_append, List.nodup_append]
        refine ⟨hn, k2, fun x hx y hy hxy => k3 y hy ((hnames (holdsAll_heap.1 hh) hb y).2 (hxy ▸ hx))⟩
      · rintro ⟨hds, w1', w2', hh, hn, e1', hf, hg', hgs⟩
        rw [e1] at e1'
        cases e1'
        rw [hg] at hg'
        cases hg'
        refine ⟨⟨hds, holdsAll_heap.2 hh, hn, fun n _ => hempty n⟩, rfl, hf, fun before g after hsplit => ?_⟩
        obtain ⟨wg, hg', i, w4, hb, k1, k2, k3, k4, k5⟩ := hgs before g after hsplit
        rw [declared_append, List.nodup_append] at k2
        refine ⟨wg, hb, hg', i, w4, k1, k2.2.1, fun n hn hk => ?_, k3, k4, k5⟩
        exact k2.2.2 n ((hnames hh hb n).1 hk) n hn rfl

/-- One output specification succeeds: its type is supported, `process_items` returns `true`, and the files can be
opened.  (Specification notion, models no code.) -/
def Succeeds (env : Env) (base : Str) (self : Nat) (inputs : List Str) (out : OutSpec) (w : World) : Prop :=
  ∃ k w', kindOf out.fileType = some k ∧ processItems env k base self inputs out w = .ok true w' ∧
    (disabled out.enumFile = false → Opens env base out out.enumFile) ∧
    (disabled out.structsFile = false → Opens env base out out.structsFile)

/-- C73 as one would expect it: a run on a configuration that reports no problem has had none: in particular every call
of `process_items` returned `true`.  (Specification notion, models no code.) -/
def C73_statement : Prop :=
  ∀ (env : Env) (program a p : Str) (c : Config) (locate : Str → Located) (load : Str → LoadRes) (w w' : World) (st : Nat),
    locate a = .canonical p → extension p = c!".stfx" → load p = .loaded c → complains env.stamp = false →
    main env (some a) locate load w = .ok st w' → Quiet (mainSays env program (some a) locate load w) →
    RunWith env (parentPath p) c w (Succeeds env (parentPath p))

/-- C73, the part that holds: if no specification asks for the ini format and all have struct files, a run that reports
no problem has had none. -/
theorem C73_quiet_partial (env : Env) (program a p : Str) (c : Config) (locate : Str → Located) (load : Str → LoadRes)
    (w w' : World) (st : Nat) (hl : locate a = .canonical p) (hx : extension p = c!".stfx") (hc : load p = .loaded c)
    (hs : complains env.stamp = false) (e : main env (some a) locate load w = .ok st w')
    (hout : ∀ out ∈ c.commonOut :: c.nonCommon.map Prod.snd, out.fileType ≠ 2 ∧ out.structsFile ≠ [] ∧ out.structsFile ≠ c!"-") :
    Quiet (mainSays env program (some a) locate load w) ↔ RunWith env (parentPath p) c w (Succeeds env (parentPath p)) := by
  rw [C73_config env program a p c locate load w w' st hl hx hc hs e]
  constructor
  · refine RunWith.mono fun self inputs out x hm hf => ?_
    obtain ⟨k, b, y, hk, hi, ho1, ho2⟩ := hf
    have hmem : out ∈ c.commonOut :: c.nonCommon.map Prod.snd := by
      rcases hm with rfl | ⟨g, hg, rfl⟩
      · exact List.mem_cons_self ..
      · exact List.mem_cons_of_mem _ (List.mem_map_of_mem hg)
    obtain ⟨t1, t2, t3⟩ := hout out hmem
    have hd : disabled out.structsFile = false := by
      cases hd : disabled out.structsFile with
      | false => rfl
      | true =>
        rcases (disabled_iff _).1 hd with h | h
        · exact absurd h t2
        · exact absurd h t3
    have hki : k ≠ .ini := by
      rintro rfl
      simp only [kindOf, t1, if_false] at hk
      repeat' split at hk
      all_goals cases hk
    have := (ho2 hd).2 hki
    subst this
    exact ⟨k, y, hk, hi, ho1, fun _ => (ho2 hd).1⟩
  · refine RunWith.mono fun self inputs out x hm hf => ?_
    obtain ⟨k, y, hk, hi, ho1, ho2⟩ := hf
    exact ⟨k, true, y, hk, hi, ho1, fun hd => ⟨ho2 hd, fun _ => rfl⟩⟩

/-! ### The message about output types -/

/-- Is it the message about an output type?  (Specification notion, models no code.) -/
def aboutType (l : Str) : Bool := List.isPrefixOf c!"ERROR : output type " l

theorem plain_aboutType {l : Str} (h : Plain l) : aboutType l = false := by
  unfold Plain openings at h
  simp only [List.any_cons, List.any_nil, Bool.or_false, Bool.or_eq_true, List.isPrefixOf_iff_prefix] at h
  rcases h with h | h | h | h | h | h | h | h | h | h | h | h | h | h <;> (obtain ⟨x, rfl⟩ := h; rfl)

theorem plains_aboutType {ls : List Str} (h : Plains ls) : ls.filter aboutType = [] := by
  rw [List.filter_eq_nil_iff]
  intro l hl
  rw [plain_aboutType (h l hl)]
  decide

/-- The messages about output types of one specification. -/
theorem generate_aboutType (env : Env) (base : Str) (self : Nat) (inputs : List Str) (out : OutSpec) (named : Int) (w : World) :
    (generateSays env base self inputs out named w).filter aboutType =
      if 0 ≤ out.fileType ∧ out.fileType ≤ 3 then [] else [unsupported named] := by
  unfold generateSays
  cases hk : kindOf out.fileType with
  | none =>
    rw [if_neg (by rw [← kindOf_iff, hk]; rintro ⟨_, h⟩; cases h)]
    exact rfl
  | some k =>
    rw [if_pos ((kindOf_iff _).1 ⟨k, hk⟩)]
    exact plains_aboutType (items_plains _ _ _ _ _ _ _)

/-- The messages about output types of the groups. -/
theorem groups_aboutType (env : Env) (base : Str) (ci : List Str) (co : OutSpec) (gs : List (List Str × OutSpec)) (w w' : World)
    (hok : HeapOk w.heap) (hs : 0 < w.heap.length) (e : runGroups env base ci gs w = .ok () w') :
    (groupsSay env base ci co gs w).filter aboutType =
      List.replicate (gs.countP fun g => !decide (0 ≤ g.2.fileType ∧ g.2.fileType ≤ 3)) (unsupported co.fileType) := by
  induction gs generalizing w with
  | nil => rfl
  | cons g gs ih =>
    obtain ⟨w1, e1, e2⟩ := runGroups_cons e
    obtain ⟨_, h2, _⟩ := runGroup_spec hok hs env base ci g
    obtain ⟨hok1, hl1⟩ := h2 _ e1
    have hi : w.heap[0]? = some w.heap[0] := List.getElem?_eq_getElem hs
    generalize w.heap[0] = i at hi
    have hc : copyInfo 0 w.heap = some (w.heap ++ [i]) := by unfold copyInfo; rw [hi]; rfl
    obtain ⟨hp, r1, _, _, _⟩ := readInputs_spec (w := { w with heap := w.heap ++ [i] }) (self := w.heap.length)
      (hok.copy hi) (by simp) env base g.1
    have hg : (groupSays env base ci co g w).filter aboutType =
        if 0 ≤ g.2.fileType ∧ g.2.fileType ≤ 3 then [] else [unsupported co.fileType] := by
      unfold groupSays
      rw [hc]
      dsimp only
      rw [r1]
      dsimp only
      rw [List.filter_append, plains_aboutType (reads_plains _ _ _ _ _), generate_aboutType]
      rfl
    unfold groupsSay
    rw [e1]
    dsimp only
    rw [List.filter_append, ih w1 hok1 (by omega) e2, hg, List.countP_cons]
    by_cases ht : 0 ≤ g.2.fileType ∧ g.2.fileType ≤ 3
    · simp [ht]
    · simp only [ht, if_false, decide_false, Bool.not_false, if_true]
      rw [List.replicate_succ]
      rfl

/-- Every message about an output type names one that is not supported.  (Specification notion, models no code.) -/
def C73_type_statement : Prop :=
  ∀ (env : Env) (program a p : Str) (c : Config) (locate : Str → Located) (load : Str → LoadRes) (w w' : World) (st : Nat),
    locate a = .canonical p → extension p = c!".stfx" → load p = .loaded c → aboutType env.stamp = false →
    main env (some a) locate load w = .ok st w' →
    ∀ l ∈ mainSays env program (some a) locate load w, aboutType l = true →
      ∃ out ∈ c.commonOut :: c.nonCommon.map Prod.snd, ¬ (0 ≤ out.fileType ∧ out.fileType ≤ 3) ∧
        l = c!"ERROR : output type " ++ typeText out.fileType ++ c!" not currently supported"

/-- The name of an output type in a message is what a configuration file calls it: the generated conversion of the enum
declared in config_data.h. -/
theorem C73_type_name (t : Int) : ∃ e val, Run.configData.table.enm c!"serialization_type_E" = some (e, val) ∧
    typeText t = Run.sFromE e val t := by
  refine ⟨_, _, rfl, ?_⟩
  by_cases h0 : t = 0
  · subst h0; decide +kernel
  by_cases h1 : t = 1
  · subst h1; decide +kernel
  by_cases h2 : t = 2
  · subst h2; decide +kernel
  by_cases h3 : t = 3
  · subst h3; decide +kernel
  by_cases h4 : t = 4
  · subst h4; decide +kernel
  unfold typeText Run.sFromE
  rw [if_neg h0, if_neg h1, if_neg h2, if_neg h3, if_neg h4, List.find?_eq_none.2]
  intro l hl
  simp only [decide_eq_true_eq]
  have hall : ∀ l ∈ Run.fileTypes.enums, (([(c!"xml_attrib", (0 : Int)), (c!"xml", 1), (c!"ini", 2), (c!"n_ini", 3),
      (c!"json", 4)].lookup l.name).getD 0) ∈ ([0, 1, 2, 3, 4] : List Int) := by decide +kernel
  have := hall l hl
  intro he
  rw [he] at this
  simp [h0, h1, h2, h3, h4] at this

/-- Non-vacuity. -/
example : typeText 4 = c!"json" ∧ typeText 7 = c!"7" := by decide +kernel

/-- C73, the part that holds about output types: there is one message for each specification with an output type that
is not supported, but all of them name the type of the common output. -/
theorem C73_type_partial (env : Env) (program a p : Str) (c : Config) (locate : Str → Located) (load : Str → LoadRes)
    (w w' : World) (st : Nat) (hl : locate a = .canonical p) (hx : extension p = c!".stfx") (hc : load p = .loaded c)
    (hs : aboutType env.stamp = false) (e : main env (some a) locate load w = .ok st w') :
    (mainSays env program (some a) locate load w).filter aboutType =
      List.replicate ((c.commonOut :: c.nonCommon.map Prod.snd).countP fun o => !decide (0 ≤ o.fileType ∧ o.fileType ≤ 3))
        (c!"ERROR : output type " ++ typeText c.commonOut.fileType ++ c!" not currently supported") := by
  unfold main at e
  unfold mainSays
  simp only [hl, hx, hc, if_true] at e ⊢
  have hv : aboutType (verdict st) = false := by
    unfold verdict
    split <;> rfl
  rw [e]
  dsimp only
  rw [List.filter_cons, if_neg (by rw [hs]; decide), List.filter_append, List.filter_cons, if_neg (by rw [hv]; decide),
    List.filter_nil, List.append_nil]
  have hok : HeapOk [Info.empty] := HeapOk.new HeapOk.nil
  obtain ⟨h1, e1, hok1, hl1, _⟩ := readInputs_spec (w := { w with heap := [Info.empty] }) (self := 0) hok (by simp) env
    (parentPath p) c.commonIn
  obtain ⟨_, g2, g3, _, _⟩ := generate_spec (w := { w with heap := h1 }) (self := 0) hok1 (by simp [hl1]) env
    (parentPath p) c.commonIn c.commonOut
  unfold processStfxFile at e
  unfold stfxSays
  simp only [e1, Res.bind] at e ⊢
  cases hg : generate env (parentPath p) 0 c.commonIn c.commonOut { w with heap := h1 } with
  | stop f x => rw [hg] at e; cases e
  | ok u w2 =>
    rw [hg] at e g2 g3
    simp only [Res.world, List.length_cons, List.length_nil] at g2 g3 hl1
    dsimp only at e ⊢
    cases hr : runGroups env (parentPath p) c.commonIn c.nonCommon w2 with
    | stop f x => rw [hr] at e; cases e
    | ok u' w3 =>
      rw [List.filter_append, plains_aboutType (reads_plains _ _ _ _ _), List.nil_append, List.filter_cons,
        if_neg (by decide), List.filter_append, generate_aboutType, groups_aboutType _ _ _ _ _ _ w3 g2 (by omega) hr,
        List.countP_cons, List.countP_map]
      by_cases ht : 0 ≤ c.commonOut.fileType ∧ c.commonOut.fileType ≤ 3
      · simp only [ht, and_self, if_true, decide_true, Bool.not_true, Bool.false_eq_true, if_false, List.nil_append, Nat.add_zero]
        rfl
      · simp only [ht, if_false, decide_false, Bool.not_false, if_true]
        rw [List.replicate_succ]
        rfl

/-! ### Witnesses -/

/-- A run on a configuration with these files.  (Example, models no code.) -/
def conSays (c : Config) (common group : Str) : List Str :=
  mainSays orderEnv c!"stfx" (some c!"x.stfx") (fun _ => .canonical c!"/d/x.stfx") (fun _ => .loaded c) (orderWorld common group)

/-- A configuration asking for the ini format.  (Example, models no code.) -/
def iniConfig : Config := ⟨[c!"a.h"], { headerSpec with fileType := 2 }, []⟩

/-- A configuration with a supported common output and a group asking for json.  (Example, models no code.) -/
def jsonConfig : Config := ⟨[c!"a.h"], { headerSpec with fileType := 0 }, [([c!"b.h"], { headerSpec with fileType := 4 })]⟩

/-- The run asking for the ini format reports success and no problem. -/
example : conSays iniConfig c!"struct A { int a; };" [] =
    [[], c!"\nFile opened for input:\t\t/d/a.h", c!"Successfully parsed file:\t/d/a.h", [], c!"\nStarting to create output.",
     c!"Opened enum .cpp file :\t\t/d/enums.cpp", c!"Opened enum .h file :\t\t/d/enums.h",
     c!"Opened ini struct .cpp file :\t/d/structs.cpp", c!"Opened ini struct .h file :\t/d/structs.h",
     c!"\nProcessing successful. Returning 0 to caller"] := by decide +kernel

/-- The run with a group asking for json complains about xml_attrib. -/
example : conSays jsonConfig c!"struct A { int a; };" c!"struct B { int a; };" =
    [[], c!"\nFile opened for input:\t\t/d/a.h", c!"Successfully parsed file:\t/d/a.h", [], c!"\nStarting to create output.",
     c!"Opened enum .cpp file :\t\t/d/enums.cpp", c!"Opened enum .h file :\t\t/d/enums.h",
     c!"Opened xml struct .cpp file :\t/d/structs.cpp", c!"Opened xml struct .h file :\t/d/structs.h",
     c!"\nFile opened for input:\t\t/d/b.h", c!"Successfully parsed file:\t/d/b.h",
     c!"ERROR : output type xml_attrib not currently supported",
     c!"\nProcessing successful. Returning 0 to caller"] := by decide +kernel

/-- Nothing is reported about a type that is not declared if there are no struct files. -/
example : (conSays ⟨[c!"a.h"], { headerSpec with structsFile := [] }, []⟩ c!"struct A { C b; };" []).filter complains = [] := by
  decide +kernel

/-- A run of `main` returns in the example environment. -/
theorem order_returns (c : Config) (w : World) : ∃ w', main orderEnv (some c!"x.stfx") (fun _ => .canonical c!"/d/x.stfx")
    (fun _ => .loaded c) w = .ok 0 w' := by
  obtain ⟨w', h⟩ := ((C21_exit_partial orderEnv c!"/d/x.stfx" w).2 c).2.2 (by intro p h; cases h)
  refine ⟨w', ?_⟩
  unfold main
  dsimp only
  rw [if_pos (by decide)]
  exact h

/-- C73 as stated is false: with the ini format no function is generated and `process_items` returns `false`, but
nothing is reported. -/
theorem C73_refuted : ¬ C73_statement := by
  intro hall
  obtain ⟨w', hm⟩ := order_returns iniConfig (orderWorld c!"struct A { int a; };" [])
  have hq : Quiet (conSays iniConfig c!"struct A { int a; };" []) := by
    unfold Quiet
    decide +kernel
  obtain ⟨hc, w1, w2, _, _, e1, ⟨k, w3, hk, hi, _⟩, _⟩ := hall orderEnv c!"stfx" c!"x.stfx" c!"/d/x.stfx" iniConfig _ _ _ w' 0 rfl
    (by decide) rfl rfl hm hq
  have hk' : k = .ini := by
    have : kindOf iniConfig.commonOut.fileType = some .ini := rfl
    rw [this] at hk
    cases hk
    rfl
  subst hk'
  have hb : ∀ b w3, (readInputs orderEnv (parentPath c!"/d/x.stfx") 0 iniConfig.commonIn
      { orderWorld c!"struct A { int a; };" [] with heap := [Info.empty] }).bind (fun _ w1 =>
      processItems orderEnv .ini (parentPath c!"/d/x.stfx") 0 iniConfig.commonIn iniConfig.commonOut w1) = .ok b w3 → b = false := by
    intro b w3 h
    have : (match (readInputs orderEnv (parentPath c!"/d/x.stfx") 0 iniConfig.commonIn
        { orderWorld c!"struct A { int a; };" [] with heap := [Info.empty] }).bind (fun _ w1 =>
        processItems orderEnv .ini (parentPath c!"/d/x.stfx") 0 iniConfig.commonIn iniConfig.commonOut w1) with
      | .ok b _ => b
      | .stop _ _ => true) = false := by decide +kernel
    rw [h] at this
    exact this
  have := hb true w3 (by rw [e1]; exact hi)
  cases this

/-- The message about an output type can name one that is supported. -/
theorem C73_type_refuted : ¬ C73_type_statement := by
  intro hall
  obtain ⟨w', hm⟩ := order_returns jsonConfig (orderWorld c!"struct A { int a; };" c!"struct B { int a; };")
  have hmem : c!"ERROR : output type xml_attrib not currently supported" ∈
      conSays jsonConfig c!"struct A { int a; };" c!"struct B { int a; };" := by decide +kernel
  obtain ⟨out, ho, ht, hl⟩ := hall orderEnv c!"stfx" c!"x.stfx" c!"/d/x.stfx" jsonConfig _ _ _ w' 0 rfl (by decide) rfl rfl hm _ hmem rfl
  simp only [jsonConfig, List.map_cons, List.map_nil, List.mem_cons, List.not_mem_nil, or_false] at ho
  rcases ho with rfl | rfl
  · exact ht (by decide)
  · revert hl
    decide

/-- A run can report a problem, and success at the end: the exit status does not tell. -/
theorem C73_status_refuted : ¬ ∀ (env : Env) (program a : Str) (locate : Str → Located) (load : Str → LoadRes) (w w' : World),
    main env (some a) locate load w = .ok 0 w' → Quiet (mainSays env program (some a) locate load w) := by
  intro hall
  obtain ⟨w', hm⟩ := order_returns orderConfig (orderWorld c!"struct A { int a; }" c!"struct B { int a; };")
  have h := hall orderEnv c!"stfx" _ _ _ _ _ hm
  have hmem : c!"ERROR : failed to process /d/a.h" ∈ conSays orderConfig c!"struct A { int a; }" c!"struct B { int a; };" := by
    decide +kernel
  have := h _ hmem
  cases this

/-- Non-vacuity of `C73_config` and `C73_quiet_partial`: a run with a group that reports no problem. -/
example : Quiet (conSays orderConfig c!"struct A { B b; };\nenum B { X };" c!"struct C { int c; };\nstruct D { std::vector<A> as; };") := by
  unfold Quiet
  decide +kernel
example : ∀ out ∈ orderConfig.commonOut :: orderConfig.nonCommon.map Prod.snd,
    out.fileType ≠ 2 ∧ out.structsFile ≠ [] ∧ out.structsFile ≠ c!"-" := by decide

/-- Non-vacuity: a type declared only in a group stays unknown in the common struct, and is reported, for reader and
writer, for the common output and for the group. -/
example : (conSays orderConfig c!"struct A { C b; };" c!"struct C { int c; };").filter complains =
    [c!"\t// WARNING FAILED TO PROCESS b", c!"\t// WARNING FAILED TO PROCESS b",
     c!"\t// WARNING FAILED TO PROCESS b", c!"\t// WARNING FAILED TO PROCESS b"] := by decide +kernel

/-- Non-vacuity of `C73_verdict` and `C73_header`: a single header, and one that can not be read (the code reported is
the initial value 0). -/
example : mainSays orderEnv c!"stfx" (some c!"a.h") (fun _ => .canonical c!"/d/a.h") (fun _ => .failed)
      (orderWorld c!"struct A { B b; };" []) =
    [[], c!"\nFile opened for input:\t\t/d/a.h", c!"Successfully parsed file:\t/d/a.h", c!"\nStarting to create output.",
     c!"Opened enum .cpp file :\t\t/d/enums.cpp", c!"Opened enum .h file :\t\t/d/enums.h",
     c!"Opened xml struct .cpp file :\t/d/structs.cpp", c!"Opened xml struct .h file :\t/d/structs.h",
     c!"\t// WARNING FAILED TO PROCESS b", c!"\t// WARNING FAILED TO PROCESS b",
     c!"Processing items done. Success = false", c!"\nProcessing successful. Returning 0 to caller"] := by decide +kernel
example : mainSays orderEnv c!"stfx" (some c!"z.h") (fun _ => .canonical c!"/d/z.h") (fun _ => .failed) (orderWorld [] []) =
    [[], c!"ERROR: could not open file for reading: /d/z.h\n", c!"Failed to correctly parse '/d/z.h' code 0",
     c!"\nProcessing failed. Returning 1 to caller"] := by decide +kernel

end Stfx.Main
