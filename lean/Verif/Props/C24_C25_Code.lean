import Verif.Main.Facts
/-
Properties C24, C25, C42, C43: the functions in the generated code, and when generation succeeds.
-/
set_option autoImplicit false
namespace Stfx.Gen
open Stfx.Lexer Stfx.Parser Stfx.Items

/-! ### C24 -/

/-- The types for which a piece of a structs .cpp file calls the reader function (`do_<type>` in XML code,
`do_rd_<type>` in n_ini code). -/
def Item.readerCalls : Item → List Str
  | .defReadFile _ _ n => [n]
  | .defRd _ _ _ _ ss cs => (ss ++ cs).filterMap fun
      | .child _ ty => some ty
      | .vector _ ty => some ty
      | _ => none
  | .defNRd _ _ _ _ body => body.filterMap fun
      | .child _ ty _ => some ty
      | _ => none
  | _ => []

/-- The types for which it calls the writer function `do_wr_<type>`.  (Specification notion, models no code.) -/
def Item.writerCalls : Item → List Str
  | .defWriteFile _ _ n => [n]
  | .defWr _ _ _ _ _ ss cs => (ss ++ cs).filterMap fun
      | .child _ ty => some ty
      | .vector _ ty => some ty
      | _ => none
  | .defNWr _ _ _ body => body.filterMap fun
      | .child _ ty _ => some ty
      | _ => none
  | _ => []

theorem infix_right {x b : Str} (a : Str) (h : x <:+: b) : x <:+: a ++ b :=
  h.trans (List.suffix_append a b).isInfix

theorem infix_mid {f c P Q ty : Str} (post : Str) (hP : f <:+ P) (hQ : c <+: Q) : (f ++ (ty ++ c)) <:+: P ++ (ty ++ (Q ++ post)) := by
  obtain ⟨p, rfl⟩ := hP
  obtain ⟨q, rfl⟩ := hQ
  exact ⟨p, q ++ post, by simp⟩

theorem infix_end {f c P Q ty : Str} (hP : f <:+ P) (hQ : c <+: Q) : (f ++ (ty ++ c)) <:+: P ++ (ty ++ Q) := by
  have := infix_mid (ty := ty) [] hP hQ
  simpa using this

/-- The calls are there in the text. -/
theorem calls_text (n ty sp rc : Str) :
    (c!"do_" ++ ty ++ c!"(") <:+: (Rd.child n ty).text ∧ (c!"do_" ++ ty ++ c!"(") <:+: (Rd.vector n ty).text ∧
    (c!"do_wr_" ++ ty ++ c!"(") <:+: (Wr.child n ty).text ∧ (c!"do_wr_" ++ ty ++ c!"(") <:+: (Wr.vector n ty).text ∧
    (c!"do_rd_" ++ ty ++ c!"(") <:+: (NRd.child n ty sp).text ∧ (c!"do_wr_" ++ ty ++ c!"(") <:+: (NWr.child n ty sp).text ∧
    (c!"do_" ++ n ++ c!"(") <:+: (Item.defReadFile .xml rc n).text ∧
    (c!"do_rd_" ++ n ++ c!"(") <:+: (Item.defReadFile .nIni rc n).text ∧
    (c!"do_wr_" ++ n ++ c!"(") <:+: (Item.defWriteFile .xml rc n).text ∧
    (c!"do_wr_" ++ n ++ c!"(") <:+: (Item.defWriteFile .nIni rc n).text := by
  refine ⟨?_, ?_, ?_, ?_, ?_, ?_, ?_, ?_, ?_, ?_⟩
  · show _ <:+: T.xml361 n ty
    unfold T.xml361
    simp only [List.append_assoc]
    iterate 2 refine infix_right _ ?_
    refine infix_mid _ ?_ ?_ <;> decide
  · show _ <:+: T.xml370 n ty
    unfold T.xml370
    simp only [List.append_assoc]
    iterate 5 refine infix_right _ ?_
    refine infix_mid _ ?_ ?_ <;> decide
  · show _ <:+: T.xml540 n ty
    unfold T.xml540
    simp only [List.append_assoc]
    iterate 2 refine infix_right _ ?_
    refine infix_mid _ ?_ ?_ <;> decide
  · show _ <:+: T.xml549 n ty
    unfold T.xml549
    simp only [List.append_assoc]
    iterate 9 refine infix_right _ ?_
    refine infix_end ?_ ?_ <;> decide
  · show _ <:+: T.ini417 n ty sp
    unfold T.ini417
    simp only [List.append_assoc]
    refine infix_mid _ ?_ ?_ <;> decide
  · show _ <:+: T.ini571 n ty sp
    unfold T.ini571
    simp only [List.append_assoc]
    iterate 4 refine infix_right _ ?_
    refine infix_mid _ ?_ ?_ <;> decide
  · show _ <:+: T.xml106 rc n
    unfold T.xml106
    simp only [List.append_assoc]
    iterate 8 refine infix_right _ ?_
    refine infix_end ?_ ?_ <;> decide
  · show _ <:+: T.ini120 rc n
    unfold T.ini120
    simp only [List.append_assoc]
    iterate 39 refine infix_right _ ?_
    refine infix_end ?_ ?_ <;> decide
  · show _ <:+: T.xml164 rc n
    unfold T.xml164
    simp only [List.append_assoc]
    iterate 9 refine infix_right _ ?_
    refine infix_mid _ ?_ ?_ <;> decide
  · show _ <:+: T.ini239 rc n
    unfold T.ini239
    simp only [List.append_assoc]
    iterate 6 refine infix_right _ ?_
    refine infix_mid _ ?_ ?_ <;> decide

/-- C24 as stated is false: the element type of a vector is never checked, so the generated reader calls a function
for `B`, which does not exist. -/
theorem C24_refuted :
    ¬ ∀ (h h' : Heap) (i i' : Info) (self : Nat), History h → h[self]? = some i → prepare self h = some (h', true) →
      h'[self]? = some i' → structsOk .attrib someSpec i'.structs = true →
      ∀ it ∈ structsCpp .attrib [] [] [] [] someSpec i'.structs, ∀ n ∈ it.readerCalls,
        n ∈ (structsH .attrib [] [] [] someSpec i'.structs).filterMap Item.readerDeclared := by
  intro hall
  have hp : prepare 0 [readFresh c!"struct A { std::vector<B> b; };"] =
      some ([⟨[(c!"A", ⟨c!"A", [], [⟨.vector, c!"B", c!"b"⟩], 0⟩)], [], some ⟨0, c!"A"⟩, none, 0⟩], true) := by
    decide +kernel
  have := hall _ _ _ _ 0 (readFresh_history c!"struct A { std::vector<B> b; };") rfl hp rfl (by decide)
    (.defRd .attrib c!"R" c!"A" true [] [.vector c!"b" c!"B"]) (by decide +kernel) c!"B" (by decide)
  rw [(structsH_contents _ _ _ _ _ _).2.2.1] at this
  exact absurd this (by decide)

theorem mem_names {S : SMap StructS} (hs : S.Sorted) (hn : ∀ k s, S.find? k = some s → s.name = k) (n : Str) :
    n ∈ S.map (fun p => p.2.name) ↔ n ∈ S.keys := by
  rw [SMap.mem_keys, List.mem_map]
  constructor
  · rintro ⟨⟨k, s⟩, hm, rfl⟩
    refine ⟨s, ?_⟩
    rw [show (k, s).2.name = k from hn k s (hs.find?_of_mem hm)]
    exact hm
  · rintro ⟨s, hm⟩
    exact ⟨(n, s), hm, hn n s (hs.find?_of_mem hm)⟩

/-- C24, the part that holds: if the element types of all vectors are declared structs, generated code that generation
reported as successful only calls reader and writer functions that the generated classes declare and define. -/
theorem C24_calls_partial {h h' : Heap} {self : Nat} {i i' : Info} {ok : Bool} (hh : History h) (hi : h[self]? = some i)
    (hp : prepare self h = some (h', ok)) (hi' : h'[self]? = some i') (k : Kind) (stamp fc fh : Str) (inputs : List Str)
    (out : OutSpec) (hok : structsOk k out i'.structs = true)
    (hvec : ∀ n s co, i.structs.find? n = some s → co ∈ s.complex → co.ty = .vector → co.tyName ∈ i.structs.keys) :
    ∀ it ∈ structsCpp k stamp fc fh inputs out i'.structs,
      (∀ n ∈ it.readerCalls, n ∈ (structsH k stamp fh inputs out i'.structs).filterMap Item.readerDeclared ∧
        (out.readerClass, n) ∈ (structsCpp k stamp fc fh inputs out i'.structs).filterMap Item.readerDefined) ∧
      (∀ n ∈ it.writerCalls, n ∈ (structsH k stamp fh inputs out i'.structs).filterMap Item.writerDeclared ∧
        (out.writerClass, n) ∈ (structsCpp k stamp fc fh inputs out i'.structs).filterMap Item.writerDefined) := by
  have ht' := (History.generate hh hp).ok.tab _ _ hi'
  have hsound' := (History.generate hh hp).sound hi'
  obtain ⟨hkeys, _, _, hl⟩ := C16_resolved_partial hh hi hp hi'
  have hmem := mem_names ht'.sortedS ht'.nameS
  -- every type called is a declared struct
  have hdecl : ∀ p ∈ i'.structs, ∀ co ∈ p.2.complex, co.ty = .struct ∨ co.ty = .vector → co.tyName ∈ i'.structs.keys := by
    rintro ⟨m, s'⟩ hm co' hco hty
    have hf := ht'.sortedS.find?_of_mem hm
    rcases hty with hty | hty
    · obtain ⟨t, ht⟩ := hsound'.struct m s' co' hf hco hty
      exact SMap.mem_keys.2 ⟨t, SMap.find?_some_mem ht⟩
    · have : ∃ s, i.structs.find? m = some s := by
        have := find?_isSome_of_keys hkeys m
        rw [hf] at this
        exact Option.isSome_iff_exists.1 this.symm
      obtain ⟨s, hs⟩ := this
      obtain ⟨s2, e2, _, _, el, hl⟩ := hl m s hs
      rw [hf] at e2; cases e2
      obtain ⟨j, hj, hje⟩ := List.getElem_of_mem hco
      obtain ⟨co2, e3, _, e5, e6, _⟩ := hl j s.complex[j] (List.getElem?_eq_getElem (by rw [← el]; exact hj))
      rw [List.getElem?_eq_getElem hj, hje] at e3
      cases e3
      rw [hkeys, e5]
      exact hvec m s _ hs (List.getElem_mem _) (e6.1 hty)
  have hini : k = .ini → i'.structs = [] := by
    rintro rfl
    cases hS : i'.structs with
    | nil => rfl
    | cons p S => rw [hS] at hok; simp [structsOk, readerOk] at hok
  have hhandled : ∀ n ∈ i'.structs.keys, n ∈ handled k i'.structs := by
    intro n hn
    cases k
    case ini => rw [hini rfl] at hn; cases hn
    all_goals exact (hmem n).2 hn
  have htops : ∀ n ∈ tops i'.structs, n ∈ i'.structs.keys := by
    intro n hn
    rw [← hmem]
    unfold tops at hn
    rw [List.mem_map] at hn ⊢
    obtain ⟨s, hs, rfl⟩ := hn
    have := (List.mem_filter.1 hs).1
    rw [List.mem_map] at this
    obtain ⟨p, hp, rfl⟩ := this
    exact ⟨p, hp, rfl⟩
  -- the reader functions
  have hrd : ∀ s ∈ i'.structs.map Prod.snd, ∀ it ∈ readerDef k out.readerClass s,
      (∀ n ∈ it.readerCalls, n ∈ i'.structs.keys) ∧ it.writerCalls = [] := by
    intro s hs it hit
    rw [List.mem_map] at hs
    obtain ⟨p, hp, rfl⟩ := hs
    have hd := hdecl p hp
    have hrc : ∀ kk (co : ComplexLine), co ∈ p.2.complex → ∀ n, (match rdComplex kk co with
        | .child _ ty => some ty
        | .vector _ ty => some ty
        | _ => none) = some n → n ∈ i'.structs.keys := by
      intro kk co hco n h
      unfold rdComplex at h
      cases hty : co.ty <;> simp only [hty] at h
      case enum => cases hkk : decide (kk = Kind.xml) <;> simp_all
      case struct => cases h; exact hd co hco (Or.inl hty)
      case vector => cases h; exact hd co hco (Or.inr hty)
      all_goals cases h
    cases k
    case ini => cases hit
    all_goals
      simp only [readerDef, List.mem_singleton] at hit
      subst hit
      refine ⟨fun n hn => ?_, rfl⟩
      simp only [Item.readerCalls, List.mem_filterMap, List.mem_append, List.mem_map] at hn
    · obtain ⟨x, (⟨l, _, rfl⟩ | ⟨co, hco, rfl⟩), hx⟩ := hn
      · cases hx
      · exact hrc _ co hco n hx
    · obtain ⟨x, (⟨l, _, rfl⟩ | ⟨co, hco, rfl⟩), hx⟩ := hn
      · cases hx
      · exact hrc _ co hco n hx
    · obtain ⟨x, ⟨co, hco, hc⟩, hx⟩ := hn
      unfold nrdComplex at hc
      cases hty : co.ty <;> simp only [hty] at hc <;> cases hc <;> cases hx
      exact hd co hco (Or.inl hty)
  have hwr : ∀ s ∈ i'.structs.map Prod.snd, ∀ it ∈ writerDef k out.writerClass out.noDelta s,
      (∀ n ∈ it.writerCalls, n ∈ i'.structs.keys) ∧ it.readerCalls = [] := by
    intro s hs it hit
    rw [List.mem_map] at hs
    obtain ⟨p, hp, rfl⟩ := hs
    have hd := hdecl p hp
    have hrc : ∀ kk g (co : ComplexLine), co ∈ p.2.complex → ∀ n, (match wrComplex kk g co with
        | .child _ ty => some ty
        | .vector _ ty => some ty
        | _ => none) = some n → n ∈ i'.structs.keys := by
      intro kk g co hco n h
      unfold wrComplex at h
      cases hty : co.ty <;> simp only [hty] at h
      case enum => cases hkk : decide (kk = Kind.xml) <;> simp_all
      case struct => cases h; exact hd co hco (Or.inl hty)
      case vector => cases h; exact hd co hco (Or.inr hty)
      all_goals cases h
    cases k
    case ini => cases hit
    all_goals
      simp only [writerDef, List.mem_singleton] at hit
      subst hit
      refine ⟨fun n hn => ?_, rfl⟩
      simp only [Item.writerCalls, List.mem_filterMap, List.mem_append, List.mem_map] at hn
    · obtain ⟨x, (⟨l, _, rfl⟩ | ⟨co, hco, rfl⟩), hx⟩ := hn
      · cases hx
      · exact hrc _ _ co hco n hx
    · obtain ⟨x, (⟨l, _, rfl⟩ | ⟨co, hco, rfl⟩), hx⟩ := hn
      · cases hx
      · exact hrc _ _ co hco n hx
    · obtain ⟨x, (⟨l, _, rfl⟩ | ⟨co, hco, rfl⟩), hx⟩ := hn
      · cases hx
      · unfold nwrComplex at hx
        cases hty : co.ty <;> simp only [hty] at hx <;> cases hx
        exact hd co hco (Or.inl hty)
  intro it hit
  obtain ⟨_, _, c3, c4⟩ := structsCpp_contents k stamp fc fh inputs out i'.structs
  obtain ⟨_, _, d3, d4, _⟩ := structsH_contents k stamp fh inputs out i'.structs
  rw [c3, c4, d3, d4]
  have key : (∀ n ∈ it.readerCalls, n ∈ i'.structs.keys) ∧
      (∀ n ∈ it.writerCalls, out.onlyRead = false ∧ n ∈ i'.structs.keys) := by
    have raw : ∀ it : Item, (∃ t, it = .raw t) → (∀ n ∈ it.readerCalls, n ∈ i'.structs.keys) ∧
        (∀ n ∈ it.writerCalls, out.onlyRead = false ∧ n ∈ i'.structs.keys) := by
      rintro it ⟨t, rfl⟩
      exact ⟨by simp [Item.readerCalls], by simp [Item.writerCalls]⟩
    unfold structsCpp at hit
    simp only [List.mem_append] at hit
    rcases hit with ((((hit | hit) | hit) | hit) | hit) | hit
    · exact raw it (head_raw k stamp fc fh inputs out it hit)
    · rw [List.mem_singleton] at hit
      subst hit
      exact ⟨by simp [Item.readerCalls], by simp [Item.writerCalls]⟩
    · rw [List.mem_map] at hit
      obtain ⟨s, hs, rfl⟩ := hit
      refine ⟨fun n hn => ?_, by simp [Item.writerCalls]⟩
      simp only [Item.readerCalls, List.mem_singleton] at hn
      subst hn
      exact htops _ (List.mem_map_of_mem hs)
    · rw [List.mem_flatMap] at hit
      obtain ⟨s, hs, hit⟩ := hit
      obtain ⟨r1, r2⟩ := hrd s hs it hit
      exact ⟨r1, by rw [r2]; simp⟩
    · rw [List.mem_singleton] at hit
      subst hit
      exact ⟨by simp [Item.readerCalls], by simp [Item.writerCalls]⟩
    · cases ho : out.onlyRead with
      | true => rw [ho] at hit; simp at hit
      | false =>
        rw [ho] at hit
        simp only [Bool.false_eq_true, if_false, List.mem_append] at hit
        rcases hit with ((hit | hit) | hit) | hit
        · rw [List.mem_singleton] at hit
          subst hit
          exact ⟨by simp [Item.readerCalls], by simp [Item.writerCalls]⟩
        · rw [List.mem_map] at hit
          obtain ⟨s, hs, rfl⟩ := hit
          refine ⟨by simp [Item.readerCalls], fun n hn => ⟨rfl, ?_⟩⟩
          simp only [Item.writerCalls, List.mem_singleton] at hn
          subst hn
          exact htops _ (List.mem_map_of_mem hs)
        · rw [List.mem_flatMap] at hit
          obtain ⟨s, hs, hit⟩ := hit
          obtain ⟨r1, r2⟩ := hwr s hs it hit
          exact ⟨by rw [r2]; simp, fun n hn => ⟨rfl, r1 n hn⟩⟩
        · rw [List.mem_singleton] at hit
          subst hit
          exact ⟨by simp [Item.readerCalls], by simp [Item.writerCalls]⟩
  refine ⟨fun n hn => ?_, fun n hn => ?_⟩
  · have := hhandled n (key.1 n hn)
    exact ⟨this, List.mem_map_of_mem this⟩
  · obtain ⟨ho, hk⟩ := key.2 n hn
    have := hhandled n hk
    rw [ho]
    exact ⟨by simpa using this, by simpa using this⟩

/-- Non-vacuity: nested structs and a vector, all declared. -/
example : (prepare 0 [readFresh (c!"struct B { int x; }; struct C { int y; };" ++
      c!"struct A { B b; std::vector<C> c; };")]).map
      (fun r => (structsOk .attrib someSpec (r.1[0]?.getD Info.empty).structs,
        (structsCpp .attrib [] [] [] [] someSpec (r.1[0]?.getD Info.empty).structs).flatMap Item.readerCalls)) =
    some (true, [c!"A", c!"B", c!"C"]) := by decide +kernel

/-! ### C25 -/

/-- `l` holds each of `names` once and nothing else.  (Specification notion, models no code.) -/
def Exactly (l : List Str) (names : Str → Prop) : Prop := l.Nodup ∧ ∀ n, n ∈ l ↔ names n

theorem sorted_nodup {α : Type} {m : SMap α} (hs : m.Sorted) : m.keys.Nodup := by
  rw [SMap.sorted_iff_keys] at hs
  refine List.Pairwise.imp ?_ hs
  rintro a b h rfl
  rw [sLt_irrefl] at h
  cases h

theorem names_eq {α : Type} {m : SMap α} (hs : m.Sorted) (name : α → Str) (hn : ∀ k s, m.find? k = some s → name s = k) :
    m.map (fun p => name p.2) = m.keys := by
  unfold SMap.keys
  apply List.map_congr_left
  rintro ⟨k, s⟩ hm
  exact hn k s (hs.find?_of_mem hm)

theorem exactly_keys {α : Type} {m : SMap α} (hs : m.Sorted) : Exactly m.keys (· ∈ m.keys) := ⟨sorted_nodup hs, fun _ => Iff.rfl⟩

/-- C25, enums: at any time in any run, the enum files declare one `s_from_e`, one `s_to_e` and one formatter, and define
one `s_from_e` and one `s_to_e`, for each declared enum and for nothing else. -/
theorem C25_enums {h : Heap} {self : Nat} {i : Info} (hh : History h) (hi : h[self]? = some i) (stamp fc fh : Str)
    (inputs : List Str) :
    Exactly ((enumsH stamp fh inputs i.enums).filterMap Item.sFromEDecl) (· ∈ i.enums.keys) ∧
    Exactly ((enumsH stamp fh inputs i.enums).filterMap Item.sToEDecl) (· ∈ i.enums.keys) ∧
    Exactly ((enumsH stamp fh inputs i.enums).filterMap Item.formatterFor) (· ∈ i.enums.keys) ∧
    Exactly ((enumsCpp stamp fc fh inputs i.enums).filterMap Item.sFromEDef) (· ∈ i.enums.keys) ∧
    Exactly ((enumsCpp stamp fc fh inputs i.enums).filterMap Item.sToEDef) (· ∈ i.enums.keys) := by
  have ht := hh.ok.tab _ _ hi
  obtain ⟨h1, h2, h3⟩ := enumsH_contents stamp fh inputs i.enums
  obtain ⟨h4, h5⟩ := enumsCpp_contents stamp fc fh inputs i.enums
  have hn := names_eq ht.sortedE EnumS.name ht.nameE
  have hk := exactly_keys ht.sortedE
  rw [h1, h2, h3, h4, h5, hn]
  exact ⟨hk, hk, hk, hk, hk⟩

/-- C25 as stated is false for structs: the ini generator writes no functions at all. -/
theorem C25_refuted :
    ¬ ∀ (h : Heap) (self : Nat) (i : Info) (k : Kind) (out : OutSpec), History h → h[self]? = some i →
      Exactly ((structsH k [] [] [] out i.structs).filterMap Item.readerDeclared) (· ∈ i.structs.keys) := by
  intro hall
  have := ((hall [readFresh c!"struct A { int a; };"] 0 _ .ini someSpec (readFresh_history _) rfl).2 c!"A").2 (by decide +kernel)
  rw [(structsH_contents _ _ _ _ _ _).2.2.1] at this
  cases this

/-- C25, structs, the part that holds: with any generator but ini, the struct files declare and define exactly one reader
function and, unless only reading code is wanted, exactly one writer function per declared struct, in one reader class
and one writer class; with reading code only there is no writer class and no writer function. -/
theorem C25_structs_partial {h : Heap} {self : Nat} {i : Info} (hh : History h) (hi : h[self]? = some i) (k : Kind)
    (hk : k ≠ .ini) (stamp fc fh : Str) (inputs : List Str) (out : OutSpec) :
    let H := structsH k stamp fh inputs out i.structs
    let C := structsCpp k stamp fc fh inputs out i.structs
    Exactly (H.filterMap Item.readerDeclared) (· ∈ i.structs.keys) ∧
    Exactly ((C.filterMap Item.readerDefined).map Prod.snd) (· ∈ i.structs.keys) ∧
    (∀ x ∈ C.filterMap Item.readerDefined, x.1 = out.readerClass) ∧
    H.filterMap Item.readerClasses = [out.readerClass] ∧
    (out.onlyRead = false →
      Exactly (H.filterMap Item.writerDeclared) (· ∈ i.structs.keys) ∧
      Exactly ((C.filterMap Item.writerDefined).map Prod.snd) (· ∈ i.structs.keys) ∧
      (∀ x ∈ C.filterMap Item.writerDefined, x.1 = out.writerClass) ∧
      H.filterMap Item.writerClasses = [out.writerClass]) ∧
    (out.onlyRead = true → H.filterMap Item.writerDeclared = [] ∧ C.filterMap Item.writerDefined = [] ∧
      H.filterMap Item.writerClasses = [] ∧ H.filterMap Item.writeFileDecl = [] ∧ C.filterMap Item.writeFileDef = []) := by
  intro H C
  have ht := hh.ok.tab _ _ hi
  obtain ⟨_, h2, h3, h4, h5, h6⟩ := structsH_contents k stamp fh inputs out i.structs
  obtain ⟨_, c2, c3, c4⟩ := structsCpp_contents k stamp fc fh inputs out i.structs
  have hn := names_eq ht.sortedS StructS.name ht.nameS
  have he := exactly_keys ht.sortedS
  have hhd : handled k i.structs = i.structs.keys := by
    cases k
    case ini => exact absurd rfl hk
    all_goals exact hn
  rw [hhd] at h3 h4 c3 c4
  have hmap : ∀ c : Str, (i.structs.keys.map (fun x => (c, x))).map Prod.snd = i.structs.keys := by
    intro c; simp [Function.comp_def]
  refine ⟨by rw [h3]; exact he, by rw [c3, hmap]; exact he, ?_, h5, fun ho => ?_, fun ho => ?_⟩
  · intro x hx
    rw [c3] at hx
    simp only [List.mem_map] at hx
    obtain ⟨_, _, rfl⟩ := hx
    rfl
  · rw [ho] at h4 h6 c4
    simp only [Bool.false_eq_true, if_false] at h4 h6 c4
    refine ⟨by rw [h4]; exact he, by rw [c4, hmap]; exact he, ?_, h6⟩
    intro x hx
    rw [c4] at hx
    simp only [List.mem_map] at hx
    obtain ⟨_, _, rfl⟩ := hx
    rfl
  · rw [ho] at h2 h4 h6 c2 c4
    exact ⟨h4, c4, h6, h2, c2⟩

/-- Non-vacuity: tables with two structs and an enum. -/
example : (structsH .nIni [] [] [] someSpec (readFresh c!"struct A{int a;};enum E{X};struct B{E b;};").structs).filterMap
      Item.readerDeclared = [c!"A", c!"B"] := by decide +kernel
example : (enumsH [] [] [] (readFresh c!"struct A{int a;};enum E{X};struct B{E b;};").enums).filterMap
      Item.formatterFor = [c!"E"] := by decide +kernel

end Stfx.Gen
