import Verif.Run.IniText
import Verif.Run.Schema
/-
The n_ini functions generated from headers.
-/
set_option autoImplicit false
namespace Stfx.Run
open Stfx.Items Stfx.Parser Stfx.Gen

section
variable {stamp fc fh : Str} {inputs : List Str} {out : OutSpec} {S : SMap StructS}

/-- The reader functions of the generated file. -/
theorem nrdBody_gen (hn : ∀ k s, (k, s) ∈ S → s.name = k) (n : Str) :
    nrdBody (structsCpp .nIni stamp fc fh inputs out S) n = (S.find? n).map fun s =>
      ((if s.simple = [] then none
        else some (s.simple.map (fun l => .simple l.ty l.name) ++ s.complex.filterMap enumLook)),
        hasChildren s, s.complex.filterMap nrdComplex) := by
  unfold nrdBody
  rw [structsCpp_parts]
  simp only [List.findSome?_append]
  rw [head_findSome (fun _ => rfl)]
  rw [findSome_defs (n := n) (g := readerDef .nIni out.readerClass) (e := fun s =>
      ((if s.simple = [] then none
        else some (s.simple.map (fun l => Look.simple l.ty l.name) ++ s.complex.filterMap enumLook)),
        hasChildren s, s.complex.filterMap nrdComplex)) hn
    (by
      intro s
      simp only [readerDef, List.findSome?_cons, List.findSome?_nil]
      by_cases h : s.name = n
      · rw [if_pos h]
      · rw [if_neg h])]
  rw [findSome_none (l := [Item.readerCtor .nIni out.readerClass]) (by intro x hx; cases List.mem_singleton.1 hx; rfl)]
  rw [findSome_none (l := ((S.map Prod.snd).filter isTop).map (fun s => Item.defReadFile .nIni out.readerClass s.name))
    (by intro x hx; obtain ⟨s, _, rfl⟩ := List.mem_map.1 hx; rfl)]
  rw [findSome_none (l := [Item.raw (if Kind.nIni.isXml then T.xml134 else T.ini208)])
    (by intro x hx; cases List.mem_singleton.1 hx; rfl)]
  rw [findSome_none (l := if out.onlyRead then [] else _) (by
      intro x hx
      split at hx
      · cases hx
      · simp only [List.mem_append, List.mem_singleton, List.mem_map, List.mem_flatMap] at hx
        rcases hx with ((rfl | ⟨s, _, rfl⟩) | ⟨s, _, hx⟩) | rfl
        · rfl
        · rfl
        · cases List.mem_singleton.1 hx; rfl
        · rfl)]
  simp

/-- The writer functions of the generated file. -/
theorem nwrBody_gen (ho : out.onlyRead = false) (hn : ∀ k s, (k, s) ∈ S → s.name = k) (n : Str) :
    nwrBody (structsCpp .nIni stamp fc fh inputs out S) n = (S.find? n).map fun s =>
      (!out.noDelta, s.simple.map (fun l => .line (!out.noDelta) l.ty l.name) ++ s.complex.map (nwrComplex (!out.noDelta))) := by
  unfold nwrBody
  rw [structsCpp_parts]
  simp only [List.findSome?_append, ho, Bool.false_eq_true, if_false]
  rw [head_findSome (fun _ => rfl)]
  rw [findSome_defs (n := n) (g := writerDef .nIni out.writerClass out.noDelta) (e := fun s =>
      (!out.noDelta, s.simple.map (fun l => NWr.line (!out.noDelta) l.ty l.name) ++ s.complex.map (nwrComplex (!out.noDelta))))
      hn
    (by
      intro s
      simp only [writerDef, List.findSome?_cons, List.findSome?_nil]
      by_cases h : s.name = n
      · rw [if_pos h]
      · rw [if_neg h])]
  rw [findSome_none (l := [Item.readerCtor .nIni out.readerClass]) (by intro x hx; cases List.mem_singleton.1 hx; rfl)]
  rw [findSome_none (l := ((S.map Prod.snd).filter isTop).map (fun s => Item.defReadFile .nIni out.readerClass s.name))
    (by intro x hx; obtain ⟨s, _, rfl⟩ := List.mem_map.1 hx; rfl)]
  rw [findSome_none (l := (S.map Prod.snd).flatMap (readerDef .nIni out.readerClass)) (by
      intro x hx
      obtain ⟨s, _, hx⟩ := List.mem_flatMap.1 hx
      cases List.mem_singleton.1 hx; rfl)]
  rw [findSome_none (l := [Item.raw (if Kind.nIni.isXml then T.xml134 else T.ini208)])
    (by intro x hx; cases List.mem_singleton.1 hx; rfl)]
  rw [findSome_none (l := [Item.writerCtor .nIni out.writerClass out.readerClass])
    (by intro x hx; cases List.mem_singleton.1 hx; rfl)]
  rw [findSome_none (l := ((S.map Prod.snd).filter isTop).map (fun s => Item.defWriteFile .nIni out.writerClass s.name))
    (by intro x hx; obtain ⟨s, _, rfl⟩ := List.mem_map.1 hx; rfl)]
  rw [findSome_none (l := [Item.raw (if Kind.nIni.isXml then T.xml191 else T.ini264)])
    (by intro x hx; cases List.mem_singleton.1 hx; rfl)]
  simp

end

/-! ### In terms of the members -/

/-- A member with its type.  (Proof notion, models no code.) -/
abbrev Line := Str × MTy

/-- See the definition before it.  (Proof notion, models no code.) -/
def isSimpleTy : MTy → Bool
  | .simple _ => true
  | _ => false

/-- The look-up for a member.  (Proof notion, models no code.) -/
def lineLook : Line → Option Look
  | (n, .simple ty) => some (.simple ty n)
  | (n, .enum _) => some (.enum n)
  | (_, .struct _) => none
  | (_, .vec _) => none

/-- The reader statement for a member.  (Proof notion, models no code.) -/
def lineNRd : Line → Option NRd
  | (n, .struct t) => some (.child n t (spaced n))
  | (n, .vec _) => some (.vector n)
  | (_, .simple _) => none
  | (_, .enum _) => none

/-- The writer statement for a member.  (Proof notion, models no code.) -/
def lineNWr (g : Bool) : Line → NWr
  | (n, .simple ty) => .line g ty n
  | (n, .enum _) => .lineEnum g n
  | (n, .struct t) => .child n t (spaced n)
  | (n, .vec _) => .vector n

/-- The members in the order of the generated statements: first those of simple types.  (Proof notion, models no code.) -/
def ordered (ms : List CMember) : List Line :=
  (ms.filter fun m => isSimpleTy m.ty).map (fun m => (m.name, m.ty)) ++
  (ms.filter fun m => !isSimpleTy m.ty).map (fun m => (m.name, m.ty))

/-- The reader functions are made from the members of the structs: process_items_ini.cpp:290-446. -/
structure NRdCode (T : CTable) (prog : List Item) : Prop where
  good : T.Good
  ident : ∀ c ms, T.cls c = some ms → ∀ m ∈ ms, Ident m.name
  rd : ∀ c ms, T.cls c = some ms → ∃ dot, nrdBody prog c =
    some (if ms.any (fun m => isSimpleTy m.ty) then some ((ordered ms).filterMap lineLook) else none, dot,
      (ordered ms).filterMap lineNRd) ∧ (ms.any (fun m => !m.ty.isLeaf) = true → dot = true)

/-- So are the writer functions: process_items_ini.cpp:448-603. -/
structure NCode (T : CTable) (prog : List Item) (g : Bool) : Prop extends NRdCode T prog where
  wr : ∀ c ms, T.cls c = some ms → nwrBody prog c = some (g, (ordered ms).map (lineNWr g))

theorem filter_map_comm {α β : Type} (f : α → β) (p : β → Bool) (l : List α) :
    (l.map f).filter p = (l.filter fun a => p (f a)).map f := by
  rw [List.filter_map]
  rfl

/-- The lines of a struct are its members in that order. -/
theorem lines_ordered {ds : List Decl} {ms : List Member} {cs : List CMember} {s : StructS}
    (h1 : cs.map (fun m => (m.name, m.ty)) = ms.map fun m => (m.name, memberType ds m))
    (h2 : lines s = (ms.filter Member.isSimple ++ ms.filter fun m => !m.isSimple).map fun m => (m.name, memberType ds m)) :
    lines s = ordered cs ∧ (s.simple = [] ↔ cs.any (fun m => isSimpleTy m.ty) = false) := by
  have hp : ∀ m : Member, isSimpleTy (memberType ds m) = m.isSimple := by
    intro m
    cases m with
    | simple => rfl
    | named ty n d =>
      simp only [memberType]
      split <;> rfl
    | vector => rfl
  have e : ∀ q : Bool → Bool, ((cs.filter fun m => q (isSimpleTy m.ty)).map fun m => (m.name, m.ty)) =
      (ms.filter fun m => q m.isSimple).map fun m => (m.name, memberType ds m) := by
    intro q
    have := congrArg (List.filter fun p : Str × MTy => q (isSimpleTy p.2)) h1
    rw [filter_map_comm, filter_map_comm] at this
    rw [this]
    congr 1
    exact List.filter_congr fun m _ => by rw [hp]
  refine ⟨?_, ?_⟩
  · rw [h2, ordered, List.map_append]
    congr 1
    · exact (e id).symm
    · exact (e not).symm
  · rw [List.map_append] at h2
    unfold lines at h2
    have hs : (s.simple = []) ↔ (ms.filter Member.isSimple) = [] := by
      have := congrArg (List.filter fun p : Str × MTy => isSimpleTy p.2) h2
      rw [List.filter_append, List.filter_append, filter_map_comm, filter_map_comm, filter_map_comm, filter_map_comm] at this
      have hf : ∀ l : List Member, l.filter (fun _ => false) = [] := fun l => List.filter_eq_nil_iff.2 (by simp)
      simp only [hp, List.filter_filter, Bool.and_self, Bool.and_not_self, hf, List.map_nil, List.append_nil] at this
      have hc : (s.complex.filter fun a => isSimpleTy (lineTy a)) = [] := by
        rw [List.filter_eq_nil_iff]
        intro co _
        unfold lineTy
        split <;> simp [isSimpleTy]
      rw [hc, List.map_nil, List.append_nil] at this
      have h4 : (s.simple.filter fun a => isSimpleTy (.simple a.ty)) = s.simple := by
        rw [List.filter_eq_self]
        intro a _
        rfl
      rw [h4] at this
      constructor
      · intro h
        rw [h, List.map_nil] at this
        exact List.map_eq_nil_iff.1 this.symm
      · intro h
        rw [h, List.map_nil] at this
        exact List.map_eq_nil_iff.1 this
    rw [hs, List.filter_eq_nil_iff]
    have e' := e id
    constructor
    · intro h
      have : (ms.filter fun m => id m.isSimple) = [] := List.filter_eq_nil_iff.2 h
      rw [this, List.map_nil, List.map_eq_nil_iff, List.filter_eq_nil_iff] at e'
      rw [List.any_eq_false]
      exact e'
    · intro h
      rw [List.any_eq_false] at h
      have : (cs.filter fun m => id (isSimpleTy m.ty)) = [] := List.filter_eq_nil_iff.2 h
      rw [this, List.map_nil] at e'
      have := List.map_eq_nil_iff.1 e'.symm
      exact List.filter_eq_nil_iff.1 this

theorem filterMap_congr' {α β : Type} {f g : α → Option β} {l : List α} (h : ∀ x ∈ l, f x = g x) :
    l.filterMap f = l.filterMap g := by
  induction l with
  | nil => rfl
  | cons a l ih =>
    rw [List.filterMap_cons, List.filterMap_cons, h a List.mem_cons_self, ih fun x hx => h x (List.mem_cons_of_mem _ hx)]

section
variable {s : StructS}

theorem looks_lines (hr : Resolved s) :
    s.simple.map (fun l => Look.simple l.ty l.name) ++ s.complex.filterMap enumLook = (lines s).filterMap lineLook := by
  unfold lines
  rw [List.filterMap_append]
  congr 1
  · rw [List.filterMap_map]
    induction s.simple with
    | nil => rfl
    | cons l ls ih =>
      rw [List.map_cons, List.filterMap_cons_some (f := lineLook ∘ fun l : SimpleLine => (l.name, .simple l.ty))
        (b := .simple l.ty l.name) rfl, ih]
  · rw [List.filterMap_map]
    refine filterMap_congr' ?_
    intro co hco
    rcases hr co hco with h | h | h <;> simp [enumLook, lineTy, lineLook, h, Function.comp]

theorem kids_lines (hr : Resolved s) : s.complex.filterMap nrdComplex = (lines s).filterMap lineNRd := by
  unfold lines
  rw [List.filterMap_append, List.filterMap_map, List.filterMap_map]
  have : s.simple.filterMap (lineNRd ∘ fun l => (l.name, .simple l.ty)) = [] := by
    rw [List.filterMap_eq_nil_iff]
    intro l _
    rfl
  rw [this, List.nil_append]
  refine filterMap_congr' ?_
  intro co hco
  rcases hr co hco with h | h | h <;> simp [nrdComplex, lineTy, lineNRd, h, Function.comp]

theorem wr_lines (hr : Resolved s) (g : Bool) :
    s.simple.map (fun l => NWr.line g l.ty l.name) ++ s.complex.map (nwrComplex g) = (lines s).map (lineNWr g) := by
  unfold lines
  rw [List.map_append, List.map_map, List.map_map]
  congr 1
  refine List.map_congr_left ?_
  intro co hco
  rcases hr co hco with h | h | h <;> simp [nwrComplex, lineTy, lineNWr, h, Function.comp]

end

theorem mem_ordered {ms : List CMember} {p : Line} : p ∈ ordered ms ↔ ∃ m ∈ ms, p = (m.name, m.ty) := by
  unfold ordered
  simp only [List.mem_append, List.mem_map, List.mem_filter]
  constructor
  · rintro (⟨m, ⟨hm, _⟩, rfl⟩ | ⟨m, ⟨hm, _⟩, rfl⟩) <;> exact ⟨m, hm, rfl⟩
  · rintro ⟨m, hm, rfl⟩
    cases h : isSimpleTy m.ty with
    | true => exact Or.inl ⟨m, ⟨hm, h⟩, rfl⟩
    | false => exact Or.inr ⟨m, ⟨hm, by simp [h]⟩, rfl⟩

section
variable {fs : List (Str × Header)} {out : OutSpec} {prog : List Item} {T : CTable}

theorem Generated.nlines {k : Kind} (h : Generated fs k out prog) (hT : Compiled (fs.flatMap fun f => f.2.decls) T) :
    ∃ (i : Info) (stamp fc fh : Str) (inputs : List Str), prog = structsCpp k stamp fc fh inputs out i.structs ∧
      (∀ n s, (n, s) ∈ i.structs → s.name = n) ∧
      (∀ c cs, T.cls c = some cs → ∃ s, i.structs.find? c = some s ∧ Resolved s ∧ Run.lines s = ordered cs ∧
        (s.simple = [] ↔ cs.any (fun m => isSimpleTy m.ty) = false)) ∧
      ∀ n, n ∈ tops i.structs ↔ TopStruct (fs.flatMap fun f => f.2.decls) n := by
  obtain ⟨i, stamp, fc, fh, inputs, h1, h2, h3, h4⟩ := h.lines
  refine ⟨i, stamp, fc, fh, inputs, h1, h2, ?_, h4⟩
  intro c cs hc
  obtain ⟨m, ms, hd⟩ := hT.clsOnly c cs hc
  obtain ⟨cs', e1, e2⟩ := hT.cls c m ms hd
  rw [hc] at e1
  cases e1
  obtain ⟨s, g1, g2, g3⟩ := h3 c m ms hd
  have : cs.map (fun m => (m.name, m.ty)) =
      (m :: ms).map fun m => (m.name, memberType (fs.flatMap fun f => f.2.decls) m) := by
    have := congrArg (List.map fun p : Str × MTy × Bool => (p.1, p.2.1)) e2
    simpa only [List.map_map, Function.comp_def] using this
  obtain ⟨a, b⟩ := lines_ordered this g3
  exact ⟨s, g1, g2, a, b⟩

/-- The generated n_ini readers are readers for the classes of the headers. -/
theorem Generated.nrdCode (h : Generated fs .nIni out prog) (hT : Compiled (fs.flatMap fun f => f.2.decls) T) :
    NRdCode T prog ∧ ∀ n, TopStruct (fs.flatMap fun f => f.2.decls) n → hasReadFile prog n = true := by
  obtain ⟨i, stamp, fc, fh, inputs, rfl, h2, h3, h4⟩ := h.nlines hT
  refine ⟨⟨hT.good, ?_, ?_⟩, fun n hn => (hasReadFile_gen n).2 ((h4 n).2 hn)⟩
  · intro c cs hc x hx
    obtain ⟨m, ms, hd⟩ := hT.clsOnly c cs hc
    obtain ⟨cs', e1, e2⟩ := hT.cls c m ms hd
    rw [hc] at e1
    cases e1
    have he := congrArg (List.map Prod.fst) e2
    simp only [List.map_map, Function.comp_def] at he
    have hin : x.name ∈ cs.map CMember.name := List.mem_map_of_mem hx
    rw [show cs.map CMember.name = (m :: ms).map Member.name from he] at hin
    obtain ⟨y, hy, e⟩ := List.mem_map.1 hin
    obtain ⟨f, hf, hd'⟩ := List.mem_flatMap.1 hd
    rw [← e]
    exact member_ident (h.texts f hf) hd' hy
  intro c cs hc
  obtain ⟨s, g1, g2, g3, g4⟩ := h3 c cs hc
  refine ⟨hasChildren s, ?_, ?_⟩
  · rw [nrdBody_gen h2, g1, Option.map_some, looks_lines g2, kids_lines g2, g3]
    congr 2
    by_cases he : s.simple = []
    · rw [if_pos he, if_neg (by rw [g4.1 he]; simp)]
    · rw [if_neg he, if_pos]
      cases hb : cs.any (fun m => isSimpleTy m.ty) with
      | true => rfl
      | false => exact absurd (g4.2 hb) he
  · intro ha
    rw [List.any_eq_true] at ha
    obtain ⟨m, hm, hl⟩ := ha
    have : (m.name, m.ty) ∈ Run.lines s := g3 ▸ mem_ordered.2 ⟨m, hm, rfl⟩
    unfold Run.lines at this
    rcases List.mem_append.1 this with hx | hx
    · obtain ⟨l, _, e⟩ := List.mem_map.1 hx
      simp only [Prod.mk.injEq] at e
      rw [← e.2] at hl
      simp [MTy.isLeaf] at hl
    · obtain ⟨co, hco, e⟩ := List.mem_map.1 hx
      simp only [Prod.mk.injEq] at e
      rw [← e.2] at hl
      unfold hasChildren
      rw [List.any_eq_true]
      refine ⟨co, hco, ?_⟩
      rcases g2 co hco with h | h | h
      · simp [lineTy, h, MTy.isLeaf] at hl
      · simp [h]
      · simp [h]

/-- The same for writers. -/
theorem Generated.ncode (h : Generated fs .nIni out prog) (ho : out.onlyRead = false)
    (hT : Compiled (fs.flatMap fun f => f.2.decls) T) :
    NCode T prog (!out.noDelta) ∧ ∀ n, TopStruct (fs.flatMap fun f => f.2.decls) n →
      hasReadFile prog n = true ∧ hasWriteFile prog n = true := by
  obtain ⟨hr, hr'⟩ := h.nrdCode hT
  obtain ⟨i, stamp, fc, fh, inputs, rfl, h2, h3, h4⟩ := h.nlines hT
  refine ⟨⟨hr, ?_⟩, fun n hn => ⟨hr' n hn, (hasWriteFile_gen ho n).2 ((h4 n).2 hn)⟩⟩
  intro c cs hc
  obtain ⟨s, g1, g2, g3, _⟩ := h3 c cs hc
  rw [nwrBody_gen ho h2, g1, Option.map_some, wr_lines g2, g3]

end
end Stfx.Run
