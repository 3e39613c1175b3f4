import Verif.Run.Xml
import Verif.Gen.Contents
import Verif.Items.Facts
/-
The functions in the generated XML files, looked up by name.
-/
set_option autoImplicit false
namespace Stfx.Run
open Stfx.Items Stfx.Parser Stfx.Gen

/-- The member type a resolved line stands for.  (Proof notion, models no code.) -/
def lineTy (co : ComplexLine) : MTy :=
  match co.ty with
  | .enum => .enum co.tyName
  | .vector => .vec co.tyName
  | _ => .struct co.tyName

/-- Names and types of the lines of a struct, in the order of the generated statements.  (Proof notion, models no code.) -/
def lines (s : StructS) : List (Str × MTy) :=
  s.simple.map (fun l => (l.name, .simple l.ty)) ++ s.complex.map (fun co => (co.name, lineTy co))

/-- All lines were resolved.  (Proof notion, models no code.) -/
def Resolved (s : StructS) : Prop := ∀ co ∈ s.complex, co.ty = .enum ∨ co.ty = .struct ∨ co.ty = .vector

/-- The reader statement of a line.  (Proof notion, models no code.) -/
def lineRd (k : Kind) (p : Str × MTy) : Rd :=
  match p.2 with
  | .simple ty => if k = .xml then .elem ty p.1 else .attr ty p.1
  | .enum _ => if k = .xml then .elemEnum p.1 else .attrEnum p.1
  | .struct t => .child p.1 t
  | .vec t => .vector p.1 t

/-- The writer statement of a line.  (Proof notion, models no code.) -/
def lineWr (k : Kind) (g : Bool) (p : Str × MTy) : Wr :=
  match p.2 with
  | .simple ty => if k = .xml then .elem g ty p.1 else .attr g ty p.1
  | .enum _ => if k = .xml then .elemEnum g p.1 else .attrEnum g p.1
  | .struct t => .child p.1 t
  | .vec t => .vector p.1 t

theorem rdComplex_line {k : Kind} {co : ComplexLine} (h : co.ty = .enum ∨ co.ty = .struct ∨ co.ty = .vector) :
    rdComplex k co = lineRd k (co.name, lineTy co) := by
  unfold rdComplex lineRd lineTy
  rcases h with h | h | h <;> rw [h]

theorem wrComplex_line {k : Kind} {g : Bool} {co : ComplexLine} (h : co.ty = .enum ∨ co.ty = .struct ∨ co.ty = .vector) :
    wrComplex k g co = lineWr k g (co.name, lineTy co) := by
  unfold wrComplex lineWr lineTy
  rcases h with h | h | h <;> rw [h]

theorem findSome_none {α β : Type} {l : List α} {f : α → Option β} (h : ∀ x ∈ l, f x = none) : l.findSome? f = none :=
  List.findSome?_eq_none_iff.2 h

/-- Functions are found by the name of the struct. -/
theorem findSome_defs {β : Type} {S : SMap StructS} (hn : ∀ k s, (k, s) ∈ S → s.name = k) {g : StructS → List Item}
    {f : Item → Option β} {n : Str} {e : StructS → β}
    (h : ∀ s, (g s).findSome? f = if s.name = n then some (e s) else none) :
    ((S.map Prod.snd).flatMap g).findSome? f = (S.find? n).map e := by
  induction S with
  | nil => rfl
  | cons p S ih =>
    obtain ⟨k, s⟩ := p
    rw [List.map_cons, List.flatMap_cons, List.findSome?_append, h, ih (fun k s hm => hn k s (List.mem_cons_of_mem _ hm)),
      SMap.find?_cons]
    have : s.name = k := hn k s List.mem_cons_self
    rw [this]
    by_cases hk : k = n
    · simp [hk]
    · simp [hk]

section
variable {k : Kind} {stamp fc fh : Str} {inputs : List Str} {out : OutSpec} {S : SMap StructS}

/-- What `structsCpp` consists of, with the parts named. -/
theorem structsCpp_parts : structsCpp k stamp fc fh inputs out S =
    structsCppHead k stamp fc fh inputs out ++ [Item.readerCtor k out.readerClass] ++
    ((S.map Prod.snd).filter isTop).map (fun s => .defReadFile k out.readerClass s.name) ++
    (S.map Prod.snd).flatMap (readerDef k out.readerClass) ++ [.raw (if k.isXml then T.xml134 else T.ini208)] ++
    (if out.onlyRead then []
     else
      [Item.writerCtor k out.writerClass out.readerClass] ++
      ((S.map Prod.snd).filter isTop).map (fun s => .defWriteFile k out.writerClass s.name) ++
      (S.map Prod.snd).flatMap (writerDef k out.writerClass out.noDelta) ++
      [.raw (if k.isXml then T.xml191 else T.ini264)]) := rfl

theorem head_findSome {β : Type} {f : Item → Option β} (hf : ∀ t, f (.raw t) = none) :
    (structsCppHead k stamp fc fh inputs out).findSome? f = none := by
  refine findSome_none fun x hx => ?_
  obtain ⟨t, rfl⟩ := head_raw k stamp fc fh inputs out x hx
  exact hf t

/-- The reader functions of the generated file. -/
theorem rdBody_gen (hk : k = .xml ∨ k = .attrib) (hn : ∀ k s, (k, s) ∈ S → s.name = k) (n : Str) :
    rdBody (structsCpp k stamp fc fh inputs out S) n = (S.find? n).map fun s =>
      (s.simple.map fun l => lineRd k (l.name, .simple l.ty)) ++ s.complex.map (rdComplex k) := by
  unfold rdBody
  rw [structsCpp_parts]
  simp only [List.findSome?_append]
  rw [head_findSome (fun _ => rfl)]
  rw [findSome_defs (n := n) (e := fun s => (s.simple.map fun l => lineRd k (l.name, .simple l.ty)) ++ s.complex.map (rdComplex k)) hn
    (by
      intro s
      rcases hk with rfl | rfl
      · simp only [readerDef, List.findSome?_cons, List.findSome?_nil]
        split <;> simp_all [lineRd]
      · simp only [readerDef, List.findSome?_cons, List.findSome?_nil]
        split <;> simp_all [lineRd])]
  rw [findSome_none (l := [Item.readerCtor k out.readerClass]) (by intro x hx; cases List.mem_singleton.1 hx; rfl)]
  rw [findSome_none (l := ((S.map Prod.snd).filter isTop).map (fun s => Item.defReadFile k out.readerClass s.name))
    (by intro x hx; obtain ⟨s, _, rfl⟩ := List.mem_map.1 hx; rfl)]
  rw [findSome_none (l := [Item.raw (if k.isXml then T.xml134 else T.ini208)])
    (by intro x hx; cases List.mem_singleton.1 hx; rfl)]
  rw [findSome_none (l := if out.onlyRead then [] else _) (by
      intro x hx
      split at hx
      · cases hx
      · simp only [List.mem_append, List.mem_singleton, List.mem_map, List.mem_flatMap] at hx
        rcases hx with ((rfl | ⟨s, _, rfl⟩) | ⟨s, _, hx⟩) | rfl
        · rfl
        · rfl
        · rcases hk with rfl | rfl <;> (cases List.mem_singleton.1 hx; rfl)
        · rfl)]
  simp

/-- The writer functions of the generated file. -/
theorem wrBody_gen (hk : k = .xml ∨ k = .attrib) (ho : out.onlyRead = false) (hn : ∀ k s, (k, s) ∈ S → s.name = k)
    (n : Str) :
    wrBody (structsCpp k stamp fc fh inputs out S) n = (S.find? n).map fun s =>
      (!out.noDelta, (s.simple.map fun l => lineWr k (!out.noDelta) (l.name, .simple l.ty)) ++
        s.complex.map (wrComplex k (!out.noDelta))) := by
  unfold wrBody
  rw [structsCpp_parts]
  simp only [List.findSome?_append, ho, Bool.false_eq_true, if_false]
  rw [head_findSome (fun _ => rfl)]
  rw [findSome_defs (n := n) (g := writerDef k out.writerClass out.noDelta) (e := fun s =>
      (!out.noDelta, (s.simple.map fun l => lineWr k (!out.noDelta) (l.name, .simple l.ty)) ++
        s.complex.map (wrComplex k (!out.noDelta)))) hn
    (by
      intro s
      rcases hk with rfl | rfl
      · simp only [writerDef, List.findSome?_cons, List.findSome?_nil]
        split <;> simp_all [lineWr]
      · simp only [writerDef, List.findSome?_cons, List.findSome?_nil]
        split <;> simp_all [lineWr])]
  rw [findSome_none (l := [Item.readerCtor k out.readerClass]) (by intro x hx; cases List.mem_singleton.1 hx; rfl)]
  rw [findSome_none (l := ((S.map Prod.snd).filter isTop).map (fun s => Item.defReadFile k out.readerClass s.name))
    (by intro x hx; obtain ⟨s, _, rfl⟩ := List.mem_map.1 hx; rfl)]
  rw [findSome_none (l := (S.map Prod.snd).flatMap (readerDef k out.readerClass)) (by
      intro x hx
      obtain ⟨s, _, hx⟩ := List.mem_flatMap.1 hx
      rcases hk with rfl | rfl <;> (cases List.mem_singleton.1 hx; rfl))]
  rw [findSome_none (l := [Item.raw (if k.isXml then T.xml134 else T.ini208)])
    (by intro x hx; cases List.mem_singleton.1 hx; rfl)]
  rw [findSome_none (l := [Item.writerCtor k out.writerClass out.readerClass])
    (by intro x hx; cases List.mem_singleton.1 hx; rfl)]
  rw [findSome_none (l := ((S.map Prod.snd).filter isTop).map (fun s => Item.defWriteFile k out.writerClass s.name))
    (by intro x hx; obtain ⟨s, _, rfl⟩ := List.mem_map.1 hx; rfl)]
  rw [findSome_none (l := [Item.raw (if k.isXml then T.xml191 else T.ini264)])
    (by intro x hx; cases List.mem_singleton.1 hx; rfl)]
  simp

/-- The file has the reading entry points of exactly the top structs. -/
theorem hasReadFile_gen (n : Str) : hasReadFile (structsCpp k stamp fc fh inputs out S) n = true ↔ n ∈ tops S := by
  unfold hasReadFile
  rw [(structsCpp_contents k stamp fc fh inputs out S).1]
  simp

/-- The same for writing. -/
theorem hasWriteFile_gen (ho : out.onlyRead = false) (n : Str) :
    hasWriteFile (structsCpp k stamp fc fh inputs out S) n = true ↔ n ∈ tops S := by
  unfold hasWriteFile
  rw [(structsCpp_contents k stamp fc fh inputs out S).2.1, ho]
  simp

end
end Stfx.Run
