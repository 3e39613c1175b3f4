import Verif.Gen.Generate
/-
What the generated files contain: lists of the functions declared and defined in them, in file order.
-/
set_option autoImplicit false
namespace Stfx.Gen
open Stfx.Parser Stfx.Items

/-! ### Kinds of pieces -/

/-- See the definition before it.  (Proof notion, models no code.) -/
def Item.sFromEDecl : Item → Option Str
  | .declSFromE n => some n
  | _ => none
/-- See the definition before it.  (Proof notion, models no code.) -/
def Item.sToEDecl : Item → Option Str
  | .declSToE n => some n
  | _ => none
/-- See the definition before it.  (Proof notion, models no code.) -/
def Item.formatterFor : Item → Option Str
  | .formatter n => some n
  | _ => none
/-- See the definition before it.  (Proof notion, models no code.) -/
def Item.sFromEDef : Item → Option Str
  | .defSFromE e => some e.name
  | _ => none
/-- See the definition before it.  (Proof notion, models no code.) -/
def Item.sToEDef : Item → Option Str
  | .defSToE e => some e.name
  | _ => none
/-- See the definition before it.  (Proof notion, models no code.) -/
def Item.readFileDecl : Item → Option Str
  | .declReadFile _ n => some n
  | _ => none
/-- See the definition before it.  (Proof notion, models no code.) -/
def Item.writeFileDecl : Item → Option Str
  | .declWriteFile _ n => some n
  | _ => none
/-- class and struct name of a `read_from_file` definition  (Proof notion, models no code.) -/
def Item.readFileDef : Item → Option (Str × Str)
  | .defReadFile _ c n => some (c, n)
  | _ => none
/-- See the definition before it.  (Proof notion, models no code.) -/
def Item.writeFileDef : Item → Option (Str × Str)
  | .defWriteFile _ c n => some (c, n)
  | _ => none
/-- See the definition before it.  (Proof notion, models no code.) -/
def Item.readerDeclared : Item → Option Str
  | .declRd _ n => some n
  | _ => none
/-- See the definition before it.  (Proof notion, models no code.) -/
def Item.writerDeclared : Item → Option Str
  | .declWr _ n => some n
  | _ => none
/-- class and struct name of a reader function definition  (Proof notion, models no code.) -/
def Item.readerDefined : Item → Option (Str × Str)
  | .defRd _ c n _ _ _ => some (c, n)
  | .defNRd c n _ _ _ => some (c, n)
  | _ => none
/-- See the definition before it.  (Proof notion, models no code.) -/
def Item.writerDefined : Item → Option (Str × Str)
  | .defWr _ c n _ _ _ _ => some (c, n)
  | .defNWr c n _ _ => some (c, n)
  | _ => none
/-- See the definition before it.  (Proof notion, models no code.) -/
def Item.readerClasses : Item → Option Str
  | .readerClass _ c => some c
  | _ => none
/-- See the definition before it.  (Proof notion, models no code.) -/
def Item.writerClasses : Item → Option Str
  | .writerClass _ c _ => some c
  | _ => none
/-- See the definition before it.  (Proof notion, models no code.) -/
def Item.isRaw : Item → Bool
  | .raw _ => true
  | _ => false

/-! ### Contents -/

/-- Names of the structs with file entry points.  (Proof notion, models no code.) -/
def tops (S : SMap StructS) : List Str := ((S.map Prod.snd).filter isTop).map StructS.name

/-- Names of the structs that get reader and writer functions (none in the ini generator).  (Proof notion, models no code.) -/
def handled (k : Kind) (S : SMap StructS) : List Str :=
  match k with
  | .ini => []
  | _ => S.map fun p => p.2.name

theorem filterMap_none {α β : Type} (l : List α) (f : α → Option β) (h : ∀ x ∈ l, f x = none) : l.filterMap f = [] :=
  List.filterMap_eq_nil_iff.2 h

theorem filterMap_map_none {α β γ : Type} (l : List α) (g : α → β) (f : β → Option γ) (h : ∀ x ∈ l, f (g x) = none) :
    (l.map g).filterMap f = [] := by
  rw [List.filterMap_map]; exact filterMap_none _ _ h

theorem filterMap_map_some {α β γ : Type} (l : List α) (g : α → β) (f : β → Option γ) (e : α → γ)
    (h : ∀ x ∈ l, f (g x) = some (e x)) : (l.map g).filterMap f = l.map e := by
  induction l with
  | nil => rfl
  | cons a l ih =>
    rw [List.map_cons, List.filterMap_cons, h a List.mem_cons_self, List.map_cons,
      ih (fun x hx => h x (List.mem_cons_of_mem _ hx))]

theorem filterMap_flatMap_none {α β γ : Type} (l : List α) (g : α → List β) (f : β → Option γ)
    (h : ∀ x ∈ l, ∀ y ∈ g x, f y = none) : (l.flatMap g).filterMap f = [] := by
  apply filterMap_none
  intro y hy
  obtain ⟨x, hx, hy⟩ := List.mem_flatMap.1 hy
  exact h x hx y hy

theorem filterMap_flatMap_one {α β γ : Type} (l : List α) (g : α → List β) (f : β → Option γ) (e : α → γ)
    (h : ∀ x ∈ l, (g x).filterMap f = [e x]) : (l.flatMap g).filterMap f = l.map e := by
  induction l with
  | nil => rfl
  | cons a l ih =>
    rw [List.flatMap_cons, List.filterMap_append, h a List.mem_cons_self, List.map_cons,
      ih (fun x hx => h x (List.mem_cons_of_mem _ hx))]
    rfl

theorem head_raw (k : Kind) (stamp fc fh : Str) (inputs : List Str) (out : OutSpec) :
    ∀ x ∈ structsCppHead k stamp fc fh inputs out, ∃ t, x = .raw t := by
  intro x hx
  unfold structsCppHead at hx
  split at hx
  · simp only [List.cons_append, List.nil_append, List.mem_cons, List.mem_map] at hx
    rcases hx with h | h | h | h | h | h | ⟨f, _, h⟩ <;> exact ⟨_, by first | exact h | exact h.symm⟩
  · simp only [List.append_assoc, List.cons_append, List.nil_append, List.mem_cons, List.mem_append, List.mem_map] at hx
    rcases hx with h | h | h | h | h | h | h | ⟨f, _, h⟩
    · exact ⟨_, h⟩
    · exact ⟨_, h⟩
    · exact ⟨_, h⟩
    · exact ⟨_, h⟩
    · split at h
      · simp at h
      · rw [List.mem_singleton] at h; exact ⟨_, h⟩
    · exact ⟨_, h⟩
    · exact ⟨_, h⟩
    · exact ⟨_, h.symm⟩

theorem filterMap_head {β : Type} (k : Kind) (stamp fc fh : Str) (inputs : List Str) (out : OutSpec) (f : Item → Option β)
    (h : ∀ t, f (.raw t) = none) : (structsCppHead k stamp fc fh inputs out).filterMap f = [] := by
  apply filterMap_none
  intro x hx
  obtain ⟨t, rfl⟩ := head_raw k stamp fc fh inputs out x hx
  exact h t

/-- The structs .cpp file. -/
theorem structsCpp_contents (k : Kind) (stamp fc fh : Str) (inputs : List Str) (out : OutSpec) (S : SMap StructS) :
    let f := structsCpp k stamp fc fh inputs out S
    f.filterMap Item.readFileDef = (tops S).map (out.readerClass, ·) ∧
    f.filterMap Item.writeFileDef = (if out.onlyRead then [] else (tops S).map (out.writerClass, ·)) ∧
    f.filterMap Item.readerDefined = (handled k S).map (out.readerClass, ·) ∧
    f.filterMap Item.writerDefined = (if out.onlyRead then [] else (handled k S).map (out.writerClass, ·)) := by
  refine ⟨?_, ?_, ?_, ?_⟩
  · unfold structsCpp
    simp only [List.filterMap_append, filterMap_head k stamp fc fh inputs out Item.readFileDef (fun _ => rfl)]
    rw [filterMap_map_some (e := fun s : StructS => (out.readerClass, s.name)) (h := by intros; rfl),
      filterMap_flatMap_none (g := readerDef k out.readerClass)
        (h := by intro s _ y hy; cases k <;> simp [readerDef] at hy <;> rw [hy] <;> rfl)]
    cases out.onlyRead
    · simp only [Bool.false_eq_true, if_false, List.filterMap_append]
      rw [filterMap_map_none (h := by intros; rfl),
        filterMap_flatMap_none (g := writerDef k out.writerClass out.noDelta)
          (h := by intro s _ y hy; cases k <;> simp [writerDef] at hy <;> rw [hy] <;> rfl)]
      simp [tops, Item.readFileDef, List.filterMap_cons, Function.comp_def]
    · simp [tops, Item.readFileDef, List.filterMap_cons, Function.comp_def]
  · unfold structsCpp
    simp only [List.filterMap_append, filterMap_head k stamp fc fh inputs out Item.writeFileDef (fun _ => rfl)]
    rw [filterMap_map_none (h := by intros; rfl),
      filterMap_flatMap_none (g := readerDef k out.readerClass)
        (h := by intro s _ y hy; cases k <;> simp [readerDef] at hy <;> rw [hy] <;> rfl)]
    cases out.onlyRead
    · simp only [Bool.false_eq_true, if_false, List.filterMap_append]
      rw [filterMap_map_some (e := fun s : StructS => (out.writerClass, s.name)) (h := by intros; rfl),
        filterMap_flatMap_none (g := writerDef k out.writerClass out.noDelta)
          (h := by intro s _ y hy; cases k <;> simp [writerDef] at hy <;> rw [hy] <;> rfl)]
      simp [tops, Item.writeFileDef, List.filterMap_cons, Function.comp_def]
    · simp [Item.writeFileDef, List.filterMap_cons, Function.comp_def]
  · unfold structsCpp
    simp only [List.filterMap_append, filterMap_head k stamp fc fh inputs out Item.readerDefined (fun _ => rfl)]
    have hr : ((S.map Prod.snd).flatMap (readerDef k out.readerClass)).filterMap Item.readerDefined =
        (handled k S).map (out.readerClass, ·) := by
      cases k
      case ini => rw [filterMap_flatMap_none (h := by intro s _ y hy; cases hy)]; rfl
      all_goals
        rw [filterMap_flatMap_one (e := fun s : StructS => (out.readerClass, s.name)) (h := by intros; rfl)]
        simp [handled]
    rw [filterMap_map_none (h := by intros; rfl), hr]
    cases out.onlyRead
    · simp only [Bool.false_eq_true, if_false, List.filterMap_append]
      rw [filterMap_map_none (h := by intros; rfl),
        filterMap_flatMap_none (g := writerDef k out.writerClass out.noDelta)
          (h := by intro s _ y hy; cases k <;> simp [writerDef] at hy <;> rw [hy] <;> rfl)]
      simp [Item.readerDefined, List.filterMap_cons, Function.comp_def]
    · simp [Item.readerDefined, List.filterMap_cons, Function.comp_def]
  · unfold structsCpp
    simp only [List.filterMap_append, filterMap_head k stamp fc fh inputs out Item.writerDefined (fun _ => rfl)]
    have hr : ((S.map Prod.snd).flatMap (writerDef k out.writerClass out.noDelta)).filterMap Item.writerDefined =
        (handled k S).map (out.writerClass, ·) := by
      cases k
      case ini => rw [filterMap_flatMap_none (h := by intro s _ y hy; cases hy)]; rfl
      all_goals
        rw [filterMap_flatMap_one (e := fun s : StructS => (out.writerClass, s.name)) (h := by intros; rfl)]
        simp [handled]
    rw [filterMap_map_none (h := by intros; rfl), filterMap_flatMap_none (g := readerDef k out.readerClass)
        (h := by intro s _ y hy; cases k <;> simp [readerDef] at hy <;> rw [hy] <;> rfl)]
    cases out.onlyRead
    · simp only [Bool.false_eq_true, if_false, List.filterMap_append]
      rw [filterMap_map_none (h := by intros; rfl), hr]
      simp [Item.writerDefined, List.filterMap_cons, Function.comp_def]
    · simp [Item.writerDefined, List.filterMap_cons, Function.comp_def]

theorem hHead_none {β : Type} (k : Kind) (stamp fh : Str) (f : Item → Option β) (h : ∀ t, f (.raw t) = none) :
    (if k.isXml then [Item.raw (T.xml71 fh), .raw (T.xml72 (stfxInfo stamp)), .raw T.xml74]
     else [.raw (T.ini76 fh), .raw (T.ini77 (stfxInfo stamp)), .raw T.ini79]).filterMap f = [] := by
  cases k.isXml <;> simp [h]

/-- The structs .h file. -/
theorem structsH_contents (k : Kind) (stamp fh : Str) (inputs : List Str) (out : OutSpec) (S : SMap StructS) :
    let f := structsH k stamp fh inputs out S
    f.filterMap Item.readFileDecl = tops S ∧
    f.filterMap Item.writeFileDecl = (if out.onlyRead then [] else tops S) ∧
    f.filterMap Item.readerDeclared = handled k S ∧
    f.filterMap Item.writerDeclared = (if out.onlyRead then [] else handled k S) ∧
    f.filterMap Item.readerClasses = [out.readerClass] ∧
    f.filterMap Item.writerClasses = (if out.onlyRead then [] else [out.writerClass]) := by
  have hdecl : ∀ {β : Type} (g : Item → Option β), (∀ n, g (.declRd k n) = none) →
      ((S.map Prod.snd).flatMap (readerDecl k)).filterMap g = [] := by
    intro β g hg
    apply filterMap_flatMap_none
    intro s _ y hy; cases k <;> simp [readerDecl] at hy <;> rw [hy] <;> exact hg _
  have hwdecl : ∀ {β : Type} (g : Item → Option β), (∀ n, g (.declWr k n) = none) →
      ((S.map Prod.snd).flatMap (writerDecl k)).filterMap g = [] := by
    intro β g hg
    apply filterMap_flatMap_none
    intro s _ y hy; cases k <;> simp [writerDecl] at hy <;> rw [hy] <;> exact hg _
  have hr : ((S.map Prod.snd).flatMap (readerDecl k)).filterMap Item.readerDeclared = handled k S := by
    cases k
    case ini => rw [filterMap_flatMap_none (h := by intro s _ y hy; cases hy)]; rfl
    all_goals
      rw [filterMap_flatMap_one (e := fun s : StructS => s.name) (h := by intros; rfl)]
      simp [handled]
  have hw : ((S.map Prod.snd).flatMap (writerDecl k)).filterMap Item.writerDeclared = handled k S := by
    cases k
    case ini => rw [filterMap_flatMap_none (h := by intro s _ y hy; cases hy)]; rfl
    all_goals
      rw [filterMap_flatMap_one (e := fun s : StructS => s.name) (h := by intros; rfl)]
      simp [handled]
  refine ⟨?_, ?_, ?_, ?_, ?_, ?_⟩
  · unfold structsH
    simp only [List.filterMap_append, hHead_none k stamp fh Item.readFileDecl (fun _ => rfl)]
    rw [filterMap_map_none (l := inputs) (h := by intros; rfl), hdecl _ (fun _ => rfl),
      filterMap_map_some (g := fun s : StructS => Item.declReadFile k s.name) (e := fun s : StructS => s.name) (h := by intros; rfl)]
    cases out.onlyRead
    · simp only [Bool.false_eq_true, if_false, List.filterMap_append]
      rw [filterMap_map_none (h := by intros; rfl), hwdecl _ (fun _ => rfl)]
      simp [tops, Item.readFileDecl, List.filterMap_cons, Function.comp_def]
    · simp [tops, Item.readFileDecl, List.filterMap_cons, Function.comp_def]
  · unfold structsH
    simp only [List.filterMap_append, hHead_none k stamp fh Item.writeFileDecl (fun _ => rfl)]
    rw [filterMap_map_none (l := inputs) (h := by intros; rfl), hdecl _ (fun _ => rfl),
      filterMap_map_none (g := fun s : StructS => Item.declReadFile k s.name) (h := by intros; rfl)]
    cases out.onlyRead
    · simp only [Bool.false_eq_true, if_false, List.filterMap_append]
      rw [filterMap_map_some (e := fun s : StructS => s.name) (h := by intros; rfl), hwdecl _ (fun _ => rfl)]
      simp [tops, Item.writeFileDecl, List.filterMap_cons, Function.comp_def]
    · simp [Item.writeFileDecl, List.filterMap_cons, Function.comp_def]
  · unfold structsH
    simp only [List.filterMap_append, hHead_none k stamp fh Item.readerDeclared (fun _ => rfl)]
    rw [filterMap_map_none (l := inputs) (h := by intros; rfl), hr,
      filterMap_map_none (g := fun s : StructS => Item.declReadFile k s.name) (h := by intros; rfl)]
    cases out.onlyRead
    · simp only [Bool.false_eq_true, if_false, List.filterMap_append]
      rw [filterMap_map_none (h := by intros; rfl), hwdecl _ (fun _ => rfl)]
      simp [Item.readerDeclared, List.filterMap_cons, Function.comp_def]
    · simp [Item.readerDeclared, List.filterMap_cons, Function.comp_def]
  · unfold structsH
    simp only [List.filterMap_append, hHead_none k stamp fh Item.writerDeclared (fun _ => rfl)]
    rw [filterMap_map_none (l := inputs) (h := by intros; rfl), hdecl _ (fun _ => rfl),
      filterMap_map_none (g := fun s : StructS => Item.declReadFile k s.name) (h := by intros; rfl)]
    cases out.onlyRead
    · simp only [Bool.false_eq_true, if_false, List.filterMap_append]
      rw [filterMap_map_none (h := by intros; rfl), hw]
      simp [Item.writerDeclared, List.filterMap_cons, Function.comp_def]
    · simp [Item.writerDeclared, List.filterMap_cons, Function.comp_def]
  · unfold structsH
    simp only [List.filterMap_append, hHead_none k stamp fh Item.readerClasses (fun _ => rfl)]
    rw [filterMap_map_none (l := inputs) (h := by intros; rfl), hdecl _ (fun _ => rfl),
      filterMap_map_none (g := fun s : StructS => Item.declReadFile k s.name) (h := by intros; rfl)]
    cases out.onlyRead
    · simp only [Bool.false_eq_true, if_false, List.filterMap_append]
      rw [filterMap_map_none (h := by intros; rfl), hwdecl _ (fun _ => rfl)]
      simp [Item.readerClasses, List.filterMap_cons, Function.comp_def]
    · simp [Item.readerClasses, List.filterMap_cons, Function.comp_def]
  · unfold structsH
    simp only [List.filterMap_append, hHead_none k stamp fh Item.writerClasses (fun _ => rfl)]
    rw [filterMap_map_none (l := inputs) (h := by intros; rfl), hdecl _ (fun _ => rfl),
      filterMap_map_none (g := fun s : StructS => Item.declReadFile k s.name) (h := by intros; rfl)]
    cases out.onlyRead
    · simp only [Bool.false_eq_true, if_false, List.filterMap_append]
      rw [filterMap_map_none (h := by intros; rfl), hwdecl _ (fun _ => rfl)]
      simp [Item.writerClasses, List.filterMap_cons, Function.comp_def]
    · simp [Item.writerClasses, List.filterMap_cons, Function.comp_def]

/-- The enums .cpp file. -/
theorem enumsCpp_contents (stamp fc fh : Str) (inputs : List Str) (E : SMap EnumS) :
    let f := enumsCpp stamp fc fh inputs E
    f.filterMap Item.sFromEDef = E.map (·.2.name) ∧ f.filterMap Item.sToEDef = E.map (·.2.name) := by
  refine ⟨?_, ?_⟩
  · unfold enumsCpp
    simp only [List.filterMap_append]
    rw [filterMap_map_none (h := by intros; rfl), filterMap_flatMap_one (e := fun p : Str × EnumS => p.2.name) (h := by intros; rfl)]
    simp [Item.sFromEDef, List.filterMap_cons, Function.comp_def]
  · unfold enumsCpp
    simp only [List.filterMap_append]
    rw [filterMap_map_none (h := by intros; rfl), filterMap_flatMap_one (e := fun p : Str × EnumS => p.2.name) (h := by intros; rfl)]
    simp [Item.sToEDef, List.filterMap_cons, Function.comp_def]

/-- The enums .h file. -/
theorem enumsH_contents (stamp fh : Str) (inputs : List Str) (E : SMap EnumS) :
    let f := enumsH stamp fh inputs E
    f.filterMap Item.sFromEDecl = E.map (·.2.name) ∧ f.filterMap Item.sToEDecl = E.map (·.2.name) ∧
    f.filterMap Item.formatterFor = E.map (·.2.name) := by
  refine ⟨?_, ?_, ?_⟩
  · unfold enumsH
    simp only [List.filterMap_append]
    rw [filterMap_map_none (l := inputs) (h := by intros; rfl),
      filterMap_flatMap_one (e := fun p : Str × EnumS => p.2.name) (h := by intros; rfl), filterMap_map_none (h := by intros; rfl)]
    simp [Item.sFromEDecl, List.filterMap_cons, Function.comp_def]
  · unfold enumsH
    simp only [List.filterMap_append]
    rw [filterMap_map_none (l := inputs) (h := by intros; rfl),
      filterMap_flatMap_one (e := fun p : Str × EnumS => p.2.name) (h := by intros; rfl), filterMap_map_none (h := by intros; rfl)]
    simp [Item.sToEDecl, List.filterMap_cons, Function.comp_def]
  · unfold enumsH
    simp only [List.filterMap_append]
    rw [filterMap_map_none (l := inputs) (h := by intros; rfl),
      filterMap_flatMap_none (h := by intro s _ y hy; simp at hy; rcases hy with rfl | rfl <;> rfl),
      filterMap_map_some (e := fun p : Str × EnumS => p.2.name) (h := by intros; rfl)]
    simp [Item.formatterFor, List.filterMap_cons, Function.comp_def]

end Stfx.Gen
