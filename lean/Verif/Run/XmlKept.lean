import Verif.Run.Schema
import Verif.Run.Depth
/-
Objects that survive being written to an XML file and read back.
-/
set_option autoImplicit false
namespace Stfx.Run
open Stfx.Items Stfx.Parser Stfx.Gen Stfx.Lexer

/-- Two simple or enum members are equal for C++: the same value, where no floating point number equals a
not-a-number and zeros of either sign are equal.  (Proof notion, models no code.) -/
def CppEqual : Val → Val → Prop
  | .bool a, .bool b => a = b
  | .num a, .num b => a = b
  | .str a, .str b => a = b
  | .flt a, .flt b => a % 0x80000000 ≤ 0x7f800000 ∧ b % 0x80000000 ≤ 0x7f800000 ∧
      (a = b ∨ a % 0x80000000 = 0 ∧ b % 0x80000000 = 0)
  | .dbl a, .dbl b => a % 0x8000000000000000 ≤ 0x7ff0000000000000 ∧ b % 0x8000000000000000 ≤ 0x7ff0000000000000 ∧
      (a = b ∨ a % 0x8000000000000000 = 0 ∧ b % 0x8000000000000000 = 0)
  | _, _ => False

theorem neq_false {v d : Val} : neq v d = .ok false ↔ CppEqual v d := by
  cases v <;> cases d <;> simp only [neq, CppEqual, reduceCtorEq, R.ok.injEq, decide_eq_false_iff_not, ne_eq, Decidable.not_not]
  · rename_i a b
    simp only [ieeeEq, isNaN, isZero, Bool.not_eq_false', Bool.and_eq_true, Bool.not_eq_true', Bool.or_eq_true,
      decide_eq_true_eq, Bool.and_eq_false_iff, decide_eq_false_iff_not, Nat.reducePow, Nat.reduceAdd, Nat.reduceSub]
    omega
  · rename_i a b
    simp only [ieeeEq, isNaN, isZero, Bool.not_eq_false', Bool.and_eq_true, Bool.not_eq_true', Bool.or_eq_true,
      decide_eq_true_eq, Bool.and_eq_false_iff, decide_eq_false_iff_not, Nat.reducePow, Nat.reduceAdd, Nat.reduceSub]
    omega

/-- Element XML loses strings that are white space up to the first NUL.  (Proof notion, models no code.) -/
def Hidden (k : Kind) : MTy → Val → Prop
  | .simple .stdString, .str s => k = .xml ∧ blank (cStr s) = true
  | _, _ => False

/-- A member with value `v` and default `d` survives a full file that is read into a default object.  (Proof notion, models no code.) -/
def KeptFull (L : Lib) (k : Kind) (ty : MTy) (d v : Val) : Prop := (Fits L ty v ∧ Visible k ty v) ∨ (Hidden k ty v ∧ v = d)

/-- The readers of attribute XML assign an uninitialised variable to members of these types if the attribute is missing.
(Proof notion, models no code.) -/
def LostIfMissing (k : Kind) : MTy → Prop
  | .simple ty => k = .attrib ∧ (ty = .short ∨ ty = .unsignedShort ∨ ty = .long ∨ ty = .unsignedLong)
  | _ => False

/-- A member with value `v` and default `d` survives a delta file that is read into a default object.  (Proof notion, models no code.) -/
structure KeptDelta (L : Lib) (k : Kind) (ty : MTy) (d v : Val) : Prop where
  initialised : d ≠ .undef
  leftOut : CppEqual v d → v = d ∧ ¬ LostIfMissing k ty
  written : ¬ CppEqual v d → Fits L ty v ∧ Visible k ty v

section
variable {T : CTable} {L : Lib} {k : Kind} {g delta : Bool}

theorem guard_full (h : (g && delta) = false) (d : Option Val) (v : Val) : guard g delta d v = .ok true := by
  unfold guard
  rw [h]
  simp

theorem guard_delta (h : (g && delta) = true) (d v : Val) : guard g delta (some d) v = neq v d := by
  unfold guard
  rw [h]
  simp

/-- Comparing initialised members of one type works. -/
theorem neq_ok {ty : MTy} (hl : ty.isLeaf = true) {d v : Val} (hv : CTable.WT T false ty v) (hd : CTable.WT T true ty d)
    (hu : d ≠ .undef) : ∃ b, neq v d = .ok b := by
  cases ty with
  | struct _ => cases hl
  | vec _ => cases hl
  | enum n =>
    cases hv with
    | undef h _ _ _ => cases h
    | enum _ _ _ =>
      cases hd with
      | undef _ _ _ _ => exact absurd rfl hu
      | enum _ _ _ => exact ⟨_, rfl⟩
  | simple ty =>
    cases hv with
    | undef h _ _ _ => cases h
    | simple hv =>
      cases hd with
      | undef _ _ _ _ => exact absurd rfl hu
      | simple hd =>
        cases ty <;> cases v <;> try (simp [CTable.simpleVal] at hv; done)
        all_goals
          cases d <;> first
            | exact ⟨_, rfl⟩
            | (simp [CTable.simpleVal] at hd; done)

/-- A string of white space in element XML leaves the member as it was. -/
theorem hidden_back {ty : MTy} {v : Val} (hv : Hidden k ty v) (t : Val) :
    ∃ s, leafText T L k ty v = .ok s ∧ readLeaf T L ty t (back k s) = .ok t := by
  unfold Hidden at hv
  split at hv
  · rename_i s
    obtain ⟨rfl, hb⟩ := hv
    refine ⟨cStr s, rfl, ?_⟩
    simp [back, hb, readLeaf, readSimple, assign, viaLocal]
  · cases hv

theorem leaf_full (he : T.EnumsOk) (hg : (g && delta) = false) {ty : MTy} (hl : ty.isLeaf = true) {d v : Val}
    (hw : CTable.WT T false ty v) (h : KeptFull L k ty d v) : leafTrip T L k g delta ty d d v = .ok v := by
  unfold leafTrip
  rw [guard_full hg]
  simp only [R.ok_bind]
  rcases h with ⟨hf, hv⟩ | ⟨hv, rfl⟩
  · obtain ⟨s, h1, h2⟩ := leaf_back he hl hw hf hv d
    rw [h1, R.ok_bind, h2]
  · obtain ⟨s, h1, h2⟩ := hidden_back (T := T) (L := L) hv v
    rw [h1, R.ok_bind, h2]

theorem leaf_full_any (he : T.EnumsOk) (hg : (g && delta) = false) {ty : MTy} (hl : ty.isLeaf = true) {d t v : Val}
    (hw : CTable.WT T false ty v) (hf : Fits L ty v) (hv : Visible k ty v) : leafTrip T L k g delta ty d t v = .ok v := by
  unfold leafTrip
  rw [guard_full hg]
  simp only [R.ok_bind]
  obtain ⟨s, h1, h2⟩ := leaf_back he hl hw hf hv t
  rw [h1, R.ok_bind, h2]

theorem leaf_delta (he : T.EnumsOk) (hk : k = .xml ∨ k = .attrib) (hg : (g && delta) = true) {ty : MTy}
    (hl : ty.isLeaf = true) {d v : Val} (hw : CTable.WT T false ty v) (hd : CTable.WT T true ty d)
    (h : KeptDelta L k ty d v) : leafTrip T L k g delta ty d d v = .ok v := by
  have hgt : g = true := by cases g <;> simp_all
  unfold leafTrip
  rw [if_pos hgt, guard_delta hg]
  obtain ⟨b, hb⟩ := neq_ok hl hw hd h.initialised
  rw [hb, R.ok_bind]
  cases b with
  | true =>
    obtain ⟨hf, hv⟩ := h.written (by rw [← neq_false, hb]; simp)
    obtain ⟨s, h1, h2⟩ := leaf_back he hl hw hf hv d
    dsimp only
    rw [h1, R.ok_bind, h2]
  | false =>
    obtain ⟨rfl, hnl⟩ := h.leftOut (neq_false.1 hb)
    dsimp only
    rcases hk with rfl | rfl
    · simp
    · rw [if_neg (by decide)]
      cases ty with
      | simple ty =>
        have : viaLocal ty = false := by
          cases ty <;> first | rfl | (exfalso; exact hnl ⟨rfl, by simp⟩)
        simp [readLeaf, readSimple, assign, this]
      | enum n => rfl
      | struct _ => cases hl
      | vec _ => cases hl

/-! ### Objects -/

/-- Members of a default object have the types they were declared with. -/
theorem dflt_wt (hg : T.Good) {c : Str} {ms : List CMember} (hc : T.cls c = some ms) {ds : List (Str × Val)}
    (hd : T.dflt c = .struct ds) {m : CMember} (hm : m ∈ ms) {d : Val} (hl : ds.lookup m.name = some d) :
    CTable.WT T true m.ty d := by
  have := hg.wt c ms hc
  rw [hd] at this
  cases this with
  | struct hc' _ h =>
    rw [hc] at hc'
    cases hc'
    exact h m hm d hl

/-- The leaves of default and value, with the types of the defaults. -/
theorem over_wt (hg : T.Good) {P : MTy → Val → Val → Val → Prop} {ty : MTy} {d t v : Val} (h : Over T P ty d t v) :
    (ty.isLeaf = true → CTable.WT T true ty d) →
    Over T (fun ty d t v => CTable.WT T true ty d ∧ P ty d t v) ty d t v := by
  induction h with
  | leaf hl hp => intro hd; exact .leaf hl ⟨hd hl, hp⟩
  | struct hc hds hts hfs _ ih =>
    intro _
    exact .struct hc hds hts hfs fun m hm d' t' v' h1 h2 h3 => ih m hm d' t' v' h1 h2 h3 fun _ => dflt_wt hg hc hds hm h1
  | vec _ ih =>
    intro _
    exact .vec fun v hv => ih v hv fun h => by cases h

/-! ### Files -/

variable {fs : List (Str × Header)} {out : OutSpec} {prog : List Item}

/-- Write an object `v` and read the file into an object `t`: what the reader returns and the object.  (Proof notion, models no code.) -/
def writeRead (T : CTable) (L : Lib) (prog : List Item) (delta : Bool) (n : Str) (v t : Val) : R (Bool × Val) :=
  writeFile T L prog delta n v >>= fun root => readFile T L prog n (loadSaved L root) t

/-- Writing a value and reading the file into an object gives `w`: no undefined behaviour, and the reader reports
success.  (Proof notion, models no code.) -/
def FileGives (T : CTable) (L : Lib) (prog : List Item) (delta : Bool) (n : Str) (v t w : Val) : Prop :=
  writeRead T L prog delta n v t = .ok (true, w)

theorem fileGives (hG : Generated fs k out prog) (hk : k = .xml ∨ k = .attrib) (ho : out.onlyRead = false)
    (hT : Compiled (fs.flatMap fun f => f.2.decls) T) {n : Str} (hn : TopStruct (fs.flatMap fun f => f.2.decls) n)
    {d t v w : Val} (hd : nesting v ≤ L.maxDepth) (h : Trip T L k (!out.noDelta) delta (.struct n) d t v w) :
    FileGives T L prog delta n v t w := by
  obtain ⟨hc, hrw⟩ := hG.code hk ho hT
  obtain ⟨hr, hw⟩ := hrw n hn
  obtain ⟨root, h1, h2⟩ := file_trip hc hr hw h
  unfold FileGives writeRead
  rw [h1, R.ok_bind]
  exact h2 (by have := writeFile_depth h1; omega)

/-- Full files, read into any object without elements in its vectors. -/
theorem full_fresh (hG : Generated fs k out prog) (hk : k = .xml ∨ k = .attrib) (ho : out.onlyRead = false)
    (hdelta : delta = false ∨ out.noDelta = true)
    (hT : Compiled (fs.flatMap fun f => f.2.decls) T) {n : Str} (hn : TopStruct (fs.flatMap fun f => f.2.decls) n)
    {t v : Val} (hv : CTable.WT T false (.struct n) v) (hd : nesting v ≤ L.maxDepth)
    (hl : Leaves T (fun ty v => Fits L ty v ∧ Visible k ty v) (.struct n) v) (ht : Fresh T (.struct n) t) :
    FileGives T L prog delta n v t v := by
  refine fileGives hG hk ho hT hn hd (d := .undef) (trip_of_over ?_ (over_of_fresh hT.good hT.freshDefaults hv hl ht))
  intro ty d t v hlf hp
  refine leaf_full_any (hT.enumsOk hG.texts rfl) ?_ hlf hp.1 hp.2.1 hp.2.2
  rcases hdelta with h | h <;> simp [h]

/-- Full files, read into a default object. -/
theorem full_default (hG : Generated fs k out prog) (hk : k = .xml ∨ k = .attrib) (ho : out.onlyRead = false)
    (hdelta : delta = false ∨ out.noDelta = true)
    (hT : Compiled (fs.flatMap fun f => f.2.decls) T) (hni : NoStructInits (fs.flatMap fun f => f.2.decls))
    {n : Str} (hn : TopStruct (fs.flatMap fun f => f.2.decls) n)
    {v : Val} (hv : CTable.WT T false (.struct n) v) (hd : nesting v ≤ L.maxDepth)
    (hl : LeavesD T (KeptFull L k) (.struct n) (T.dflt n) v) : FileGives T L prog delta n v (T.dflt n) v := by
  refine fileGives hG hk ho hT hn hd (d := T.dflt n)
    (trip_of_over ?_ (over_of_default hT.good (hT.noStructInit hni) hv (fun _ => rfl) hl))
  rintro ty d t v hlf ⟨rfl, hp1, hp2⟩
  refine leaf_full (hT.enumsOk hG.texts rfl) ?_ hlf hp1 hp2
  rcases hdelta with h | h <;> simp [h]

/-- Delta files, read into a default object. -/
theorem delta_default (hG : Generated fs k out prog) (hk : k = .xml ∨ k = .attrib) (ho : out.onlyRead = false)
    (hnd : out.noDelta = false)
    (hT : Compiled (fs.flatMap fun f => f.2.decls) T) (hni : NoStructInits (fs.flatMap fun f => f.2.decls))
    {n : Str} (hn : TopStruct (fs.flatMap fun f => f.2.decls) n)
    {v : Val} (hv : CTable.WT T false (.struct n) v) (hd : nesting v ≤ L.maxDepth)
    (hl : LeavesD T (KeptDelta L k) (.struct n) (T.dflt n) v) : FileGives T L prog true n v (T.dflt n) v := by
  refine fileGives hG hk ho hT hn hd (d := T.dflt n)
    (trip_of_over ?_ (over_wt hT.good (over_of_default hT.good (hT.noStructInit hni) hv (fun _ => rfl) hl) fun h => by cases h))
  rintro ty d t v hlf ⟨hwd, rfl, hp1, hp2⟩
  exact leaf_delta (hT.enumsOk hG.texts rfl) hk (by simp [hnd]) hlf hp1 hwd hp2

end
end Stfx.Run
