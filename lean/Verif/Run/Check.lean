import Verif.Run.XmlKept
/-
Class tables given by lists, and checks of the hypotheses about them by computation (for examples).
-/
set_option autoImplicit false
namespace Stfx.Run
open Stfx.Items Stfx.Parser Stfx.Gen Stfx.Lexer

/-- A class table as lists.  (Proof notion, models no code.) -/
structure CData where
  cls : List (Str × List CMember)
  enm : List (Str × EnumS × List (Str × Int))
  dflt : List (Str × Val)
  longBits : Nat

/-- The table of the lists.  (Proof notion, models no code.) -/
def CData.table (D : CData) : CTable where
  cls n := D.cls.lookup n
  enm n := (D.enm.lookup n).map fun p => (p.1, fun s => (p.2.lookup s).getD 0)
  dflt n := (D.dflt.lookup n).getD .undef
  longBits := D.longBits

theorem mem_of_lookup {α : Type} {l : List (Str × α)} {n : Str} {a : α} (h : l.lookup n = some a) : (n, a) ∈ l := by
  induction l with
  | nil => cases h
  | cons p l ih =>
    obtain ⟨m, b⟩ := p
    by_cases hm : n = m
    · subst hm
      simp only [List.lookup_cons_self, Option.some.injEq] at h
      subst h
      exact List.mem_cons_self
    · have hb : (n == m) = false := by simpa using hm
      rw [List.lookup_cons, hb] at h
      exact List.mem_cons_of_mem _ (ih h)

mutual
/-- Check `CTable.WT`.  (Proof notion, models no code.) -/
def wtb (T : CTable) (u : Bool) (v : Val) (ty : MTy) : Bool :=
  match v with
  | .undef =>
    u && (match ty with
      | .struct _ | .vec _ | .simple .stdString => false
      | _ => true)
  | .struct fs =>
    match ty with
    | .struct n =>
      match T.cls n with
      | some ms => fs.map Prod.fst = ms.map CMember.name && wtbFields T u fs ms
      | none => false
    | _ => false
  | .vec vs =>
    match ty with
    | .vec n => wtbVals T u vs (.struct n)
    | _ => false
  | .num i =>
    match ty with
    | .simple t => T.simpleVal t (.num i)
    | .enum n =>
      match T.enm n with
      | some (e, val) => decide (inSigned 32 i) && holds e val i
      | none => false
    | _ => false
  | .bool b => match ty with | .simple t => T.simpleVal t (.bool b) | _ => false
  | .flt b => match ty with | .simple t => T.simpleVal t (.flt b) | _ => false
  | .dbl b => match ty with | .simple t => T.simpleVal t (.dbl b) | _ => false
  | .str s => match ty with | .simple t => T.simpleVal t (.str s) | _ => false
/-- See the definition before it.  (Proof notion, models no code.) -/
def wtbFields (T : CTable) (u : Bool) (fs : List (Str × Val)) (ms : List CMember) : Bool :=
  match fs with
  | [] => true
  | (n, v) :: fs => (ms.all fun m => m.name ≠ n || wtb T u v m.ty) && wtbFields T u fs ms
/-- See the definition before it.  (Proof notion, models no code.) -/
def wtbVals (T : CTable) (u : Bool) (vs : List Val) (ty : MTy) : Bool :=
  match vs with
  | [] => true
  | v :: vs => wtb T u v ty && wtbVals T u vs ty
end

mutual
theorem wtb_sound {T : CTable} {u : Bool} : ∀ (v : Val) (ty : MTy), wtb T u v ty = true → CTable.WT T u ty v
  | .undef, ty, h => by
    simp only [wtb, Bool.and_eq_true] at h
    refine .undef h.1 ?_ ?_ ?_
    · rintro n rfl; simp at h
    · rintro n rfl; simp at h
    · rintro rfl; simp at h
  | .struct fs, ty, h => by
    simp only [wtb] at h
    split at h
    · split at h
      · rename_i ms hms
        simp only [Bool.and_eq_true, decide_eq_true_eq] at h
        exact .struct hms h.1 (wtbFields_sound fs ms h.2)
      · cases h
    · cases h
  | .vec vs, ty, h => by
    simp only [wtb] at h
    split at h
    · exact .vec (wtbVals_sound vs _ h)
    · cases h
  | .num i, ty, h => by
    simp only [wtb] at h
    split at h
    · exact .simple h
    · split at h
      · rename_i e val he
        simp only [Bool.and_eq_true, decide_eq_true_eq] at h
        exact .enum he h.1 h.2
      · cases h
    · cases h
  | .bool b, ty, h => by
    simp only [wtb] at h
    split at h
    · exact .simple h
    · cases h
  | .flt b, ty, h => by
    simp only [wtb] at h
    split at h
    · exact .simple h
    · cases h
  | .dbl b, ty, h => by
    simp only [wtb] at h
    split at h
    · exact .simple h
    · cases h
  | .str b, ty, h => by
    simp only [wtb] at h
    split at h
    · exact .simple h
    · cases h
theorem wtbFields_sound {T : CTable} {u : Bool} : ∀ (fs : List (Str × Val)) (ms : List CMember), wtbFields T u fs ms = true →
    ∀ m ∈ ms, ∀ v, fs.lookup m.name = some v → CTable.WT T u m.ty v
  | [], ms, h, m, hm, v, hl => by cases hl
  | (n, w) :: fs, ms, h, m, hm, v, hl => by
    simp only [wtbFields, Bool.and_eq_true, List.all_eq_true, Bool.or_eq_true, decide_eq_true_eq] at h
    by_cases hn : m.name = n
    · rw [hn] at hl
      simp only [List.lookup_cons_self, Option.some.injEq] at hl
      subst hl
      exact wtb_sound w m.ty ((h.1 m hm).resolve_left fun h => h hn)
    · have hb : (m.name == n) = false := by simpa using hn
      rw [List.lookup_cons, hb] at hl
      exact wtbFields_sound fs ms h.2 m hm v hl
theorem wtbVals_sound {T : CTable} {u : Bool} : ∀ (vs : List Val) (ty : MTy), wtbVals T u vs ty = true →
    ∀ v ∈ vs, CTable.WT T u ty v
  | [], ty, h, v, hv => by cases hv
  | w :: vs, ty, h, v, hv => by
    simp only [wtbVals, Bool.and_eq_true] at h
    have h1 := wtb_sound w ty h.1
    have h2 := wtbVals_sound vs ty h.2
    rcases List.mem_cons.1 hv with e | hv
    · rw [e]; exact h1
    · exact h2 v hv
end

mutual
/-- Check `Leaves` (and, with the default, `LeavesD`): `p` gets the member type, its default and its value.
(Proof notion, models no code.) -/
def leavesb (T : CTable) (p : MTy → Val → Val → Bool) (v : Val) (ty : MTy) (d : Val) : Bool :=
  match v with
  | .struct fs =>
    match ty with
    | .struct n =>
      match T.cls n, T.dflt n with
      | some ms, .struct ds => leavesbFields T p fs ms ds
      | _, _ => false
    | _ => false
  | .vec vs =>
    match ty with
    | .vec n => leavesbVals T p vs n
    | _ => false
  | .undef => ty.isLeaf && p ty d .undef
  | .bool b => ty.isLeaf && p ty d (.bool b)
  | .num i => ty.isLeaf && p ty d (.num i)
  | .flt b => ty.isLeaf && p ty d (.flt b)
  | .dbl b => ty.isLeaf && p ty d (.dbl b)
  | .str s => ty.isLeaf && p ty d (.str s)
/-- See the definition before it.  (Proof notion, models no code.) -/
def leavesbFields (T : CTable) (p : MTy → Val → Val → Bool) (fs : List (Str × Val)) (ms : List CMember) (ds : List (Str × Val)) : Bool :=
  match fs with
  | [] => true
  | (n, v) :: fs =>
    (ms.all fun m => m.name ≠ n || (match ds.lookup n with | some d => leavesb T p v m.ty d | none => false)) &&
      leavesbFields T p fs ms ds
/-- See the definition before it.  (Proof notion, models no code.) -/
def leavesbVals (T : CTable) (p : MTy → Val → Val → Bool) (vs : List Val) (n : Str) : Bool :=
  match vs with
  | [] => true
  | v :: vs => leavesb T p v (.struct n) (T.dflt n) && leavesbVals T p vs n
end

mutual
theorem leavesb_sound {T : CTable} {p : MTy → Val → Val → Bool} {P : MTy → Val → Val → Prop}
    (hp : ∀ ty d v, p ty d v = true → P ty d v) : ∀ (v : Val) (ty : MTy) (d : Val), leavesb T p v ty d = true → LeavesD T P ty d v
  | .struct fs, ty, d, h => by
    simp only [leavesb] at h
    split at h
    · split at h
      · rename_i ms ds hms hds
        exact .struct hms hds (leavesbFields_sound hp fs ms ds h)
      · cases h
    · cases h
  | .vec vs, ty, d, h => by
    simp only [leavesb] at h
    split at h
    · exact .vec (leavesbVals_sound hp vs _ h)
    · cases h
  | .undef, ty, d, h => by
    simp only [leavesb, Bool.and_eq_true] at h
    exact .leaf h.1 (hp _ _ _ h.2)
  | .bool _, ty, d, h => by
    simp only [leavesb, Bool.and_eq_true] at h
    exact .leaf h.1 (hp _ _ _ h.2)
  | .num _, ty, d, h => by
    simp only [leavesb, Bool.and_eq_true] at h
    exact .leaf h.1 (hp _ _ _ h.2)
  | .flt _, ty, d, h => by
    simp only [leavesb, Bool.and_eq_true] at h
    exact .leaf h.1 (hp _ _ _ h.2)
  | .dbl _, ty, d, h => by
    simp only [leavesb, Bool.and_eq_true] at h
    exact .leaf h.1 (hp _ _ _ h.2)
  | .str _, ty, d, h => by
    simp only [leavesb, Bool.and_eq_true] at h
    exact .leaf h.1 (hp _ _ _ h.2)
theorem leavesbFields_sound {T : CTable} {p : MTy → Val → Val → Bool} {P : MTy → Val → Val → Prop}
    (hp : ∀ ty d v, p ty d v = true → P ty d v) : ∀ (fs : List (Str × Val)) (ms : List CMember) (ds : List (Str × Val)),
    leavesbFields T p fs ms ds = true →
    ∀ m ∈ ms, ∀ d v, ds.lookup m.name = some d → fs.lookup m.name = some v → LeavesD T P m.ty d v
  | [], ms, ds, h, m, hm, d, v, hd, hl => by cases hl
  | (n, w) :: fs, ms, ds, h, m, hm, d, v, hd, hl => by
    simp only [leavesbFields, Bool.and_eq_true, List.all_eq_true, Bool.or_eq_true, decide_eq_true_eq] at h
    by_cases hn : m.name = n
    · rw [hn] at hl hd
      simp only [List.lookup_cons_self, Option.some.injEq] at hl
      have := (h.1 m hm).resolve_left fun h => h hn
      rw [hd] at this
      have := leavesb_sound hp w m.ty d this
      rw [← hl]
      exact this
    · have hb : (m.name == n) = false := by simpa using hn
      rw [List.lookup_cons, hb] at hl
      exact leavesbFields_sound hp fs ms ds h.2 m hm d v hd hl
theorem leavesbVals_sound {T : CTable} {p : MTy → Val → Val → Bool} {P : MTy → Val → Val → Prop}
    (hp : ∀ ty d v, p ty d v = true → P ty d v) : ∀ (vs : List Val) (n : Str),
    leavesbVals T p vs n = true → ∀ v ∈ vs, LeavesD T P (.struct n) (T.dflt n) v
  | [], n, h, v, hv => by cases hv
  | w :: vs, n, h, v, hv => by
    simp only [leavesbVals, Bool.and_eq_true] at h
    have h1 := leavesb_sound hp w (.struct n) _ h.1
    have h2 := leavesbVals_sound hp vs n h.2
    rcases List.mem_cons.1 hv with e | hv
    · rw [e]; exact h1
    · exact h2 v hv
end

/-- Without the defaults. -/
theorem LeavesD.leaves {T : CTable} (hg : T.Good) {P : MTy → Val → Prop} {ty : MTy} {d v : Val}
    (h : LeavesD T (fun ty _ v => P ty v) ty d v) : Leaves T P ty v := by
  induction h with
  | leaf hl hp => exact .leaf hl hp
  | struct hc hd _ ih =>
    refine .struct hc ?_
    intro m hm v hv
    obtain ⟨ds, h1, _, h3⟩ := dflt_struct hg hc
    rw [hd] at h1
    cases h1
    exact ih m hm _ v (h3 m hm) hv
  | vec _ ih => exact .vec ih

mutual
/-- Check `Fresh`.  (Proof notion, models no code.) -/
def freshb (T : CTable) (v : Val) (ty : MTy) : Bool :=
  ty.isLeaf ||
  match v with
  | .struct fs =>
    match ty with
    | .struct n =>
      match T.cls n with
      | some ms => fs.map Prod.fst = ms.map CMember.name && freshbFields T fs ms
      | none => false
    | _ => false
  | .vec vs => vs.isEmpty && (match ty with | .vec _ => true | _ => false)
  | _ => false
/-- See the definition before it.  (Proof notion, models no code.) -/
def freshbFields (T : CTable) (fs : List (Str × Val)) (ms : List CMember) : Bool :=
  match fs with
  | [] => true
  | (n, v) :: fs => (ms.all fun m => m.name ≠ n || freshb T v m.ty) && freshbFields T fs ms
end

mutual
theorem freshb_sound {T : CTable} : ∀ (v : Val) (ty : MTy), freshb T v ty = true → Fresh T ty v
  | .struct fs, ty, h => by
    by_cases hl : ty.isLeaf = true
    · exact .leaf hl
    · simp only [freshb, hl, Bool.false_or] at h
      split at h
      · split at h
        · rename_i ms hms
          simp only [Bool.and_eq_true, decide_eq_true_eq] at h
          exact .struct hms h.1 (freshbFields_sound fs ms h.2)
        · cases h
      · cases h
  | .vec vs, ty, h => by
    by_cases hl : ty.isLeaf = true
    · exact .leaf hl
    · simp only [freshb, hl, Bool.false_or, Bool.and_eq_true] at h
      obtain ⟨h1, h2⟩ := h
      split at h2
      · cases vs with
        | nil => exact .vec
        | cons => cases h1
      · cases h2
  | .undef, ty, h => .leaf (by simpa [freshb] using h)
  | .bool _, ty, h => .leaf (by simpa [freshb] using h)
  | .num _, ty, h => .leaf (by simpa [freshb] using h)
  | .flt _, ty, h => .leaf (by simpa [freshb] using h)
  | .dbl _, ty, h => .leaf (by simpa [freshb] using h)
  | .str _, ty, h => .leaf (by simpa [freshb] using h)
theorem freshbFields_sound {T : CTable} : ∀ (fs : List (Str × Val)) (ms : List CMember), freshbFields T fs ms = true →
    ∀ m ∈ ms, ∀ v, fs.lookup m.name = some v → Fresh T m.ty v
  | [], ms, h, m, hm, v, hl => by cases hl
  | (n, w) :: fs, ms, h, m, hm, v, hl => by
    simp only [freshbFields, Bool.and_eq_true, List.all_eq_true, Bool.or_eq_true, decide_eq_true_eq] at h
    by_cases hn : m.name = n
    · rw [hn] at hl
      simp only [List.lookup_cons_self, Option.some.injEq] at hl
      subst hl
      exact freshb_sound w m.ty ((h.1 m hm).resolve_left fun h => h hn)
    · have hb : (m.name == n) = false := by simpa using hn
      rw [List.lookup_cons, hb] at hl
      exact freshbFields_sound fs ms h.2 m hm v hl
end

/-- Check `CTable.Good`.  (Proof notion, models no code.) -/
def CData.goodb (D : CData) : Bool :=
  (D.cls.all fun p => decide (p.2.map CMember.name).Nodup &&
    (D.table.dflt p.1 == .struct (p.2.map fun m => (m.name, D.table.memberDflt m))) &&
    wtb D.table true (D.table.dflt p.1) (.struct p.1)) &&
  decide (32 ≤ D.longBits)

theorem CData.good {D : CData} (h : D.goodb = true) : D.table.Good := by
  unfold CData.goodb at h
  simp only [Bool.and_eq_true, List.all_eq_true, decide_eq_true_eq, beq_iff_eq] at h
  obtain ⟨h1, h2⟩ := h
  refine ⟨?_, ?_, ?_, h2⟩
  · intro n ms hc; exact (h1 (n, ms) (mem_of_lookup hc)).1.1
  · intro n ms hc; exact (h1 (n, ms) (mem_of_lookup hc)).1.2
  · intro n ms hc; exact wtb_sound _ _ (h1 (n, ms) (mem_of_lookup hc)).2

/-- Check one declaration for `Compiled`.  (Proof notion, models no code.) -/
def CData.declb (D : CData) (ds : List Decl) : Decl → Bool
  | .struct n m ms =>
    (match D.table.cls n with
      | some cs => cs.map (fun c => (c.name, c.ty, c.init.isSome)) =
          (m :: ms).map fun m => (m.name, memberType ds m, m.hasInit)
      | none => false) &&
    (m :: ms).all fun
      | .vector el _ => ds.any (Decl.isStruct el)
      | _ => true
  | .enum c n x xs _ =>
    (match D.table.enm n with
      | some (e, _) => e == ⟨n, c, (x :: xs).map lineOf⟩
      | none => false) && decide ((x :: xs).map Enumerator.name).Nodup

/-- Check `Compiled`.  (Proof notion, models no code.) -/
def CData.compiledb (D : CData) (ds : List Decl) : Bool :=
  D.goodb && ds.all (D.declb ds) &&
  (D.cls.all fun p => ds.any (Decl.isStruct p.1)) &&
  (D.enm.all fun p => ds.any fun
    | .enum c n x xs _ => n == p.1 && p.2.1 == ⟨n, c, (x :: xs).map lineOf⟩
    | .struct .. => false) &&
  (D.cls.all fun p => p.2.all fun c => match c.init with | some v => freshb D.table v c.ty | none => true)

theorem CData.compiled {D : CData} {ds : List Decl} (h : D.compiledb ds = true) : Compiled ds D.table := by
  unfold CData.compiledb at h
  simp only [Bool.and_eq_true, List.all_eq_true] at h
  obtain ⟨⟨⟨⟨h1, h2⟩, h3⟩, h4⟩, h5⟩ := h
  refine ⟨CData.good h1, ?_, ?_, ?_, ?_, ?_, ?_, ?_⟩
  · intro n m ms hd
    have := h2 _ hd
    simp only [CData.declb, Bool.and_eq_true] at this
    obtain ⟨h, _⟩ := this
    split at h
    · rename_i cs hcs
      exact ⟨cs, hcs, of_decide_eq_true h⟩
    · cases h
  · intro n cs hc
    exact any_isStruct.1 (h3 _ (mem_of_lookup hc))
  · intro c n x xs t hd
    have := h2 _ hd
    simp only [CData.declb, Bool.and_eq_true] at this
    obtain ⟨h, _⟩ := this
    split at h
    · rename_i e val he
      rw [beq_iff_eq] at h
      exact ⟨val, by rw [he, h]⟩
    · cases h
  · intro n e val he
    unfold CData.table at he
    simp only [Option.map_eq_some_iff] at he
    obtain ⟨p, hp, he⟩ := he
    cases he
    have := h4 _ (mem_of_lookup hp)
    rw [List.any_eq_true] at this
    obtain ⟨d, hd, h⟩ := this
    cases d with
    | struct => cases h
    | enum c n' x xs t =>
      simp only [Bool.and_eq_true, beq_iff_eq] at h
      obtain ⟨rfl, h⟩ := h
      exact ⟨c, x, xs, t, hd, h⟩
  · intro c n x xs t hd
    have := h2 _ hd
    simp only [CData.declb, Bool.and_eq_true, decide_eq_true_eq] at this
    exact this.2
  · intro n m ms hd el v hm
    have := h2 _ hd
    simp only [CData.declb, Bool.and_eq_true, List.all_eq_true] at this
    exact this.2 _ hm
  · intro n cs hc c hcm v hv
    have := h5 _ (mem_of_lookup hc) c hcm
    rw [hv] at this
    exact freshb_sound _ _ this

/-- Check `NoStructInits`.  (Proof notion, models no code.) -/
def noStructInitsb (ds : List Decl) : Bool :=
  ds.all fun
    | .struct _ m ms => (m :: ms).all fun
      | .named ty _ d => !ds.any (Decl.isStruct ty) || d = .absent
      | _ => true
    | .enum .. => true

theorem noStructInits_of {ds : List Decl} (h : noStructInitsb ds = true) : NoStructInits ds := by
  intro n m ms hd ty v d hm hs
  have := List.all_eq_true.1 h _ hd
  have := List.all_eq_true.1 this _ hm
  simpa [hs] using this

/-- Check `TopStruct`.  (Proof notion, models no code.) -/
def topStructb (ds : List Decl) (n : Str) : Bool :=
  ds.any (Decl.isStruct n) &&
  ds.all fun
    | .struct _ m ms => (m :: ms).all fun p => memberType ds p ≠ .struct n && memberType ds p ≠ .vec n
    | .enum .. => true

theorem topStruct_of {ds : List Decl} {n : Str} (h : topStructb ds n = true) : TopStruct ds n := by
  unfold topStructb at h
  rw [Bool.and_eq_true] at h
  refine ⟨any_isStruct.1 h.1, ?_⟩
  intro n' m ms hd p hp
  have := List.all_eq_true.1 h.2 _ hd
  have := List.all_eq_true.1 this _ hp
  simpa using this

/-! ### Leaves -/

/-- Check `Fits` (no floating point).  (Proof notion, models no code.) -/
def fitsb (ty : MTy) (v : Val) : Bool :=
  match ty, v with
  | .simple .long, .num i => decide (inSigned 32 i)
  | .simple .unsignedLong, .num i => decide (inUnsigned 32 i)
  | .simple .stdString, .str s => decide ('\x00' ∉ s ∧ '\r' ∉ s)
  | .simple .float, .flt _ => false
  | .simple .double, .dbl _ => false
  | _, _ => true

theorem fits_of {L : Lib} {ty : MTy} {v : Val} (h : fitsb ty v = true) : Fits L ty v := by
  unfold fitsb at h
  unfold Fits
  split at h <;> simp_all

/-- Check `Visible`.  (Proof notion, models no code.) -/
def visibleb (k : Kind) (ty : MTy) (v : Val) : Bool :=
  match ty, v with
  | .simple .stdString, .str s => k ≠ .xml || !blank s
  | _, _ => true

theorem visible_of {k : Kind} {ty : MTy} {v : Val} (h : visibleb k ty v = true) : Visible k ty v := by
  unfold visibleb at h
  unfold Visible
  split at h
  · intro hk
    simpa [hk] using h
  · split <;> simp_all

/-- Check `KeptDelta`.  (Proof notion, models no code.) -/
def keptDeltab (k : Kind) (ty : MTy) (d v : Val) : Bool :=
  d ≠ .undef &&
  if neq v d = .ok false then
    v = d && (match ty with
      | .simple t => k ≠ .attrib || !viaLocal t
      | _ => true)
  else fitsb ty v && visibleb k ty v

theorem keptDelta_of {L : Lib} {k : Kind} {ty : MTy} {d v : Val} (h : keptDeltab k ty d v = true) : KeptDelta L k ty d v := by
  unfold keptDeltab at h
  rw [Bool.and_eq_true, decide_eq_true_eq] at h
  obtain ⟨h1, h2⟩ := h
  refine ⟨h1, ?_, ?_⟩
  · intro he
    rw [← neq_false] at he
    rw [if_pos he, Bool.and_eq_true, decide_eq_true_eq] at h2
    refine ⟨h2.1, ?_⟩
    intro hl
    cases ty with
    | simple t =>
      obtain ⟨rfl, hl⟩ : k = .attrib ∧ (t = .short ∨ t = .unsignedShort ∨ t = .long ∨ t = .unsignedLong) := hl
      rcases hl with rfl | rfl | rfl | rfl <;> simp [viaLocal] at h2
    | enum _ => exact hl
    | struct _ => exact hl
    | vec _ => exact hl
  · intro he
    rw [← neq_false] at he
    rw [if_neg he, Bool.and_eq_true] at h2
    exact ⟨fits_of h2.1, visible_of h2.2⟩

end Stfx.Run
