import Verif.Run.Samples
import Verif.Main.SelfHost
/-
stfx's own configuration: the header /repo/src/configuration/config_data.h, the classes it declares, and the reader and
writer generated from it, /repo/src/configuration/structs.cpp, which stfx uses to read .stfx files (main.cpp:101-115).
-/
set_option autoImplicit false
namespace Stfx.Run
open Stfx.Items Stfx.Parser Stfx.Gen Stfx.Lexer

/-- The declarations of config_data.h:11-53. -/
def configDecls : Header where
  first := .enum true c!"serialization_type_E" ⟨c!"xml_attrib", none⟩
    [⟨c!"xml", none⟩, ⟨c!"ini", none⟩, ⟨c!"n_ini", none⟩, ⟨c!"json", none⟩] false
  more := [
    .struct c!"output_spec" (.simple .stdString c!"relative_directory" .empty) [
      .simple .stdString c!"enum_file" .empty, .simple .stdString c!"structs_file" .empty,
      .simple .stdString c!"structs_reader_class" (.val (.string c!"\"xml_reader_C\"")),
      .simple .stdString c!"structs_writer_class" (.val (.string c!"\"xml_writer_C\"")),
      .named c!"serialization_type_E" c!"file_type" (.val (.enumerator c!"serialization_type_E::xml_attrib")),
      .simple .bool c!"only_read_code" (.val .false_), .simple .bool c!"no_special_delta" (.val .false_)],
    .struct c!"input_file" (.simple .stdString c!"name" .absent) [],
    .struct c!"input_spec" (.vector c!"input_file" c!"input") [],
    .struct c!"uncommon_spec" (.vector c!"input_file" c!"input") [.named c!"output_spec" c!"out" .absent],
    .struct c!"config" (.named c!"input_spec" c!"common_in_files" .absent) [
      .named c!"output_spec" c!"common_out_files" .absent, .vector c!"uncommon_spec" c!"non_common"]]

/-- The header stfx is run on to generate its own configuration reader, config_data.h:1-55. -/
def configFiles : List (Str × Header) := [(Main.SelfHost.header, configDecls)]

/-- An `output_spec` as an object, config_data.h:20-30. -/
def outVal (o : OutSpec) : Val :=
  .struct [(c!"relative_directory", .str o.dir), (c!"enum_file", .str o.enumFile), (c!"structs_file", .str o.structsFile),
    (c!"structs_reader_class", .str o.readerClass), (c!"structs_writer_class", .str o.writerClass),
    (c!"file_type", .num o.fileType), (c!"only_read_code", .bool o.onlyRead), (c!"no_special_delta", .bool o.noDelta)]
/-- A vector of `input_file`, config_data.h:32-35. -/
def inputsVal (l : List Str) : Val := .vec (l.map fun s => .struct [(c!"name", .str s)])
/-- An `uncommon_spec`, config_data.h:43-47. -/
def groupVal (g : List Str × OutSpec) : Val := .struct [(c!"input", inputsVal g.1), (c!"out", outVal g.2)]
/-- A `config`, config_data.h:50-55. -/
def configVal (c : Main.Config) : Val :=
  .struct [(c!"common_in_files", .struct [(c!"input", inputsVal c.commonIn)]), (c!"common_out_files", outVal c.commonOut),
    (c!"non_common", .vec (c.nonCommon.map groupVal))]

/-- A default-initialised `config`, config_data.h:50-55. -/
def emptyConfig : Main.Config := ⟨[], Main.OutSpec.default, []⟩

/-- The members of `output_spec`, config_data.h:20-30. -/
def outMembers : List CMember := [
  ⟨c!"relative_directory", .simple .stdString, some (.str [])⟩, ⟨c!"enum_file", .simple .stdString, some (.str [])⟩,
  ⟨c!"structs_file", .simple .stdString, some (.str [])⟩,
  ⟨c!"structs_reader_class", .simple .stdString, some (.str c!"xml_reader_C")⟩,
  ⟨c!"structs_writer_class", .simple .stdString, some (.str c!"xml_writer_C")⟩,
  ⟨c!"file_type", .enum c!"serialization_type_E", some (.num 0)⟩,
  ⟨c!"only_read_code", .simple .bool, some (.bool false)⟩, ⟨c!"no_special_delta", .simple .bool, some (.bool false)⟩]

/-- The enum `serialization_type_E`, config_data.h:11-18. -/
def fileTypes : EnumS where
  name := c!"serialization_type_E"
  isClass := true
  enums := [⟨c!"xml_attrib", false, c!"-"⟩, ⟨c!"xml", false, c!"-"⟩, ⟨c!"ini", false, c!"-"⟩, ⟨c!"n_ini", false, c!"-"⟩,
    ⟨c!"json", false, c!"-"⟩]

/-- The classes of config_data.h. -/
def configData : CData where
  cls := [
    (c!"output_spec", outMembers),
    (c!"input_file", [⟨c!"name", .simple .stdString, none⟩]),
    (c!"input_spec", [⟨c!"input", .vec c!"input_file", none⟩]),
    (c!"uncommon_spec", [⟨c!"input", .vec c!"input_file", none⟩, ⟨c!"out", .struct c!"output_spec", none⟩]),
    (c!"config", [⟨c!"common_in_files", .struct c!"input_spec", none⟩, ⟨c!"common_out_files", .struct c!"output_spec", none⟩,
      ⟨c!"non_common", .vec c!"uncommon_spec", none⟩])]
  enm := [(c!"serialization_type_E", fileTypes, [(c!"xml_attrib", 0), (c!"xml", 1), (c!"ini", 2), (c!"n_ini", 3), (c!"json", 4)])]
  dflt := [
    (c!"output_spec", outVal Main.OutSpec.default), (c!"input_file", .struct [(c!"name", .str [])]),
    (c!"input_spec", .struct [(c!"input", .vec [])]), (c!"uncommon_spec", groupVal ([], Main.OutSpec.default)),
    (c!"config", configVal emptyConfig)]
  longBits := 64

/-- The code of /repo/src/configuration/structs.cpp. -/
def configProg : List Item :=
  structsCpp .attrib Main.SelfHost.env.stamp c!"structs.cpp" c!"structs.h" [c!"config_data.h"] Main.headerSpec
    (tablesOf configFiles).structs

theorem config_generated : Generated configFiles .attrib Main.headerSpec configProg := by
  have h : generatedb configFiles = true := by decide +kernel
  unfold generatedb at h
  simp only [Bool.and_eq_true, List.all_eq_true, decide_eq_true_eq] at h
  exact ⟨h.1.1, h.1.2, _, _, _, _, _, h.2, rfl⟩
theorem config_compiled : Compiled (configFiles.flatMap fun f => f.2.decls) configData.table :=
  CData.compiled (by decide +kernel)
theorem config_top : TopStruct (configFiles.flatMap fun f => f.2.decls) c!"config" := topStruct_of (by decide +kernel)
theorem config_noInits : NoStructInits (configFiles.flatMap fun f => f.2.decls) := noStructInits_of (by decide +kernel)

/-- `configProg` is the checked-in file, character by character. -/
theorem config_text : fileText configProg = Main.SelfHost.structsCpp :=
  Main.SelfHost.same_eq (by decide +kernel)

/-! ### Configurations as objects -/

/-- Members and their values side by side.  (Proof notion, models no code.) -/
def MemberVals (P : CMember → Val → Prop) : List CMember → List (Str × Val) → Prop
  | [], [] => True
  | m :: ms, (n, v) :: fs => m.name = n ∧ P m v ∧ MemberVals P ms fs
  | _, _ => False

theorem MemberVals.names {P : CMember → Val → Prop} {ms : List CMember} {fs : List (Str × Val)} (h : MemberVals P ms fs) :
    fs.map Prod.fst = ms.map CMember.name := by
  induction ms generalizing fs with
  | nil =>
    cases fs with
    | nil => rfl
    | cons p fs => cases h
  | cons m ms ih =>
    cases fs with
    | nil => cases h
    | cons p fs =>
      obtain ⟨n, v⟩ := p
      rw [List.map_cons, List.map_cons, ih h.2.2, h.1]

theorem MemberVals.lookup {P : CMember → Val → Prop} {ms : List CMember} {fs : List (Str × Val)} (h : MemberVals P ms fs)
    (hnd : (ms.map CMember.name).Nodup) : ∀ m ∈ ms, ∀ v, fs.lookup m.name = some v → P m v := by
  induction ms generalizing fs with
  | nil => intro m hm; cases hm
  | cons m ms ih =>
    cases fs with
    | nil => cases h
    | cons p fs =>
      obtain ⟨n, v⟩ := p
      obtain ⟨rfl, h1, h2⟩ := h
      rw [List.map_cons, List.nodup_cons] at hnd
      intro m' hm' v' hv'
      rcases List.mem_cons.1 hm' with rfl | hm'
      · simp only [List.lookup_cons_self, Option.some.injEq] at hv'
        subst hv'
        exact h1
      · have hne : m'.name ≠ m.name := fun he => hnd.1 (by rw [← he]; exact List.mem_map_of_mem hm')
        have hb : (m'.name == m.name) = false := by simpa using hne
        rw [List.lookup_cons, hb] at hv'
        exact ih h2 hnd.2 m' hm' v' hv'

theorem MemberVals.of_lookup {P : CMember → Val → Prop} {ms : List CMember} {fs : List (Str × Val)}
    (hn : fs.map Prod.fst = ms.map CMember.name) (hnd : (ms.map CMember.name).Nodup)
    (h : ∀ m ∈ ms, ∀ v, fs.lookup m.name = some v → P m v) : MemberVals P ms fs := by
  induction ms generalizing fs with
  | nil =>
    cases fs with
    | nil => trivial
    | cons p fs => cases hn
  | cons m ms ih =>
    cases fs with
    | nil => cases hn
    | cons p fs =>
      obtain ⟨n, v⟩ := p
      rw [List.map_cons, List.map_cons, List.cons.injEq] at hn
      obtain ⟨rfl, hn⟩ := hn
      rw [List.map_cons, List.nodup_cons] at hnd
      refine ⟨rfl, h m List.mem_cons_self v (by simp), ih hn hnd.2 ?_⟩
      intro m' hm' v' hv'
      have hne : m'.name ≠ m.name := fun he => hnd.1 (by rw [← he]; exact List.mem_map_of_mem hm')
      have hb : (m'.name == m.name) = false := by simpa using hne
      exact h m' (List.mem_cons_of_mem _ hm') v' (by rw [List.lookup_cons, hb]; exact hv')

section
variable {T : CTable} {P : MTy → Val → Val → Prop}

theorem wt_pairs (hg : T.Good) {u : Bool} {c : Str} {ms : List CMember} {fs : List (Str × Val)} (hc : T.cls c = some ms)
    (h : MemberVals (fun m v => CTable.WT T u m.ty v) ms fs) : CTable.WT T u (.struct c) (.struct fs) :=
  .struct hc h.names (h.lookup (hg.nodup c ms hc))

theorem leavesD_pairs (hg : T.Good) {c : Str} {ms : List CMember} {fs : List (Str × Val)} {d : Val} (hc : T.cls c = some ms)
    (hn : fs.map Prod.fst = ms.map CMember.name) :
    LeavesD T P (.struct c) d (.struct fs) ↔ MemberVals (fun m v => LeavesD T P m.ty (T.memberDflt m) v) ms fs := by
  obtain ⟨ds, h1, h2, h3⟩ := dflt_struct hg hc
  constructor
  · intro h
    exact MemberVals.of_lookup hn (hg.nodup c ms hc) fun m hm v hv => h.inv_struct hc h1 m hm _ v (h3 m hm) hv
  · intro h
    refine .struct hc h1 ?_
    intro m hm d' v' hd' hv'
    rw [h3 m hm] at hd'
    injection hd' with hd'
    subst hd'
    exact h.lookup (hg.nodup c ms hc) m hm v' hv'

theorem leavesD_vec {c : Str} {d : Val} {vs : List Val} :
    LeavesD T P (.vec c) d (.vec vs) ↔ ∀ v ∈ vs, LeavesD T P (.struct c) (T.dflt c) v :=
  ⟨fun h => h.inv_vec, .vec⟩

theorem leavesD_leaf {ty : MTy} {d v : Val} (hl : ty.isLeaf = true) : LeavesD T P ty d v ↔ P ty d v :=
  ⟨fun h => h.inv_leaf hl, .leaf hl⟩

end

/-- Every string of a configuration.  (Proof notion, models no code.) -/
def outStrings (o : OutSpec) : List Str := [o.dir, o.enumFile, o.structsFile, o.readerClass, o.writerClass]
/-- See the definition before it.  (Proof notion, models no code.) -/
def configStrings (c : Main.Config) : List Str :=
  c.commonIn ++ outStrings c.commonOut ++ c.nonCommon.flatMap fun g => g.1 ++ outStrings g.2

/-- The `file_type`s of a configuration.  (Proof notion, models no code.) -/
def configTypes (c : Main.Config) : List Int := c.commonOut.fileType :: c.nonCommon.map fun g => g.2.fileType

theorem out_wt {o : OutSpec} (h : inSigned 32 o.fileType) : CTable.WT configData.table false (.struct c!"output_spec") (outVal o) := by
  refine wt_pairs config_compiled.good (ms := outMembers) rfl ?_
  refine ⟨rfl, .simple rfl, rfl, .simple rfl, rfl, .simple rfl, rfl, .simple rfl, rfl, .simple rfl, rfl,
    .enum (e := fileTypes) rfl h ?_, rfl, .simple rfl, rfl, .simple rfl, trivial⟩
  unfold holds
  simp [fileTypes, h]

theorem inputs_wt (l : List Str) : CTable.WT configData.table false (.vec c!"input_file") (inputsVal l) := by
  refine .vec ?_
  intro v hv
  obtain ⟨s, _, rfl⟩ := List.mem_map.1 hv
  exact wt_pairs config_compiled.good (ms := [⟨c!"name", .simple .stdString, none⟩]) rfl ⟨rfl, .simple rfl, trivial⟩

theorem config_wt {c : Main.Config} (h : ∀ t ∈ configTypes c, inSigned 32 t) :
    CTable.WT configData.table false (.struct c!"config") (configVal c) := by
  refine wt_pairs config_compiled.good (ms := [⟨c!"common_in_files", .struct c!"input_spec", none⟩,
    ⟨c!"common_out_files", .struct c!"output_spec", none⟩, ⟨c!"non_common", .vec c!"uncommon_spec", none⟩]) rfl
    ⟨rfl, ?_, rfl, out_wt (h _ List.mem_cons_self), rfl, .vec ?_, trivial⟩
  · exact wt_pairs config_compiled.good (ms := [⟨c!"input", .vec c!"input_file", none⟩]) rfl ⟨rfl, inputs_wt _, trivial⟩
  · intro v hv
    obtain ⟨g, hg, rfl⟩ := List.mem_map.1 hv
    exact wt_pairs config_compiled.good (ms := [⟨c!"input", .vec c!"input_file", none⟩, ⟨c!"out", .struct c!"output_spec", none⟩])
      rfl ⟨rfl, inputs_wt _, rfl, out_wt (h _ (List.mem_cons_of_mem _ (List.mem_map_of_mem hg))), trivial⟩

/-- A condition on the members that only restricts strings; the defaults are strings without NUL and carriage return.
(Proof notion, models no code.) -/
structure OnStrings (P : MTy → Val → Val → Prop) (p : Str → Prop) : Prop where
  str : ∀ d s, '\x00' ∉ d → '\r' ∉ d → (P (.simple .stdString) (.str d) (.str s) ↔ p s)
  bool : ∀ a b, P (.simple .bool) (.bool a) (.bool b)
  enum : ∀ n i j, P (.enum n) (.num i) (.num j)

section
variable {P : MTy → Val → Val → Prop} {p : Str → Prop}

theorem out_leaves (h : OnStrings P p) (o : OutSpec) (d : Val) :
    LeavesD configData.table P (.struct c!"output_spec") d (outVal o) ↔ ∀ s ∈ outStrings o, p s := by
  unfold outVal
  rw [leavesD_pairs config_compiled.good (ms := outMembers) rfl rfl]
  have hs : ∀ (d s : Str), '\x00' ∉ d → '\r' ∉ d → (LeavesD configData.table P (.simple .stdString) (.str d) (.str s) ↔ p s) :=
    fun d s h1 h2 => by rw [leavesD_leaf rfl, h.str d s h1 h2]
  have hb : ∀ (a b : Bool), LeavesD configData.table P (.simple .bool) (.bool a) (.bool b) := fun a b => .leaf rfl (h.bool a b)
  have he : ∀ n (i j : Int), LeavesD configData.table P (.enum n) (.num i) (.num j) := fun n i j => .leaf rfl (h.enum n i j)
  simp [MemberVals, outMembers, CTable.memberDflt, hs, hb, he, outStrings]

theorem inputs_leaves (h : OnStrings P p) (l : List Str) (d : Val) :
    LeavesD configData.table P (.vec c!"input_file") d (inputsVal l) ↔ ∀ s ∈ l, p s := by
  unfold inputsVal
  rw [leavesD_vec]
  simp only [List.mem_map, forall_exists_index, and_imp, forall_apply_eq_imp_iff₂]
  refine forall_congr' fun s => forall_congr' fun _ => ?_
  rw [leavesD_pairs config_compiled.good (ms := [⟨c!"name", .simple .stdString, none⟩]) rfl rfl]
  have hs : LeavesD configData.table P (.simple .stdString) (.str []) (.str s) ↔ p s := by
    rw [leavesD_leaf rfl, h.str _ _ (by simp) (by simp)]
  simp [MemberVals, CTable.memberDflt, CTable.dfltTy, hs]

theorem config_leaves (h : OnStrings P p) (c : Main.Config) (d : Val) :
    LeavesD configData.table P (.struct c!"config") d (configVal c) ↔ ∀ s ∈ configStrings c, p s := by
  have hi : ∀ (l : List Str) (d : Val), LeavesD configData.table P (.struct c!"input_spec") d (.struct [(c!"input", inputsVal l)]) ↔
      ∀ s ∈ l, p s := by
    intro l d
    rw [leavesD_pairs config_compiled.good (ms := [⟨c!"input", .vec c!"input_file", none⟩]) rfl rfl]
    simp [MemberVals, inputs_leaves h]
  have hgr : ∀ (g : List Str × OutSpec) (d : Val), LeavesD configData.table P (.struct c!"uncommon_spec") d (groupVal g) ↔
      ∀ s ∈ g.1 ++ outStrings g.2, p s := by
    intro g d
    unfold groupVal
    rw [leavesD_pairs config_compiled.good (ms := [⟨c!"input", .vec c!"input_file", none⟩,
      ⟨c!"out", .struct c!"output_spec", none⟩]) rfl rfl]
    simp only [MemberVals, inputs_leaves h, out_leaves h, List.forall_mem_append]
    simp
  unfold configVal
  rw [leavesD_pairs config_compiled.good (ms := [⟨c!"common_in_files", .struct c!"input_spec", none⟩,
    ⟨c!"common_out_files", .struct c!"output_spec", none⟩, ⟨c!"non_common", .vec c!"uncommon_spec", none⟩]) rfl rfl]
  unfold configStrings
  simp only [MemberVals, hi, out_leaves h, leavesD_vec, List.forall_mem_append, true_and, and_true, List.mem_map,
    forall_exists_index, and_imp, forall_apply_eq_imp_iff₂, hgr, List.mem_flatMap, and_assoc]
  refine and_congr_right fun _ => and_congr_right fun _ => ⟨fun H s g hg hs => ?_, fun H g hg => ?_⟩
  · rcases List.mem_append.1 hs with hs | hs
    · exact (H g hg).1 s hs
    · exact (H g hg).2 s hs
  · exact ⟨fun s hs => H s g hg (List.mem_append_left _ hs), fun s hs => H s g hg (List.mem_append_right _ hs)⟩

end

/-- Configurations are not nested deeply. -/
theorem config_nesting (c : Main.Config) : nesting (configVal c) ≤ 6 := by
  have hv : ∀ (vs : List Val) (n : Nat), (∀ v ∈ vs, nesting v ≤ n) → nestingVals vs ≤ n := by
    intro vs n h
    induction vs with
    | nil => simp [nestingVals]
    | cons v vs ih =>
      rw [nestingVals]
      have := h v List.mem_cons_self
      have := ih fun v hv => h v (List.mem_cons_of_mem _ hv)
      omega
  have hin : ∀ l, nesting (inputsVal l) ≤ 3 := by
    intro l
    unfold inputsVal
    rw [nesting]
    refine Nat.succ_le_succ (hv _ 2 ?_)
    intro v hv
    obtain ⟨s, _, rfl⟩ := List.mem_map.1 hv
    simp [nesting, nestingFields]
  have ho : ∀ o, nesting (outVal o) ≤ 2 := by
    intro o
    simp [outVal, nesting, nestingFields]
  have hg : ∀ g ∈ c.nonCommon.map groupVal, nesting g ≤ 4 := by
    intro v hv
    obtain ⟨g, _, rfl⟩ := List.mem_map.1 hv
    unfold groupVal
    have := hin g.1
    have := ho g.2
    simp only [nesting, nestingFields]
    omega
  have h1 := hin c.commonIn
  have h2 := ho c.commonOut
  have h3 := hv _ 4 hg
  unfold configVal
  simp only [nesting, nestingFields]
  omega

/-! ### Objects as configurations -/

/-- The `output_spec` an object is, config_data.h:20-30. -/
def outOf : Val → Option OutSpec
  | .struct [(_, .str a), (_, .str b), (_, .str c), (_, .str d), (_, .str e), (_, .num t), (_, .bool r), (_, .bool n)] =>
    some ⟨a, b, c, d, e, t, r, n⟩
  | _ => none

/-- The `input_file` an object is, config_data.h:32-35. -/
def inputOf : Val → Option Str
  | .struct [(_, .str s)] => some s
  | _ => none

/-- The vector of `input_file` an object is, config_data.h:37-40. -/
def inputsOf : Val → Option (List Str)
  | .vec vs => vs.mapM inputOf
  | _ => none

/-- The `uncommon_spec` an object is, config_data.h:43-47. -/
def groupOf : Val → Option (List Str × OutSpec)
  | .struct [(_, i), (_, o)] => do return (← inputsOf i, ← outOf o)
  | _ => none

/-- The configuration an object of type `config` is; `none` if it has indeterminate members, config_data.h:50-55. -/
def configOf : Val → Option Main.Config
  | .struct [(_, .struct [(_, i)]), (_, o), (_, .vec gs)] => do return ⟨← inputsOf i, ← outOf o, ← gs.mapM groupOf⟩
  | _ => none

theorem mapM_back {α β : Type} {f : α → Option β} {g : β → α} (h : ∀ b, f (g b) = some b) (l : List β) :
    (l.map g).mapM f = some l := by
  induction l with
  | nil => rfl
  | cons b l ih => simp [List.mapM_cons, h, ih]

theorem outOf_back (o : OutSpec) : outOf (outVal o) = some o := rfl
theorem inputsOf_back (l : List Str) : inputsOf (inputsVal l) = some l := mapM_back (f := inputOf) (fun _ => rfl) l
theorem groupOf_back (g : List Str × OutSpec) : groupOf (groupVal g) = some g := by
  unfold groupVal groupOf
  dsimp only
  rw [inputsOf_back, outOf_back]
  rfl
theorem configOf_back (c : Main.Config) : configOf (configVal c) = some c := by
  unfold configVal configOf
  dsimp only
  rw [inputsOf_back, outOf_back, mapM_back groupOf_back]
  rfl

theorem MemberVals.cons {P : CMember → Val → Prop} {m : CMember} {ms : List CMember} {fs : List (Str × Val)} (h : MemberVals P (m :: ms) fs) :
    ∃ v fs', fs = (m.name, v) :: fs' ∧ P m v ∧ MemberVals P ms fs' := by
  cases fs with
  | nil => cases h
  | cons p fs =>
    obtain ⟨n, v⟩ := p
    obtain ⟨rfl, h1, h2⟩ := h
    exact ⟨v, fs, rfl, h1, h2⟩

theorem MemberVals.nil {P : CMember → Val → Prop} {fs : List (Str × Val)} (h : MemberVals P [] fs) : fs = [] := by
  cases fs with
  | nil => rfl
  | cons p fs => cases h

theorem wt_str {T : CTable} {v : Val} (h : CTable.WT T false (.simple .stdString) v) : ∃ s, v = .str s := by
  cases h with
  | undef h _ _ _ => cases h
  | simple h => cases v <;> simp_all [CTable.simpleVal]

theorem wt_bool {T : CTable} {v : Val} (h : CTable.WT T false (.simple .bool) v) : ∃ b, v = .bool b := by
  cases h with
  | undef h _ _ _ => cases h
  | simple h => cases v <;> simp_all [CTable.simpleVal]

theorem wt_enum {T : CTable} {n : Str} {v : Val} (h : CTable.WT T false (.enum n) v) : ∃ i, v = .num i ∧ inSigned 32 i := by
  cases h with
  | undef h _ _ _ => cases h
  | enum _ h _ => exact ⟨_, rfl, h⟩

theorem wt_vec {T : CTable} {n : Str} {v : Val} (h : CTable.WT T false (.vec n) v) :
    ∃ vs, v = .vec vs ∧ ∀ v ∈ vs, CTable.WT T false (.struct n) v := by
  cases h with
  | undef h _ _ _ => cases h
  | vec h => exact ⟨_, rfl, h⟩

theorem wt_pairs_inv {T : CTable} (hg : T.Good) {c : Str} {ms : List CMember} {v : Val} (hc : T.cls c = some ms)
    (h : CTable.WT T false (.struct c) v) : ∃ fs, v = .struct fs ∧ MemberVals (fun m v => CTable.WT T false m.ty v) ms fs := by
  cases h with
  | undef h _ _ _ => cases h
  | struct hc' hn h =>
    rw [hc] at hc'
    cases hc'
    exact ⟨_, rfl, MemberVals.of_lookup hn (hg.nodup c ms hc) h⟩

theorem map_of_all {α β : Type} {f : α → β} {P : α → Prop} {l : List β} (h : ∀ b ∈ l, ∃ a, b = f a ∧ P a) :
    ∃ as : List α, l = as.map f ∧ ∀ a ∈ as, P a := by
  induction l with
  | nil => exact ⟨[], rfl, fun a ha => by cases ha⟩
  | cons b l ih =>
    obtain ⟨a, rfl, ha⟩ := h b List.mem_cons_self
    obtain ⟨as, rfl, has⟩ := ih fun b hb => h b (List.mem_cons_of_mem _ hb)
    refine ⟨a :: as, rfl, fun x hx => ?_⟩
    rcases List.mem_cons.1 hx with rfl | hx
    · exact ha
    · exact has x hx

theorem out_inv {v : Val} (h : CTable.WT configData.table false (.struct c!"output_spec") v) :
    ∃ o, v = outVal o ∧ inSigned 32 o.fileType := by
  obtain ⟨fs, rfl, hp⟩ := wt_pairs_inv config_compiled.good (ms := outMembers) rfl h
  obtain ⟨v1, fs, rfl, w1, hp⟩ := hp.cons
  obtain ⟨v2, fs, rfl, w2, hp⟩ := hp.cons
  obtain ⟨v3, fs, rfl, w3, hp⟩ := hp.cons
  obtain ⟨v4, fs, rfl, w4, hp⟩ := hp.cons
  obtain ⟨v5, fs, rfl, w5, hp⟩ := hp.cons
  obtain ⟨v6, fs, rfl, w6, hp⟩ := hp.cons
  obtain ⟨v7, fs, rfl, w7, hp⟩ := hp.cons
  obtain ⟨v8, fs, rfl, w8, hp⟩ := hp.cons
  obtain rfl := hp.nil
  obtain ⟨s1, rfl⟩ := wt_str w1
  obtain ⟨s2, rfl⟩ := wt_str w2
  obtain ⟨s3, rfl⟩ := wt_str w3
  obtain ⟨s4, rfl⟩ := wt_str w4
  obtain ⟨s5, rfl⟩ := wt_str w5
  obtain ⟨i6, rfl, hi⟩ := wt_enum w6
  obtain ⟨b7, rfl⟩ := wt_bool w7
  obtain ⟨b8, rfl⟩ := wt_bool w8
  exact ⟨⟨s1, s2, s3, s4, s5, i6, b7, b8⟩, rfl, hi⟩

theorem inputs_inv {v : Val} (h : CTable.WT configData.table false (.vec c!"input_file") v) : ∃ l, v = inputsVal l := by
  obtain ⟨vs, rfl, hv'⟩ := wt_vec h
  obtain ⟨l, rfl, _⟩ := map_of_all (f := fun s => Val.struct [(c!"name", .str s)]) (P := fun _ => True) (l := vs) (by
    intro v hv
    obtain ⟨fs, rfl, hp⟩ := wt_pairs_inv config_compiled.good (ms := [⟨c!"name", .simple .stdString, none⟩]) rfl (hv' v hv)
    obtain ⟨v1, fs, rfl, w1, hp⟩ := hp.cons
    obtain rfl := hp.nil
    obtain ⟨s1, rfl⟩ := wt_str w1
    exact ⟨s1, rfl, trivial⟩)
  exact ⟨l, rfl⟩

/-- Every object of type `config` is a configuration. -/
theorem config_inv {v : Val} (h : CTable.WT configData.table false (.struct c!"config") v) :
    ∃ c, v = configVal c ∧ ∀ t ∈ configTypes c, inSigned 32 t := by
  obtain ⟨fs, rfl, hp⟩ := wt_pairs_inv config_compiled.good (ms := [⟨c!"common_in_files", .struct c!"input_spec", none⟩,
    ⟨c!"common_out_files", .struct c!"output_spec", none⟩, ⟨c!"non_common", .vec c!"uncommon_spec", none⟩]) rfl h
  obtain ⟨v1, fs, rfl, w1, hp⟩ := hp.cons
  obtain ⟨v2, fs, rfl, w2, hp⟩ := hp.cons
  obtain ⟨v3, fs, rfl, w3, hp⟩ := hp.cons
  obtain rfl := hp.nil
  obtain ⟨fs', rfl, hq⟩ := wt_pairs_inv config_compiled.good (ms := [⟨c!"input", .vec c!"input_file", none⟩]) rfl w1
  obtain ⟨v1, fs'', rfl, w1', hq⟩ := hq.cons
  obtain rfl := hq.nil
  obtain ⟨l, rfl⟩ := inputs_inv w1'
  obtain ⟨o, rfl, ho⟩ := out_inv w2
  obtain ⟨vs, rfl, w3'⟩ := wt_vec w3
  obtain ⟨gs, rfl, hgs⟩ := map_of_all (f := groupVal) (P := fun g => inSigned 32 g.2.fileType) (l := vs) (by
    intro v hv
    obtain ⟨fs, rfl, hp⟩ := wt_pairs_inv config_compiled.good (ms := [⟨c!"input", .vec c!"input_file", none⟩,
      ⟨c!"out", .struct c!"output_spec", none⟩]) rfl (w3' v hv)
    obtain ⟨v1, fs, rfl, w1, hp⟩ := hp.cons
    obtain ⟨v2, fs, rfl, w2, hp⟩ := hp.cons
    obtain rfl := hp.nil
    obtain ⟨l, rfl⟩ := inputs_inv w1
    obtain ⟨o, rfl, ho⟩ := out_inv w2
    exact ⟨(l, o), rfl, ho⟩)
  refine ⟨⟨l, o, gs⟩, rfl, ?_⟩
  intro t ht
  rcases List.mem_cons.1 ht with rfl | ht
  · exact ho
  · obtain ⟨g, hg, rfl⟩ := List.mem_map.1 ht
    exact hgs g hg

/-- `reader.read_from_file(in_file, conf)` on a default `conf`, main.cpp:107-112, with the reader of structs.cpp. -/
def loadConfig (L : Lib) (d : Doc) : Main.LoadRes :=
  match readFile configData.table L configProg c!"config" d (configVal emptyConfig) with
  | .ok (true, v) =>
    match configOf v with
    | some c => .loaded c
    | none => .ub
  | .ok (false, _) => .failed
  | .ub | .stuck => .ub

end Stfx.Run
