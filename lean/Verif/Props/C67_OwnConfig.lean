import Verif.Props.C66_Objects
import Verif.Props.C45_Config
/-
Property C67: stfx's own reading of .stfx files.

`process_stfx_file` reads its configuration with a generated class (main.cpp:102-107):

    xml_reader_C reader;
    config conf;
    ok = reader.read_from_file(in_file.string(), conf);

The model of main takes the result of these lines, `LoadRes`, as given.  Here the four checked-in files of src/configuration are read as
C++ text, and the lines are run: whatever the file contains, they do what `loadConfig` says, which is the result C45 is about.  The writer
class of the same files writes configurations that these lines read back.
-/
set_option autoImplicit false
set_option maxRecDepth 4000
namespace Stfx.Cpp
open Stfx.Lexer Stfx.Run Stfx.Parser Stfx.Items Stfx.Gen

/-- stfx itself, as far as its configuration is concerned: the functions of the checked-in src/configuration/structs.cpp and enums.cpp
are part of the program, no other file defines members of the two classes or functions of the namespace `stfx`, and the classes are those
of the checked-in structs.h.  `E.T` is what config_data.h means in C++.  (An assumption about a program, models no code.) -/
structure OwnProgram (E : Env) (cs : List Class) : Prop where
  structs : ∃ gs pre post, parse false Main.SelfHost.structsCpp = some gs ∧ E.prog = pre ++ gs ++ post ∧
    ∀ f ∈ pre ++ post, f.name.head? ≠ some c!"xml_reader_C" ∧ f.name.head? ≠ some c!"xml_writer_C"
  enums : ∃ gs pre post, parse false Main.SelfHost.enumsCpp = some gs ∧ E.prog = pre ++ gs ++ post ∧
    ∀ f ∈ pre ++ post, f.name.head? ≠ some c!"stfx"
  header : parseH false Main.SelfHost.structsH = some (cs.map .cls)
  table : E.T = configData.table
  described : Described cs E

/-! ### The checked-in files are the generated ones -/

theorem config_names : Names Main.SelfHost.env.stamp c!"structs.cpp" c!"structs.h" [c!"config_data.h"] Main.headerSpec (tablesOf configFiles).structs := by
  have hs : ((tablesOf configFiles).structs.all fun p => identb p.2.name && (p.2.simple.all fun l => identb l.name) &&
    p.2.complex.all fun co => identb co.name && identb co.tyName) = true := by decide +kernel
  simp only [Bool.and_eq_true, List.all_eq_true] at hs
  refine ⟨⟨plain_of (by decide +kernel), plain_of (by decide), plain_of (by decide), ?_, .inr (plain_of (by decide))⟩, ident_of_b (by decide), .inr (ident_of_b (by decide)),
    fun p hp => ⟨ident_of_b (hs p hp).1.1, fun l hl => ident_of_b ((hs p hp).1.2 l hl),
      fun l hl => ⟨ident_of_b ((hs p hp).2 l hl).1, ident_of_b ((hs p hp).2 l hl).2⟩⟩⟩
  intro f hf
  cases List.mem_singleton.1 hf
  exact plain_of (by decide)

theorem config_short : NoShort .attrib (tablesOf configFiles).structs := by
  have hs : ((tablesOf configFiles).structs.all fun p => p.2.simple.all fun l => l.ty ≠ .unsignedShort && l.ty ≠ .unsignedLong) = true := by decide +kernel
  simp only [Bool.and_eq_true, List.all_eq_true, decide_eq_true_eq] at hs
  exact fun _ p hp l hl => hs p hp l hl

theorem config_enums : ∀ p ∈ (tablesOf configFiles).enums, EnumNamed p.2 := by
  have hs : ((tablesOf configFiles).enums.all fun p => identb p.2.name && p.2.enums.all fun l => identb l.name) = true := by decide +kernel
  simp only [Bool.and_eq_true, List.all_eq_true] at hs
  exact fun p hp => ⟨ident_of_b (hs p hp).1, fun l hl => ident_of_b ((hs p hp).2 l hl)⟩

theorem config_h : fileText (structsH .attrib Main.SelfHost.env.stamp c!"structs.h" [c!"config_data.h"] Main.headerSpec (tablesOf configFiles).structs) =
    Main.SelfHost.structsH := Main.SelfHost.same_eq (by decide +kernel)

theorem config_enumsCpp : fileText (enumsCpp Main.SelfHost.env.stamp c!"enums.cpp" c!"enums.h" [c!"config_data.h"] (tablesOf configFiles).enums) =
    Main.SelfHost.enumsCpp := Main.SelfHost.same_eq (by decide +kernel)

theorem config_info : (processFiles 0 (configFiles.map fun f => some f.1) [Info.empty]).bind (prepare 0) = some ([tablesOf configFiles], true) := by
  decide +kernel

theorem own_linked {E : Env} {cs : List Class} (h : OwnProgram E cs) : Linked configFiles .attrib Main.headerSpec configProg E cs := by
  obtain ⟨gs, pre, post, h1, h2, h3⟩ := h.structs
  obtain ⟨es, pre', post', h4, h5, h6⟩ := h.enums
  have hd := h.described
  have hn : E.nested = [] := by
    have h7 := h.header
    rw [← config_h, structsH_parse config_names.files config_names.reader config_names.writer config_names.structs] at h7
    have h8 : cs = twoClasses .attrib Main.headerSpec ((tablesOf configFiles).structs.map Prod.snd) := cls_inj (by rw [← Option.some.inj h7]; rfl)
    rw [hd.nested, h8, twoClasses_nested]
    rfl
  refine ⟨config_generated.texts, config_generated.distinct, ⟨false, tablesOf configFiles, _, _, _, _, pre, gs, post, config_info, rfl, config_names, .inr config_short, ?_, h2,
    fun f hf => ⟨(h3 f hf).1, fun _ => (h3 f hf).2⟩, ⟨⟨Main.SelfHost.env.stamp, c!"enums.cpp", c!"enums.h", [c!"config_data.h"], [], pre', es, post', ?_, ?_, h5, h6⟩, config_enums, by decide +kernel⟩, ?_⟩, ?_, ?_, hd⟩
  · rw [config_text]; exact h1
  · exact ⟨config_names.files.stamp, plain_of (by decide), plain_of (by decide), config_names.files.inputs, .inl rfl⟩
  · rw [config_enumsCpp]; exact h4
  · rw [config_h]; exact h.header
  · rw [h.table]; exact config_compiled
  · intro n e val he
    rw [h.table] at he
    have he' : (configData.enm.lookup n).map (fun p => (p.1, fun s => (p.2.lookup s).getD 0)) = some (e, val) := he
    rw [Option.map_eq_some_iff] at he'
    obtain ⟨p, hp, hpe⟩ := he'
    cases hpe
    have hm := mem_of_lookup hp
    simp only [configData, List.mem_cons, List.not_mem_nil, or_false] at hm
    cases hm
    refine ⟨by rw [h.table]; rfl, by rw [h.table]; rfl, by rw [hn]; simp, fun _ => by decide, fun hc => by cases hc⟩

theorem own_reader : ReaderClear (declsOf configFiles) Main.headerSpec := readerClear_of (by decide +kernel)
theorem own_writer : WriterClear (declsOf configFiles) Main.headerSpec := writerClear_of (by decide +kernel)

/-! ### The property -/

/-- Reading the configuration: `{ xml_reader_C reader; return reader.read_from_file(f, conf); }` with a new `conf`, main.cpp:102-107. -/
def ownRead (E : Env) (cs : List Class) (fuel : Nat) (t q : Place) (s : St) : Res EV :=
  onNew E cs fuel c!"xml_reader_C" [] c!"read_from_file" [.lv .str t, .lv (.struct c!"config") q] s

/-- What `r` says about it.  (Specification notion, models no code.) -/
structure Loads (r : Main.LoadRes) (q : Place) (s : St) (x : Res EV) : Prop where
  loaded : ∀ c, r = .loaded c → x = .ok (.rv (.prim .bool) (.val (.bool true))) { s with mem := setAt s.mem q (configVal c) }
  failed : r = .failed → x = .ok (.rv (.prim .bool) (.val (.bool false))) s
  ub : r = .ub → x = .ub

theorem own_top : TopStruct (declsOf configFiles) c!"config" := config_top
theorem own_ints : configData.table.EnumInts := CData.enumInts (by decide +kernel)
theorem own_defined : configData.table.Defined false := CData.defined (by decide +kernel)

/-- What a block that reads does, for a result of the model.  (Specification notion, models no code.) -/
structure Reads (r : R (Bool × Val)) (q : Place) (s : St) (x : Res EV) : Prop where
  ok : ∀ b v, r = .ok (b, v) → x = .ok (.rv (.prim .bool) (.val (.bool b))) { s with mem := setAt s.mem q v }
  ub : r = .ub → x = .ub

theorem ReadDone.reads {r : R (Bool × Val)} {q : Place} {s : St} {x : Res EV} (h : ReadDone r q s x) : Reads r q s x :=
  ⟨fun b v hr => by subst hr; exact h, fun hr => by subst hr; exact h⟩

theorem reads_of {fs : List (Str × Header)} {k : Kind} {out : OutSpec} {prog : List Item} {E : Env} {cs : List Class}
    (h : Linked fs k out prog E cs) (hk : k = .xml ∨ k = .attrib) (hc : ReaderClear (declsOf fs) out) (hE : E.T.EnumInts) (hL : E.L.Bits)
    {u : Bool} (hu : E.T.Defined u) {n : Str} (hn : TopStruct (declsOf fs) n) {s : St} {t q : Place} {f : Str} {old : Val}
    (ht : getAt s.mem t = some (.str f)) (hq : getAt s.mem q = some old) (hw : CTable.WT E.T u (.struct n) old) {fuel : Nat}
    (hd : DocDepth (E.load (cStr f)) fuel) {T : CTable} (hT : E.T = T) :
    Reads (readFile T E.L prog n (E.load (cStr f)) old) q s
      (onNew E cs (fuel + 2) out.readerClass [] c!"read_from_file" [.lv .str t, .lv (.struct n) q] s) := by
  subst hT
  exact (C66_xml_read_partial h hk hc hE hL hu hn ht hq hw hd).reads

theorem own_done {E : Env} {cs : List Class} (h : OwnProgram E cs) (hL : E.L.Bits) {s : St} {t q : Place} {f : Str} {c : Main.Config}
    (ht : getAt s.mem t = some (.str f)) (hq : getAt s.mem q = some (configVal c)) (hc : ∀ t ∈ configTypes c, inSigned 32 t) {fuel : Nat}
    (hd : DocDepth (E.load (cStr f)) fuel) :
    Reads (readFile configData.table E.L configProg c!"config" (E.load (cStr f)) (configVal c)) q s (ownRead E cs (fuel + 2) t q s) :=
  reads_of (own_linked h) (.inr rfl) own_reader (by rw [h.table]; exact own_ints) hL (by rw [h.table]; exact own_defined) own_top ht hq
    (by rw [h.table]; exact config_wt hc) hd h.table

/-- Whatever the file contains, the checked-in code does what the model of main takes it to do. -/
theorem C67_load {E : Env} {cs : List Class} (h : OwnProgram E cs) (hL : E.L.Bits) {s : St} {t q : Place} {f : Str}
    (ht : getAt s.mem t = some (.str f)) (hq : getAt s.mem q = some (configVal emptyConfig)) {fuel : Nat} (hd : DocDepth (E.load (cStr f)) fuel) :
    Loads (loadConfig E.L (E.load (cStr f))) q s (ownRead E cs (fuel + 2) t q s) := by
  have hr := own_done h hL ht hq (by decide) hd
  rcases config_read hL (E.load (cStr f)) with h1 | ⟨c, h1, _⟩
  · have h2 : loadConfig E.L (E.load (cStr f)) = .ub := by unfold loadConfig; rw [h1]
    rw [h2]
    exact ⟨fun c h => (by cases h), fun h => (by cases h), fun _ => hr.ub h1⟩
  · cases hl : (E.load (cStr f)).loads with
    | true =>
      rw [hl] at h1
      have h2 : loadConfig E.L (E.load (cStr f)) = .loaded c := by
        unfold loadConfig
        rw [h1]
        dsimp only
        rw [configOf_back]
      rw [h2]
      refine ⟨fun c' h => ?_, fun h => (by cases h), fun h => (by cases h)⟩
      rw [← Main.LoadRes.loaded.inj h]
      exact hr.ok _ _ h1
    | false =>
      have h2 := (C45_load hL (E.load (cStr f))).1 hl
      rw [h2]
      refine ⟨fun c h => (by cases h), fun _ => ?_, fun h => (by cases h)⟩
      have h3 : readFile configData.table E.L configProg c!"config" (E.load (cStr f)) (configVal emptyConfig) = .ok (false, configVal emptyConfig) := by
        cases hx : E.load (cStr f) with
        | ok ks => rw [hx] at hl; cases hl
        | error =>
          unfold readFile
          rw [if_pos (by decide +kernel)]
      rw [hr.ok _ _ h3, setAt_self hq]

theorem setAt_inj {m : List V} {q : Place} {o v w : Val} (hq : getAt m q = some o) (h : setAt m q v = setAt m q w) : v = w := by
  have h1 := getAt_setAt (x := v) hq
  rw [h, getAt_setAt hq] at h1
  exact (Option.some.inj h1).symm

/-- No other result describes it. -/
theorem C67_only {E : Env} {cs : List Class} (h : OwnProgram E cs) (hL : E.L.Bits) {s : St} {t q : Place} {f : Str}
    (ht : getAt s.mem t = some (.str f)) (hq : getAt s.mem q = some (configVal emptyConfig)) {fuel : Nat} (hd : DocDepth (E.load (cStr f)) fuel)
    {r : Main.LoadRes} (hr : Loads r q s (ownRead E cs (fuel + 2) t q s)) : r = loadConfig E.L (E.load (cStr f)) := by
  have h1 := C67_load h hL ht hq hd
  generalize loadConfig E.L (E.load (cStr f)) = r' at h1 ⊢
  generalize ownRead E cs (fuel + 2) t q s = x at hr h1
  cases r with
  | failed =>
    have e := hr.failed rfl
    cases r' with
    | failed => rfl
    | ub => rw [h1.ub rfl] at e; cases e
    | loaded c => rw [h1.loaded c rfl] at e; cases e
  | ub =>
    have e := hr.ub rfl
    cases r' with
    | failed => rw [h1.failed rfl] at e; cases e
    | ub => rfl
    | loaded c => rw [h1.loaded c rfl] at e; cases e
  | loaded c =>
    have e := hr.loaded c rfl
    cases r' with
    | failed => rw [h1.failed rfl] at e; cases e
    | ub => rw [h1.ub rfl] at e; cases e
    | loaded c' =>
      rw [h1.loaded c' rfl] at e
      have e1 := congrArg configOf (setAt_inj hq (congrArg St.mem (Res.ok.inj e).2))
      rw [configOf_back, configOf_back] at e1
      rw [Option.some.inj e1]

/-- The model of main, with the result of reading the configuration that the checked-in code gives: what C18-C20 and C50 say about a
`LoadRes` is said about what the file contains. -/
theorem C67_main {E : Env} {cs : List Class} (h : OwnProgram E cs) (hL : E.L.Bits) {s : Str → St} {t q : Place} {fuel : Str → Nat}
    (ht : ∀ p, getAt (s p).mem t = some (.str p)) (hq : ∀ p, getAt (s p).mem q = some (configVal emptyConfig))
    (hd : ∀ p, DocDepth (E.load (cStr p)) (fuel p)) {load : Str → Main.LoadRes}
    (hl : ∀ p, Loads (load p) q (s p) (ownRead E cs (fuel p + 2) t q (s p))) (env : Main.Env) (arg : Option Str) (locate : Str → Main.Located)
    (w : Main.World) : Main.main env arg locate load w = Main.main env arg locate (fun p => loadConfig E.L (E.load (cStr p))) w := by
  have : load = fun p => loadConfig E.L (E.load (cStr p)) := funext fun p => C67_only h hL (ht p) (hq p) (hd p) (hl p)
  rw [this]

/-! ### Configurations written by stfx's own classes -/

theorem trip_of {fs : List (Str × Header)} {out : OutSpec} {prog : List Item} {E : Env} {cs : List Class}
    (h : Linked fs .attrib out prog E cs) (ho : out.onlyRead = false) (hr : ReaderClear (declsOf fs) out) (hc : WriterClear (declsOf fs) out)
    {d : Bool} {args : List EV} (ha : WriterArgs d args) {n : Str} (hn : TopStruct (declsOf fs) n) {u : Bool} {s : St} {t q : Place} {f : Str}
    {v o w : Val} (ht : getAt s.mem t = some (.str f)) (hq : getAt s.mem q = some v) {T : CTable} (hT : E.T = T)
    (hw : CTable.WT T u (.struct n) v) {fuel : Nat} (hd : nesting v ≤ fuel) (hcs : E.canSave (cStr f) = true) (hg : FileGives T E.L prog d n v o w) :
    ∃ root, onNew E cs (fuel + 2) out.writerClass args c!"write_to_file" [.lv .str t, .lv (.struct n) q] s =
        .ok (.rv (.prim .bool) (.val (.bool true))) { s with out := s.out ++ [(cStr f, .doc [root])] } ∧
      (E.load (cStr f) = loadSaved E.L root → ∀ (s' : St) (t' q' : Place), getAt s'.mem t' = some (.str f) → getAt s'.mem q' = some o →
        onNew E cs (fuel + 2) out.readerClass [] c!"read_from_file" [.lv .str t', .lv (.struct n) q'] s' =
          .ok (.rv (.prim .bool) (.val (.bool true))) { s' with mem := setAt s'.mem q' w }) := by
  subst hT
  exact C66_xml_trip_partial h (.inr rfl) ho hr hc (.inl rfl) ha hn ht hq hw hd hcs hg

theorem config_gives {L : Lib} (hL : 6 ≤ L.maxDepth) {c : Main.Config} (hc : ∀ t ∈ configTypes c, inSigned 32 t)
    (hs : ∀ s ∈ configStrings c, '\x00' ∉ s ∧ '\r' ∉ s) (d : Bool) :
    FileGives configData.table L configProg d c!"config" (configVal c) (configVal emptyConfig) (configVal c) := by
  cases d with
  | false =>
    exact C30_attrib_full_default_partial config_generated rfl config_compiled config_top (config_wt hc)
      (Nat.le_trans (config_nesting c) hL)
      (((config_leaves (configKept_fits L) c (configData.table.dflt c!"config")).2 hs).leaves config_compiled.good)
  | true =>
    exact C31_attrib_delta_partial config_generated rfl rfl config_compiled config_noInits config_top (config_wt hc)
      (Nat.le_trans (config_nesting c) hL) ((config_leaves (configKept_delta L) c _).2 hs)

/-- A configuration written by a new `xml_writer_C` is read back by the lines of main.cpp.  The strings contain no NUL and no carriage
return (C45). -/
theorem C67_trip_partial {E : Env} {cs : List Class} (h : OwnProgram E cs) (hL : 6 ≤ E.L.maxDepth) {c : Main.Config}
    (hc : ∀ t ∈ configTypes c, inSigned 32 t) (hs : ∀ s ∈ configStrings c, '\x00' ∉ s ∧ '\r' ∉ s) {d : Bool} {args : List EV}
    (ha : WriterArgs d args) {s : St} {t q : Place} {f : Str} (ht : getAt s.mem t = some (.str f)) (hq : getAt s.mem q = some (configVal c))
    (hcs : E.canSave (cStr f) = true) :
    ∃ root, onNew E cs 8 c!"xml_writer_C" args c!"write_to_file" [.lv .str t, .lv (.struct c!"config") q] s =
        .ok (.rv (.prim .bool) (.val (.bool true))) { s with out := s.out ++ [(cStr f, .doc [root])] } ∧
      (E.load (cStr f) = loadSaved E.L root → ∀ (s' : St) (t' q' : Place), getAt s'.mem t' = some (.str f) →
        getAt s'.mem q' = some (configVal emptyConfig) →
        ownRead E cs 8 t' q' s' = .ok (.rv (.prim .bool) (.val (.bool true))) { s' with mem := setAt s'.mem q' (configVal c) }) :=
  trip_of (own_linked h) rfl own_reader own_writer ha own_top ht hq h.table (config_wt hc) (config_nesting c) hcs (config_gives hL hc hs d)

/-! Non-vacuity: a program that consists of the four files. -/

/-- The checked-in files.  (Proof notion, models no code.) -/
def ownEnv (load : Str → Doc) : Env where
  T := configData.table
  L := someLib
  I := ⟨fun _ => [], fun _ => [], fun _ => none, fun _ => none⟩
  prog := configProg.flatMap itemFuns ++ ((tablesOf configFiles).enums.flatMap fun p => [sFromFun p.2, sToFun p.2])
  base := fun c => if c = c!"xml_writer_C" then some c!"xml_reader_C" else none
  nested := []
  enumerator := fun _ => none
  load := load
  canSave := fun _ => true
  text := fun _ => none
  canWrite := fun _ => false

/-- See the definition before it.  (Specification notion, models no code.) -/
def ownClasses : List Class := twoClasses .attrib Main.headerSpec ((tablesOf configFiles).structs.map Prod.snd)

theorem own_enum_names (ES : SMap EnumS) : ∀ f ∈ ES.flatMap (fun p => [sFromFun p.2, sToFun p.2]), f.name.head? = some c!"stfx" := by
  intro f hf
  obtain ⟨p, _, hf⟩ := List.mem_flatMap.1 hf
  simp only [List.mem_cons, List.not_mem_nil, or_false] at hf
  rcases hf with rfl | rfl <;> rfl

theorem ownProgram (load : Str → Doc) : OwnProgram (ownEnv load) ownClasses where
  structs := by
    refine ⟨_, [], _, ?_, rfl, ?_⟩
    · rw [← config_text]
      exact structsCpp_parse config_names.files config_names.reader config_names.writer config_names.structs (.inr (.inr (config_short rfl)))
    · intro f hf
      rw [List.nil_append] at hf
      have h1 := own_enum_names _ f hf
      rw [h1]
      exact ⟨by decide, by decide⟩
  enums := by
    refine ⟨_, _, [], ?_, (List.append_nil _).symm, ?_⟩
    · rw [← config_enumsCpp]
      exact enumsCpp_parse (e := []) ⟨config_names.files.stamp, plain_of (by decide), plain_of (by decide), config_names.files.inputs, .inl rfl⟩ config_enums
    · intro f hf
      rw [List.append_nil] at hf
      have h1 : ((configProg.flatMap itemFuns).all fun f => f.name.head? ≠ some c!"stfx") = true := by decide +kernel
      exact of_decide_eq_true (List.all_eq_true.1 h1 f hf)
  header := by
    rw [← config_h, structsH_parse config_names.files config_names.reader config_names.writer config_names.structs]
    rfl
  table := rfl
  described := described_of _ (fun _ => by decide) (fun c => by by_cases hc : c = c!"xml_writer_C" <;> simp [ownEnv, Main.headerSpec, Main.OutSpec.default, hc]) rfl

/-- The lines of main.cpp read a .stfx file that names one header and one output. -/
example : ∃ c, ownRead (ownEnv fun _ => .ok [.elem c!"config" [] [.elem c!"common_in_files" [] [.elem c!"input" [] [.elem c!"input_file" [(c!"name", c!"a.h")] []]],
        .elem c!"common_out_files" [(c!"file_type", c!"n_ini"), (c!"structs_file", c!"s")] []]]) ownClasses 9 ⟨0, []⟩ ⟨1, []⟩
        ⟨[.val (.str c!"x.stfx"), .val (configVal emptyConfig)], [], [], []⟩ =
      .ok (.rv (.prim .bool) (.val (.bool true))) ⟨[.val (.str c!"x.stfx"), .val (configVal c)], [], [], []⟩ ∧
    c = ⟨[c!"a.h"], { Main.OutSpec.default with fileType := 3, structsFile := c!"s" }, []⟩ := by
  refine ⟨_, ?_, rfl⟩
  have h := C67_load (ownProgram fun _ => .ok [.elem c!"config" [] [.elem c!"common_in_files" [] [.elem c!"input" [] [.elem c!"input_file" [(c!"name", c!"a.h")] []]],
        .elem c!"common_out_files" [(c!"file_type", c!"n_ini"), (c!"structs_file", c!"s")] []]]) someLib_bits
    (s := ⟨[.val (.str c!"x.stfx"), .val (configVal emptyConfig)], [], [], []⟩) (t := ⟨0, []⟩) (q := ⟨1, []⟩) (f := c!"x.stfx") rfl rfl (fuel := 7)
    (by
      intro ks hk
      cases hk
      decide)
  exact h.loaded _ (by decide +kernel)

/-- A file that is no XML. -/
example : ownRead (ownEnv fun _ => .error) ownClasses 9 ⟨0, []⟩ ⟨1, []⟩ ⟨[.val (.str c!"x.stfx"), .val (configVal emptyConfig)], [], [], []⟩ =
    .ok (.rv (.prim .bool) (.val (.bool false))) ⟨[.val (.str c!"x.stfx"), .val (configVal emptyConfig)], [], [], []⟩ :=
  (C67_load (ownProgram fun _ => .error) someLib_bits (f := c!"x.stfx") (t := ⟨0, []⟩) (q := ⟨1, []⟩) rfl rfl (fuel := 7) (by intro ks hk; cases hk)).failed
    ((C45_load someLib_bits _).1 rfl)

/-- The sample configuration of C45 is written as a delta file, the default of the constructor, and read. -/
example (load : Str → Doc) : ∃ root, onNew (ownEnv load) ownClasses 8 c!"xml_writer_C" [] c!"write_to_file" [.lv .str ⟨0, []⟩, .lv (.struct c!"config") ⟨1, []⟩]
        ⟨[.val (.str c!"x.stfx"), .val (configVal someConfig)], [], [], []⟩ =
      .ok (.rv (.prim .bool) (.val (.bool true))) ⟨[.val (.str c!"x.stfx"), .val (configVal someConfig)], [], [], [(c!"x.stfx", .doc [root])]⟩ ∧
    (load c!"x.stfx" = loadSaved someLib root → ownRead (ownEnv load) ownClasses 8 ⟨0, []⟩ ⟨1, []⟩ ⟨[.val (.str c!"x.stfx"), .val (configVal emptyConfig)], [], [], []⟩ =
      .ok (.rv (.prim .bool) (.val (.bool true))) ⟨[.val (.str c!"x.stfx"), .val (configVal someConfig)], [], [], []⟩) := by
  obtain ⟨root, h1, h2⟩ := C67_trip_partial (ownProgram load) (show 6 ≤ someLib.maxDepth by decide) (c := someConfig) (by decide +kernel) (by decide +kernel) (d := true) (args := []) (.inr ⟨rfl, rfl⟩)
    (s := ⟨[.val (.str c!"x.stfx"), .val (configVal someConfig)], [], [], []⟩) (t := ⟨0, []⟩) (q := ⟨1, []⟩) (f := c!"x.stfx") rfl rfl rfl
  exact ⟨root, h1, fun hl => h2 hl _ ⟨0, []⟩ ⟨1, []⟩ rfl rfl⟩

end Stfx.Cpp
