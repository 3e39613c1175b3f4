import Verif.Cpp.XmlWrProgram
import Verif.Run.Samples
/-
Programs with generated XML files, given by lists, and checks of the hypotheses about them by computation (for examples).
-/
set_option autoImplicit false
namespace Stfx.Cpp
open Stfx.Lexer Stfx.Run Stfx.Parser Stfx.Items Stfx.Gen

/-- Check `Ident`.  (Proof notion, models no code.) -/
def identb : Str → Bool
  | [] => false
  | c :: s => isLetter c && (s.all fun d => isLetter d || isDigit d) && (keywords.lookup (c :: s)).isNone

theorem ident_of_b {w : Str} (h : identb w = true) : Ident w := by
  cases w with
  | nil => cases h
  | cons c s =>
    simp only [identb, Bool.and_eq_true, Option.isNone_iff_eq_none] at h
    exact ident_of ⟨h.1.1, h.1.2, h.2⟩

/-- The structs file generated from headers, with names of files.  (Proof notion, models no code.) -/
def sampleProg (fs : List (Str × Header)) (k : Kind) (out : OutSpec) : List Item :=
  structsCpp k c!"stfx 1.0" c!"structs.cpp" c!"structs.h" [c!"data.h"] out (tablesOf fs).structs

/-- A program that consists of the generated files.  (Proof notion, models no code.) -/
def xmlEnv (fs : List (Str × Header)) (k : Kind) (out : OutSpec) (D : CData) (load : Str → Doc) : Env where
  T := D.table
  L := someLib
  I := ⟨fun _ => [], fun _ => [], fun _ => none, fun _ => none⟩
  prog := (sampleProg fs k out).flatMap itemFuns ++ ((tablesOf fs).enums.flatMap fun p => [sFromFun p.2, sToFun p.2])
  base := fun c => if !out.onlyRead && c = out.writerClass then some out.readerClass else none
  nested := []
  enumerator := fun n => D.enm.findSome? fun p => if p.2.1.isClass then none else (p.2.2.lookup n).map fun v => (p.1, v)
  load := load
  canSave := fun _ => true
  text := fun _ => none
  canWrite := fun _ => false

/-- Check `XmlBuilt`.  (Proof notion, models no code.) -/
def builtb (fs : List (Str × Header)) (out : OutSpec) (D : CData) : Bool :=
  generatedb fs && D.compiledb (declsOf fs) &&
  identb out.readerClass && identb out.writerClass && (out.writerClass ≠ out.readerClass && out.readerClass ≠ c!"stfx" && out.writerClass ≠ c!"stfx") &&
  ((tablesOf fs).structs.all fun p => identb p.2.name && (p.2.simple.all fun l => identb l.name) &&
    p.2.complex.all fun co => identb co.name && identb co.tyName) &&
  ((tablesOf fs).enums.all fun p => identb p.2.name && p.2.enums.all fun l => identb l.name) &&
  decide ((tablesOf fs).enums.map fun p => p.2.name).Nodup &&
  (D.enm.all fun p => p.2.1.name = p.1 && (D.cls.lookup p.1).isNone && p.1 ≠ c!"tinyxml2" &&
    (p.2.1.isClass || p.2.1.enums.all fun l => (xmlEnv fs .xml out D fun _ => .error).enumerator l.name = some (p.1, (p.2.2.lookup l.name).getD 0))) &&
  (identb out.enumFile)

theorem plain_ident {w : Str} (h : identb w = true) : Plain w := by
  cases w with
  | nil => cases h
  | cons c s =>
    simp only [identb, Bool.and_eq_true, List.all_eq_true] at h
    refine ⟨by simp, fun d hd => ?_⟩
    have hd' : (isLetter d || isDigit d) = true := by
      rcases List.mem_cons.1 hd with rfl | hd
      · simp [h.1.1]
      · exact h.1.2 d hd
    refine ⟨?_, ?_, ?_, ?_⟩ <;> rintro rfl <;> revert hd' <;> decide

theorem built_of {fs : List (Str × Header)} {k : Kind} {out : OutSpec} {D : CData} {load : Str → Doc} (hk : k = .xml ∨ k = .attrib)
    (h : builtb fs out D = true) : XmlBuilt fs k out (sampleProg fs k out) (xmlEnv fs k out D load) := by
  unfold builtb at h
  simp only [Bool.and_eq_true, List.all_eq_true, decide_eq_true_eq] at h
  obtain ⟨⟨⟨⟨⟨⟨⟨⟨⟨hg, hD⟩, hr⟩, hw⟩, ⟨hwr, hrs⟩, hws⟩, hS⟩, hE⟩, hnd⟩, hen⟩, hef⟩ := h
  have hG := generated_of hg k out
  have hfile : FileNamed c!"stfx 1.0" c!"structs.cpp" c!"structs.h" [c!"data.h"] out.enumFile :=
    ⟨plain_of (by decide), plain_of (by decide), plain_of (by decide),
      (by intro f hf; simp only [List.mem_cons, List.not_mem_nil, or_false] at hf; subst hf; exact plain_of (by decide)),
      .inr (plain_ident hef)⟩
  have hnames : Names c!"stfx 1.0" c!"structs.cpp" c!"structs.h" [c!"data.h"] out (tablesOf fs).structs :=
    ⟨hfile, ident_of_b hr, .inr (ident_of_b hw), fun p hp => ⟨ident_of_b (hS p hp).1.1, fun l hl => ident_of_b ((hS p hp).1.2 l hl),
      fun l hl => ⟨ident_of_b ((hS p hp).2 l hl).1, ident_of_b ((hS p hp).2 l hl).2⟩⟩⟩
  have hen' : ∀ p ∈ (tablesOf fs).enums, EnumNamed p.2 := fun p hp => ⟨ident_of_b (hE p hp).1, fun l hl => ident_of_b ((hE p hp).2 l hl)⟩
  have hcls : ∀ f ∈ (sampleProg fs k out).flatMap itemFuns, f.name.head? = some out.readerClass ∨ f.name.head? = some out.writerClass := by
    intro f hf
    have h1 : f.sig ∈ ((sampleProg fs k out).flatMap itemFuns).map Fun.sig := List.mem_map.2 ⟨f, hf, rfl⟩
    unfold sampleProg at h1
    rw [sigs_eq, List.mem_append] at h1
    have h2 : f.name = f.sig.2.1 := rfl
    rw [h2]
    generalize f.sig = g at h1
    rcases h1 with h1 | h1
    · left
      unfold readerSigs at h1
      rcases hk with rfl | rfl <;>
      · simp only [List.cons_append, List.nil_append, List.mem_cons, List.mem_append, List.mem_map, or_assoc] at h1
        rcases h1 with rfl | ⟨_, _, rfl⟩ | ⟨_, _, rfl⟩ <;> rfl
    · right
      split at h1
      · cases h1
      · unfold writerSigs at h1
        rcases hk with rfl | rfl <;>
        · simp only [List.cons_append, List.nil_append, List.mem_cons, List.mem_append, List.mem_map, or_assoc] at h1
          rcases h1 with rfl | ⟨_, _, rfl⟩ | ⟨_, _, rfl⟩ <;> rfl
  refine ⟨hk, hG.texts, hG.distinct, ⟨true, tablesOf fs, c!"stfx 1.0", c!"structs.cpp", c!"structs.h", [c!"data.h"], [],
    (sampleProg fs k out).flatMap itemFuns, _, ?_, rfl, hnames, .inl rfl,
    structsCpp_parse hfile hnames.reader hnames.writer hnames.structs (.inl rfl), rfl, ?_, ⟨?_, hen', hnd⟩⟩, CData.compiled hD, ?_, ?_, ?_, ?_⟩
  · unfold generatedb at hg
    simp only [Bool.and_eq_true, decide_eq_true_eq] at hg
    exact hg.2
  · intro f hf
    rw [List.nil_append, List.mem_flatMap] at hf
    obtain ⟨p, hp, hf⟩ := hf
    have : f.name.head? = some c!"stfx" := by
      simp only [List.mem_cons, List.not_mem_nil, or_false] at hf
      rcases hf with rfl | rfl <;> rfl
    rw [this]
    exact ⟨fun h => hrs (Option.some.inj h).symm, fun _ h => hws (Option.some.inj h).symm⟩
  · refine ⟨c!"stfx 1.0", c!"structs.cpp", c!"structs.h", [c!"data.h"], out.enumFile, (sampleProg fs k out).flatMap itemFuns, _, [], hfile,
      enumsCpp_parse hfile hen', by rw [List.append_nil]; rfl, ?_⟩
    intro f hf
    rw [List.append_nil] at hf
    rcases hcls f hf with h | h <;> rw [h] <;> intro h
    · exact hrs (Option.some.inj h)
    · exact hws (Option.some.inj h)
  · intro n e val he
    have he' : (D.enm.lookup n).map (fun p => (p.1, fun s => (p.2.lookup s).getD 0)) = some (e, val) := he
    rw [Option.map_eq_some_iff] at he'
    obtain ⟨p, hp, hpe⟩ := he'
    cases hpe
    obtain ⟨⟨⟨h1, h2⟩, h3⟩, h4⟩ := hen _ (mem_of_lookup hp)
    simp only at h1 h2 h3 h4
    refine ⟨by rw [h1]; exact he, by rw [h1]; exact Option.isNone_iff_eq_none.1 h2, by simp [xmlEnv], fun _ => by rw [h1]; exact h3, fun hu l hl => ?_⟩
    rw [hu, Bool.false_or, List.all_eq_true] at h4
    have := of_decide_eq_true (h4 l hl)
    rw [h1]
    exact this
  · intro n cs _
    simp [xmlEnv]
  · simp only [xmlEnv, Bool.and_eq_true, decide_eq_true_eq, ite_eq_right_iff]
    intro h
    exact absurd h.2.symm hwr
  · intro h
    simp [xmlEnv, h]

/-- Check `ReaderClear`.  (Proof notion, models no code.) -/
def readerClearb (ds : List Decl) (out : OutSpec) : Bool :=
  (ds.all fun d => match d with
    | .struct n _ _ => (n ∉ [c!"el", c!"data", c!"ch_el", c!"rv", c!"item", c!"itr", c!"default_data", c!"m_delta_only", c!"filename", c!"read_from_file", out.readerClass]) &&
      (ds.all fun d' => match d' with | .struct n' _ _ => n ≠ c!"do_" ++ n' | .enum .. => true) && out.readerClass ≠ c!"do_" ++ n
    | .enum c n x xs _ => (n ≠ c!"e" && n ≠ c!"s" && n ≠ c!"rv" && n ≠ c!"i") &&
      (c || ((x :: xs).map lineOf).all fun l => l.name ≠ c!"e" && l.name ≠ c!"s" && l.name ≠ c!"rv" && l.name ≠ c!"string_to_" ++ n)) &&
  (out.readerClass ∉ [c!"stfx", c!"find_element", c!"read_from_file"]) && out.writerClass ≠ out.readerClass &&
  ds.all fun d => d.name ≠ c!"find_element"

theorem readerClear_of {ds : List Decl} {out : OutSpec} (h : readerClearb ds out = true) : ReaderClear ds out := by
  unfold readerClearb at h
  simp only [Bool.and_eq_true, List.all_eq_true, decide_eq_true_eq] at h
  obtain ⟨⟨⟨h1, h2⟩, h3⟩, h4⟩ := h
  refine ⟨?_, ?_, h2, ?_, fun _ => h3, h4, ?_⟩
  · intro n m ms hd
    have := h1 _ hd
    simp only [Bool.and_eq_true, decide_eq_true_eq] at this
    exact this.1.1
  · intro n m ms n' m' ms' hd hd'
    have := h1 _ hd
    simp only [Bool.and_eq_true, decide_eq_true_eq, List.all_eq_true] at this
    exact of_decide_eq_true (this.1.2 _ hd')
  · intro n m ms hd
    have := h1 _ hd
    simp only [Bool.and_eq_true, decide_eq_true_eq] at this
    exact this.2
  · intro c n x xs t hd
    have := h1 _ hd
    simp only [Bool.and_eq_true, decide_eq_true_eq, Bool.or_eq_true, List.all_eq_true] at this
    refine ⟨⟨this.1.1.1.1, this.1.1.1.2, this.1.1.2, this.1.2⟩, fun hc l hl => ?_⟩
    have h5 := (this.2.resolve_left (by rw [show c = false from hc]; simp)) l hl
    exact ⟨h5.1.1.1, h5.1.1.2, h5.1.2, h5.2⟩

/-- Check `WriterClear`.  (Proof notion, models no code.) -/
def writerClearb (ds : List Decl) (out : OutSpec) : Bool :=
  (ds.all fun d => match d with
    | .struct n _ _ => (n ∉ [c!"el", c!"data", c!"ch_el", c!"rv", c!"item", c!"itr", c!"default_data", c!"m_delta_only", c!"filename", c!"read_from_file",
        c!"write_to_file", out.readerClass, out.writerClass]) &&
      (ds.all fun d' => match d' with | .struct n' _ _ => n ≠ c!"do_" ++ n' && n ≠ c!"do_wr_" ++ n' | .enum .. => true) && out.writerClass ≠ c!"do_wr_" ++ n
    | .enum c n x xs _ => n ≠ c!"e" && (c || ((x :: xs).map lineOf).all fun l => l.name ≠ c!"e" && l.name ≠ n ++ c!"_to_string")) &&
  (out.writerClass ∉ [c!"stfx", c!"write_to_file", c!"read_from_file", out.readerClass])

theorem writerClear_of {ds : List Decl} {out : OutSpec} (h : writerClearb ds out = true) : WriterClear ds out := by
  unfold writerClearb at h
  simp only [Bool.and_eq_true, List.all_eq_true, decide_eq_true_eq] at h
  obtain ⟨h1, h2⟩ := h
  refine ⟨?_, ?_, h2, ?_, ?_⟩
  · intro n m ms hd
    have := h1 _ hd
    simp only [Bool.and_eq_true, decide_eq_true_eq] at this
    exact this.1.1
  · intro n m ms n' m' ms' hd hd'
    have := h1 _ hd
    simp only [Bool.and_eq_true, decide_eq_true_eq, List.all_eq_true] at this
    have := this.1.2 _ hd'
    simp only [Bool.and_eq_true, decide_eq_true_eq] at this
    exact this
  · intro n m ms hd
    have := h1 _ hd
    simp only [Bool.and_eq_true, decide_eq_true_eq] at this
    exact this.2
  · intro c n x xs t hd
    have := h1 _ hd
    simp only [Bool.and_eq_true, decide_eq_true_eq, Bool.or_eq_true, List.all_eq_true] at this
    exact ⟨this.1, fun hc l hl => (this.2.resolve_left (by rw [show c = false from hc]; simp)) l hl⟩

end Stfx.Cpp
