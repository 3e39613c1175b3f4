import Verif.Cpp.IniWrProgram
import Verif.Cpp.Check
import Verif.Run.IniSamples
/-
Programs with generated n_ini files, given by lists, and checks of the hypotheses about them by computation (for examples).
-/
set_option autoImplicit false
namespace Stfx.Cpp
open Stfx.Lexer Stfx.Run Stfx.Parser Stfx.Items Stfx.Gen

/-- A program that consists of the generated files.  (Proof notion, models no code.) -/
def iniEnv (fs : List (Str × Header)) (out : OutSpec) (D : CData) (I : IniLib) (text : Str → Option Str)
    (canWrite : Str → Bool := fun _ => true) : Env :=
  { xmlEnv fs .nIni out D fun _ => .error with I := I, nested := [c!"read_item_S"], text := text, canWrite := canWrite }

/-- Check `IniBuilt`.  (Proof notion, models no code.) -/
def iniBuiltb (fs : List (Str × Header)) (out : OutSpec) (D : CData) : Bool :=
  builtb fs out D && D.enm.all fun p => p.1 ≠ c!"read_item_S"

theorem iniBuilt_of {fs : List (Str × Header)} {out : OutSpec} {D : CData} {I : IniLib} {text : Str → Option Str} {canWrite : Str → Bool}
    (h : iniBuiltb fs out D = true) : IniBuilt fs out (sampleProg fs .nIni out) (iniEnv fs out D I text canWrite) := by
  unfold iniBuiltb builtb at h
  simp only [Bool.and_eq_true, List.all_eq_true, decide_eq_true_eq] at h
  obtain ⟨⟨⟨⟨⟨⟨⟨⟨⟨⟨hg, hD⟩, hr⟩, hw⟩, ⟨hwr, hrs⟩, hws⟩, hS⟩, hE⟩, hnd⟩, hen⟩, hef⟩, hit⟩ := h
  have hG := generated_of hg .nIni out
  have hfile : FileNamed c!"stfx 1.0" c!"structs.cpp" c!"structs.h" [c!"data.h"] out.enumFile :=
    ⟨plain_of (by decide), plain_of (by decide), plain_of (by decide),
      (by intro f hf; simp only [List.mem_cons, List.not_mem_nil, or_false] at hf; subst hf; exact plain_of (by decide)),
      .inr (plain_ident hef)⟩
  have hnames : Names c!"stfx 1.0" c!"structs.cpp" c!"structs.h" [c!"data.h"] out (tablesOf fs).structs :=
    ⟨hfile, ident_of_b hr, .inr (ident_of_b hw), fun p hp => ⟨ident_of_b (hS p hp).1.1, fun l hl => ident_of_b ((hS p hp).1.2 l hl),
      fun l hl => ⟨ident_of_b ((hS p hp).2 l hl).1, ident_of_b ((hS p hp).2 l hl).2⟩⟩⟩
  have hen' : ∀ p ∈ (tablesOf fs).enums, EnumNamed p.2 := fun p hp => ⟨ident_of_b (hE p hp).1, fun l hl => ident_of_b ((hE p hp).2 l hl)⟩
  have hcls : ∀ f ∈ (sampleProg fs .nIni out).flatMap itemFuns, f.name.head? = some out.readerClass ∨ f.name.head? = some out.writerClass := by
    intro f hf
    have h1 : f.sig ∈ ((sampleProg fs .nIni out).flatMap itemFuns).map Fun.sig := List.mem_map.2 ⟨f, hf, rfl⟩
    unfold sampleProg at h1
    rw [sigs_eq, List.mem_append] at h1
    have h2 : f.name = f.sig.2.1 := rfl
    rw [h2]
    generalize f.sig = g at h1
    rcases h1 with h1 | h1
    · left
      unfold readerSigs at h1
      simp only [List.cons_append, List.nil_append, List.mem_cons, List.mem_append, List.mem_map, or_assoc] at h1
      rcases h1 with rfl | ⟨_, _, rfl⟩ | ⟨_, _, rfl⟩ <;> rfl
    · right
      split at h1
      · cases h1
      · unfold writerSigs at h1
        simp only [List.cons_append, List.nil_append, List.mem_cons, List.mem_append, List.mem_map, or_assoc] at h1
        rcases h1 with rfl | ⟨_, _, rfl⟩ | ⟨_, _, rfl⟩ <;> rfl
  refine ⟨hG.texts, hG.distinct, ⟨true, tablesOf fs, c!"stfx 1.0", c!"structs.cpp", c!"structs.h", [c!"data.h"], [],
    (sampleProg fs .nIni out).flatMap itemFuns, _, ?_, rfl, hnames,
    structsCpp_parse hfile hnames.reader hnames.writer hnames.structs (.inl rfl), rfl, ?_, ⟨?_, hen', hnd⟩⟩, CData.compiled hD, ?_, ?_, ?_, ?_⟩
  · unfold generatedb at hg
    simp only [Bool.and_eq_true, decide_eq_true_eq] at hg
    exact hg.2
  · intro f hf
    rw [List.nil_append, List.mem_flatMap] at hf
    obtain ⟨p, hp, hf⟩ := hf
    have : f.name.head? = some c!"stfx" := by
      simp only [List.mem_cons, List.not_mem_nil, or_false] at hf
      rcases hf with rfl | rfl <;> rfl
    rw [this]
    exact ⟨fun h => hrs (Option.some.inj h).symm, fun _ h => hws (Option.some.inj h).symm⟩
  · refine ⟨c!"stfx 1.0", c!"structs.cpp", c!"structs.h", [c!"data.h"], out.enumFile, (sampleProg fs .nIni out).flatMap itemFuns, _, [], hfile,
      enumsCpp_parse hfile hen', by rw [List.append_nil]; rfl, ?_⟩
    intro f hf
    rw [List.append_nil] at hf
    rcases hcls f hf with h | h <;> rw [h] <;> intro h
    · exact hrs (Option.some.inj h)
    · exact hws (Option.some.inj h)
  · intro n e val he
    have he' : (D.enm.lookup n).map (fun p => (p.1, fun s => (p.2.lookup s).getD 0)) = some (e, val) := he
    rw [Option.map_eq_some_iff] at he'
    obtain ⟨p, hp, hpe⟩ := he'
    cases hpe
    obtain ⟨⟨⟨h1, h2⟩, h3⟩, h4⟩ := hen _ (mem_of_lookup hp)
    simp only at h1 h2 h3 h4
    refine ⟨by rw [h1]; exact he, by rw [h1]; exact Option.isNone_iff_eq_none.1 h2, fun hn => by
      simp only [iniEnv, xmlEnv, List.mem_cons, List.not_mem_nil, or_false] at hn
      exact hit _ (mem_of_lookup hp) (by rw [← h1]; exact hn), fun _ => by rw [h1]; exact h3, fun hu l hl => ?_⟩
    rw [hu, Bool.false_or, List.all_eq_true] at h4
    have := of_decide_eq_true (h4 l hl)
    rw [h1]
    exact this
  · rfl
  · simp only [iniEnv, xmlEnv, Bool.and_eq_true, decide_eq_true_eq, ite_eq_right_iff]
    intro h
    exact absurd h.2.symm hwr
  · intro h
    simp [iniEnv, xmlEnv, h]

/-- Check `IniReaderClear`.  (Proof notion, models no code.) -/
def iniReaderClearb (ds : List Decl) (out : OutSpec) : Bool :=
  (ds.all fun d => match d with
    | .struct n _ _ => (n ∉ [c!"path", c!"filename", c!"data", c!"rv"] ++ iniMembers ++ [c!"read_from_file", c!"read_item_S", out.readerClass]) &&
      (ds.all fun d' => match d' with | .struct n' _ _ => n ≠ c!"do_rd_" ++ n' | .enum .. => true) && out.readerClass ≠ c!"do_rd_" ++ n
    | .enum c n x xs _ => (n ≠ c!"e" && n ≠ c!"s" && n ≠ c!"rv" && n ≠ c!"i") &&
      (c || ((x :: xs).map lineOf).all fun l => l.name ≠ c!"e" && l.name ≠ c!"s" && l.name ≠ c!"rv" && l.name ≠ c!"string_to_" ++ n)) &&
  (out.readerClass ∉ [c!"stfx", c!"read_from_file", c!"read_item_S", c!"size_t"]) && out.writerClass ≠ out.readerClass &&
  ds.all fun d => d.name ≠ c!"size_t"

theorem iniReaderClear_of {ds : List Decl} {out : OutSpec} (h : iniReaderClearb ds out = true) : IniReaderClear ds out := by
  unfold iniReaderClearb at h
  simp only [Bool.and_eq_true, List.all_eq_true, decide_eq_true_eq] at h
  obtain ⟨⟨⟨h1, h2⟩, h3⟩, h4⟩ := h
  refine ⟨?_, ?_, h2, ?_, fun _ => h3, h4, ?_⟩
  · intro n m ms hd
    have := h1 _ hd
    simp only [Bool.and_eq_true, decide_eq_true_eq] at this
    exact this.1.1
  · intro n m ms n' m' ms' hd hd'
    have := h1 _ hd
    simp only [Bool.and_eq_true, decide_eq_true_eq, List.all_eq_true] at this
    exact of_decide_eq_true (this.1.2 _ hd')
  · intro n m ms hd
    have := h1 _ hd
    simp only [Bool.and_eq_true, decide_eq_true_eq] at this
    exact this.2
  · intro c n x xs t hd
    have := h1 _ hd
    simp only [Bool.and_eq_true, decide_eq_true_eq, Bool.or_eq_true, List.all_eq_true] at this
    refine ⟨⟨this.1.1.1.1, this.1.1.1.2, this.1.1.2, this.1.2⟩, fun hc l hl => ?_⟩
    have h5 := (this.2.resolve_left (by rw [show c = false from hc]; simp)) l hl
    exact ⟨h5.1.1.1, h5.1.1.2, h5.1.2, h5.2⟩

/-- Check `IniWriterClear`.  (Proof notion, models no code.) -/
def iniWriterClearb (ds : List Decl) (out : OutSpec) : Bool :=
  (ds.all fun d => match d with
    | .struct n _ _ => (n ∉ [c!"path", c!"filename", c!"data", c!"rv"] ++ iniMembers ++ [c!"lower_path", c!"read_from_file", c!"write_to_file", c!"read_item_S",
        out.readerClass, out.writerClass]) &&
      (ds.all fun d' => match d' with | .struct n' _ _ => n ≠ c!"do_rd_" ++ n' && n ≠ c!"do_wr_" ++ n' | .enum .. => true) && out.writerClass ≠ c!"do_wr_" ++ n
    | .enum c n x xs _ => n ≠ c!"e" && (c || ((x :: xs).map lineOf).all fun l => l.name ≠ c!"e" && l.name ≠ n ++ c!"_to_string")) &&
  (out.writerClass ∉ [c!"stfx", c!"write_to_file", c!"read_from_file", out.readerClass])

theorem iniWriterClear_of {ds : List Decl} {out : OutSpec} (h : iniWriterClearb ds out = true) : IniWriterClear ds out := by
  unfold iniWriterClearb at h
  simp only [Bool.and_eq_true, List.all_eq_true, decide_eq_true_eq] at h
  obtain ⟨h1, h2⟩ := h
  refine ⟨?_, ?_, h2, ?_, ?_⟩
  · intro n m ms hd
    have := h1 _ hd
    simp only [Bool.and_eq_true, decide_eq_true_eq] at this
    exact this.1.1
  · intro n m ms n' m' ms' hd hd'
    have := h1 _ hd
    simp only [Bool.and_eq_true, decide_eq_true_eq, List.all_eq_true] at this
    have := this.1.2 _ hd'
    simp only [Bool.and_eq_true, decide_eq_true_eq] at this
    exact this
  · intro n m ms hd
    have := h1 _ hd
    simp only [Bool.and_eq_true, decide_eq_true_eq] at this
    exact this.2
  · intro c n x xs t hd
    have := h1 _ hd
    simp only [Bool.and_eq_true, decide_eq_true_eq, Bool.or_eq_true, List.all_eq_true] at this
    exact ⟨this.1, fun hc l hl => (this.2.resolve_left (by rw [show c = false from hc]; simp)) l hl⟩

end Stfx.Cpp
