import Verif.Main.Written
import Verif.Run.ConfigData
/-
Property C50: every pair of files stfx writes holds the code of the file type its output specification names, for the
declarations of exactly its input headers, and includes these headers.
-/
set_option autoImplicit false
namespace Stfx.Run
open Stfx.Items Stfx.Parser Stfx.Gen Stfx.Lexer Stfx.Main

/-! ### Include directives -/

/-- The text has the line `#include "n"`.  (Specification notion, models no code.) -/
def IncludesLine (t n : Str) : Prop :=
  ∃ a b, t = a ++ c!"#include \"" ++ n ++ c!"\"\n" ++ b ∧ (a = [] ∨ a.getLast? = some '\n')

/-- The text of the item ends with a line end.  (Specification notion, models no code.) -/
def EndsLine (x : Item) : Prop := x.text.getLast? = some '\n'

theorem ends_const {t : Str} (h : t.getLast? = some '\n') : EndsLine (.raw t) := h

theorem ends_raw (a b : Str) (h : b.getLast? = some '\n') : EndsLine (.raw (a ++ b)) := by
  show (a ++ b).getLast? = _
  rw [List.getLast?_append, h]
  rfl

theorem fileText_append (a b : List Item) : fileText (a ++ b) = fileText a ++ fileText b := by
  unfold fileText; rw [List.flatMap_append]

theorem fileText_cons (a : Item) (b : List Item) : fileText (a :: b) = a.text ++ fileText b := rfl

theorem ends_lines {as : List Item} (h : ∀ x ∈ as, EndsLine x) : fileText as = [] ∨ (fileText as).getLast? = some '\n' := by
  induction as with
  | nil => exact Or.inl rfl
  | cons a as ih =>
    right
    rw [fileText_cons, List.getLast?_append]
    rcases ih (fun x hx => h x (List.mem_cons_of_mem _ hx)) with h' | h'
    · rw [h']; simpa [EndsLine] using h a List.mem_cons_self
    · rw [h']; rfl

theorem IncludesLine.item {items as bs : List Item} {x : Item} {n rest : Str} (he : items = as ++ x :: bs)
    (hx : x.text = c!"#include \"" ++ n ++ c!"\"\n" ++ rest) (h : ∀ y ∈ as, EndsLine y) : IncludesLine (fileText items) n := by
  refine ⟨fileText as, rest ++ fileText bs, ?_, ends_lines h⟩
  rw [he, fileText_append, fileText_cons, hx]
  simp only [List.append_assoc]

theorem IncludesLine.inputs {items as bs : List Item} {inputs : List Str} {f : Str → Item}
    (he : items = as ++ inputs.map f ++ bs) (hx : ∀ n, (f n).text = c!"#include \"" ++ n ++ c!"\"\n")
    (h : ∀ y ∈ as, EndsLine y) {n : Str} (hn : n ∈ inputs) : IncludesLine (fileText items) n := by
  obtain ⟨l1, l2, rfl⟩ := List.append_of_mem hn
  refine IncludesLine.item (as := as ++ l1.map f) (x := f n) (bs := l2.map f ++ bs) (rest := []) ?_ (by rw [hx]; simp) ?_
  · rw [he]; simp
  · intro y hy
    rcases List.mem_append.1 hy with hy | hy
    · exact h y hy
    · obtain ⟨m, _, rfl⟩ := List.mem_map.1 hy
      unfold EndsLine
      rw [hx, List.getLast?_append]
      rfl

/-- Includes of the structs .cpp file: its own header, the enum header if there is one, the inputs. -/
theorem structsCpp_includes (k : Kind) (stamp fc fh : Str) (inputs : List Str) (out : OutSpec) (S : SMap StructS) :
    IncludesLine (fileText (structsCpp k stamp fc fh inputs out S)) fh ∧
    (out.enumFile ≠ [] → out.enumFile ≠ c!"-" →
      IncludesLine (fileText (structsCpp k stamp fc fh inputs out S)) (out.enumFile ++ c!".h")) ∧
    ∀ n ∈ inputs, IncludesLine (fileText (structsCpp k stamp fc fh inputs out S)) n := by
  have hdis : out.enumFile ≠ [] → out.enumFile ≠ c!"-" → disabled out.enumFile = false := by
    intro h1 h2
    cases h : disabled out.enumFile with
    | false => rfl
    | true =>
      rcases (disabled_iff _).1 h with h' | h'
      · exact absurd h' h1
      · exact absurd h' h2
  cases hk : k.isXml with
  | true =>
    obtain ⟨rest, hr⟩ : ∃ rest, structsCpp k stamp fc fh inputs out S =
        [.raw (T.xml50 fc), .raw (T.xml51 (stfxInfo stamp)), .raw (T.xml52 fh), .raw T.xml53, .raw T.xml56,
          .raw (if disabled out.enumFile then T.xml60 else T.xml64 (out.enumFile ++ c!".h"))] ++
        inputs.map (fun f => .raw (T.xml68 f)) ++ rest := by
      simp only [structsCpp, structsCppHead, hk, if_true, List.append_assoc]
      exact ⟨_, rfl⟩
    have e : ∀ y ∈ [Item.raw (T.xml50 fc), .raw (T.xml51 (stfxInfo stamp)), .raw (T.xml52 fh), .raw T.xml53, .raw T.xml56,
        .raw (if disabled out.enumFile then T.xml60 else T.xml64 (out.enumFile ++ c!".h"))], EndsLine y := by
      intro y hy
      simp only [List.mem_cons, List.not_mem_nil, or_false] at hy
      rcases hy with rfl | rfl | rfl | rfl | rfl | rfl
      · exact ends_raw _ c!"\n" rfl
      · exact ends_raw _ c!"\n" rfl
      · exact ends_raw _ c!"\"\n\n" rfl
      · exact ends_const (by decide)
      · exact ends_const (by decide)
      · cases disabled out.enumFile
        · exact ends_raw _ c!"\"\n" rfl
        · exact ends_const (t := T.xml60) (by decide)
    refine ⟨?_, fun h1 h2 => ?_, fun n hn => ?_⟩
    · exact IncludesLine.item (as := [.raw (T.xml50 fc), .raw (T.xml51 (stfxInfo stamp))]) (x := .raw (T.xml52 fh)) (rest := ['\n'])
        hr (by simp [Item.text, T.xml52])
        (fun y hy => e y (by simp only [List.mem_cons, List.not_mem_nil, or_false] at hy ⊢; rcases hy with h | h <;> simp [h]))
    · rw [hdis h1 h2] at hr e
      exact IncludesLine.item (as := [.raw (T.xml50 fc), .raw (T.xml51 (stfxInfo stamp)), .raw (T.xml52 fh), .raw T.xml53,
        .raw T.xml56]) (x := .raw (T.xml64 (out.enumFile ++ c!".h"))) (rest := [])
        (bs := inputs.map (fun f => .raw (T.xml68 f)) ++ rest)
        (by rw [hr]; simp) (by simp [Item.text, T.xml64])
        (fun y hy => e y (by
          simp only [List.mem_cons, List.not_mem_nil, or_false] at hy ⊢
          rcases hy with h | h | h | h | h <;> simp [h]))
    · exact IncludesLine.inputs hr (fun n => by simp [Item.text, T.xml68]) e hn
  | false =>
    obtain ⟨rest, hr⟩ : ∃ rest, structsCpp k stamp fc fh inputs out S =
        [.raw (T.ini50 fc), .raw (T.ini51 (stfxInfo stamp))] ++ [.raw (T.ini52 fh)] ++ ([.raw T.ini53] ++
          (if out.onlyRead then [] else [.raw T.ini59]) ++ [.raw T.ini61]) ++
          [.raw (if disabled out.enumFile then T.ini65 else T.ini69 (out.enumFile ++ c!".h"))] ++
        inputs.map (fun f => .raw (T.ini73 f)) ++ rest := by
      simp only [structsCpp, structsCppHead, hk, if_false, Bool.false_eq_true, List.append_assoc, List.cons_append, List.nil_append]
      exact ⟨_, rfl⟩
    have e1 : ∀ y ∈ [Item.raw (T.ini50 fc), .raw (T.ini51 (stfxInfo stamp))], EndsLine y := by
      intro y hy
      simp only [List.mem_cons, List.not_mem_nil, or_false] at hy
      rcases hy with rfl | rfl
      · exact ends_raw _ c!"\n" rfl
      · exact ends_raw _ c!"\n" rfl
    have e2 : ∀ y ∈ [Item.raw (T.ini50 fc), .raw (T.ini51 (stfxInfo stamp))] ++ [.raw (T.ini52 fh)] ++ ([.raw T.ini53] ++
          (if out.onlyRead then [] else [.raw T.ini59]) ++ [.raw T.ini61]), EndsLine y := by
      intro y hy
      rw [List.mem_append, List.mem_append] at hy
      rcases hy with (hy | hy) | hy
      · exact e1 y hy
      · cases List.mem_singleton.1 hy
        exact ends_raw _ c!"\"\n\n" rfl
      · rw [List.mem_append, List.mem_append, List.mem_singleton, List.mem_singleton] at hy
        rcases hy with (rfl | hy) | rfl
        · exact ends_const (by decide)
        · split at hy
          · cases hy
          · cases List.mem_singleton.1 hy
            exact ends_const (by decide)
        · exact ends_const (by decide)
    refine ⟨?_, fun h1 h2 => ?_, fun n hn => ?_⟩
    · exact IncludesLine.item (as := [.raw (T.ini50 fc), .raw (T.ini51 (stfxInfo stamp))]) (x := .raw (T.ini52 fh)) (rest := ['\n'])
        (by rw [hr]; simp only [List.append_assoc, List.cons_append, List.nil_append]; rfl) (by simp [Item.text, T.ini52]) e1
    · rw [hdis h1 h2] at hr
      exact IncludesLine.item (x := .raw (T.ini69 (out.enumFile ++ c!".h"))) (rest := [])
        (bs := inputs.map (fun f => .raw (T.ini73 f)) ++ rest)
        (by rw [hr]; simp only [List.append_assoc, List.cons_append, List.nil_append, Bool.false_eq_true, if_false]) (by simp [Item.text, T.ini69])
        e2
    · refine IncludesLine.inputs hr (fun n => by simp [Item.text, T.ini73]) ?_ hn
      intro y hy
      rw [List.mem_append] at hy
      rcases hy with hy | hy
      · exact e2 y hy
      · cases List.mem_singleton.1 hy
        cases disabled out.enumFile
        · exact ends_raw _ c!"\"\n" rfl
        · exact ends_const (t := T.ini65) (by decide)

/-- Includes of the structs .h file: the inputs. -/
theorem structsH_includes (k : Kind) (stamp fh : Str) (inputs : List Str) (out : OutSpec) (S : SMap StructS) :
    ∀ n ∈ inputs, IncludesLine (fileText (structsH k stamp fh inputs out S)) n := by
  intro n hn
  cases hk : k.isXml with
  | true =>
    obtain ⟨rest, hr⟩ : ∃ rest, structsH k stamp fh inputs out S =
        [.raw (T.xml71 fh), .raw (T.xml72 (stfxInfo stamp)), .raw T.xml74] ++ inputs.map (fun f => .raw (T.xml81 f)) ++ rest := by
      simp only [structsH, hk, if_true, List.append_assoc]
      exact ⟨_, rfl⟩
    refine IncludesLine.inputs hr (fun n => by simp [Item.text, T.xml81]) ?_ hn
    intro y hy
    simp only [List.mem_cons, List.not_mem_nil, or_false] at hy
    rcases hy with rfl | rfl | rfl
    · exact ends_raw _ c!"\n" rfl
    · exact ends_raw _ c!"\n" rfl
    · exact ends_const (by decide)
  | false =>
    obtain ⟨rest, hr⟩ : ∃ rest, structsH k stamp fh inputs out S =
        [.raw (T.ini76 fh), .raw (T.ini77 (stfxInfo stamp)), .raw T.ini79] ++ inputs.map (fun f => .raw (T.ini87 f)) ++ rest := by
      simp only [structsH, hk, if_false, Bool.false_eq_true, List.append_assoc]
      exact ⟨_, rfl⟩
    refine IncludesLine.inputs hr (fun n => by simp [Item.text, T.ini87]) ?_ hn
    intro y hy
    simp only [List.mem_cons, List.not_mem_nil, or_false] at hy
    rcases hy with rfl | rfl | rfl
    · exact ends_raw _ c!"\n\n" rfl
    · exact ends_raw _ c!"\n" rfl
    · exact ends_const (by decide)

/-- Includes of the enums .cpp file: its own header and the inputs. -/
theorem enumsCpp_includes (stamp fc fh : Str) (inputs : List Str) (E : SMap EnumS) :
    IncludesLine (fileText (enumsCpp stamp fc fh inputs E)) fh ∧
    ∀ n ∈ inputs, IncludesLine (fileText (enumsCpp stamp fc fh inputs E)) n := by
  have e : ∀ y ∈ [Item.raw (T.base87 fc), .raw (T.base88 (stfxInfo stamp)), .raw (T.base89 fh), .raw T.base90], EndsLine y := by
    intro y hy
    simp only [List.mem_cons, List.not_mem_nil, or_false] at hy
    rcases hy with rfl | rfl | rfl | rfl
    · exact ends_raw _ c!"\n" rfl
    · exact ends_raw _ c!"\n" rfl
    · exact ends_raw _ c!"\"\n\n" rfl
    · exact ends_const (by decide)
  obtain ⟨rest, hr⟩ : ∃ rest, enumsCpp stamp fc fh inputs E =
      [.raw (T.base87 fc), .raw (T.base88 (stfxInfo stamp)), .raw (T.base89 fh), .raw T.base90] ++
      inputs.map (fun f => .raw (T.base93 f)) ++ rest := by
    simp only [enumsCpp, List.append_assoc]
    exact ⟨_, rfl⟩
  refine ⟨?_, fun n hn => IncludesLine.inputs hr (fun n => by simp [Item.text, T.base93]) e hn⟩
  exact IncludesLine.item (as := [.raw (T.base87 fc), .raw (T.base88 (stfxInfo stamp))]) (x := .raw (T.base89 fh)) (rest := ['\n'])
    hr (by simp [Item.text, T.base89])
    (fun y hy => e y (by simp only [List.mem_cons, List.not_mem_nil, or_false] at hy ⊢; rcases hy with h | h <;> simp [h]))

/-- Includes of the enums .h file: the inputs. -/
theorem enumsH_includes (stamp fh : Str) (inputs : List Str) (E : SMap EnumS) :
    ∀ n ∈ inputs, IncludesLine (fileText (enumsH stamp fh inputs E)) n := by
  intro n hn
  obtain ⟨rest, hr⟩ : ∃ rest, enumsH stamp fh inputs E =
      [.raw (T.base97 fh), .raw (T.base98 (stfxInfo stamp)), .raw T.base99, .raw T.base100, .raw T.base101] ++
      inputs.map (fun f => .raw (T.base104 f)) ++ rest := by
    simp only [enumsH, List.append_assoc]
    exact ⟨_, rfl⟩
  refine IncludesLine.inputs hr (fun n => by simp [Item.text, T.base104]) ?_ hn
  intro y hy
  simp only [List.mem_cons, List.not_mem_nil, or_false] at hy
  rcases hy with rfl | rfl | rfl | rfl | rfl
  · exact ends_raw _ c!"\n" rfl
  · exact ends_raw _ c!"\n" rfl
  · exact ends_const (by decide)
  · exact ends_const (by decide)
  · exact ends_const (by decide)

/-! ### Which code -/

/-- The name of the file type for which stfx generates code of this kind.  (Specification notion, models no code.) -/
def kindName : Kind → Str
  | .attrib => c!"xml_attrib"
  | .xml => c!"xml"
  | .ini => c!"ini"
  | .nIni => c!"n_ini"

/-- The file type in an output specification, a value of `serialization_type_E` (configuration/config_data.h:10-17), is
the enumerator that names the kind. -/
def Selects (t : Int) (k : Kind) : Prop := ∃ l ∈ fileTypes.enums.zipIdx, t = l.2 ∧ l.1.name = kindName k

theorem Selects.kindOf {t : Int} {k : Kind} (h : Selects t k) : Main.kindOf t = some k := by
  obtain ⟨l, hl, rfl, hn⟩ := h
  simp only [fileTypes, List.zipIdx_cons, List.zipIdx_nil, List.mem_cons, List.not_mem_nil, or_false] at hl
  rcases hl with rfl | rfl | rfl | rfl | rfl <;> cases k <;> first | rfl | exact absurd hn (by decide)

theorem selects_of {t : Int} {k : Kind} (h : Main.kindOf t = some k) : Selects t k := by
  have h2 := (kindOf_iff t).1 ⟨k, h⟩
  have : t = 0 ∨ t = 1 ∨ t = 2 ∨ t = 3 := by omega
  rcases this with rfl | rfl | rfl | rfl
  · cases h; exact ⟨(⟨c!"xml_attrib", false, c!"-"⟩, 0), by decide, rfl, rfl⟩
  · cases h; exact ⟨(⟨c!"xml", false, c!"-"⟩, 1), by decide, rfl, rfl⟩
  · cases h; exact ⟨(⟨c!"ini", false, c!"-"⟩, 2), by decide, rfl, rfl⟩
  · cases h; exact ⟨(⟨c!"n_ini", false, c!"-"⟩, 3), by decide, rfl, rfl⟩

/-- Every type named by a member is declared; element types of vectors need not be.  (Specification notion, models no code.) -/
def MembersDeclared (ds : List Decl) : Prop :=
  ∀ n m ms, Decl.struct n m ms ∈ ds → ∀ ty nm d, Member.named ty nm d ∈ m :: ms → ty ∈ ds.map Decl.name

theorem fresh_structs {ds : List Decl} (hnd : (ds.map Decl.name).Nodup) {n : Str} {m : Member} {ms : List Member}
    (h : Decl.struct n m ms ∈ ds) :
    (fresh ds).structs.find? n = some ⟨n, (m :: ms).filterMap simpleOf, (m :: ms).filterMap complexOf, 0⟩ := by
  unfold fresh
  rw [foldl_add_structs _ _ _ hnd, (find_iff hnd n _).2 ⟨h, rfl⟩]
  rfl

theorem fresh_enums {ds : List Decl} (hnd : (ds.map Decl.name).Nodup) {c t : Bool} {n : Str} {e : Enumerator} {es : List Enumerator}
    (h : Decl.enum c n e es t ∈ ds) :
    (fresh ds).enums.find? n = some ⟨n, c, (e :: es).map lineOf⟩ := by
  unfold fresh
  rw [foldl_add_enums _ _ _ hnd, (find_iff hnd n _).2 ⟨h, rfl⟩]
  rfl

theorem fresh_fixup {ds : List Decl} (hnd : (ds.map Decl.name).Nodup) (hd : MembersDeclared ds) : (fixup (fresh ds)).2 = true := by
  obtain ⟨ht, _, _⟩ := fresh_facts ds hnd
  show (List.all _ _) = true
  rw [List.all_eq_true]
  rintro ⟨n, s⟩ hs
  rw [List.all_eq_true]
  intro co hco
  have hf := ht.sortedS.find?_of_mem hs
  have hex : ∃ m ms, Decl.struct n m ms ∈ ds := by
    unfold fresh at hf
    rw [foldl_add_structs _ _ _ hnd] at hf
    cases hfd : ds.find? fun d => decide (d.name = n) with
    | none => rw [hfd] at hf; cases hf
    | some d =>
      rw [hfd] at hf
      obtain ⟨hm, hn⟩ := (find_iff hnd n d).1 hfd
      cases d with
      | enum => cases hf
      | struct n' m ms => cases hn; exact ⟨m, ms, hm⟩
  obtain ⟨m, ms, hm⟩ := hex
  rw [fresh_structs hnd hm] at hf
  cases hf
  simp only [List.mem_filterMap] at hco
  obtain ⟨x, hx, he⟩ := hco
  cases x with
  | simple => cases he
  | vector el nm => cases he; rfl
  | named ty nm d =>
    cases he
    have hty := hd n m ms hm ty nm d hx
    have : getItemType (fresh ds) ty ≠ .unknown := by
      obtain ⟨y, hy, rfl⟩ := List.mem_map.1 hty
      cases y with
      | struct n' m' ms' => rw [show (Decl.struct n' m' ms').name = n' from rfl, itemType_of_struct (fresh_structs hnd hy)]; decide
      | enum c n' e es t => rw [show (Decl.enum c n' e es t).name = n' from rfl, itemType_of_enum ht (fresh_enums hnd hy)]; decide
    unfold fixupLineOk
    simpa using this

/-- Headers read by name.  (Specification notion, models no code.) -/
def sources (txt : Str → Str) (hd : Str → Header) (names : List Str) : List (Str × Header) := names.map fun n => (txt n, hd n)

theorem sources_decls (txt : Str → Str) (hd : Str → Header) (names : List Str) :
    (sources txt hd names).flatMap (fun f => f.2.decls) = names.flatMap fun n => (hd n).decls := by
  unfold sources
  rw [List.flatMap_map]

theorem fresh_generated {txt : Str → Str} {hd : Str → Header} {names : List Str}
    (ht : ∀ n ∈ names, toksFile (txt n) = some (hd n).toks)
    (hnd : ((names.flatMap fun n => (hd n).decls).map Decl.name).Nodup)
    (hdecl : MembersDeclared (names.flatMap fun n => (hd n).decls)) (k : Kind) (stamp fc fh : Str) (inputs : List Str) (out : OutSpec) :
    Generated (sources txt hd names) k out (structsCpp k stamp fc fh inputs out
      (findTop (fixup (fresh (names.flatMap fun n => (hd n).decls))).1).1.structs) := by
  have hw : ∀ f ∈ sources txt hd names, toksFile f.1 = some f.2.toks := by
    intro f hf
    obtain ⟨n, hn, rfl⟩ := List.mem_map.1 hf
    exact ht n hn
  have ht0 : TabOk Info.empty := (HeapOk.new HeapOk.nil).tab 0 _ rfl
  refine ⟨hw, by rw [sources_decls]; exact hnd, _, stamp, fc, fh, inputs, ?_, rfl⟩
  rw [headers_steps (h := [Info.empty]) (self := 0) rfl ht0 rfl _ hw (by rw [sources_decls]; exact hnd) fun _ _ => rfl, sources_decls,
    Option.bind_some]
  show some ([_], (fixup (fresh _)).2 && true) = _
  rw [fresh_fixup hnd hdecl]
  rfl

/-- After a run, the files of an output specification hold code of kind `k` for the declarations of the headers `names`,
and include what they need, except where a path in `later` denotes the same file.  (The struct files are generated together from one
table of structs, `S`.)  (Specification notion, models no code.) -/
def CodeOf (env : Env) (base : Str) (txt : Str → Str) (hd : Str → Header) (names : List Str) (out : OutSpec) (k : Kind)
    (later : List Str) (w : World) : Prop :=
  ∀ dir, outDir env base out = some dir →
    (Writable env dir out.structsFile → ∃ S fc fh,
      Generated (sources txt hd names) k out (structsCpp k env.stamp fc fh names out S) ∧
      ((∀ p ∈ later, env.ident p ≠ env.ident (cppPath dir out.structsFile)) → ∃ text,
        w.read env (cppPath dir out.structsFile) = some text ∧
        text = fileText (structsCpp k env.stamp fc fh names out S) ∧
        IncludesLine text (filename (hPath dir out.structsFile)) ∧
        (out.enumFile ≠ [] → out.enumFile ≠ c!"-" → IncludesLine text (out.enumFile ++ c!".h")) ∧
        ∀ n ∈ names, IncludesLine text n) ∧
      ((∀ p ∈ later, env.ident p ≠ env.ident (hPath dir out.structsFile)) → ∃ text,
        w.read env (hPath dir out.structsFile) = some text ∧
        text = fileText (structsH k env.stamp fh names out S) ∧
        ∀ n ∈ names, IncludesLine text n)) ∧
    (Writable env dir out.enumFile →
      (∀ p ∈ pairPaths env dir out.structsFile ++ later, env.ident p ≠ env.ident (cppPath dir out.enumFile)) →
      (∀ p ∈ pairPaths env dir out.structsFile ++ later, env.ident p ≠ env.ident (hPath dir out.enumFile)) → ∃ cpp h,
        w.read env (cppPath dir out.enumFile) = some (fileText cpp) ∧ w.read env (hPath dir out.enumFile) = some (fileText h) ∧
        IncludesLine (fileText cpp) (filename (hPath dir out.enumFile)) ∧
        (∀ n ∈ names, IncludesLine (fileText cpp) n ∧ IncludesLine (fileText h) n) ∧
        ∀ n ∈ names, ∀ c en e es t, Decl.enum c en e es t ∈ (hd n).decls →
          Item.defSFromE ⟨en, c, (e :: es).map lineOf⟩ ∈ cpp ∧ Item.defSToE ⟨en, c, (e :: es).map lineOf⟩ ∈ cpp ∧
          Item.declSFromE en ∈ h ∧ Item.declSToE en ∈ h)

theorem Holds.codeOf {env : Env} {base : Str} {txt : Str → Str} {hd : Str → Header} {names : List Str} {out : OutSpec} {k : Kind}
    {later : List Str} {w : World} (ht : ∀ n ∈ names, toksFile (txt n) = some (hd n).toks)
    (hnd : ((names.flatMap fun n => (hd n).decls).map Decl.name).Nodup)
    (hdecl : MembersDeclared (names.flatMap fun n => (hd n).decls))
    (h : Holds env base names out k (findTop (fixup (fresh (names.flatMap fun n => (hd n).decls))).1).1.structs
      (fresh (names.flatMap fun n => (hd n).decls)).enums later w) : CodeOf env base txt hd names out k later w := by
  intro dir hdir
  obtain ⟨h1, h2⟩ := h dir hdir
  refine ⟨fun hw => ⟨_, filename (cppPath dir out.structsFile), filename (hPath dir out.structsFile),
    fresh_generated ht hnd hdecl k _ _ _ _ out, fun hl => ⟨_, (h1 hw).1 hl, rfl, ?_⟩, fun hl => ⟨_, (h1 hw).2 hl, rfl, ?_⟩⟩,
    fun hw hl1 hl2 => ?_⟩
  · exact structsCpp_includes _ _ _ _ _ _ _
  · exact structsH_includes _ _ _ _ _ _
  · have hne : hPath dir out.enumFile ≠ cppPath dir out.enumFile := fun e => hw.differ (by rw [e])
    have r1 := h2 hw _ (Or.inl rfl) (fun p hp => hl1 p (List.mem_append_left _ hp)) (fun p hp => hl1 p (List.mem_append_right _ hp))
    have r2 := h2 hw _ (Or.inr rfl) (fun p hp => hl2 p (List.mem_append_left _ hp)) (fun p hp => hl2 p (List.mem_append_right _ hp))
    rw [if_pos rfl] at r1
    rw [if_neg hne] at r2
    refine ⟨_, _, r1, r2, (enumsCpp_includes _ _ _ _ _).1,
      fun n hn => ⟨(enumsCpp_includes _ _ _ _ _).2 n hn, enumsH_includes _ _ _ _ n hn⟩, ?_⟩
    intro n hn c en e es t hd'
    have hm : Decl.enum c en e es t ∈ names.flatMap fun n => (hd n).decls := List.mem_flatMap.2 ⟨n, hn, hd'⟩
    have hf := SMap.find?_some_mem (fresh_enums hnd hm)
    refine ⟨List.mem_append_right _ (List.mem_flatMap.2 ⟨_, hf, by simp⟩), List.mem_append_right _ (List.mem_flatMap.2 ⟨_, hf, by simp⟩),
      ?_, ?_⟩
    · refine List.mem_append_left _ (List.mem_append_left _ (List.mem_append_right _ (List.mem_flatMap.2 ⟨_, hf, by simp⟩)))
    · refine List.mem_append_left _ (List.mem_append_left _ (List.mem_append_right _ (List.mem_flatMap.2 ⟨_, hf, by simp⟩)))

/-- C50, configuration mode.  The headers are well-formed, their names are distinct within each part, and no output overwrites
an input; types used in the common headers are declared there (otherwise C17 fails; this is not needed if no code is
generated for the common headers).  Then the run succeeds, and the files of the common part and of each group whose
members' types are declared hold the code of the file type selected, for the headers of the part. -/
theorem C50_config (env : Env) (f : Str) (c : Config) (w : World) (txt : Str → Str) (hd : Str → Header)
    (hin : ∀ n ∈ c.inputs, w.read env (join (parentPath f) n) = some (txt n) ∧ toksFile (txt n) = some (hd n).toks)
    (hndc : ((c.commonIn.flatMap fun n => (hd n).decls).map Decl.name).Nodup)
    (hndg : ∀ g ∈ c.nonCommon, (((c.commonIn ++ g.1).flatMap fun n => (hd n).decls).map Decl.name).Nodup)
    (hout : Disjoint' env (parentPath f) c.inputs (runPaths env (parentPath f) c.commonOut ++
      c.nonCommon.flatMap fun g => runPaths env (parentPath f) g.2))
    (hm : ∀ p, env.makeDir p ≠ none)
    (hcom : (∃ k, Selects c.commonOut.fileType k) → MembersDeclared (c.commonIn.flatMap fun n => (hd n).decls)) :
    ∃ w', processStfxFile env f (.loaded c) w = .ok 0 w' ∧
      (∀ k, Selects c.commonOut.fileType k → CodeOf env (parentPath f) txt hd c.commonIn c.commonOut k
        (c.nonCommon.flatMap fun g => runPaths env (parentPath f) g.2) w') ∧
      ∀ pre g post, c.nonCommon = pre ++ g :: post → ∀ k, Selects g.2.fileType k →
        MembersDeclared ((c.commonIn ++ g.1).flatMap fun n => (hd n).decls) →
        CodeOf env (parentPath f) txt hd (c.commonIn ++ g.1) g.2 k (post.flatMap fun g => runPaths env (parentPath f) g.2) w' := by
  obtain ⟨w', e, h1, h2⟩ := config_written env f c w hd (fun n hn => ⟨_, hin n hn⟩) hndc hndg hout hm
    (fun ⟨k, hk⟩ => fresh_fixup hndc (hcom ⟨k, selects_of hk⟩))
  refine ⟨w', e, fun k hk => ?_, fun pre g post he k hk hdecl => ?_⟩
  · exact Holds.codeOf (fun n hn => (hin n (List.mem_append_left _ hn)).2) hndc (hcom ⟨k, hk⟩) (h1 k hk.kindOf)
  · have hg : g ∈ c.nonCommon := by rw [he]; simp
    refine Holds.codeOf (fun n hn => (hin n ?_).2) (hndg g hg) hdecl (h2 pre g post he k hk.kindOf)
    rcases List.mem_append.1 hn with hn | hn
    · exact List.mem_append_left _ hn
    · exact List.mem_append_right _ (List.mem_flatMap.2 ⟨g, hg, hn⟩)

/-- C50, header mode: the code is of the kind with attributes, for the one header. -/
theorem C50_header (env : Env) (p : Str) (w : World) {text : Str} {hd : Header} (hr : w.read env p = some text)
    (ht : toksFile text = some hd.toks) (hnd : (hd.decls.map Decl.name).Nodup) (hdecl : MembersDeclared hd.decls) :
    ∃ w', processSingleHeader env p w = .ok 0 w' ∧
      CodeOf env (parentPath p) (fun _ => text) (fun _ => hd) [filename p] headerSpec .attrib [] w' := by
  have ht0 : TabOk Info.empty := (HeapOk.new HeapOk.nil).tab 0 _ rfl
  have e := header_step (h := [Info.empty]) (self := 0) (i := Info.empty) rfl ht0 hd ht hnd (fun _ _ => rfl)
  have hfl : [filename p].flatMap (fun _ => hd.decls) = hd.decls := by simp
  have d3 : outDir env (parentPath p) headerSpec = some (parentPath p) := by
    unfold outDir; rw [if_pos (by rfl)]
  have hi : ({ w with heap := [fresh hd.decls] } : World).heap[0]? = some (fresh hd.decls) := rfl
  obtain ⟨b, w1, e1, h1, h2⟩ := processItems_written hi env .attrib (parentPath p) [filename p] headerSpec d3
  refine ⟨w1, ?_, ?_⟩
  · unfold processSingleHeader
    rw [hr, e]
    simp only [if_true]
    show (processItems env .attrib (parentPath p) 0 [filename p] headerSpec { w with heap := [_] }).bind _ = _
    have hrv : ({ hd.decls.foldl (Info.add 0) Info.empty with parseRv := 0 } : Info) = fresh hd.decls :=
      rv_eq (foldl_rv0 0 (i := Info.empty) rfl _)
    first
      | rw [e1]; rfl
      | rw [hrv, e1]; rfl
  · refine Holds.codeOf (fun _ _ => ht) (by rw [hfl]; exact hnd) (by rw [hfl]; exact hdecl) ?_
    rw [hfl]
    intro dir hdir
    rw [d3] at hdir
    cases hdir
    exact ⟨fun hs => ⟨fun _ => (h1 hs).1, fun _ => (h1 hs).2⟩, fun he q hq hp _ => h2 he q hq hp⟩

/-! Non-vacuity: the configuration of the example for C23, with a common part of kind `xml_attrib` and a group of kind `xml` that
uses a type of the common part. -/

/-- (Example, models no code.) -/
def orderText : Str → Str := fun n =>
  if n = c!"a.h" then c!"struct A { B b; };\nenum B { X };" else c!"struct C { int c; };\nstruct D { std::vector<A> as; };"

example : ∃ w', processStfxFile orderEnv c!"/d/x.stfx" (.loaded orderConfig) (orderWorld (orderText c!"a.h") (orderText c!"b.h")) = .ok 0 w' ∧
    (∃ prog, Generated (sources orderText (orderDecls ⟨orderA, [orderB]⟩ ⟨orderC, [orderD]⟩) [c!"a.h", c!"b.h"]) .xml
        { headerSpec with enumFile := [], structsFile := c!"t", fileType := 1 } prog ∧
      w'.read orderEnv c!"/d/t.cpp" = some (fileText prog) ∧ IncludesLine (fileText prog) c!"a.h") ∧
    ∃ cpp, w'.read orderEnv c!"/d/e.cpp" = some (fileText cpp) ∧ Item.defSToE ⟨c!"B", false, [⟨c!"X", false, c!"-"⟩]⟩ ∈ cpp := by
  obtain ⟨w', e, h1, h2⟩ := C50_config orderEnv c!"/d/x.stfx" orderConfig (orderWorld (orderText c!"a.h") (orderText c!"b.h")) orderText
    (orderDecls ⟨orderA, [orderB]⟩ ⟨orderC, [orderD]⟩)
    (by
      intro n hn
      have hn : n = c!"a.h" ∨ n = c!"b.h" := by simpa [orderConfig, Config.inputs] using hn
      rcases hn with rfl | rfl
      · exact ⟨by decide, by decide +kernel⟩
      · exact ⟨by decide, by decide +kernel⟩)
    (by decide) (by intro g hg; cases List.mem_singleton.1 hg; decide) (by unfold Disjoint'; decide) (by intro p h; cases h)
    (by
      intro _ n m ms h ty nm d hx
      have h : Decl.struct n m ms ∈ [orderA, orderB] := h
      simp only [List.mem_cons, List.not_mem_nil, or_false, orderA, orderB, Decl.struct.injEq, reduceCtorEq] at h
      obtain ⟨rfl, rfl, rfl⟩ := h
      cases List.mem_singleton.1 hx
      decide)
  refine ⟨w', e, ?_, ?_⟩
  · have := h2 [] _ [] rfl .xml (selects_of rfl) (by
      intro n m ms h ty nm d hx
      have h : Decl.struct n m ms ∈ [orderA, orderB, orderC, orderD] := h
      simp only [List.mem_cons, List.not_mem_nil, or_false, orderA, orderB, orderC, orderD, Decl.struct.injEq, reduceCtorEq, false_or] at h
      rcases h with ⟨rfl, rfl, rfl⟩ | ⟨rfl, rfl, rfl⟩ | ⟨rfl, rfl, rfl⟩ <;> cases List.mem_singleton.1 hx
      decide) c!"/d" rfl
    obtain ⟨S, fc, fh, hG, hc, _⟩ := this.1 ⟨by decide, rfl, rfl, by decide⟩
    obtain ⟨_, hr, rfl, _, _, hi⟩ := hc (by intro p hp; cases hp)
    exact ⟨_, hG, hr, hi _ (by decide)⟩
  · have := h1 .attrib (selects_of rfl) c!"/d" rfl
    obtain ⟨cpp, h, hr, _, _, _, hE⟩ := this.2 ⟨by decide, rfl, rfl, by decide⟩ (by decide) (by decide)
    exact ⟨cpp, hr, (hE c!"a.h" (by decide) false c!"B" ⟨c!"X", none⟩ [] false (by decide)).2.1⟩

end Stfx.Run
