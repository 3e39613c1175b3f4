import Verif.Cpp.RunIniWr
import Verif.Cpp.IniProgram
/-
A program with the generated n_ini files: which functions the names in the writer class mean.
-/
set_option autoImplicit false
namespace Stfx.Cpp
open Stfx.Lexer Stfx.Run Stfx.Parser Stfx.Items Stfx.Gen

/-- Names in the generated writer class, or in its base class, hide no name used in it: no struct has the name of a parameter or of a
variable declared before the struct is used, of a data member, of the classes, of their nested class or of one of their functions, and
the class and the namespace-scope names it uses differ.  (Proof notion, models no code.) -/
structure IniWriterClear (ds : List Decl) (out : OutSpec) : Prop where
  locals : ∀ n m ms, Decl.struct n m ms ∈ ds →
    n ∉ [c!"path", c!"filename", c!"data", c!"rv"] ++ iniMembers ++ [c!"lower_path", c!"read_from_file", c!"write_to_file", c!"read_item_S",
      out.readerClass, out.writerClass]
  funs : ∀ n m ms n' m' ms', Decl.struct n m ms ∈ ds → Decl.struct n' m' ms' ∈ ds → n ≠ c!"do_rd_" ++ n' ∧ n ≠ c!"do_wr_" ++ n'
  cls : out.writerClass ∉ [c!"stfx", c!"write_to_file", c!"read_from_file", out.readerClass]
  clsFuns : ∀ n m ms, Decl.struct n m ms ∈ ds → out.writerClass ≠ c!"do_wr_" ++ n
  enums : ∀ c n x xs t, Decl.enum c n x xs t ∈ ds → FromClear ⟨n, c, (x :: xs).map lineOf⟩

section
variable {fs : List (Str × Header)} {out : OutSpec} {prog : List Item} {E : Env}

/-- The writer function of a struct, process_items_ini.cpp:448-603. -/
def iniWr (wc : Str) (dd : Bool) (s : StructS) : Fun :=
  nwrFun wc s.name (nwrBody s.name dd (s.simple.map (fun l => .line dd l.ty l.name) ++ s.complex.map (nwrComplex dd)))

/-- The functions of the writer class. -/
theorem iniWriter_funs {stamp fc fh : Str} {inputs : List Str} {S : SMap StructS} {n : Str} (hn : n ≠ out.writerClass)
    (ho : out.onlyRead = false) (hw : out.writerClass ≠ out.readerClass) :
    ((structsCpp .nIni stamp fc fh inputs out S).flatMap itemFuns).filter (fun f => f.name = [out.writerClass, n]) =
      (if n = c!"write_to_file" then (tops S).map (ini239_fun out.writerClass) else []) ++
      ((S.map Prod.snd).filter fun s => c!"do_wr_" ++ s.name = n).map (iniWr out.writerClass (!out.noDelta)) := by
  have hq : ∀ is : List Item, (∀ i ∈ is, ∃ t, i = .raw t) → is.flatMap itemFuns = [] := by
    intro is h
    rw [List.flatMap_eq_nil_iff]
    intro i hi
    obtain ⟨t, rfl⟩ := h i hi
    rfl
  have h1 : ∀ l : List StructS, (((l.map fun s => Item.defWriteFile .nIni out.writerClass s.name)).flatMap itemFuns).filter (fun f => f.name = [out.writerClass, n]) =
      if n = c!"write_to_file" then (l.map StructS.name).map (ini239_fun out.writerClass) else [] := by
    intro l
    rw [List.flatMap_map]
    have hx : Kind.nIni.isXml = false := rfl
    have : (l.flatMap fun s => itemFuns (Item.defWriteFile .nIni out.writerClass s.name)) = (l.map StructS.name).map (ini239_fun out.writerClass) := by
      induction l with
      | nil => rfl
      | cons s l ih => rw [List.flatMap_cons, ih]; simp [itemFuns, hx]
    rw [this]
    split
    · next h =>
      rw [List.filter_eq_self]
      intro f hf
      obtain ⟨a, _, rfl⟩ := List.mem_map.1 hf
      simp [ini239_fun, h]
    · next h =>
      rw [List.filter_eq_nil_iff]
      intro f hf
      obtain ⟨a, _, rfl⟩ := List.mem_map.1 hf
      simp [ini239_fun, Ne.symm h]
  have h2 : ∀ l : List StructS, ((l.flatMap (writerDef .nIni out.writerClass out.noDelta)).flatMap itemFuns).filter (fun f => f.name = [out.writerClass, n]) =
      (l.filter fun s => c!"do_wr_" ++ s.name = n).map (iniWr out.writerClass (!out.noDelta)) := by
    intro l
    induction l with
    | nil => rfl
    | cons s l ih =>
      have hr : (writerDef .nIni out.writerClass out.noDelta s).flatMap itemFuns = [iniWr out.writerClass (!out.noDelta) s] := by
        rfl
      rw [List.flatMap_cons, List.flatMap_append, List.filter_append, ih, hr, List.filter_cons]
      have hnm : (iniWr out.writerClass (!out.noDelta) s).name = [out.writerClass, c!"do_wr_" ++ s.name] := rfl
      by_cases he : c!"do_wr_" ++ s.name = n
      · rw [if_pos (by rw [hnm, he]; simp), List.filter_cons, if_pos (by simpa using he)]
        rfl
      · rw [if_neg (by rw [hnm]; simpa using he), List.filter_cons, if_neg (by simpa using he)]
        rfl
  have h3 : (([Item.readerCtor .nIni out.readerClass] ++
      ((S.map Prod.snd).filter isTop).map (fun s => Item.defReadFile .nIni out.readerClass s.name) ++
      (S.map Prod.snd).flatMap (readerDef .nIni out.readerClass)).flatMap itemFuns).filter (fun f => f.name = [out.writerClass, n]) = [] := by
    rw [List.filter_eq_nil_iff]
    intro f hf
    have hc : f.name.head? = some out.readerClass := by
      simp only [List.flatMap_append, List.mem_append] at hf
      rcases hf with (hf | hf) | hf
      · simp only [List.flatMap_cons, List.flatMap_nil, itemFuns, List.append_nil, List.mem_cons, List.not_mem_nil, or_false] at hf
        subst hf; rfl
      · obtain ⟨i, hi, hf⟩ := List.mem_flatMap.1 hf
        obtain ⟨s, _, rfl⟩ := List.mem_map.1 hi
        simp only [itemFuns, List.mem_cons, List.not_mem_nil, or_false] at hf
        subst hf
        split <;> rfl
      · obtain ⟨i, hi, hf⟩ := List.mem_flatMap.1 hf
        obtain ⟨s, _, hi⟩ := List.mem_flatMap.1 hi
        simp only [readerDef, List.mem_cons, List.not_mem_nil, or_false] at hi
        subst hi
        simp only [itemFuns, List.mem_cons, List.not_mem_nil, or_false] at hf
        subst hf; rfl
    intro he
    rw [of_decide_eq_true he] at hc
    exact hw (Option.some.inj hc)
  have h4 : ∀ a b c : List Item, ((structsCppHead .nIni stamp fc fh inputs out ++ a ++ b ++ c).flatMap itemFuns).filter (fun f => f.name = [out.writerClass, n]) =
      ((a ++ b ++ c).flatMap itemFuns).filter (fun f => f.name = [out.writerClass, n]) := by
    intro a b c
    simp only [List.flatMap_append, List.filter_append]
    rw [hq _ (head_raw .nIni stamp fc fh inputs out)]
    rfl
  rw [structsCpp_parts, List.flatMap_append, List.filter_append, List.flatMap_append, List.filter_append, h4, h3, ho,
    hq [Item.raw _] (by simp)]
  simp only [Bool.false_eq_true, if_false, List.flatMap_append, List.filter_append, h1, h2]
  rw [hq [Item.raw _] (by simp)]
  simp only [List.filter_nil, List.nil_append, List.append_nil, tops]
  have : ([Item.writerCtor .nIni out.writerClass out.readerClass].flatMap itemFuns).filter (fun f => f.name = [out.writerClass, n]) = [] := by
    simp [itemFuns, xml149_fun, Ne.symm hn]
  rw [this, List.nil_append]

/-- The functions of both classes in the program. -/
theorem IniBuilt.writer (h : IniBuilt fs out prog E) (ho : out.onlyRead = false) (hw : out.writerClass ≠ out.readerClass) :
    ∃ i stamp fc fh inputs, (processFiles 0 (fs.map fun f => some f.1) [Info.empty]).bind (prepare 0) = some ([i], true) ∧
      prog = structsCpp .nIni stamp fc fh inputs out i.structs ∧ Names stamp fc fh inputs out i.structs ∧ EnumProgram E i.enums ∧
      (∀ n, n ≠ out.readerClass → E.prog.filter (fun f => f.name = [out.readerClass, n]) =
        (if n = c!"read_from_file" then (tops i.structs).map (ini120_fun out.readerClass) else []) ++
        ((i.structs.map Prod.snd).filter fun s => c!"do_rd_" ++ s.name = n).map (iniRd out.readerClass)) ∧
      ∀ n, n ≠ out.writerClass → E.prog.filter (fun f => f.name = [out.writerClass, n]) =
        (if n = c!"write_to_file" then (tops i.structs).map (ini239_fun out.writerClass) else []) ++
        ((i.structs.map Prod.snd).filter fun s => c!"do_wr_" ++ s.name = n).map (iniWr out.writerClass (!out.noDelta)) := by
  obtain ⟨ext, i, stamp, fc, fh, inputs, pre, gs, post, h1, h2, h3, h5, h6, h7, h8⟩ := h.run
  have hp := structsCpp_parse (ext := ext) (k := .nIni) h3.files h3.reader h3.writer h3.structs (.inr (.inl (by simp)))
  rw [h2, hp] at h5
  cases h5
  have h0 : ∀ (c n : Str) (fs : List Fun), (∀ f ∈ fs, f.name.head? ≠ some c) → fs.filter (fun f => f.name = [c, n]) = [] := by
    intro c n fs h
    rw [List.filter_eq_nil_iff]
    intro f hf hn
    exact h f hf (by rw [of_decide_eq_true hn]; rfl)
  refine ⟨i, stamp, fc, fh, inputs, h1, h2, h3, h8, fun n hn => ?_, fun n hn => ?_⟩
  · rw [h6, List.filter_append, List.filter_append, h0 _ _ pre fun f hf => (h7 f (by simp [hf])).1, h0 _ _ post fun f hf => (h7 f (by simp [hf])).1,
      iniReader_funs hn fun _ => hw, List.nil_append, List.append_nil]
  · rw [h6, List.filter_append, List.filter_append, h0 _ _ pre fun f hf => (h7 f (by simp [hf])).2 ho, h0 _ _ post fun f hf => (h7 f (by simp [hf])).2 ho,
      iniWriter_funs hn ho hw, List.nil_append, List.append_nil]

theorem doWr_inj (a b : Str) (h : c!"do_wr_" ++ a = c!"do_wr_" ++ b) : a = b := List.append_cancel_left h

theorem doWr_ne {c n : Str} (h : n.take 1 ≠ c!"d") : c!"do_wr_" ++ c ≠ n := by
  intro e
  rw [← e] at h
  exact h rfl

theorem noBraces_word {s : Str} (h : Run.Ident s) : NoBraces s := by
  obtain ⟨c, r, _, _, h⟩ := h
  intro d hd
  have := h d hd
  constructor <;> (rintro rfl; revert this; decide)

/-- The program has the writer functions. -/
theorem IniBuilt.wrProgram (h : IniBuilt fs out prog E) (ho : out.onlyRead = false) (hc : IniWriterClear (declsOf fs) out) :
    NWrProgram E out.writerClass prog ∧ ∃ ns : List Str, ns.Nodup ∧ (ns ≠ [] → methods E (some out.writerClass) c!"write_to_file" = ns.map (ini239_fun out.writerClass)) ∧
      methods E (some out.writerClass) c!"read_from_file" = E.prog.filter (fun f => f.name = [out.readerClass, c!"read_from_file"]) ∧
      (∀ n, n ∈ ns ↔ TopStruct (declsOf fs) n) ∧ ∀ n ∈ ns, IniName E out.writerClass n := by
  have hcl : out.writerClass ≠ c!"stfx" ∧ out.writerClass ≠ c!"write_to_file" ∧ out.writerClass ≠ c!"read_from_file" ∧ out.writerClass ≠ out.readerClass := by
    have := hc.cls
    simpa only [List.mem_cons, List.not_mem_nil, or_false, not_or] using this
  obtain ⟨i, stamp, fc, fh, inputs, hi, hp, hnm, hen, hmr, hmw⟩ := h.writer ho hcl.2.2.2
  obtain ⟨⟨t1, t2, t3, t4⟩, t5, t6⟩ := tables_all h.texts h.distinct hi
  have hdecl : ∀ p ∈ i.structs, ∃ m ms, Decl.struct p.1 m ms ∈ declsOf fs := by
    intro p hp
    have hpk : p.1 ∈ i.structs.keys := List.mem_map.2 ⟨p, hp, rfl⟩
    cases hf : i.structs.find? p.1 with
    | none => exact absurd hpk (SMap.find?_none_iff.1 hf)
    | some s' => exact t3 _ _ hf
  have hmeth : ∀ n, E.prog.filter (fun f => f.name = [out.writerClass, n]) ≠ [] →
      methods E (some out.writerClass) n = E.prog.filter (fun f => f.name = [out.writerClass, n]) := by
    intro n he
    unfold methods
    simp only
  have hsn : ∀ n m ms, Decl.struct n m ms ∈ declsOf fs → IniName E out.writerClass n ∧ n ≠ c!"lower_path" := by
    intro n m ms hd
    have hl := hc.locals n m ms hd
    obtain ⟨cs, hcs, _⟩ := h.compiled.cls n m ms hd
    refine ⟨⟨fun h => hl (List.mem_append_left _ h), ?_, ?_, by simp [hcs]⟩, fun h => hl (by simp [h])⟩
    · have hf : ∀ (g : Str → Str) (f : StructS → Fun), (∀ p ∈ i.structs, n ≠ g p.1) → ((i.structs.map Prod.snd).filter fun s => g s.name = n).map f = [] := by
        intro g f hg
        rw [List.map_eq_nil_iff, List.filter_eq_nil_iff]
        intro s hs he
        obtain ⟨p, hp, rfl⟩ := List.mem_map.1 hs
        rw [t1 p.1 p.2 hp] at he
        exact hg p hp (of_decide_eq_true he).symm
      have hr : E.prog.filter (fun f => f.name = [out.readerClass, n]) = [] := by
        rw [hmr n (fun h => hl (by simp [h])), if_neg (fun h => hl (by simp [h])), List.nil_append]
        refine hf (c!"do_rd_" ++ ·) _ fun p hp => ?_
        obtain ⟨m', ms', hd'⟩ := hdecl p hp
        exact (hc.funs n m ms p.1 m' ms' hd hd').1
      have hw : E.prog.filter (fun f => f.name = [out.writerClass, n]) = [] := by
        rw [hmw n (fun h => hl (by simp [h])), if_neg (fun h => hl (by simp [h])), List.nil_append]
        refine hf (c!"do_wr_" ++ ·) _ fun p hp => ?_
        obtain ⟨m', ms', hd'⟩ := hdecl p hp
        exact (hc.funs n m ms p.1 m' ms' hd hd').2
      unfold methods
      simp only [hw, h.writerBase ho, hr]
    · rw [h.nested]
      exact fun h => hl (by simp only [List.mem_cons, List.not_mem_nil, or_false] at h; simp [h])
  have hcode := (h.gen.ncode ho h.compiled).1
  refine ⟨⟨hcl.1, ?_⟩, tops i.structs, ?_, ?_, ?_, t6, ?_⟩
  · intro c dd body hb
    have hb' := hb
    rw [hp, nwrBody_gen ho t1] at hb'
    cases hf : i.structs.find? c with
    | none => rw [hf] at hb'; cases hb'
    | some s =>
    rw [hf, Option.map_some] at hb'
    obtain ⟨m, ms, hd⟩ := t3 c s hf
    have hname : s.name = c := t1 c s (SMap.find?_some_mem hf)
    obtain ⟨cs, hcs, hcm⟩ := h.compiled.cls c m ms hd
    have hnod := h.compiled.good.nodup c cs hcs
    have hwr := hcode.wr c cs hcs
    rw [hb] at hwr
    simp only [Option.some.injEq, Prod.mk.injEq] at hwr hb'
    obtain ⟨r1, r2⟩ := hwr
    obtain ⟨b1, b2⟩ := hb'
    refine ⟨(hsn c m ms hd).1, (hsn c m ms hd).2, ?_, ?_⟩
    · have hf1 : E.prog.filter (fun f => f.name = [out.writerClass, c!"do_wr_" ++ c]) = [iniWr out.writerClass (!out.noDelta) s] := by
        rw [hmw _ (Ne.symm (hc.clsFuns c m ms hd)), if_neg (doWr_ne (by decide)), List.nil_append, filter_named t1 t2 hf _ doWr_inj]
        rfl
      rw [hmeth _ (by rw [hf1]; simp), hf1]
      simp only [iniWr, hname, ← b1, ← b2]
    · rw [r2]
      intro w hw
      obtain ⟨p, hp', rfl⟩ := List.mem_map.1 hw
      obtain ⟨cm, hcm1, rfl⟩ := mem_ordered.1 hp'
      have hid := hcode.ident c cs hcs cm hcm1
      have hcstr := cStr_word hid
      have hnb := noBraces_word hid
      have hmt := memberTy_of hcs hnod hcm1
      unfold lineNWr
      cases hty : cm.ty with
      | simple ty => exact ⟨hcstr, hnb, by rw [hmt, hty]⟩
      | enum n =>
        obtain ⟨e, val, he⟩ := h.gen.enumDeclared h.compiled hcs hcm1 hty
        obtain ⟨c', x, xs, t, hde, hev⟩ := h.compiled.enmOnly _ _ _ he
        have hen' : e.name = n := by rw [hev]
        have hmem : (n, e) ∈ i.enums := by rw [hev]; exact SMap.find?_some_mem (t4 _ _ _ _ _ hde)
        refine ⟨hcstr, hnb, e, val, by rw [hmt, hty, hen'], by rw [hen']; exact he, fun self fuel k s x hx => ?_⟩
        exact C60_from_partial hen hmem (h.enumerators n e val he) (by rw [hev]; exact hc.enums _ _ _ _ _ hde) _ self fuel k s .rv hx
      | struct n => exact ⟨cStr_spaced hcstr, by rw [hmt, hty]⟩
      | vec n => trivial
  · have : tops i.structs = (i.structs.filter fun p => isTop p.2).map Prod.fst := by
      unfold tops
      rw [List.filter_map, List.map_map]
      refine List.map_congr_left fun p hp => ?_
      exact t1 p.1 p.2 (List.mem_filter.1 hp).1
    rw [this]
    exact t2.sublist (List.Sublist.map _ List.filter_sublist)
  · intro hne
    have hf : E.prog.filter (fun f => f.name = [out.writerClass, c!"write_to_file"]) = (tops i.structs).map (ini239_fun out.writerClass) := by
      rw [hmw _ (Ne.symm hcl.2.1), if_pos rfl]
      have : ((i.structs.map Prod.snd).filter fun s => c!"do_wr_" ++ s.name = c!"write_to_file") = [] := by
        rw [List.filter_eq_nil_iff]
        intro s _ he
        exact doWr_ne (by decide) (of_decide_eq_true he)
      rw [this, List.map_nil, List.append_nil]
    rw [hmeth _ (by rw [hf]; simpa using hne), hf]
  · have hf : E.prog.filter (fun f => f.name = [out.writerClass, c!"read_from_file"]) = [] := by
      rw [hmw _ (Ne.symm hcl.2.2.1), if_neg (by decide)]
      have : ((i.structs.map Prod.snd).filter fun s => c!"do_wr_" ++ s.name = c!"read_from_file") = [] := by
        rw [List.filter_eq_nil_iff]
        intro s _ he
        exact doWr_ne (by decide) (of_decide_eq_true he)
      rw [this, List.map_nil, List.append_nil]
    unfold methods
    simp only [hf, h.writerBase ho]
  · intro n hn
    obtain ⟨⟨m, ms, hd⟩, _⟩ := (t6 n).1 hn
    exact (hsn n m ms hd).1

/-- A call of `read_from_file` of the writer class is a call of that of the reader class. -/
theorem IniBuilt.inherited (h : IniBuilt fs out prog E) (ho : out.onlyRead = false) (hr : IniReaderClear (declsOf fs) out)
    (hc : IniWriterClear (declsOf fs) out) {n : Str} (hn : TopStruct (declsOf fs) n) {self : List (Str × Var)}
    (hs : ∀ n, n ∉ iniMembers → self.lookup n = none) (fuel : Nat) (t q : Place) :
    callMethod E self fuel out.writerClass c!"read_from_file" [.lv .str t, .lv (.struct n) q] =
      callMethod E self fuel out.readerClass c!"read_from_file" [.lv .str t, .lv (.struct n) q] := by
  obtain ⟨_, _, ns, hnd, hm, htop, hsn⟩ := h.rdProgram hr
  obtain ⟨_, ns', _, _, hm', htop', hsn'⟩ := h.wrProgram ho hc
  have he : methods E (some out.readerClass) c!"read_from_file" = E.prog.filter fun f => f.name = [out.readerClass, c!"read_from_file"] := by
    unfold methods
    simp only [h.readerBase]
    split
    · next h => exact h.symm
    · rfl
  rw [callMethod, callMethod, hm', ← he, hm, callOne, callOne, readIni_one hs hnd hsn ((htop n).2 hn),
    readIni_one hs hnd (fun n hn => hsn' n ((htop' n).2 ((htop n).1 hn))) ((htop n).2 hn)]

end
end Stfx.Cpp
