import Verif.Cpp.RunIniFile
import Verif.Cpp.XmlProgram
import Verif.Run.IniCode
import Verif.Run.IniMeans
/-
A program with the generated n_ini files: which functions the names in the readers mean.
-/
set_option autoImplicit false
namespace Stfx.Cpp
open Stfx.Lexer Stfx.Run Stfx.Parser Stfx.Items Stfx.Gen

/-- A program with the headers `fs` and the n_ini files stfx generates from them: stfx reads the headers as in `Generated`, the texts
of the enums .cpp file and of the structs .cpp file `prog` are C++ code of the program, no other function is in the namespace `stfx` or
in the generated classes, the classes have the base classes and the nested class of the generated .h file, and the types and
enumerators of the headers mean what the headers say.  process_items.cpp:29-76, process_items_ini.cpp:21-268. -/
structure IniBuilt (fs : List (Str × Header)) (out : OutSpec) (prog : List Item) (E : Env) : Prop where
  texts : ∀ f ∈ fs, toksFile f.1 = some f.2.toks
  distinct : ((declsOf fs).map Decl.name).Nodup
  run : ∃ (ext : Bool) (i : Info) (stamp fc fh : Str) (inputs : List Str) (pre gs post : List Fun),
    (processFiles 0 (fs.map fun f => some f.1) [Info.empty]).bind (prepare 0) = some ([i], true) ∧
    prog = structsCpp .nIni stamp fc fh inputs out i.structs ∧ Names stamp fc fh inputs out i.structs ∧
    parse ext (fileText prog) = some gs ∧ E.prog = pre ++ gs ++ post ∧
    (∀ f ∈ pre ++ post, f.name.head? ≠ some out.readerClass ∧ (out.onlyRead = false → f.name.head? ≠ some out.writerClass)) ∧
    EnumProgram E i.enums
  compiled : Compiled (declsOf fs) E.T
  enumerators : ∀ n e val, E.T.enm n = some (e, val) → EnumDecl E e val
  nested : E.nested = [c!"read_item_S"]
  readerBase : E.base out.readerClass = none
  writerBase : out.onlyRead = false → E.base out.writerClass = some out.readerClass

/-- Names in the generated reader class hide no name used in it: no struct has the name of a parameter or of a variable declared
before the struct is used, of a data member, of the class, of its nested class or of one of its functions, and the class and the
namespace-scope names it uses differ.  (Proof notion, models no code.) -/
structure IniReaderClear (ds : List Decl) (out : OutSpec) : Prop where
  locals : ∀ n m ms, Decl.struct n m ms ∈ ds →
    n ∉ [c!"path", c!"filename", c!"data", c!"rv"] ++ iniMembers ++ [c!"read_from_file", c!"read_item_S", out.readerClass]
  funs : ∀ n m ms n' m' ms', Decl.struct n m ms ∈ ds → Decl.struct n' m' ms' ∈ ds → n ≠ c!"do_rd_" ++ n'
  cls : out.readerClass ∉ [c!"stfx", c!"read_from_file", c!"read_item_S", c!"size_t"]
  clsFuns : ∀ n m ms, Decl.struct n m ms ∈ ds → out.readerClass ≠ c!"do_rd_" ++ n
  writer : out.onlyRead = false → out.writerClass ≠ out.readerClass
  size : ∀ d ∈ ds, d.name ≠ c!"size_t"
  enums : ∀ c n x xs t, Decl.enum c n x xs t ∈ ds → ToClear ⟨n, c, (x :: xs).map lineOf⟩

section
variable {fs : List (Str × Header)} {out : OutSpec} {prog : List Item} {E : Env}

theorem IniBuilt.gen (h : IniBuilt fs out prog E) : Generated fs .nIni out prog := by
  obtain ⟨_, i, stamp, fc, fh, inputs, _, _, _, h1, h2, _⟩ := h.run
  exact ⟨h.texts, h.distinct, i, stamp, fc, fh, inputs, h1, h2⟩

/-- The reader function of a struct, process_items_ini.cpp:290-446. -/
def iniRd (rc : Str) (s : StructS) : Fun :=
  nrdFun rc s.name (nrdBody (if s.simple = [] then none else some (s.simple.map (fun l => .simple l.ty l.name) ++ s.complex.filterMap enumLook))
    (hasChildren s) (s.complex.filterMap nrdComplex))

/-- The functions of the reader class. -/
theorem iniReader_funs {stamp fc fh : Str} {inputs : List Str} {S : SMap StructS} {n : Str} (hn : n ≠ out.readerClass)
    (hw : out.onlyRead = false → out.writerClass ≠ out.readerClass) :
    ((structsCpp .nIni stamp fc fh inputs out S).flatMap itemFuns).filter (fun f => f.name = [out.readerClass, n]) =
      (if n = c!"read_from_file" then (tops S).map (ini120_fun out.readerClass) else []) ++
      ((S.map Prod.snd).filter fun s => c!"do_rd_" ++ s.name = n).map (iniRd out.readerClass) := by
  have hq : ∀ is : List Item, (∀ i ∈ is, ∃ t, i = .raw t) → is.flatMap itemFuns = [] := by
    intro is h
    rw [List.flatMap_eq_nil_iff]
    intro i hi
    obtain ⟨t, rfl⟩ := h i hi
    rfl
  have h1 : ∀ l : List StructS, (((l.map fun s => Item.defReadFile .nIni out.readerClass s.name)).flatMap itemFuns).filter (fun f => f.name = [out.readerClass, n]) =
      if n = c!"read_from_file" then (l.map StructS.name).map (ini120_fun out.readerClass) else [] := by
    intro l
    rw [List.flatMap_map]
    have hx : Kind.nIni.isXml = false := rfl
    have : (l.flatMap fun s => itemFuns (Item.defReadFile .nIni out.readerClass s.name)) = (l.map StructS.name).map (ini120_fun out.readerClass) := by
      induction l with
      | nil => rfl
      | cons s l ih => rw [List.flatMap_cons, ih]; simp [itemFuns, hx]
    rw [this]
    split
    · next h =>
      rw [List.filter_eq_self]
      intro f hf
      obtain ⟨a, _, rfl⟩ := List.mem_map.1 hf
      simp [ini120_fun, h]
    · next h =>
      rw [List.filter_eq_nil_iff]
      intro f hf
      obtain ⟨a, _, rfl⟩ := List.mem_map.1 hf
      simp [ini120_fun, Ne.symm h]
  have h2 : ∀ l : List StructS, ((l.flatMap (readerDef .nIni out.readerClass)).flatMap itemFuns).filter (fun f => f.name = [out.readerClass, n]) =
      (l.filter fun s => c!"do_rd_" ++ s.name = n).map (iniRd out.readerClass) := by
    intro l
    induction l with
    | nil => rfl
    | cons s l ih =>
      have hr : (readerDef .nIni out.readerClass s).flatMap itemFuns = [iniRd out.readerClass s] := by
        rfl
      rw [List.flatMap_cons, List.flatMap_append, List.filter_append, ih, hr, List.filter_cons]
      have hnm : (iniRd out.readerClass s).name = [out.readerClass, c!"do_rd_" ++ s.name] := rfl
      by_cases he : c!"do_rd_" ++ s.name = n
      · rw [if_pos (by rw [hnm, he]; simp), List.filter_cons, if_pos (by simpa using he)]
        rfl
      · rw [if_neg (by rw [hnm]; simpa using he), List.filter_cons, if_neg (by simpa using he)]
        rfl
  have h3 : ((if out.onlyRead then ([] : List Item)
     else
      [Item.writerCtor .nIni out.writerClass out.readerClass] ++
      ((S.map Prod.snd).filter isTop).map (fun s => .defWriteFile .nIni out.writerClass s.name) ++
      (S.map Prod.snd).flatMap (writerDef .nIni out.writerClass out.noDelta) ++
      [.raw (if Kind.nIni.isXml then T.xml191 else T.ini264)]).flatMap itemFuns).filter (fun f => f.name = [out.readerClass, n]) = [] := by
    rw [List.filter_eq_nil_iff]
    intro f hf
    cases ho : out.onlyRead with
    | true => rw [ho] at hf; cases hf
    | false =>
    have hw := hw ho
    have hc : f.name.head? = some out.writerClass := by
      rw [ho] at hf
      simp only [Bool.false_eq_true, if_false, List.flatMap_append, List.mem_append] at hf
      rcases hf with ((hf | hf) | hf) | hf
      · simp only [List.flatMap_cons, List.flatMap_nil, itemFuns, List.append_nil, List.mem_cons, List.not_mem_nil, or_false] at hf
        subst hf; rfl
      · obtain ⟨i, hi, hf⟩ := List.mem_flatMap.1 hf
        obtain ⟨s, _, rfl⟩ := List.mem_map.1 hi
        simp only [itemFuns, List.mem_cons, List.not_mem_nil, or_false] at hf
        subst hf
        split <;> rfl
      · obtain ⟨i, hi, hf⟩ := List.mem_flatMap.1 hf
        obtain ⟨s, _, hi⟩ := List.mem_flatMap.1 hi
        simp only [writerDef, List.mem_cons, List.not_mem_nil, or_false] at hi
        subst hi
        simp only [itemFuns, List.mem_cons, List.not_mem_nil, or_false] at hf
        subst hf; rfl
      · simp [itemFuns] at hf
    intro he
    rw [of_decide_eq_true he] at hc
    exact hw (Option.some.inj hc).symm
  rw [structsCpp_parts]
  simp only [List.flatMap_append, List.filter_append, h1, h2, h3, List.append_nil]
  rw [hq _ (head_raw .nIni stamp fc fh inputs out), hq [Item.raw _] (by simp)]
  simp only [List.filter_nil, List.nil_append, List.append_nil, tops]
  have : ([Item.readerCtor .nIni out.readerClass].flatMap itemFuns).filter (fun f => f.name = [out.readerClass, n]) = [] := by
    simp [itemFuns, xml93_fun, Ne.symm hn]
  rw [this, List.nil_append]

theorem IniBuilt.reader (h : IniBuilt fs out prog E) (hc : IniReaderClear (declsOf fs) out) :
    ∃ i stamp fc fh inputs, (processFiles 0 (fs.map fun f => some f.1) [Info.empty]).bind (prepare 0) = some ([i], true) ∧
      prog = structsCpp .nIni stamp fc fh inputs out i.structs ∧ Names stamp fc fh inputs out i.structs ∧ EnumProgram E i.enums ∧
      ∀ n, n ≠ out.readerClass → methods E (some out.readerClass) n =
        (if n = c!"read_from_file" then (tops i.structs).map (ini120_fun out.readerClass) else []) ++
        ((i.structs.map Prod.snd).filter fun s => c!"do_rd_" ++ s.name = n).map (iniRd out.readerClass) := by
  obtain ⟨ext, i, stamp, fc, fh, inputs, pre, gs, post, h1, h2, h3, h5, h6, h7, h8⟩ := h.run
  refine ⟨i, stamp, fc, fh, inputs, h1, h2, h3, h8, fun n hn => ?_⟩
  have hp := structsCpp_parse (ext := ext) (k := .nIni) h3.files h3.reader h3.writer h3.structs (.inr (.inl (by simp)))
  rw [h2, hp] at h5
  cases h5
  have h0 : ∀ fs : List Fun, (∀ f ∈ fs, f.name.head? ≠ some out.readerClass) → fs.filter (fun f => f.name = [out.readerClass, n]) = [] := by
    intro fs h
    rw [List.filter_eq_nil_iff]
    intro f hf hn
    exact h f hf (by rw [of_decide_eq_true hn]; rfl)
  have hf : E.prog.filter (fun f => f.name = [out.readerClass, n]) =
      (if n = c!"read_from_file" then (tops i.structs).map (ini120_fun out.readerClass) else []) ++
        ((i.structs.map Prod.snd).filter fun s => c!"do_rd_" ++ s.name = n).map (iniRd out.readerClass) := by
    rw [h6, List.filter_append, List.filter_append, h0 pre fun f hf => (h7 f (by simp [hf])).1, h0 post fun f hf => (h7 f (by simp [hf])).1,
      iniReader_funs hn hc.writer, List.nil_append, List.append_nil]
  unfold methods
  simp only
  rw [hf]
  split
  · next he => rw [he]; simp [h.readerBase]
  · rfl

theorem doRd_inj (a b : Str) (h : c!"do_rd_" ++ a = c!"do_rd_" ++ b) : a = b := List.append_cancel_left h

theorem doRd_ne {c n : Str} (h : n.take 1 ≠ c!"d") : c!"do_rd_" ++ c ≠ n := by
  intro e
  rw [← e] at h
  exact h rfl

theorem cStr_word {s : Str} (h : Run.Ident s) : cStr s = s := by
  obtain ⟨c, r, _, _, h⟩ := h
  refine takeWhile_all _ fun d hd => ?_
  have := h d hd
  simp only [ne_eq, decide_not, Bool.not_eq_eq_eq_not, Bool.not_true, decide_eq_false_iff_not]
  rintro rfl
  revert this
  decide

theorem cStr_all {s : Str} : cStr s = s ↔ ∀ c ∈ s, c ≠ '\x00' := by
  refine ⟨fun h c hc => ?_, fun h => takeWhile_all _ fun d hd => by simpa using h d hd⟩
  rw [← h] at hc
  simpa using takeWhile_mem hc

theorem cStr_spaced {s : Str} (h : cStr s = s) : cStr (spaced s) = spaced s := by
  rw [cStr_all] at h ⊢
  intro c hc
  obtain ⟨d, hd, rfl⟩ := List.mem_map.1 hc
  split
  · decide
  · exact h d hd

theorem kidNames_nodup {cs : List CMember} (h : (cs.map CMember.name).Nodup) : (kidNames ((ordered cs).filterMap lineNRd)).Nodup := by
  have h1 : kidNames ((ordered cs).filterMap lineNRd) = ((ordered cs).filter fun p => isStructTy p.2).map Prod.fst := by
    generalize ordered cs = l
    induction l with
    | nil => rfl
    | cons p l ih =>
      obtain ⟨n, t⟩ := p
      cases t with
      | struct c => exact congrArg (n :: ·) ih
      | simple _ => exact ih
      | enum _ => exact ih
      | vec _ => exact ih
  rw [h1]
  have h2 : ((ordered cs).map Prod.fst).Perm (cs.map CMember.name) := by
    unfold ordered
    rw [← List.map_append, List.map_map]
    exact (filter_perm _ cs).map _
  exact (h2.nodup_iff.2 h).sublist (List.Sublist.map _ List.filter_sublist)

/-- The program has the reader functions. -/
theorem IniBuilt.rdProgram (h : IniBuilt fs out prog E) (hc : IniReaderClear (declsOf fs) out) :
    NRdProgram E out.readerClass prog ∧ FileTypes E out.readerClass ∧
      ∃ ns : List Str, ns.Nodup ∧ methods E (some out.readerClass) c!"read_from_file" = ns.map (ini120_fun out.readerClass) ∧
      (∀ n, n ∈ ns ↔ TopStruct (declsOf fs) n) ∧ ∀ n ∈ ns, IniName E out.readerClass n := by
  obtain ⟨i, stamp, fc, fh, inputs, hi, hp, hnm, hen, hm⟩ := h.reader hc
  obtain ⟨⟨t1, t2, t3, t4⟩, t5, t6⟩ := tables_all h.texts h.distinct hi
  have hsn : ∀ n m ms, Decl.struct n m ms ∈ declsOf fs → IniName E out.readerClass n := by
    intro n m ms hd
    have hl := hc.locals n m ms hd
    obtain ⟨cs, hcs, _⟩ := h.compiled.cls n m ms hd
    refine ⟨fun h => hl (List.mem_append_left _ h), ?_, ?_, by simp [hcs]⟩
    · rw [hm n (fun h => hl (by simp [h])), if_neg (fun h => hl (by simp [h])), List.nil_append, List.map_eq_nil_iff, List.filter_eq_nil_iff]
      intro s hs he
      obtain ⟨p, hp, rfl⟩ := List.mem_map.1 hs
      have hpk : p.1 ∈ i.structs.keys := List.mem_map.2 ⟨p, hp, rfl⟩
      cases hf : i.structs.find? p.1 with
      | none => exact SMap.find?_none_iff.1 hf hpk
      | some s' =>
        obtain ⟨m', ms', hd'⟩ := t3 _ _ hf
        rw [t1 p.1 p.2 hp] at he
        exact hc.funs n m ms p.1 m' ms' hd hd' (of_decide_eq_true he).symm
    · rw [h.nested]
      exact fun h => hl (by simp only [List.mem_cons, List.not_mem_nil, or_false] at h; simp [h])
  have hcl : out.readerClass ≠ c!"stfx" ∧ out.readerClass ≠ c!"read_from_file" ∧ out.readerClass ≠ c!"read_item_S" ∧ out.readerClass ≠ c!"size_t" := by
    have := hc.cls
    simpa only [List.mem_cons, List.not_mem_nil, or_false, not_or] using this
  have hmn : ∀ n, n ≠ out.readerClass → n ≠ c!"read_from_file" → n.take 1 ≠ c!"d" → methods E (some out.readerClass) n = [] := by
    intro n h1 h2 h3
    rw [hm _ h1, if_neg h2, List.nil_append, List.map_eq_nil_iff, List.filter_eq_nil_iff]
    intro s _ he
    exact doRd_ne h3 (of_decide_eq_true he)
  have hcode := (h.gen.nrdCode h.compiled).1
  refine ⟨⟨hcl.1, ?_⟩, ⟨by rw [h.nested]; simp, hmn _ (Ne.symm hcl.2.2.1) (by decide) (by decide), by rw [h.nested]; decide,
    hmn _ (Ne.symm hcl.2.2.2) (by decide) (by decide), ?_, ?_, h.compiled.good.bits⟩, tops i.structs, ?_, ?_, t6, ?_⟩
  · intro c looks dot body hb
    have hb' := hb
    rw [hp, nrdBody_gen t1] at hb'
    cases hf : i.structs.find? c with
    | none => rw [hf] at hb'; cases hb'
    | some s =>
    rw [hf, Option.map_some] at hb'
    obtain ⟨m, ms, hd⟩ := t3 c s hf
    have hname : s.name = c := t1 c s (SMap.find?_some_mem hf)
    obtain ⟨cs, hcs, hcm⟩ := h.compiled.cls c m ms hd
    have hnod := h.compiled.good.nodup c cs hcs
    obtain ⟨dot', hrd, _⟩ := hcode.rd c cs hcs
    rw [hb] at hrd
    simp only [Option.some.injEq, Prod.mk.injEq] at hrd hb'
    obtain ⟨r1, _, r3⟩ := hrd
    obtain ⟨b1, b2, b3⟩ := hb'
    have hmem : ∀ p ∈ ordered cs, ∃ cm ∈ cs, (cm.name, cm.ty) = p ∧ cStr cm.name = cm.name ∧ memberTy E.T c cm.name = some cm.ty := by
      intro p hp
      obtain ⟨cm, hcm, rfl⟩ := mem_ordered.1 hp
      exact ⟨cm, hcm, rfl, cStr_word (hcode.ident c cs hcs cm hcm), memberTy_of hcs hnod hcm⟩
    refine ⟨hsn c m ms hd, ?_, ?_, ?_, ?_⟩
    · rw [hm _ (Ne.symm (hc.clsFuns c m ms hd)), if_neg (doRd_ne' c), List.nil_append, filter_named t1 t2 hf _ doRd_inj]
      simp only [List.map_cons, List.map_nil, iniRd, hname, b1, b2, b3]
    · intro ls hls l hl
      rw [hls] at r1
      split at r1
      · cases r1
        obtain ⟨p, hp', hpl⟩ := List.mem_filterMap.1 hl
        obtain ⟨cm, hcm1, rfl, hcstr, hmt⟩ := hmem p hp'
        unfold lineLook at hpl
        simp only at hpl
        cases hty : cm.ty with
        | simple ty => rw [hty] at hpl; cases hpl; exact ⟨hcstr, by rw [hmt, hty]⟩
        | enum n =>
          rw [hty] at hpl
          cases hpl
          obtain ⟨e, val, he⟩ := h.gen.enumDeclared h.compiled hcs hcm1 hty
          obtain ⟨c', x, xs, t, hde, hev⟩ := h.compiled.enmOnly _ _ _ he
          have hen' : e.name = n := by rw [hev]
          have hmem : (n, e) ∈ i.enums := by rw [hev]; exact SMap.find?_some_mem (t4 _ _ _ _ _ hde)
          refine ⟨hcstr, e, val, by rw [hmt, hty, hen'], by rw [hen']; exact he, fun self fuel k s x a t old ha ht => ?_⟩
          exact C60_to_partial hen hmem (h.enumerators n e val he) (by rw [hev]; exact hc.enums _ _ _ _ _ hde) _ self fuel k s ha ht
        | struct n => rw [hty] at hpl; cases hpl
        | vec n => rw [hty] at hpl; cases hpl
      · cases r1
    · intro n ty sp hk
      rw [r3] at hk
      obtain ⟨p, hp', hpl⟩ := List.mem_filterMap.1 hk
      obtain ⟨cm, hcm1, rfl, hcstr, hmt⟩ := hmem p hp'
      unfold lineNRd at hpl
      cases hty : cm.ty with
      | simple ty => rw [hty] at hpl; cases hpl
      | enum n => rw [hty] at hpl; cases hpl
      | struct n =>
        rw [hty] at hpl
        cases hpl
        exact ⟨cStr_spaced hcstr, by rw [hmt, hty]⟩
      | vec n => rw [hty] at hpl; cases hpl
    · rw [r3]
      exact kidNames_nodup hnod
  · cases hf : E.T.cls c!"size_t" with
    | none => rfl
    | some cs =>
      obtain ⟨m, ms, hd⟩ := h.compiled.clsOnly _ cs hf
      exact absurd rfl (hc.size _ hd)
  · cases hf : E.T.enm c!"size_t" with
    | none => rfl
    | some ev =>
      obtain ⟨c, x, xs, t, hd, _⟩ := h.compiled.enmOnly _ ev.1 ev.2 hf
      exact absurd rfl (hc.size _ hd)
  · have : tops i.structs = (i.structs.filter fun p => isTop p.2).map Prod.fst := by
      unfold tops
      rw [List.filter_map, List.map_map]
      refine List.map_congr_left fun p hp => ?_
      exact t1 p.1 p.2 (List.mem_filter.1 hp).1
    rw [this]
    exact t2.sublist (List.Sublist.map _ List.filter_sublist)
  · rw [hm _ (Ne.symm hcl.2.1), if_pos rfl]
    have : ((i.structs.map Prod.snd).filter fun s => c!"do_rd_" ++ s.name = c!"read_from_file") = [] := by
      rw [List.filter_eq_nil_iff]
      intro s _ he
      exact doRd_ne' s.name (of_decide_eq_true he)
    rw [this, List.map_nil, List.append_nil]
  · intro n hn
    obtain ⟨⟨m, ms, hd⟩, _⟩ := (t6 n).1 hn
    exact hsn n m ms hd
where
  doRd_ne' (c : Str) : c!"do_rd_" ++ c ≠ c!"read_from_file" := doRd_ne (by decide)

end
end Stfx.Cpp
