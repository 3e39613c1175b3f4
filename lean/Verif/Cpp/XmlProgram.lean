import Verif.Cpp.RunReadFile
import Verif.Props.C60_EnumText
/-
A program with the generated XML files: which functions the names in them mean.
-/
set_option autoImplicit false
namespace Stfx.Cpp
open Stfx.Lexer Stfx.Run Stfx.Parser Stfx.Items Stfx.Gen

/-- The declarations of the headers.  (Proof notion, models no code.) -/
abbrev declsOf (fs : List (Str × Header)) : List Decl := fs.flatMap fun f => f.2.decls

/-- A program with the headers `fs` and the files stfx generates from them: stfx reads the headers as in `Generated`, the texts
of the enums .cpp file and of the structs .cpp file `prog` are C++ code of the program (with `unsigned short(x)` if `ext`), no other
function is in the namespace `stfx` or in the generated classes, the classes have the base classes of the generated .h file, and the
types and enumerators of the headers mean what the headers say.  process_items.cpp:29-76, process_items_xml.cpp:71-193. -/
structure XmlBuilt (fs : List (Str × Header)) (k : Kind) (out : OutSpec) (prog : List Item) (E : Env) : Prop where
  kind : k = .xml ∨ k = .attrib
  texts : ∀ f ∈ fs, toksFile f.1 = some f.2.toks
  distinct : ((declsOf fs).map Decl.name).Nodup
  run : ∃ (ext : Bool) (i : Info) (stamp fc fh : Str) (inputs : List Str) (pre gs post : List Fun),
    (processFiles 0 (fs.map fun f => some f.1) [Info.empty]).bind (prepare 0) = some ([i], true) ∧
    prog = structsCpp k stamp fc fh inputs out i.structs ∧ Names stamp fc fh inputs out i.structs ∧ (ext = true ∨ NoShort k i.structs) ∧
    parse ext (fileText prog) = some gs ∧ E.prog = pre ++ gs ++ post ∧
    (∀ f ∈ pre ++ post, f.name.head? ≠ some out.readerClass ∧ (out.onlyRead = false → f.name.head? ≠ some out.writerClass)) ∧
    EnumProgram E i.enums
  compiled : Compiled (declsOf fs) E.T
  enumerators : ∀ n e val, E.T.enm n = some (e, val) → EnumDecl E e val
  nested : ∀ n cs, E.T.cls n = some cs → n ∉ E.nested
  readerBase : E.base out.readerClass = none
  writerBase : out.onlyRead = false → E.base out.writerClass = some out.readerClass

/-- Names in the generated reader class hide no name used in it: no struct has the name of a variable of the reader functions, of the
class or of one of its functions, and the class and the namespace-scope names it uses differ.  (Proof notion, models no code.) -/
structure ReaderClear (ds : List Decl) (out : OutSpec) : Prop where
  locals : ∀ n m ms, Decl.struct n m ms ∈ ds →
    n ∉ [c!"el", c!"data", c!"ch_el", c!"rv", c!"item", c!"itr", c!"default_data", c!"m_delta_only", c!"filename", c!"read_from_file", out.readerClass]
  funs : ∀ n m ms n' m' ms', Decl.struct n m ms ∈ ds → Decl.struct n' m' ms' ∈ ds → n ≠ c!"do_" ++ n'
  cls : out.readerClass ∉ [c!"stfx", c!"find_element", c!"read_from_file"]
  clsFuns : ∀ n m ms, Decl.struct n m ms ∈ ds → out.readerClass ≠ c!"do_" ++ n
  writer : out.onlyRead = false → out.writerClass ≠ out.readerClass
  find : ∀ d ∈ ds, d.name ≠ c!"find_element"
  enums : ∀ c n x xs t, Decl.enum c n x xs t ∈ ds → ToClear ⟨n, c, (x :: xs).map lineOf⟩

section
variable {fs : List (Str × Header)} {k : Kind} {out : OutSpec} {prog : List Item} {E : Env}

theorem XmlBuilt.gen (h : XmlBuilt fs k out prog E) : Generated fs k out prog := by
  obtain ⟨_, i, stamp, fc, fh, inputs, _, _, _, h1, h2, _⟩ := h.run
  exact ⟨h.texts, h.distinct, i, stamp, fc, fh, inputs, h1, h2⟩

/-- The reader function of a struct, process_items_xml.cpp:203-398, process_items_xml_attrib.cpp:10-134. -/
def xmlRd (k : Kind) (rc : Str) (s : StructS) : Fun :=
  rdFun rc s.name (rdBody k (k ≠ .xml && hasChildren s) (s.simple.map fun l => lineRd k (l.name, .simple l.ty)) (s.complex.map (rdComplex k)))

/-- The functions of the reader class. -/
theorem reader_funs {stamp fc fh : Str} {inputs : List Str} {S : SMap StructS} (hk : k = .xml ∨ k = .attrib) {n : Str} (hn : n ≠ out.readerClass)
    (hw : out.onlyRead = false → out.writerClass ≠ out.readerClass) :
    ((structsCpp k stamp fc fh inputs out S).flatMap itemFuns).filter (fun f => f.name = [out.readerClass, n]) =
      (if n = c!"read_from_file" then (tops S).map (xml106_fun out.readerClass) else []) ++
      ((S.map Prod.snd).filter fun s => c!"do_" ++ s.name = n).map (xmlRd k out.readerClass) := by
  have hq : ∀ is : List Item, (∀ i ∈ is, ∃ t, i = .raw t) → is.flatMap itemFuns = [] := by
    intro is h
    rw [List.flatMap_eq_nil_iff]
    intro i hi
    obtain ⟨t, rfl⟩ := h i hi
    rfl
  have h1 : ∀ l : List StructS, (((l.map fun s => Item.defReadFile k out.readerClass s.name)).flatMap itemFuns).filter (fun f => f.name = [out.readerClass, n]) =
      if n = c!"read_from_file" then (l.map StructS.name).map (xml106_fun out.readerClass) else [] := by
    intro l
    rw [List.flatMap_map]
    have hx : k.isXml = true := by rcases hk with rfl | rfl <;> rfl
    have : (l.flatMap fun s => itemFuns (Item.defReadFile k out.readerClass s.name)) = (l.map StructS.name).map (xml106_fun out.readerClass) := by
      induction l with
      | nil => rfl
      | cons s l ih => rw [List.flatMap_cons, ih]; simp [itemFuns, hx]
    rw [this]
    split
    · next h =>
      rw [List.filter_eq_self]
      intro f hf
      obtain ⟨a, _, rfl⟩ := List.mem_map.1 hf
      simp [xml106_fun, h]
    · next h =>
      rw [List.filter_eq_nil_iff]
      intro f hf
      obtain ⟨a, _, rfl⟩ := List.mem_map.1 hf
      simp [xml106_fun, Ne.symm h]
  have h2 : ∀ l : List StructS, ((l.flatMap (readerDef k out.readerClass)).flatMap itemFuns).filter (fun f => f.name = [out.readerClass, n]) =
      (l.filter fun s => c!"do_" ++ s.name = n).map (xmlRd k out.readerClass) := by
    intro l
    induction l with
    | nil => rfl
    | cons s l ih =>
      have hr : (readerDef k out.readerClass s).flatMap itemFuns = [xmlRd k out.readerClass s] := by
        rcases hk with rfl | rfl <;> rfl
      rw [List.flatMap_cons, List.flatMap_append, List.filter_append, ih, hr, List.filter_cons]
      have hnm : (xmlRd k out.readerClass s).name = [out.readerClass, c!"do_" ++ s.name] := rfl
      by_cases he : c!"do_" ++ s.name = n
      · rw [if_pos (by rw [hnm, he]; simp), List.filter_cons, if_pos (by simpa using he)]
        rfl
      · rw [if_neg (by rw [hnm]; simpa using he), List.filter_cons, if_neg (by simpa using he)]
        rfl
  have h3 : ((if out.onlyRead then ([] : List Item)
     else
      [Item.writerCtor k out.writerClass out.readerClass] ++
      ((S.map Prod.snd).filter isTop).map (fun s => .defWriteFile k out.writerClass s.name) ++
      (S.map Prod.snd).flatMap (writerDef k out.writerClass out.noDelta) ++
      [.raw (if k.isXml then T.xml191 else T.ini264)]).flatMap itemFuns).filter (fun f => f.name = [out.readerClass, n]) = [] := by
    rw [List.filter_eq_nil_iff]
    intro f hf
    cases ho : out.onlyRead with
    | true => rw [ho] at hf; cases hf
    | false =>
    have hw := hw ho
    have hc : f.name.head? = some out.writerClass := by
      rw [ho] at hf
      simp only [Bool.false_eq_true, if_false, List.flatMap_append, List.mem_append] at hf
      rcases hf with ((hf | hf) | hf) | hf
      · simp only [List.flatMap_cons, List.flatMap_nil, itemFuns, List.append_nil, List.mem_cons, List.not_mem_nil, or_false] at hf
        subst hf; rfl
      · obtain ⟨i, hi, hf⟩ := List.mem_flatMap.1 hf
        obtain ⟨s, _, rfl⟩ := List.mem_map.1 hi
        simp only [itemFuns, List.mem_cons, List.not_mem_nil, or_false] at hf
        subst hf
        split <;> rfl
      · obtain ⟨i, hi, hf⟩ := List.mem_flatMap.1 hf
        obtain ⟨s, _, hi⟩ := List.mem_flatMap.1 hi
        rcases hk with rfl | rfl <;>
        · simp only [writerDef, List.mem_cons, List.not_mem_nil, or_false] at hi
          subst hi
          simp only [itemFuns, List.mem_cons, List.not_mem_nil, or_false] at hf
          subst hf; rfl
      · simp [itemFuns] at hf
    intro he
    rw [of_decide_eq_true he] at hc
    exact hw (Option.some.inj hc).symm
  rw [structsCpp_parts]
  simp only [List.flatMap_append, List.filter_append, h1, h2, h3, List.append_nil]
  rw [hq _ (head_raw k stamp fc fh inputs out), hq [Item.raw _] (by simp)]
  simp only [List.filter_nil, List.nil_append, List.append_nil, tops]
  have : ([Item.readerCtor k out.readerClass].flatMap itemFuns).filter (fun f => f.name = [out.readerClass, n]) = [] := by
    simp [itemFuns, xml93_fun, Ne.symm hn]
  rw [this, List.nil_append]

theorem XmlBuilt.reader (h : XmlBuilt fs k out prog E) (hc : ReaderClear (declsOf fs) out) :
    ∃ i stamp fc fh inputs, (processFiles 0 (fs.map fun f => some f.1) [Info.empty]).bind (prepare 0) = some ([i], true) ∧
      prog = structsCpp k stamp fc fh inputs out i.structs ∧ Names stamp fc fh inputs out i.structs ∧ EnumProgram E i.enums ∧
      ∀ n, n ≠ out.readerClass → methods E (some out.readerClass) n =
        (if n = c!"read_from_file" then (tops i.structs).map (xml106_fun out.readerClass) else []) ++
        ((i.structs.map Prod.snd).filter fun s => c!"do_" ++ s.name = n).map (xmlRd k out.readerClass) := by
  obtain ⟨ext, i, stamp, fc, fh, inputs, pre, gs, post, h1, h2, h3, h4, h5, h6, h7, h8⟩ := h.run
  refine ⟨i, stamp, fc, fh, inputs, h1, h2, h3, h8, fun n hn => ?_⟩
  have hp := structsCpp_parse (ext := ext) (k := k) h3.files h3.reader h3.writer h3.structs (by
    rcases h4 with h4 | h4
    · exact .inl h4
    · by_cases ha : k = .attrib
      · exact .inr (.inr (h4 ha))
      · exact .inr (.inl ha))
  rw [h2, hp] at h5
  cases h5
  have h0 : ∀ fs : List Fun, (∀ f ∈ fs, f.name.head? ≠ some out.readerClass) → fs.filter (fun f => f.name = [out.readerClass, n]) = [] := by
    intro fs h
    rw [List.filter_eq_nil_iff]
    intro f hf hn
    exact h f hf (by rw [of_decide_eq_true hn]; rfl)
  have hf : E.prog.filter (fun f => f.name = [out.readerClass, n]) =
      (if n = c!"read_from_file" then (tops i.structs).map (xml106_fun out.readerClass) else []) ++
        ((i.structs.map Prod.snd).filter fun s => c!"do_" ++ s.name = n).map (xmlRd k out.readerClass) := by
    rw [h6, List.filter_append, List.filter_append, h0 pre fun f hf => (h7 f (by simp [hf])).1, h0 post fun f hf => (h7 f (by simp [hf])).1,
      reader_funs h.kind hn hc.writer, List.nil_append, List.append_nil]
  unfold methods
  simp only
  rw [hf]
  split
  · next he => rw [he]; simp [h.readerBase]
  · rfl

theorem filter_named {S : SMap StructS} (hn : ∀ n s, (n, s) ∈ S → s.name = n) (hd : S.keys.Nodup) {n : Str} {s : StructS} (hs : S.find? n = some s)
    (f : Str → Str) (hf : ∀ a b, f a = f b → a = b) : ((S.map Prod.snd).filter fun s => f s.name = f n) = [s] := by
  induction S with
  | nil => cases hs
  | cons p S ih =>
    obtain ⟨a, s'⟩ := p
    obtain ⟨hd1, hd2⟩ := List.nodup_cons.1 (show (a :: SMap.keys S).Nodup from hd)
    have ha : s'.name = a := hn a s' (by simp)
    rw [SMap.find?_cons] at hs
    rw [List.map_cons, List.filter_cons]
    by_cases h : a = n
    · subst h
      rw [if_pos rfl] at hs
      cases hs
      rw [if_pos (by simp [ha])]
      congr 1
      rw [List.filter_eq_nil_iff]
      intro t ht he
      obtain ⟨p, hp, rfl⟩ := List.mem_map.1 ht
      have := hn p.1 p.2 (by simp [hp])
      rw [this] at he
      exact hd1 (List.mem_map.2 ⟨p, hp, hf _ _ (of_decide_eq_true he)⟩)
    · rw [if_neg h] at hs
      rw [if_neg (by simp only [ha, decide_eq_true_eq]; exact fun e => h (hf _ _ e))]
      exact ih (fun n s hm => hn n s (by simp [hm])) hd2 hs

theorem do_inj (a b : Str) (h : c!"do_" ++ a = c!"do_" ++ b) : a = b := List.append_cancel_left h

/-- The program has the reader functions. -/
theorem XmlBuilt.rdProgram (h : XmlBuilt fs k out prog E) (hc : ReaderClear (declsOf fs) out) :
    RdProgram E out.readerClass prog ∧ ∃ ns : List Str, ns.Nodup ∧ methods E (some out.readerClass) c!"read_from_file" = ns.map (xml106_fun out.readerClass) ∧
      (∀ n, n ∈ ns ↔ TopStruct (declsOf fs) n) ∧ ∀ n ∈ ns, StructName E out.readerClass n ∧ n ≠ c!"filename" := by
  obtain ⟨i, stamp, fc, fh, inputs, hi, hp, hnm, hen, hm⟩ := h.reader hc
  obtain ⟨⟨t1, t2, t3, t4⟩, t5, t6⟩ := tables_all h.texts h.distinct hi
  have hsn : ∀ n m ms, Decl.struct n m ms ∈ declsOf fs → StructName E out.readerClass n ∧ n ≠ c!"filename" := by
    intro n m ms hd
    have hl := hc.locals n m ms hd
    obtain ⟨cs, hcs, _⟩ := h.compiled.cls n m ms hd
    refine ⟨⟨fun h => hl (by
      simp only [List.mem_cons, List.not_mem_nil, or_false] at h ⊢
      rcases h with h | h | h | h | h | h | h | h <;> simp [h]), ?_, h.nested n cs hcs, by simp [hcs]⟩, fun h => hl (by simp [h])⟩
    rw [hm n (fun h => hl (by simp [h])), if_neg (fun h => hl (by simp [h])), List.nil_append, List.map_eq_nil_iff, List.filter_eq_nil_iff]
    intro s hs he
    obtain ⟨p, hp, rfl⟩ := List.mem_map.1 hs
    have hpk : p.1 ∈ i.structs.keys := List.mem_map.2 ⟨p, hp, rfl⟩
    cases hf : i.structs.find? p.1 with
    | none => exact SMap.find?_none_iff.1 hf hpk
    | some s' =>
      obtain ⟨m', ms', hd'⟩ := t3 _ _ hf
      rw [t1 p.1 p.2 hp] at he
      exact hc.funs n m ms p.1 m' ms' hd hd' (of_decide_eq_true he).symm
  have hcl : out.readerClass ≠ c!"stfx" ∧ out.readerClass ≠ c!"find_element" ∧ out.readerClass ≠ c!"read_from_file" := by
    have := hc.cls
    simpa only [List.mem_cons, List.not_mem_nil, or_false, not_or] using this
  refine ⟨⟨hcl.1, ?_, ?_, ?_, h.compiled.good.bits, ?_⟩, tops i.structs, ?_, ?_, t6, ?_⟩
  · rw [hm _ (Ne.symm hcl.2.1), if_neg (by decide), List.nil_append, List.map_eq_nil_iff, List.filter_eq_nil_iff]
    intro s _ he
    exact do_ne (ty := s.name) (n := c!"find_element") (by decide) (of_decide_eq_true he)
  · cases hf : E.T.cls c!"find_element" with
    | none => rfl
    | some cs =>
      obtain ⟨m, ms, hd⟩ := h.compiled.clsOnly _ cs hf
      exact absurd rfl (hc.find _ hd)
  · cases hf : E.T.enm c!"find_element" with
    | none => rfl
    | some ev =>
      obtain ⟨c, x, xs, t, hd, _⟩ := h.compiled.enmOnly _ ev.1 ev.2 hf
      exact absurd rfl (hc.find _ hd)
  · intro c body hb
    rw [hp, rdBody_gen h.kind t1] at hb
    cases hf : i.structs.find? c with
    | none => rw [hf] at hb; cases hb
    | some s =>
    rw [hf, Option.map_some] at hb
    cases hb
    obtain ⟨m, ms, hd⟩ := t3 c s hf
    have hname : s.name = c := t1 c s (SMap.find?_some_mem hf)
    obtain ⟨s', h1, h2, h3⟩ := t5 c m ms hd
    rw [hf] at h1
    cases h1
    refine ⟨(hsn c m ms hd).1, k, (k ≠ .xml && hasChildren s), _, _, rfl, ?_, ?_, ?_⟩
    · rcases h.kind with rfl | rfl
      · exact .inl rfl
      · refine .inr ⟨fun r hr => ?_, ?_⟩
        · obtain ⟨l, _, rfl⟩ := List.mem_map.1 hr
          rfl
        · cases hch : hasChildren s with
          | true => left; rfl
          | false =>
            right
            intro r hr
            obtain ⟨co, hco, rfl⟩ := List.mem_map.1 hr
            have := (List.any_eq_false.1 hch) co hco
            unfold rdComplex
            revert this
            cases co.ty <;> simp [Rd.usesCh]
    · rw [hm _ (Ne.symm (hc.clsFuns c m ms hd)), if_neg (do_ne'' c), List.nil_append, filter_named t1 t2 hf _ do_inj]
      simp only [List.map_cons, List.map_nil, xmlRd, hname]
    · obtain ⟨cs, hcs, hcm⟩ := h.compiled.cls c m ms hd
      have hline : ∀ p ∈ Run.lines s, ∃ cm ∈ cs, (cm.name, cm.ty) = p := by
        intro p hp
        rw [h3] at hp
        obtain ⟨q, hq, rfl⟩ := List.mem_map.1 hp
        have hq' : q ∈ m :: ms := by
          rcases List.mem_append.1 hq with h | h <;> exact (List.mem_filter.1 h).1
        have : (q.name, memberType (declsOf fs) q, q.hasInit) ∈ (m :: ms).map fun m => (m.name, memberType (declsOf fs) m, m.hasInit) :=
          List.mem_map.2 ⟨q, hq', rfl⟩
        rw [← hcm] at this
        obtain ⟨cm, hcm1, hcm2⟩ := List.mem_map.1 this
        simp only [Prod.mk.injEq] at hcm2
        exact ⟨cm, hcm1, by rw [hcm2.1, hcm2.2.1]⟩
      have hbody : (s.simple.map fun l => lineRd k (l.name, .simple l.ty)) ++ s.complex.map (rdComplex k) = (Run.lines s).map (lineRd k) := by
        unfold Run.lines
        rw [List.map_append, List.map_map, List.map_map]
        congr 1
        exact List.map_congr_left fun co hco => rdComplex_line (h2 co hco)
      have hnames : ∀ p ∈ Run.lines s, cStr p.1 = p.1 := by
        intro p hp'
        have hs := hnm.structs _ (SMap.find?_some_mem hf)
        rcases List.mem_append.1 hp' with h | h
        · obtain ⟨l, hl, rfl⟩ := List.mem_map.1 h
          exact ident_cStr (hs.simple l hl)
        · obtain ⟨l, hl, rfl⟩ := List.mem_map.1 h
          exact ident_cStr (hs.complex l hl).1
      rw [hbody]
      intro r hr
      obtain ⟨⟨pn, pt⟩, hp', rfl⟩ := List.mem_map.1 hr
      obtain ⟨cm, hcm1, hcm2⟩ := hline _ hp'
      cases hcm2
      have hmt := memberTy_of hcs (h.compiled.good.nodup c cs hcs) hcm1
      have hcstr := hnames _ hp'
      simp only at hcstr
      unfold lineRd
      simp only
      cases hty : cm.ty with
      | simple ty => simp only; split <;> exact ⟨hcstr, by rw [hmt, hty]⟩
      | enum n =>
        obtain ⟨e, val, he⟩ := h.gen.enumDeclared h.compiled hcs hcm1 hty
        obtain ⟨c', x, xs, t, hde, hev⟩ := h.compiled.enmOnly _ _ _ he
        have hen' : e.name = n := by rw [hev]
        have hmem : (n, e) ∈ i.enums := by rw [hev]; exact SMap.find?_some_mem (t4 _ _ _ _ _ hde)
        have : ∃ e val, memberTy E.T c cm.name = some (.enum e.name) ∧ E.T.enm e.name = some (e, val) ∧
            ∀ self fuel k, ToCall ⟨E, some out.readerClass, self, Cpp.run E self (fuel + 1), k⟩ e val := by
          refine ⟨e, val, by rw [hmt, hty, hen'], by rw [hen']; exact he, fun self fuel k s x a t old ha ht => ?_⟩
          exact C60_to_partial hen hmem (h.enumerators n e val he) (by rw [hev]; exact hc.enums _ _ _ _ _ hde) _ self fuel k s ha ht
        simp only
        split <;> exact ⟨hcstr, this⟩
      | struct n => exact ⟨hcstr, by rw [hmt, hty]⟩
      | vec n =>
        refine ⟨hcstr, by rw [hmt, hty], ?_⟩
        obtain ⟨ms', hms'⟩ := h.compiled.elems hcs hcm1 hty
        obtain ⟨a, b, hab⟩ := h.compiled.clsOnly _ _ hms'
        exact (hsn n a b hab).1
  · have : tops i.structs = (i.structs.filter fun p => isTop p.2).map Prod.fst := by
      unfold tops
      rw [List.filter_map, List.map_map]
      refine List.map_congr_left fun p hp => ?_
      exact t1 p.1 p.2 (List.mem_filter.1 hp).1
    rw [this]
    exact t2.sublist (List.Sublist.map _ List.filter_sublist)
  · rw [hm _ (Ne.symm hcl.2.2), if_pos rfl]
    have : ((i.structs.map Prod.snd).filter fun s => c!"do_" ++ s.name = c!"read_from_file") = [] := by
      rw [List.filter_eq_nil_iff]
      intro s _ he
      exact do_ne'' s.name (of_decide_eq_true he)
    rw [this, List.map_nil, List.append_nil]
  · intro n hn
    obtain ⟨⟨m, ms, hd⟩, _⟩ := (t6 n).1 hn
    exact hsn n m ms hd
where
  do_ne'' (c : Str) : c!"do_" ++ c ≠ c!"read_from_file" := by
    intro e
    have h2 : (c!"do_" ++ c).take 1 = (c!"read_from_file").take 1 := by rw [e]
    exact absurd (show c!"d" = c!"r" from h2) (by decide)

end
end Stfx.Cpp
