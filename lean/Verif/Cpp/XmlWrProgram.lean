import Verif.Cpp.RunWriteFile
import Verif.Cpp.XmlProgram
/-
A program with the generated XML files: which functions the names in the writer class mean.
-/
set_option autoImplicit false
namespace Stfx.Cpp
open Stfx.Lexer Stfx.Run Stfx.Parser Stfx.Items Stfx.Gen

/-- Names in the generated writer class, or in its base class, hide no name used in it: no struct has the name of a variable of the
writer functions, of the classes or of one of their functions, and the class and the namespace-scope names it uses differ.
(Proof notion, models no code.) -/
structure WriterClear (ds : List Decl) (out : OutSpec) : Prop where
  locals : ∀ n m ms, Decl.struct n m ms ∈ ds →
    n ∉ [c!"el", c!"data", c!"ch_el", c!"rv", c!"item", c!"itr", c!"default_data", c!"m_delta_only", c!"filename", c!"read_from_file",
      c!"write_to_file", out.readerClass, out.writerClass]
  funs : ∀ n m ms n' m' ms', Decl.struct n m ms ∈ ds → Decl.struct n' m' ms' ∈ ds → n ≠ c!"do_" ++ n' ∧ n ≠ c!"do_wr_" ++ n'
  cls : out.writerClass ∉ [c!"stfx", c!"write_to_file", c!"read_from_file", out.readerClass]
  clsFuns : ∀ n m ms, Decl.struct n m ms ∈ ds → out.writerClass ≠ c!"do_wr_" ++ n
  enums : ∀ c n x xs t, Decl.enum c n x xs t ∈ ds → FromClear ⟨n, c, (x :: xs).map lineOf⟩

/-- A call of `s_from_e` with an enum that has no value. -/
theorem from_undef {E : Env} {ES : SMap EnumS} (hp : EnumProgram E ES) {p : Str × EnumS} (hm : p ∈ ES) {val : EnumVals}
    (hd : EnumDecl E p.2 val) (cls : Option Str) (self : List (Str × Var)) (fuel k : Nat) (s : St) {q : Place} (hq : getAt s.mem q = some .undef) :
    callId ⟨E, cls, self, run E self (fuel + 1), k⟩ [c!"stfx", c!"s_from_e"] [.lv (.enum p.2.name) q] s = .ub := by
  have hok := hd.ok (hp.names p hm)
  rw [call_sFrom hp.funs (List.mem_map.2 ⟨p, hm, rfl⟩) hok rfl rfl]
  obtain ⟨m, vs, files, out⟩ := s
  simp only at hq
  have hb : bindParams E none [] (sFromFun p.2).params [.lv (.enum p.2.name) q] ⟨m, [], files, out⟩ = .ub := by
    simp [sFromFun, bindParams, Ty.isRef, Ty.noRef, tyOf_enum hok (vars := []) rfl, initFrom, load_undef hq]
  show run E self (fuel + 1) (sFromFun p.2) _ _ = _
  rw [run]
  show invoke ⟨E, none, [], run E self fuel, fuel⟩ (sFromFun p.2) _ _ = _
  simp [invoke, scope, hb]

section
variable {fs : List (Str × Header)} {k : Kind} {out : OutSpec} {prog : List Item} {E : Env}

/-- The writer function of a struct, process_items_xml.cpp:406-578, process_items_xml_attrib.cpp:141-299. -/
def xmlWr (k : Kind) (wc : Str) (dd : Bool) (s : StructS) : Fun :=
  wrFun wc s.name (wrBody k s.name dd (k ≠ .xml && hasChildren s) (s.simple.map fun l => lineWr k dd (l.name, .simple l.ty)) (s.complex.map (wrComplex k dd)))

/-- The functions of the writer class. -/
theorem writer_funs {stamp fc fh : Str} {inputs : List Str} {S : SMap StructS} (hk : k = .xml ∨ k = .attrib) {n : Str} (hn : n ≠ out.writerClass)
    (ho : out.onlyRead = false) (hw : out.writerClass ≠ out.readerClass) :
    ((structsCpp k stamp fc fh inputs out S).flatMap itemFuns).filter (fun f => f.name = [out.writerClass, n]) =
      (if n = c!"write_to_file" then (tops S).map (xml164_fun out.writerClass) else []) ++
      ((S.map Prod.snd).filter fun s => c!"do_wr_" ++ s.name = n).map (xmlWr k out.writerClass (!out.noDelta)) := by
  have hx : k.isXml = true := by rcases hk with rfl | rfl <;> rfl
  have hq : ∀ is : List Item, (∀ i ∈ is, ∃ t, i = .raw t) → is.flatMap itemFuns = [] := by
    intro is h
    rw [List.flatMap_eq_nil_iff]
    intro i hi
    obtain ⟨t, rfl⟩ := h i hi
    rfl
  have h1 : ∀ l : List StructS, (((l.map fun s => Item.defWriteFile k out.writerClass s.name)).flatMap itemFuns).filter (fun f => f.name = [out.writerClass, n]) =
      if n = c!"write_to_file" then (l.map StructS.name).map (xml164_fun out.writerClass) else [] := by
    intro l
    rw [List.flatMap_map]
    have : (l.flatMap fun s => itemFuns (Item.defWriteFile k out.writerClass s.name)) = (l.map StructS.name).map (xml164_fun out.writerClass) := by
      induction l with
      | nil => rfl
      | cons s l ih => rw [List.flatMap_cons, ih]; simp [itemFuns, hx]
    rw [this]
    split
    · next h =>
      rw [List.filter_eq_self]
      intro f hf
      obtain ⟨a, _, rfl⟩ := List.mem_map.1 hf
      simp [xml164_fun, h]
    · next h =>
      rw [List.filter_eq_nil_iff]
      intro f hf
      obtain ⟨a, _, rfl⟩ := List.mem_map.1 hf
      simp [xml164_fun, Ne.symm h]
  have h2 : ∀ l : List StructS, ((l.flatMap (writerDef k out.writerClass out.noDelta)).flatMap itemFuns).filter (fun f => f.name = [out.writerClass, n]) =
      (l.filter fun s => c!"do_wr_" ++ s.name = n).map (xmlWr k out.writerClass (!out.noDelta)) := by
    intro l
    induction l with
    | nil => rfl
    | cons s l ih =>
      have hr : (writerDef k out.writerClass out.noDelta s).flatMap itemFuns = [xmlWr k out.writerClass (!out.noDelta) s] := by
        rcases hk with rfl | rfl <;> rfl
      rw [List.flatMap_cons, List.flatMap_append, List.filter_append, ih, hr, List.filter_cons]
      have hnm : (xmlWr k out.writerClass (!out.noDelta) s).name = [out.writerClass, c!"do_wr_" ++ s.name] := rfl
      by_cases he : c!"do_wr_" ++ s.name = n
      · rw [if_pos (by rw [hnm, he]; simp), List.filter_cons, if_pos (by simpa using he)]
        rfl
      · rw [if_neg (by rw [hnm]; simpa using he), List.filter_cons, if_neg (by simpa using he)]
        rfl
  have h3 : (([Item.readerCtor k out.readerClass] ++
      ((S.map Prod.snd).filter isTop).map (fun s => Item.defReadFile k out.readerClass s.name) ++
      (S.map Prod.snd).flatMap (readerDef k out.readerClass)).flatMap itemFuns).filter (fun f => f.name = [out.writerClass, n]) = [] := by
    rw [List.filter_eq_nil_iff]
    intro f hf
    have hc : f.name.head? = some out.readerClass := by
      simp only [List.flatMap_append, List.mem_append] at hf
      rcases hf with (hf | hf) | hf
      · simp only [List.flatMap_cons, List.flatMap_nil, itemFuns, List.append_nil, List.mem_cons, List.not_mem_nil, or_false] at hf
        subst hf; rfl
      · obtain ⟨i, hi, hf⟩ := List.mem_flatMap.1 hf
        obtain ⟨s, _, rfl⟩ := List.mem_map.1 hi
        simp only [itemFuns, List.mem_cons, List.not_mem_nil, or_false] at hf
        subst hf
        split <;> rfl
      · obtain ⟨i, hi, hf⟩ := List.mem_flatMap.1 hf
        obtain ⟨s, _, hi⟩ := List.mem_flatMap.1 hi
        rcases hk with rfl | rfl <;>
        · simp only [readerDef, List.mem_cons, List.not_mem_nil, or_false] at hi
          subst hi
          simp only [itemFuns, List.mem_cons, List.not_mem_nil, or_false] at hf
          subst hf; rfl
    intro he
    rw [of_decide_eq_true he] at hc
    exact hw (Option.some.inj hc)
  have h4 : ∀ a b c : List Item, ((structsCppHead k stamp fc fh inputs out ++ a ++ b ++ c).flatMap itemFuns).filter (fun f => f.name = [out.writerClass, n]) =
      ((a ++ b ++ c).flatMap itemFuns).filter (fun f => f.name = [out.writerClass, n]) := by
    intro a b c
    simp only [List.flatMap_append, List.filter_append]
    rw [hq _ (head_raw k stamp fc fh inputs out)]
    rfl
  rw [structsCpp_parts, List.flatMap_append, List.filter_append, List.flatMap_append, List.filter_append, h4, h3, ho,
    hq [Item.raw _] (by simp)]
  simp only [Bool.false_eq_true, if_false, List.flatMap_append, List.filter_append, h1, h2]
  rw [hq [Item.raw _] (by simp)]
  simp only [List.filter_nil, List.nil_append, List.append_nil, tops]
  have : ([Item.writerCtor k out.writerClass out.readerClass].flatMap itemFuns).filter (fun f => f.name = [out.writerClass, n]) = [] := by
    simp [itemFuns, xml149_fun, Ne.symm hn]
  rw [this, List.nil_append]

/-- The functions of both classes in the program. -/
theorem XmlBuilt.writer (h : XmlBuilt fs k out prog E) (ho : out.onlyRead = false) (hw : out.writerClass ≠ out.readerClass) :
    ∃ i stamp fc fh inputs, (processFiles 0 (fs.map fun f => some f.1) [Info.empty]).bind (prepare 0) = some ([i], true) ∧
      prog = structsCpp k stamp fc fh inputs out i.structs ∧ Names stamp fc fh inputs out i.structs ∧ EnumProgram E i.enums ∧
      (∀ n, n ≠ out.readerClass → E.prog.filter (fun f => f.name = [out.readerClass, n]) =
        (if n = c!"read_from_file" then (tops i.structs).map (xml106_fun out.readerClass) else []) ++
        ((i.structs.map Prod.snd).filter fun s => c!"do_" ++ s.name = n).map (xmlRd k out.readerClass)) ∧
      ∀ n, n ≠ out.writerClass → E.prog.filter (fun f => f.name = [out.writerClass, n]) =
        (if n = c!"write_to_file" then (tops i.structs).map (xml164_fun out.writerClass) else []) ++
        ((i.structs.map Prod.snd).filter fun s => c!"do_wr_" ++ s.name = n).map (xmlWr k out.writerClass (!out.noDelta)) := by
  obtain ⟨ext, i, stamp, fc, fh, inputs, pre, gs, post, h1, h2, h3, h4, h5, h6, h7, h8⟩ := h.run
  have hp := structsCpp_parse (ext := ext) (k := k) h3.files h3.reader h3.writer h3.structs (by
    rcases h4 with h4 | h4
    · exact .inl h4
    · by_cases ha : k = .attrib
      · exact .inr (.inr (h4 ha))
      · exact .inr (.inl ha))
  rw [h2, hp] at h5
  cases h5
  have h0 : ∀ (c n : Str) (fs : List Fun), (∀ f ∈ fs, f.name.head? ≠ some c) → fs.filter (fun f => f.name = [c, n]) = [] := by
    intro c n fs h
    rw [List.filter_eq_nil_iff]
    intro f hf hn
    exact h f hf (by rw [of_decide_eq_true hn]; rfl)
  refine ⟨i, stamp, fc, fh, inputs, h1, h2, h3, h8, fun n hn => ?_, fun n hn => ?_⟩
  · rw [h6, List.filter_append, List.filter_append, h0 _ _ pre fun f hf => (h7 f (by simp [hf])).1, h0 _ _ post fun f hf => (h7 f (by simp [hf])).1,
      reader_funs h.kind hn fun _ => hw, List.nil_append, List.append_nil]
  · rw [h6, List.filter_append, List.filter_append, h0 _ _ pre fun f hf => (h7 f (by simp [hf])).2 ho, h0 _ _ post fun f hf => (h7 f (by simp [hf])).2 ho,
      writer_funs h.kind hn ho hw, List.nil_append, List.append_nil]

theorem do_wr_inj (a b : Str) (h : c!"do_wr_" ++ a = c!"do_wr_" ++ b) : a = b := List.append_cancel_left h

/-- The program has the writer functions. -/
theorem XmlBuilt.wrProgram (h : XmlBuilt fs k out prog E) (ho : out.onlyRead = false) (hc : WriterClear (declsOf fs) out)
    (hl : k = .attrib ∨ E.T.longBits = 64) :
    WrProgram E out.writerClass prog ∧ ∃ ns : List Str, ns.Nodup ∧ (ns ≠ [] → methods E (some out.writerClass) c!"write_to_file" = ns.map (xml164_fun out.writerClass)) ∧
      methods E (some out.writerClass) c!"read_from_file" = E.prog.filter (fun f => f.name = [out.readerClass, c!"read_from_file"]) ∧
      (∀ n, n ∈ ns ↔ TopStruct (declsOf fs) n) ∧ ∀ n ∈ ns, (StructName E out.writerClass n ∧ n ≠ c!"filename") ∧ cStr n = n := by
  have hcl : out.writerClass ≠ c!"stfx" ∧ out.writerClass ≠ c!"write_to_file" ∧ out.writerClass ≠ c!"read_from_file" ∧ out.writerClass ≠ out.readerClass := by
    have := hc.cls
    simpa only [List.mem_cons, List.not_mem_nil, or_false, not_or] using this
  obtain ⟨i, stamp, fc, fh, inputs, hi, hp, hnm, hen, hmr, hmw⟩ := h.writer ho hcl.2.2.2
  obtain ⟨⟨t1, t2, t3, t4⟩, t5, t6⟩ := tables_all h.texts h.distinct hi
  have hdecl : ∀ p ∈ i.structs, ∃ m ms, Decl.struct p.1 m ms ∈ declsOf fs := by
    intro p hp
    have hpk : p.1 ∈ i.structs.keys := List.mem_map.2 ⟨p, hp, rfl⟩
    cases hf : i.structs.find? p.1 with
    | none => exact absurd hpk (SMap.find?_none_iff.1 hf)
    | some s' => exact t3 _ _ hf
  have hmeth : ∀ n, E.prog.filter (fun f => f.name = [out.writerClass, n]) ≠ [] →
      methods E (some out.writerClass) n = E.prog.filter (fun f => f.name = [out.writerClass, n]) := by
    intro n he
    unfold methods
    simp only
  have hsn : ∀ n m ms, Decl.struct n m ms ∈ declsOf fs → StructName E out.writerClass n ∧ n ≠ c!"filename" := by
    intro n m ms hd
    have hl := hc.locals n m ms hd
    obtain ⟨cs, hcs, _⟩ := h.compiled.cls n m ms hd
    refine ⟨⟨fun h => hl (by
      simp only [List.mem_cons, List.not_mem_nil, or_false] at h ⊢
      rcases h with h | h | h | h | h | h | h | h <;> simp [h]), ?_, h.nested n cs hcs, by simp [hcs]⟩, fun h => hl (by simp [h])⟩
    have hf : ∀ (g : Str → Str) (f : StructS → Fun), (∀ p ∈ i.structs, n ≠ g p.1) → ((i.structs.map Prod.snd).filter fun s => g s.name = n).map f = [] := by
      intro g f hg
      rw [List.map_eq_nil_iff, List.filter_eq_nil_iff]
      intro s hs he
      obtain ⟨p, hp, rfl⟩ := List.mem_map.1 hs
      rw [t1 p.1 p.2 hp] at he
      exact hg p hp (of_decide_eq_true he).symm
    have hr : E.prog.filter (fun f => f.name = [out.readerClass, n]) = [] := by
      rw [hmr n (fun h => hl (by simp [h])), if_neg (fun h => hl (by simp [h])), List.nil_append]
      refine hf (c!"do_" ++ ·) _ fun p hp => ?_
      obtain ⟨m', ms', hd'⟩ := hdecl p hp
      exact (hc.funs n m ms p.1 m' ms' hd hd').1
    have hw : E.prog.filter (fun f => f.name = [out.writerClass, n]) = [] := by
      rw [hmw n (fun h => hl (by simp [h])), if_neg (fun h => hl (by simp [h])), List.nil_append]
      refine hf (c!"do_wr_" ++ ·) _ fun p hp => ?_
      obtain ⟨m', ms', hd'⟩ := hdecl p hp
      exact (hc.funs n m ms p.1 m' ms' hd hd').2
    unfold methods
    simp only [hw, h.writerBase ho, hr]
  refine ⟨⟨hcl.1, ?_⟩, tops i.structs, ?_, ?_, ?_, t6, ?_⟩
  · intro c dd body hb
    rw [hp, wrBody_gen h.kind ho t1] at hb
    cases hf : i.structs.find? c with
    | none => rw [hf] at hb; cases hb
    | some s =>
    rw [hf, Option.map_some] at hb
    cases hb
    obtain ⟨m, ms, hd⟩ := t3 c s hf
    have hname : s.name = c := t1 c s (SMap.find?_some_mem hf)
    obtain ⟨s', h1, h2, h3⟩ := t5 c m ms hd
    rw [hf] at h1
    cases h1
    refine ⟨(hsn c m ms hd).1, k, (k ≠ .xml && hasChildren s), _, _, rfl, ?_, ?_, ?_⟩
    · rcases h.kind with rfl | rfl
      · exact .inl rfl
      · refine .inr ⟨fun r hr => ?_, ?_⟩
        · obtain ⟨l, _, rfl⟩ := List.mem_map.1 hr
          rfl
        · cases hch : hasChildren s with
          | true => left; rfl
          | false =>
            right
            intro r hr
            obtain ⟨co, hco, rfl⟩ := List.mem_map.1 hr
            have := (List.any_eq_false.1 hch) co hco
            unfold wrComplex
            revert this
            cases co.ty <;> simp [Wr.usesCh]
    · have hf1 : E.prog.filter (fun f => f.name = [out.writerClass, c!"do_wr_" ++ c]) = [xmlWr k out.writerClass (!out.noDelta) s] := by
        rw [hmw _ (Ne.symm (hc.clsFuns c m ms hd)), if_neg (do_ne'' c), List.nil_append, filter_named t1 t2 hf _ do_wr_inj]
        rfl
      rw [hmeth _ (by rw [hf1]; simp), hf1]
      simp only [xmlWr, hname]
    · obtain ⟨cs, hcs, hcm⟩ := h.compiled.cls c m ms hd
      have hline : ∀ p ∈ Run.lines s, ∃ cm ∈ cs, (cm.name, cm.ty) = p := by
        intro p hp
        rw [h3] at hp
        obtain ⟨q, hq, rfl⟩ := List.mem_map.1 hp
        have hq' : q ∈ m :: ms := by
          rcases List.mem_append.1 hq with h | h <;> exact (List.mem_filter.1 h).1
        have : (q.name, memberType (declsOf fs) q, q.hasInit) ∈ (m :: ms).map fun m => (m.name, memberType (declsOf fs) m, m.hasInit) :=
          List.mem_map.2 ⟨q, hq', rfl⟩
        rw [← hcm] at this
        obtain ⟨cm, hcm1, hcm2⟩ := List.mem_map.1 this
        simp only [Prod.mk.injEq] at hcm2
        exact ⟨cm, hcm1, by rw [hcm2.1, hcm2.2.1]⟩
      have hbody : (s.simple.map fun l => lineWr k (!out.noDelta) (l.name, .simple l.ty)) ++ s.complex.map (wrComplex k (!out.noDelta)) =
          (Run.lines s).map (lineWr k (!out.noDelta)) := by
        unfold Run.lines
        rw [List.map_append, List.map_map, List.map_map]
        congr 1
        exact List.map_congr_left fun co hco => wrComplex_line (h2 co hco)
      have hnames : ∀ p ∈ Run.lines s, cStr p.1 = p.1 := by
        intro p hp'
        have hs := hnm.structs _ (SMap.find?_some_mem hf)
        rcases List.mem_append.1 hp' with h | h
        · obtain ⟨l, hl, rfl⟩ := List.mem_map.1 h
          exact ident_cStr (hs.simple l hl)
        · obtain ⟨l, hl, rfl⟩ := List.mem_map.1 h
          exact ident_cStr (hs.complex l hl).1
      rw [hbody]
      intro r hr
      obtain ⟨⟨pn, pt⟩, hp', rfl⟩ := List.mem_map.1 hr
      obtain ⟨cm, hcm1, hcm2⟩ := hline _ hp'
      cases hcm2
      have hmt := memberTy_of hcs (h.compiled.good.nodup c cs hcs) hcm1
      have hcstr := hnames _ hp'
      simp only at hcstr
      unfold lineWr
      simp only
      cases hty : cm.ty with
      | simple ty =>
        simp only
        split
        · next hk => exact ⟨hcstr, by rw [hmt, hty], fun _ => hl.resolve_left (by rw [hk]; simp)⟩
        · exact ⟨hcstr, by rw [hmt, hty]⟩
      | enum n =>
        obtain ⟨e, val, he⟩ := h.gen.enumDeclared h.compiled hcs hcm1 hty
        obtain ⟨c', x, xs, t, hde, hev⟩ := h.compiled.enmOnly _ _ _ he
        have hen' : e.name = n := by rw [hev]
        have hmem : (n, e) ∈ i.enums := by rw [hev]; exact SMap.find?_some_mem (t4 _ _ _ _ _ hde)
        have : ∃ e val, memberTy E.T c cm.name = some (.enum e.name) ∧ E.T.enm e.name = some (e, val) ∧
            ∀ self fuel k, FromCall ⟨E, some out.writerClass, self, Cpp.run E self (fuel + 1), k⟩ e val := by
          refine ⟨e, val, by rw [hmt, hty, hen'], by rw [hen']; exact he, fun self fuel k => ⟨fun s x q hq hx => ?_, fun s q hq => ?_⟩⟩
          · exact C60_from_partial hen hmem (h.enumerators n e val he) (by rw [hev]; exact hc.enums _ _ _ _ _ hde) _ self fuel k s (.lv hq) hx
          · exact from_undef hen hmem (h.enumerators n e val he) _ self fuel k s hq
        simp only
        split <;> exact ⟨hcstr, this⟩
      | struct n => exact ⟨hcstr, by rw [hmt, hty]⟩
      | vec n =>
        obtain ⟨ms', hms'⟩ := h.compiled.elems hcs hcm1 hty
        obtain ⟨a, b, hab⟩ := h.compiled.clsOnly _ _ hms'
        obtain ⟨s'', hs'', _⟩ := t5 n a b hab
        refine ⟨hcstr, ?_, by rw [hmt, hty], (hsn n a b hab).1⟩
        have hn := (hnm.structs _ (SMap.find?_some_mem hs'')).name
        rw [t1 n s'' (SMap.find?_some_mem hs'')] at hn
        exact ident_cStr hn
  · have : tops i.structs = (i.structs.filter fun p => isTop p.2).map Prod.fst := by
      unfold tops
      rw [List.filter_map, List.map_map]
      refine List.map_congr_left fun p hp => ?_
      exact t1 p.1 p.2 (List.mem_filter.1 hp).1
    rw [this]
    exact t2.sublist (List.Sublist.map _ List.filter_sublist)
  · intro hne
    have hf : E.prog.filter (fun f => f.name = [out.writerClass, c!"write_to_file"]) = (tops i.structs).map (xml164_fun out.writerClass) := by
      rw [hmw _ (Ne.symm hcl.2.1), if_pos rfl]
      have : ((i.structs.map Prod.snd).filter fun s => c!"do_wr_" ++ s.name = c!"write_to_file") = [] := by
        rw [List.filter_eq_nil_iff]
        intro s _ he
        exact do_ne'' s.name (of_decide_eq_true he)
      rw [this, List.map_nil, List.append_nil]
    rw [hmeth _ (by rw [hf]; simpa using hne), hf]
  · have hf : E.prog.filter (fun f => f.name = [out.writerClass, c!"read_from_file"]) = [] := by
      rw [hmw _ (Ne.symm hcl.2.2.1), if_neg (by decide)]
      have : ((i.structs.map Prod.snd).filter fun s => c!"do_wr_" ++ s.name = c!"read_from_file") = [] := by
        rw [List.filter_eq_nil_iff]
        intro s _ he
        have h2 : (c!"do_wr_" ++ s.name).take 1 = (c!"read_from_file").take 1 := by rw [of_decide_eq_true he]
        exact absurd (show c!"d" = c!"r" from h2) (by decide)
      rw [this, List.map_nil, List.append_nil]
    unfold methods
    simp only [hf, h.writerBase ho]
  · intro n hn
    obtain ⟨⟨m, ms, hd⟩, _⟩ := (t6 n).1 hn
    obtain ⟨s'', hs'', _⟩ := t5 n m ms hd
    have hi := (hnm.structs _ (SMap.find?_some_mem hs'')).name
    rw [t1 n s'' (SMap.find?_some_mem hs'')] at hi
    exact ⟨hsn n m ms hd, ident_cStr hi⟩
where
  do_ne'' (c : Str) : c!"do_wr_" ++ c ≠ c!"write_to_file" := by
    intro e
    have h2 : (c!"do_wr_" ++ c).take 1 = (c!"write_to_file").take 1 := by rw [e]
    exact absurd (show c!"d" = c!"w" from h2) (by decide)

/-- A call of `read_from_file` of the writer class is a call of that of the reader class. -/
theorem XmlBuilt.inherited (h : XmlBuilt fs k out prog E) (ho : out.onlyRead = false) (hr : ReaderClear (declsOf fs) out)
    (hc : WriterClear (declsOf fs) out) (hl : k = .attrib ∨ E.T.longBits = 64) {n : Str} (hn : TopStruct (declsOf fs) n) {self : List (Str × Var)}
    (hs : ∀ n, n ≠ c!"m_delta_only" → self.lookup n = none) (fuel : Nat) (t q : Place) :
    callMethod E self fuel out.writerClass c!"read_from_file" [.lv .str t, .lv (.struct n) q] =
      callMethod E self fuel out.readerClass c!"read_from_file" [.lv .str t, .lv (.struct n) q] := by
  obtain ⟨_, ns, hnd, hm, htop, hsn⟩ := h.rdProgram hr
  obtain ⟨_, ns', _, _, hm', htop', hsn'⟩ := h.wrProgram ho hc hl
  have he : methods E (some out.readerClass) c!"read_from_file" = E.prog.filter fun f => f.name = [out.readerClass, c!"read_from_file"] := by
    unfold methods
    simp only [h.readerBase]
    split
    · next h => exact h.symm
    · rfl
  rw [callMethod, callMethod, hm', ← he, hm, callOne, callOne, overload_one (fun _ => rfl) hs hnd hsn ((htop n).2 hn),
    overload_one (fun _ => rfl) hs hnd (fun n hn => (hsn' n ((htop' n).2 ((htop n).1 hn))).1) ((htop n).2 hn)]

end
end Stfx.Cpp
