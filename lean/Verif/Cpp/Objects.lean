import Verif.Props.C65_Header
import Verif.Cpp.XmlWrProgram
import Verif.Cpp.IniWrProgram
/-
Objects of the generated classes: what the .h file says about them, and what making one does.
-/
set_option autoImplicit false
set_option linter.unusedSimpArgs false
namespace Stfx.Cpp
open Stfx.Lexer Stfx.Run Stfx.Parser Stfx.Items Stfx.Gen

/-- A program with generated files: stfx has made the text `prog` of a structs .cpp file for headers with the texts `fs`, and the structs
.h file that goes with it.  The functions `E.prog` of the program contain those the text of the .cpp file defines, no other file defines
members of the two classes, the enums .cpp file is part of it, and the classes `cs`, which the text of the .h file declares, are what `E`
knows about classes.  `E.T` is what the headers mean in C++.  (An assumption about a program, models no code.) -/
structure Linked (fs : List (Str × Header)) (k : Kind) (out : OutSpec) (prog : List Item) (E : Env) (cs : List Class) : Prop where
  texts : ∀ f ∈ fs, toksFile f.1 = some f.2.toks
  distinct : ((declsOf fs).map Decl.name).Nodup
  run : ∃ (ext : Bool) (i : Info) (stamp fc fh : Str) (inputs : List Str) (pre gs post : List Fun),
    (processFiles 0 (fs.map fun f => some f.1) [Info.empty]).bind (prepare 0) = some ([i], true) ∧
    prog = structsCpp k stamp fc fh inputs out i.structs ∧ Names stamp fc fh inputs out i.structs ∧ (ext = true ∨ NoShort k i.structs) ∧
    parse ext (fileText prog) = some gs ∧ E.prog = pre ++ gs ++ post ∧
    (∀ f ∈ pre ++ post, f.name.head? ≠ some out.readerClass ∧ (out.onlyRead = false → f.name.head? ≠ some out.writerClass)) ∧
    EnumProgram E i.enums ∧
    parseH ext (fileText (structsH k stamp fh inputs out i.structs)) = some (cs.map .cls)
  compiled : Compiled (declsOf fs) E.T
  enumerators : ∀ n e val, E.T.enm n = some (e, val) → EnumDecl E e val
  described : Described cs E

/-! ### Members of the classes -/

theorem fields_fns (ms : List Member) (h : ∀ m ∈ ms, ∃ f, m = .fn f) : (Class.mk [] none ms).fields = [] := by
  unfold Class.fields
  rw [List.filterMap_eq_nil_iff]
  intro m hm
  obtain ⟨f, rfl⟩ := h m hm
  rfl

theorem nested_fns (ms : List Member) (h : ∀ m ∈ ms, ∃ f, m = .fn f) : (Class.mk [] none ms).nested = [] := by
  unfold Class.nested
  rw [List.filterMap_eq_nil_iff]
  intro m hm
  obtain ⟨f, rfl⟩ := h m hm
  rfl

theorem fields_append (c : Str) (b : Option (Access × List Str)) (ms ns : List Member) :
    (Class.mk c b (ms ++ ns)).fields = (Class.mk [] none ms).fields ++ (Class.mk [] none ns).fields := List.filterMap_append ..

theorem nested_append (c : Str) (b : Option (Access × List Str)) (ms ns : List Member) :
    (Class.mk c b (ms ++ ns)).nested = (Class.mk [] none ms).nested ++ (Class.mk [] none ns).nested := List.filterMap_append ..

/-- The data members of the reader class, process_items_ini.cpp:101-103. -/
def readerFields (k : Kind) : List Field :=
  if k.isXml then [] else [⟨.name [c!"read_item_S"], c!"m_lookup", none⟩, ⟨.name [c!"std", c!"string"], c!"m_multiline_string_key", none⟩,
    ⟨.name [c!"std", c!"string"], c!"m_multiline_string_value", none⟩]

/-- The data members of the writer class, process_items_xml.cpp:143, process_items_ini.cpp:217-218. -/
def writerFields (k : Kind) : List Field :=
  ⟨.prim .bool, c!"m_delta_only", some (.braces [])⟩ ::
    if k.isXml then [] else [⟨.ptr (.name [c!"std", c!"FILE"]), c!"m_file", some (.braces [.null])⟩]

theorem reader_fields (k : Kind) (rc : Str) (ss : List StructS) : (readerClassOf k rc ss).fields = readerFields k := by
  rw [readerClassOf, fields_append, fields_append, fields_append, fields_fns _ (readers_fn k ss), fields_fns _ (entries_fn _ _ _)]
  cases k <;> rfl

theorem writer_fields (k : Kind) (wc rc : Str) (ss : List StructS) : (writerClassOf k wc rc ss).fields = writerFields k := by
  rw [writerClassOf, fields_append, fields_append, fields_append, fields_fns _ (writers_fn k ss), fields_fns _ (entries_fn _ _ _)]
  cases k <;> rfl

theorem reader_nested (k : Kind) (rc : Str) (ss : List StructS) : (readerClassOf k rc ss).nested =
    if k.isXml then [] else [(c!"read_item_S", itemFields.map fun p => ⟨p.1, p.2, none⟩)] := by
  rw [readerClassOf, nested_append, nested_append, nested_append, nested_fns _ (readers_fn k ss), nested_fns _ (entries_fn _ _ _)]
  cases k <;> rfl

theorem writer_nested (k : Kind) (wc rc : Str) (ss : List StructS) : (writerClassOf k wc rc ss).nested = [] := by
  rw [writerClassOf, nested_append, nested_append, nested_append, nested_fns _ (writers_fn k ss), nested_fns _ (entries_fn _ _ _)]
  cases k <;> rfl

/-- The one constructor of a class. -/
theorem ctor_decl {cls : Str} {d : List Member} {k : FDecl} {es fs : List Member}
    (hd : ∀ m ∈ d, m = .access .priv ∨ (∃ f, m = .field f) ∨ ∃ n fs, m = .nested n fs) (hk : k.name = cls)
    (he : ∀ m ∈ es, ∃ f, m = .fn f ∧ f.name ≠ cls) (hf : ∀ m ∈ fs, ∃ f, m = .fn f ∧ f.name ≠ cls) :
    (withAccess .priv (d ++ [.access .pub, .fn k] ++ es ++ [.access .prot] ++ fs)).filter (isCtor cls) = [(.pub, .fn k)] := by
  rw [split_access hd (fun m hm => (he m hm).imp fun f h => h.1) (fun m hm => (hf m hm).imp fun f h => h.1)]
  have h1 : ∀ (a : Access) (ms : List Member), (∀ m ∈ ms, ∃ f, m = .fn f ∧ f.name ≠ cls) →
      ((fnsOf ms).map fun f => (a, Member.fn f)).filter (isCtor cls) = [] := by
    intro a ms hms
    rw [List.filter_eq_nil_iff]
    intro p hp
    obtain ⟨f, hf, rfl⟩ := List.mem_map.1 hp
    obtain ⟨m, hm, hf⟩ := List.mem_filterMap.1 hf
    obtain ⟨g, rfl, hg⟩ := hms m hm
    cases hf
    simpa [isCtor] using hg
  have h2 : ((d.filter notAccess).map fun m => (Access.priv, m)).filter (isCtor cls) = [] := by
    rw [List.filter_eq_nil_iff]
    intro p hp
    obtain ⟨m, hm, rfl⟩ := List.mem_map.1 hp
    rcases hd m (List.mem_filter.1 hm).1 with rfl | ⟨f, rfl⟩ | ⟨n, f, rfl⟩ <;> simp [isCtor]
  rw [List.filter_append, h2, List.nil_append, List.filter_cons, if_pos (by simp [isCtor, hk]), List.filter_append, h1 _ _ he, h1 _ _ hf]
  rfl

theorem reader_ctor {k : Kind} {rc : Str} {ss : List StructS} (h1 : rc ≠ c!"read_from_file") (h2 : ∀ s ∈ ss, rc ≠ c!"do_" ++ s.name ∨ k.isXml = false)
    (h3 : ∀ s ∈ ss, rc ≠ c!"do_rd_" ++ s.name ∨ k.isXml = true) :
    (withAccess .priv (readerClassOf k rc ss).members).filter (isCtor rc) = [(.pub, .fn ⟨false, none, rc, []⟩)] := by
  refine ctor_decl (d := if k.isXml then [] else _) ?_ rfl ?_ ?_
  · intro m hm
    split at hm
    · cases hm
    · simp only [itemMember, List.mem_cons, List.not_mem_nil, or_false] at hm
      rcases hm with rfl | rfl | rfl | rfl | rfl <;> simp
  · intro m hm
    obtain ⟨s, _, rfl⟩ := List.mem_map.1 hm
    exact ⟨_, rfl, Ne.symm h1⟩
  · intro m hm
    obtain ⟨s, hs, hm⟩ := List.mem_flatMap.1 hm
    have h2 := h2 s hs
    have h3 := h3 s hs
    cases k <;> simp only [readerMember, List.not_mem_nil, List.mem_cons, or_false] at hm
    · exact ⟨_, hm, Ne.symm (h2.resolve_right (by decide))⟩
    · exact ⟨_, hm, Ne.symm (h2.resolve_right (by decide))⟩
    · exact ⟨_, hm, Ne.symm (h3.resolve_right (by decide))⟩

theorem writer_ctor {k : Kind} {wc rc : Str} {ss : List StructS} (h1 : wc ≠ c!"write_to_file") (h2 : ∀ s ∈ ss, wc ≠ c!"do_wr_" ++ s.name) :
    (withAccess .priv (writerClassOf k wc rc ss).members).filter (isCtor wc) =
      [(.pub, .fn ⟨false, none, wc, [(.prim .bool, c!"delta_only", some (.bool true))]⟩)] := by
  refine ctor_decl (d := [.access .priv, .field ⟨.prim .bool, c!"m_delta_only", some (.braces [])⟩] ++ if k.isXml then [] else _)
    (k := ⟨false, none, wc, [(.prim .bool, c!"delta_only", some (.bool true))]⟩) ?_ rfl ?_ ?_
  · intro m hm
    rcases List.mem_append.1 hm with hm | hm
    · simp only [List.mem_cons, List.not_mem_nil, or_false] at hm
      rcases hm with rfl | rfl <;> simp
    · split at hm
      · cases hm
      · simp only [List.mem_cons, List.not_mem_nil, or_false] at hm
        subst hm
        simp
  · intro m hm
    obtain ⟨s, _, rfl⟩ := List.mem_map.1 hm
    exact ⟨_, rfl, Ne.symm h1⟩
  · intro m hm
    obtain ⟨s, hs, hm⟩ := List.mem_flatMap.1 hm
    have h2 := h2 s hs
    cases k <;> simp only [writerMember, List.not_mem_nil, List.mem_cons, or_false] at hm
    · exact ⟨_, hm, Ne.symm h2⟩
    · exact ⟨_, hm, Ne.symm h2⟩
    · exact ⟨_, hm, Ne.symm h2⟩

/-! ### The constructors in the program -/

section
variable {k : Kind} {stamp fc fh : Str} {inputs : List Str} {out : OutSpec} {S : SMap StructS}

theorem raw_funs (is : List Item) (h : ∀ i ∈ is, ∃ t, i = .raw t) : is.flatMap itemFuns = [] := by
  rw [List.flatMap_eq_nil_iff]
  intro i hi
  obtain ⟨t, rfl⟩ := h i hi
  rfl

/-- The functions in the .cpp file: those of the reader and those of the writer. -/
theorem split_funs : ∃ A B : List Fun, (structsCpp k stamp fc fh inputs out S).flatMap itemFuns =
      xml93_fun out.readerClass :: A ++ (if out.onlyRead then [] else xml149_fun out.writerClass out.readerClass :: B) ∧
    (xml93_fun out.readerClass :: A).map Fun.sig = readerSigs k out.readerClass (S.map Prod.snd) ∧
    (out.onlyRead = false → (xml149_fun out.writerClass out.readerClass :: B).map Fun.sig = writerSigs k out.writerClass (S.map Prod.snd)) := by
  let A : List Fun := (((S.map Prod.snd).filter isTop).map (fun s => Item.defReadFile k out.readerClass s.name) ++
    (S.map Prod.snd).flatMap (readerDef k out.readerClass)).flatMap itemFuns
  let B : List Fun := (((S.map Prod.snd).filter isTop).map (fun s => Item.defWriteFile k out.writerClass s.name) ++
    (S.map Prod.snd).flatMap (writerDef k out.writerClass out.noDelta)).flatMap itemFuns
  have h1 : ∀ o : OutSpec, o.readerClass = out.readerClass → o.writerClass = out.writerClass → o.noDelta = out.noDelta →
      (structsCpp k stamp fc fh inputs o S).flatMap itemFuns =
      xml93_fun out.readerClass :: A ++ (if o.onlyRead then [] else xml149_fun out.writerClass out.readerClass :: B) := by
    intro o ho1 ho2 ho3
    rw [structsCpp_parts, ho1, ho2, ho3]
    simp only [List.flatMap_append]
    rw [raw_funs _ (head_raw k stamp fc fh inputs o), raw_funs [Item.raw _] (by simp)]
    cases o.onlyRead
    · simp only [Bool.false_eq_true, if_false, List.flatMap_append, List.nil_append, List.append_nil]
      rw [raw_funs [Item.raw _] (by simp)]
      simp [A, B, itemFuns, List.flatMap_append]
    · simp [A, itemFuns, List.flatMap_append]
  have h2 := sigs_eq k stamp fc fh inputs { out with onlyRead := true } S
  rw [h1 { out with onlyRead := true } rfl rfl rfl] at h2
  simp only [if_true, List.append_nil] at h2
  refine ⟨A, B, h1 out rfl rfl rfl, h2, fun ho => ?_⟩
  have h3 := sigs_eq k stamp fc fh inputs out S
  rw [h1 out rfl rfl rfl, ho, List.map_append, h2] at h3
  exact List.append_cancel_left h3

/-- Functions with these signatures. -/
theorem filter_sigs {l : List Fun} {ss : List Sig} (h : l.map Fun.sig = ss) {n : List Str} (hn : ∀ x ∈ ss, x.2.1 ≠ n) :
    l.filter (fun f => f.name = n) = [] := by
  rw [List.filter_eq_nil_iff]
  intro f hf he
  refine hn f.sig ?_ (of_decide_eq_true he)
  rw [← h]
  exact List.mem_map_of_mem hf

theorem readerSigs_names {k : Kind} {c : Str} {ss : List StructS} : ∀ x ∈ (readerSigs k c ss).tail, x.2.1 = [c, c!"read_from_file"] ∨
    (∃ s ∈ ss, (k = .xml ∨ k = .attrib) ∧ x.2.1 = [c, c!"do_" ++ s.name]) ∨ ∃ s ∈ ss, k = .nIni ∧ x.2.1 = [c, c!"do_rd_" ++ s.name] := by
  intro x hx
  rw [readerSigs.eq_def, List.append_assoc, List.singleton_append, List.tail_cons] at hx
  rcases List.mem_append.1 hx with hx | hx
  · obtain ⟨s, _, rfl⟩ := List.mem_map.1 hx
    exact .inl rfl
  · cases k
    · obtain ⟨s, hs, rfl⟩ := List.mem_map.1 hx
      exact .inr (.inl ⟨s, hs, .inl rfl, rfl⟩)
    · obtain ⟨s, hs, rfl⟩ := List.mem_map.1 hx
      exact .inr (.inl ⟨s, hs, .inr rfl, rfl⟩)
    · cases hx
    · obtain ⟨s, hs, rfl⟩ := List.mem_map.1 hx
      exact .inr (.inr ⟨s, hs, rfl, rfl⟩)

theorem writerSigs_names {k : Kind} {c : Str} {ss : List StructS} : ∀ x ∈ (writerSigs k c ss).tail, x.2.1 = [c, c!"write_to_file"] ∨
    ∃ s ∈ ss, x.2.1 = [c, c!"do_wr_" ++ s.name] := by
  intro x hx
  rw [writerSigs.eq_def, List.append_assoc, List.singleton_append, List.tail_cons] at hx
  rcases List.mem_append.1 hx with hx | hx
  · obtain ⟨s, _, rfl⟩ := List.mem_map.1 hx
    exact .inl rfl
  · cases k
    · obtain ⟨s, hs, rfl⟩ := List.mem_map.1 hx
      exact .inr ⟨s, hs, rfl⟩
    · obtain ⟨s, hs, rfl⟩ := List.mem_map.1 hx
      exact .inr ⟨s, hs, rfl⟩
    · cases hx
    · obtain ⟨s, hs, rfl⟩ := List.mem_map.1 hx
      exact .inr ⟨s, hs, rfl⟩

theorem readerCtor_funs (h1 : out.readerClass ≠ c!"read_from_file")
    (h2 : ∀ s ∈ S.map Prod.snd, out.readerClass ≠ c!"do_" ++ s.name ∨ k.isXml = false)
    (h3 : ∀ s ∈ S.map Prod.snd, out.readerClass ≠ c!"do_rd_" ++ s.name ∨ k.isXml = true)
    (hw : out.onlyRead = false → out.writerClass ≠ out.readerClass) :
    ((structsCpp k stamp fc fh inputs out S).flatMap itemFuns).filter (fun f => f.name = [out.readerClass, out.readerClass]) =
      [xml93_fun out.readerClass] := by
  obtain ⟨A, B, hf, hA, hB⟩ := split_funs (k := k) (stamp := stamp) (fc := fc) (fh := fh) (inputs := inputs) (out := out) (S := S)
  have hA' : A.filter (fun f => f.name = [out.readerClass, out.readerClass]) = [] := by
    refine filter_sigs (ss := (readerSigs k out.readerClass (S.map Prod.snd)).tail) (by rw [← hA]; rfl) fun x hx => ?_
    rcases readerSigs_names x hx with h | ⟨s, hs, hk, h⟩ | ⟨s, hs, hk, h⟩ <;> rw [h]
    · simpa using Ne.symm h1
    · have := (h2 s hs).resolve_right (by rcases hk with rfl | rfl <;> decide)
      simpa using Ne.symm this
    · have := (h3 s hs).resolve_right (by rw [hk]; decide)
      simpa using Ne.symm this
  have hB' : (if out.onlyRead then [] else xml149_fun out.writerClass out.readerClass :: B).filter
      (fun f => f.name = [out.readerClass, out.readerClass]) = [] := by
    cases ho : out.onlyRead
    · refine filter_sigs (by exact hB ho) fun x hx => ?_
      have hc : ∃ t, x.2.1 = [out.writerClass, t] := by
        rcases List.mem_cons.1 (show x ∈ (_ : Sig) :: (writerSigs k out.writerClass (S.map Prod.snd)).tail from hx) with rfl | hx
        · exact ⟨_, rfl⟩
        · rcases writerSigs_names x hx with h | ⟨s, _, h⟩ <;> exact ⟨_, h⟩
      obtain ⟨t, ht⟩ := hc
      rw [ht]
      intro h
      exact hw ho (List.cons.inj h).1
    · rfl
  rw [hf, List.filter_append, hB', List.append_nil, List.filter_cons, if_pos (by simp [xml93_fun]), hA']

theorem writerCtor_funs (ho : out.onlyRead = false) (h1 : out.writerClass ≠ c!"write_to_file")
    (h2 : ∀ s ∈ S.map Prod.snd, out.writerClass ≠ c!"do_wr_" ++ s.name) (hw : out.writerClass ≠ out.readerClass) :
    ((structsCpp k stamp fc fh inputs out S).flatMap itemFuns).filter (fun f => f.name = [out.writerClass, out.writerClass]) =
      [xml149_fun out.writerClass out.readerClass] := by
  obtain ⟨A, B, hf, hA, hB⟩ := split_funs (k := k) (stamp := stamp) (fc := fc) (fh := fh) (inputs := inputs) (out := out) (S := S)
  have hA' : (xml93_fun out.readerClass :: A).filter (fun f => f.name = [out.writerClass, out.writerClass]) = [] := by
    refine filter_sigs hA fun x hx => ?_
    have hc : ∃ t, x.2.1 = [out.readerClass, t] := by
      rcases List.mem_cons.1 (show x ∈ (_ : Sig) :: (readerSigs k out.readerClass (S.map Prod.snd)).tail from hx) with rfl | hx
      · exact ⟨_, rfl⟩
      · rcases readerSigs_names x hx with h | ⟨s, _, _, h⟩ | ⟨s, _, _, h⟩ <;> exact ⟨_, h⟩
    obtain ⟨t, ht⟩ := hc
    rw [ht]
    intro h
    exact hw (List.cons.inj h).1.symm
  have hB' : B.filter (fun f => f.name = [out.writerClass, out.writerClass]) = [] := by
    refine filter_sigs (ss := (writerSigs k out.writerClass (S.map Prod.snd)).tail) (by rw [← hB ho]; rfl) fun x hx => ?_
    rcases writerSigs_names x hx with h | ⟨s, hs, h⟩ <;> rw [h]
    · simpa using Ne.symm h1
    · simpa using Ne.symm (h2 s hs)
  rw [hf, ho, if_neg (by simp), List.filter_append, hA', List.nil_append, List.filter_cons, if_pos (by simp [xml149_fun]), hB']

end

/-! ### What the .h file says -/

section
variable {fs : List (Str × Header)} {k : Kind} {out : OutSpec} {prog : List Item} {E : Env} {cs : List Class}

theorem cls_inj {a b : List Class} (h : a.map HDecl.cls = b.map HDecl.cls) : a = b := by
  induction a generalizing b with
  | nil => cases b with
    | nil => rfl
    | cons => cases h
  | cons x a ih => cases b with
    | nil => cases h
    | cons y b =>
      injection h with h1 h2
      injection h1 with h1
      rw [h1, ih h2]

/-- The classes.  (Proof notion, models no code.) -/
def twoClasses (k : Kind) (out : OutSpec) (ss : List StructS) : List Class :=
  readerClassOf k out.readerClass ss :: if out.onlyRead then [] else [writerClassOf k out.writerClass out.readerClass ss]

theorem Linked.classes (h : Linked fs k out prog E cs) : ∃ i,
    (processFiles 0 (fs.map fun f => some f.1) [Info.empty]).bind (prepare 0) = some ([i], true) ∧ cs = twoClasses k out (i.structs.map Prod.snd) := by
  obtain ⟨ext, i, stamp, fc, fh, inputs, pre, gs, post, h1, h2, h3, h4, h5, h6, h7, h8, h9⟩ := h.run
  refine ⟨i, h1, cls_inj ?_⟩
  rw [structsH_parse h3.files h3.reader h3.writer h3.structs] at h9
  rw [← Option.some.inj h9, twoClasses]
  cases out.onlyRead <;> rfl

theorem twoClasses_nested (k : Kind) (out : OutSpec) (ss : List StructS) :
    (twoClasses k out ss).flatMap Class.nested = if k.isXml then [] else [(c!"read_item_S", itemFields.map fun p => ⟨p.1, p.2, none⟩)] := by
  rw [twoClasses, List.flatMap_cons, reader_nested]
  cases out.onlyRead
  · simp [writer_nested]
  · simp

theorem Linked.reader_base (h : Linked fs k out prog E cs) : E.base out.readerClass = none := by
  obtain ⟨i, _, hcs⟩ := h.classes
  have := h.described.base (readerClassOf k out.readerClass (i.structs.map Prod.snd)) (by rw [hcs]; exact List.mem_cons_self)
  exact this

theorem Linked.writer_base (h : Linked fs k out prog E cs) (ho : out.onlyRead = false) : E.base out.writerClass = some out.readerClass := by
  obtain ⟨i, _, hcs⟩ := h.classes
  have := h.described.base (writerClassOf k out.writerClass out.readerClass (i.structs.map Prod.snd)) (by rw [hcs, twoClasses, ho]; simp)
  exact this

theorem Linked.nested (h : Linked fs k out prog E cs) : E.nested = if k.isXml then [] else [c!"read_item_S"] := by
  obtain ⟨i, _, hcs⟩ := h.classes
  rw [h.described.nested, hcs, twoClasses_nested]
  cases k <;> rfl

/-- What C61 and C62 assume about the classes follows from the .h file. -/
theorem Linked.xml (h : Linked fs k out prog E cs) (hk : k = .xml ∨ k = .attrib) : XmlBuilt fs k out prog E where
  kind := hk
  texts := h.texts
  distinct := h.distinct
  run := by
    obtain ⟨ext, i, stamp, fc, fh, inputs, pre, gs, post, h1, h2, h3, h4, h5, h6, h7, h8, _⟩ := h.run
    exact ⟨ext, i, stamp, fc, fh, inputs, pre, gs, post, h1, h2, h3, h4, h5, h6, h7, h8⟩
  compiled := h.compiled
  enumerators := h.enumerators
  nested := fun n _ _ => by
    rw [h.nested]
    rcases hk with rfl | rfl <;> simp [Kind.isXml]
  readerBase := h.reader_base
  writerBase := h.writer_base

/-- What C63 and C64 assume about the classes follows from the .h file. -/
theorem Linked.ini (h : Linked fs .nIni out prog E cs) : IniBuilt fs out prog E where
  texts := h.texts
  distinct := h.distinct
  run := by
    obtain ⟨ext, i, stamp, fc, fh, inputs, pre, gs, post, h1, h2, h3, h4, h5, h6, h7, h8, _⟩ := h.run
    exact ⟨ext, i, stamp, fc, fh, inputs, pre, gs, post, h1, h2, h3, h5, h6, h7, h8⟩
  compiled := h.compiled
  enumerators := h.enumerators
  nested := h.nested
  readerBase := h.reader_base
  writerBase := h.writer_base

/-- The structs in the tables are declared. -/
theorem tables_declared (ht : ∀ f ∈ fs, toksFile f.1 = some f.2.toks) (hd : ((declsOf fs).map Decl.name).Nodup) {i : Info}
    (h : (processFiles 0 (fs.map fun f => some f.1) [Info.empty]).bind (prepare 0) = some ([i], true)) :
    ∀ s ∈ i.structs.map Prod.snd, ∃ m ms, Decl.struct s.name m ms ∈ declsOf fs := by
  obtain ⟨⟨h1, _, h3, _⟩, _⟩ := tables_all ht hd h
  intro s hs
  obtain ⟨⟨n, s⟩, hp, rfl⟩ := List.mem_map.1 hs
  obtain ⟨s', hs'⟩ := mem_keys.1 (List.mem_map_of_mem (f := Prod.fst) hp)
  rw [h1 n s hp]
  exact h3 n s' hs'

theorem Linked.reader_find (h : Linked fs k out prog E cs) {i : Info} (hcs : cs = twoClasses k out (i.structs.map Prod.snd)) :
    cs.find? (fun c => c.name = out.readerClass) = some (readerClassOf k out.readerClass (i.structs.map Prod.snd)) := by
  rw [hcs, twoClasses, List.find?_cons]
  have : decide ((readerClassOf k out.readerClass (i.structs.map Prod.snd)).name = out.readerClass) = true := by simp [readerClassOf]
  rw [this]

theorem Linked.writer_find (h : Linked fs k out prog E cs) {i : Info} (hcs : cs = twoClasses k out (i.structs.map Prod.snd))
    (ho : out.onlyRead = false) (hw : out.writerClass ≠ out.readerClass) :
    cs.find? (fun c => c.name = out.writerClass) = some (writerClassOf k out.writerClass out.readerClass (i.structs.map Prod.snd)) := by
  rw [hcs, twoClasses, ho, if_neg (by simp), List.find?_cons]
  have h1 : decide ((readerClassOf k out.readerClass (i.structs.map Prod.snd)).name = out.writerClass) = false := by simp [readerClassOf, Ne.symm hw]
  have h2 : decide ((writerClassOf k out.writerClass out.readerClass (i.structs.map Prod.snd)).name = out.writerClass) = true := by simp [writerClassOf]
  rw [h1, List.find?_cons, h2]

/-! ### Access -/

theorem Sealed.named {c : Class} (h : Sealed c) {f : Str} (hf : f = c!"read_from_file" ∨ f = c!"write_to_file") :
    (c.named f).all (fun x => x = .pub) = true := by
  rw [Class.named, List.all_eq_true]
  intro a ha
  obtain ⟨p, hp, rfl⟩ := List.mem_map.1 ha
  rw [List.mem_filter, h.access] at hp
  obtain ⟨hp, hn⟩ := hp
  obtain ⟨g, hg, rfl⟩ := List.mem_map.1 hp
  have hn : g.name = f := of_decide_eq_true hn
  have hv := h.virt g hg
  rw [hn] at hv
  have : (g.ret.isNone || g.virt) = true := by
    rw [hv]
    cases g.ret <;> rcases hf with rfl | rfl <;> rfl
  simp [this]

theorem Sealed.named_ne {c : Class} (h : Sealed c) {g : FDecl} (hg : g ∈ c.fns) : c.named g.name ≠ [] := by
  rw [Class.named, h.access]
  intro e
  rw [List.map_eq_nil_iff, List.filter_eq_nil_iff] at e
  exact e _ (List.mem_map.2 ⟨g, hg, rfl⟩) (by simp)

theorem entry_fns {c : Class} {f n x : Str} (h : entryMember f n x ∈ c.members) : ∃ g ∈ c.fns, g.name = f :=
  ⟨_, List.mem_filterMap.2 ⟨_, h, rfl⟩, rfl⟩

theorem Linked.tops_ne (h : Linked fs k out prog E cs) {i : Info}
    (hi : (processFiles 0 (fs.map fun f => some f.1) [Info.empty]).bind (prepare 0) = some ([i], true)) {n : Str} (hn : TopStruct (declsOf fs) n) :
    ∃ s ∈ (i.structs.map Prod.snd).filter isTop, s.name = n :=
  List.mem_map.1 (((tables_all h.texts h.distinct hi).2.2 n).2 hn)

/-- Everybody may use the functions for files. -/
theorem Linked.can_read (h : Linked fs k out prog E cs) {n : Str} (hn : TopStruct (declsOf fs) n) : canCall cs out.readerClass c!"read_from_file" = true := by
  obtain ⟨i, hi, hcs⟩ := h.classes
  have hs := reader_sealed k out.readerClass (i.structs.map Prod.snd)
  have h1 := hs.named (f := c!"read_from_file") (.inl rfl)
  obtain ⟨s, hs1, _⟩ := h.tops_ne hi hn
  obtain ⟨g, hg, hn⟩ := entry_fns (c := readerClassOf k out.readerClass (i.structs.map Prod.snd)) (f := c!"read_from_file") (n := s.name)
    (x := c!"struct_to_fill") (by
      simp only [readerClassOf, List.mem_append, List.mem_map]
      exact .inl (.inl (.inr ⟨s, hs1, rfl⟩)))
  have h2 := hs.named_ne hg
  rw [hn] at h2
  simp only [canCall, h.reader_find hcs]
  revert h1 h2
  cases (readerClassOf k out.readerClass (i.structs.map Prod.snd)).named c!"read_from_file" with
  | nil => intro _ h; exact absurd rfl h
  | cons a as => intro h _; exact h

theorem Linked.can_write (h : Linked fs k out prog E cs) (ho : out.onlyRead = false) (hw : out.writerClass ≠ out.readerClass) {n : Str}
    (hn : TopStruct (declsOf fs) n) : canCall cs out.writerClass c!"write_to_file" = true := by
  obtain ⟨i, hi, hcs⟩ := h.classes
  have hs := writer_sealed k out.writerClass out.readerClass (i.structs.map Prod.snd)
  have h1 := hs.named (f := c!"write_to_file") (.inr rfl)
  obtain ⟨s, hs1, _⟩ := h.tops_ne hi hn
  obtain ⟨g, hg, hn⟩ := entry_fns (c := writerClassOf k out.writerClass out.readerClass (i.structs.map Prod.snd)) (f := c!"write_to_file") (n := s.name)
    (x := c!"struct_to_read") (by
      simp only [writerClassOf, List.mem_append, List.mem_map]
      exact .inl (.inl (.inr ⟨s, hs1, rfl⟩)))
  have h2 := hs.named_ne hg
  rw [hn] at h2
  simp only [canCall, h.writer_find hcs ho hw]
  revert h1 h2
  cases (writerClassOf k out.writerClass out.readerClass (i.structs.map Prod.snd)).named c!"write_to_file" with
  | nil => intro _ h; exact absurd rfl h
  | cons a as => intro h _; exact h

/-- A writer may be used as a reader. -/
theorem Linked.can_read_writer (h : Linked fs k out prog E cs) (ho : out.onlyRead = false) (hw : out.writerClass ≠ out.readerClass) {n : Str}
    (hn : TopStruct (declsOf fs) n) : canCall cs out.writerClass c!"read_from_file" = true := by
  have hr := h.can_read hn
  obtain ⟨i, hi, hcs⟩ := h.classes
  have h1 := (writer_sealed k out.writerClass out.readerClass (i.structs.map Prod.snd)).named (f := c!"read_from_file") (.inl rfl)
  have hrd := (reader_sealed k out.readerClass (i.structs.map Prod.snd)).named (f := c!"read_from_file") (.inl rfl)
  have hrb : (readerClassOf k out.readerClass (i.structs.map Prod.snd)).base = none := rfl
  simp only [canCall, h.reader_find hcs, hrb] at hr
  simp only [canCall, h.writer_find hcs ho hw]
  cases hc : (writerClassOf k out.writerClass out.readerClass (i.structs.map Prod.snd)).named c!"read_from_file" with
  | cons a as => rw [hc] at h1; exact h1
  | nil =>
    show (match cs.find? (fun c => c.name = out.readerClass) with
      | some d => _
      | none => false) = true
    rw [h.reader_find hcs]
    simp only [hrd, Bool.and_true]
    revert hr
    cases (readerClassOf k out.readerClass (i.structs.map Prod.snd)).named c!"read_from_file" with
    | nil => intro h; exact absurd h (by simp)
    | cons a as => intro _; rfl

/-- The constructors of the program. -/
theorem Linked.ctors (h : Linked fs k out prog E cs) : ∃ i : Info, cs = twoClasses k out (i.structs.map Prod.snd) ∧
    (∀ s ∈ i.structs.map Prod.snd, ∃ m ms, Decl.struct s.name m ms ∈ declsOf fs) ∧
    (out.readerClass ≠ c!"read_from_file" → (∀ s ∈ i.structs.map Prod.snd, out.readerClass ≠ c!"do_" ++ s.name ∨ k.isXml = false) →
      (∀ s ∈ i.structs.map Prod.snd, out.readerClass ≠ c!"do_rd_" ++ s.name ∨ k.isXml = true) →
      (out.onlyRead = false → out.writerClass ≠ out.readerClass) →
      E.prog.filter (fun f => f.name = [out.readerClass, out.readerClass]) = [xml93_fun out.readerClass]) ∧
    (out.onlyRead = false → out.writerClass ≠ c!"write_to_file" → (∀ s ∈ i.structs.map Prod.snd, out.writerClass ≠ c!"do_wr_" ++ s.name) →
      out.writerClass ≠ out.readerClass →
      E.prog.filter (fun f => f.name = [out.writerClass, out.writerClass]) = [xml149_fun out.writerClass out.readerClass]) := by
  obtain ⟨i, hi, hcs⟩ := h.classes
  refine ⟨i, hcs, tables_declared h.texts h.distinct hi, ?_⟩
  obtain ⟨ext, i', stamp, fc, fh, inputs, pre, gs, post, h1, h2, h3, h4, h5, h6, h7, h8, h9⟩ := h.run
  rw [hi] at h1
  cases h1
  have hp := structsCpp_parse (ext := ext) (k := k) h3.files h3.reader h3.writer h3.structs (by
    rcases h4 with h4 | h4
    · exact .inl h4
    · by_cases ha : k = .attrib
      · exact .inr (.inr (h4 ha))
      · exact .inr (.inl ha))
  rw [h2, hp] at h5
  cases h5
  have h0 : ∀ (c n : Str) (fs : List Fun), (∀ f ∈ fs, f.name.head? ≠ some c) → fs.filter (fun f => f.name = [c, n]) = [] := by
    intro c n fs h
    rw [List.filter_eq_nil_iff]
    intro f hf hn
    exact h f hf (by rw [of_decide_eq_true hn]; rfl)
  refine ⟨fun a b c d => ?_, fun ho a b c => ?_⟩
  · rw [h6, List.filter_append, List.filter_append, h0 _ _ pre fun f hf => (h7 f (by simp [hf])).1, h0 _ _ post fun f hf => (h7 f (by simp [hf])).1,
      readerCtor_funs a b c d]
    rfl
  · rw [h6, List.filter_append, List.filter_append, h0 _ _ pre fun f hf => (h7 f (by simp [hf])).2 ho, h0 _ _ post fun f hf => (h7 f (by simp [hf])).2 ho,
      writerCtor_funs ho a b c]
    rfl

end

/-! ### Making objects -/

/-- The constructor of a reader does nothing. -/
theorem invoke_reader {C : Ctx} {rc : Str} {s : St} : invokeCtor C (xml93_fun rc) [] s = .ok () s := by
  simp [invokeCtor, xml93_fun, scope, bindParams, execs]

/-- The constructor of a writer sets `m_delta_only`. -/
theorem invoke_writer {C : Ctx} {wc rc : Str} {s : St} {a : Nat} {d : Bool}
    (hl : C.self.lookup c!"m_delta_only" = some ⟨.prim .bool, ⟨a, []⟩⟩) (ha : a < s.mem.length) :
    invokeCtor C (xml149_fun wc rc) [.rv (.prim .bool) (.val (.bool d))] s = .ok () { s with mem := s.mem.set a (.val (.bool d)) } := by
  obtain ⟨m, vars, files, out⟩ := s
  have h1 : bindParams C.E C.cls C.self [(.prim .bool, c!"delta_only")] [.rv (.prim .bool) (.val (.bool d))] ⟨m, [], files, out⟩ =
      .ok () ⟨m ++ [.val (.bool d)], [(c!"delta_only", ⟨.prim .bool, ⟨m.length, []⟩⟩)], files, out⟩ := by
    rw [bindParams_val (u := .prim .bool) (v := .val (.bool d)) rfl rfl (by simp [initFrom, coerce])]
    rfl
  have h2 : eval C (.id [c!"m_delta_only"]) ⟨m ++ [.val (.bool d)], [(c!"delta_only", ⟨.prim .bool, ⟨m.length, []⟩⟩)], files, out⟩ =
      .ok (.lv (.prim .bool) ⟨a, []⟩) ⟨m ++ [.val (.bool d)], [(c!"delta_only", ⟨.prim .bool, ⟨m.length, []⟩⟩)], files, out⟩ :=
    eval_self (by rw [lookup_cons_ne (by decide)]; rfl) hl
  have h3 : eval C (.id [c!"delta_only"]) ⟨m ++ [.val (.bool d)], [(c!"delta_only", ⟨.prim .bool, ⟨m.length, []⟩⟩)], files, out⟩ =
      .ok (.lv (.prim .bool) ⟨m.length, []⟩) ⟨m ++ [.val (.bool d)], [(c!"delta_only", ⟨.prim .bool, ⟨m.length, []⟩⟩)], files, out⟩ :=
    eval_id (x := ⟨.prim .bool, ⟨m.length, []⟩⟩) lookup_cons_eq
  have h4 : load (.lv (.prim .bool) ⟨m.length, []⟩) ⟨m ++ [.val (.bool d)], [(c!"delta_only", ⟨.prim .bool, ⟨m.length, []⟩⟩)], files, out⟩ =
      .ok (.prim .bool, .val (.bool d)) ⟨m ++ [.val (.bool d)], [(c!"delta_only", ⟨.prim .bool, ⟨m.length, []⟩⟩)], files, out⟩ :=
    load_lv (peek_var (by simp)) rfl
  have ha' : a < m.length := ha
  simp only [invokeCtor, xml149_fun, scope, M.bind_run, h1, Res.ok_bind, execs, exec, eval, h3]
  have h2' := h2
  have h3' := h3
  simp only [eval] at h2' h3'
  simp only [h3', h2', Res.ok_bind, assignE, M.bind_run, h4, coerce_self, M.opt_some, poke_var (show a < (m ++ [V.val (.bool d)]).length by simp; omega),
    M.pure_run]
  rw [List.set_append_left _ _ ha', List.take_left' (by simp)]

section
variable {fs : List (Str × Header)} {k : Kind} {out : OutSpec} {prog : List Item} {E : Env} {cs : List Class}

/-- Make a reader. -/
theorem Linked.make_reader (h : Linked fs k out prog E cs) (h1 : out.readerClass ≠ c!"read_from_file")
    (h2 : ∀ n m ms, Decl.struct n m ms ∈ declsOf fs → out.readerClass ≠ c!"do_" ++ n ∨ k.isXml = false)
    (h3 : ∀ n m ms, Decl.struct n m ms ∈ declsOf fs → out.readerClass ≠ c!"do_rd_" ++ n ∨ k.isXml = true)
    (hw : out.onlyRead = false → out.writerClass ≠ out.readerClass) {n : Nat} {s s' : St} {own : List (Str × Var)}
    (hi : initFields E out.readerClass (readerFields k) [] s = .ok own s') :
    construct E cs (n + 1) out.readerClass [] s = .ok own s' := by
  obtain ⟨i, hcs, hd, hr, _⟩ := h.ctors
  have h2' : ∀ s ∈ i.structs.map Prod.snd, out.readerClass ≠ c!"do_" ++ s.name ∨ k.isXml = false := by
    intro s hs
    obtain ⟨m, ms, hm⟩ := hd s hs
    exact h2 _ m ms hm
  have h3' : ∀ s ∈ i.structs.map Prod.snd, out.readerClass ≠ c!"do_rd_" ++ s.name ∨ k.isXml = true := by
    intro s hs
    obtain ⟨m, ms, hm⟩ := hd s hs
    exact h3 _ m ms hm
  rw [construct, h.reader_find hcs, hr h1 h2' h3' hw]
  simp only
  rw [reader_ctor h1 h2' h3']
  simp only [reader_fields]
  have hb : (readerClassOf k out.readerClass (i.structs.map Prod.snd)).base = none := rfl
  simp [xml93_fun, withDefaults, hb, hi]
  have := invoke_reader (C := ⟨E, some out.readerClass, own, Cpp.run E own n, n⟩) (rc := out.readerClass) (s := s')
  unfold xml93_fun at this
  rw [this]
  rfl

/-- Make a writer. -/
theorem Linked.make_writer (h : Linked fs k out prog E cs) (ho : out.onlyRead = false) (h1 : out.writerClass ≠ c!"write_to_file")
    (h2 : ∀ n m ms, Decl.struct n m ms ∈ declsOf fs → out.writerClass ≠ c!"do_wr_" ++ n) (hw : out.writerClass ≠ out.readerClass)
    {n a : Nat} {d : Bool} {s s1 s2 : St} {inh own : List (Str × Var)} {args : List EV}
    (ha : args = [.rv (.prim .bool) (.val (.bool d))] ∨ args = [] ∧ d = true)
    (hr : construct E cs (n + 1) out.readerClass [] s = .ok inh s1)
    (hi : initFields E out.writerClass (writerFields k) [] s1 = .ok own s2)
    (hl : own.lookup c!"m_delta_only" = some ⟨.prim .bool, ⟨a, []⟩⟩) (hm : a < s2.mem.length) :
    construct E cs (n + 2) out.writerClass args s = .ok (own ++ inh) { s2 with mem := s2.mem.set a (.val (.bool d)) } := by
  obtain ⟨i, hcs, hd, _, hf⟩ := h.ctors
  have h2' : ∀ s ∈ i.structs.map Prod.snd, out.writerClass ≠ c!"do_wr_" ++ s.name := by
    intro s hs
    obtain ⟨m, ms, hm⟩ := hd s hs
    exact h2 _ m ms hm
  have hdf : withDefaults E [(.prim .bool, c!"delta_only", some (.bool true))] args s = .ok [.rv (.prim .bool) (.val (.bool d))] s := by
    rcases ha with rfl | ⟨rfl, rfl⟩
    · simp [withDefaults]
    · simp [withDefaults, eval]
  rw [construct, h.writer_find hcs ho hw, hf ho h1 h2' hw]
  simp only
  rw [writer_ctor h1 h2']
  simp only [writer_fields]
  have hb : (writerClassOf k out.writerClass out.readerClass (i.structs.map Prod.snd)).base = some (.pub, [out.readerClass]) := rfl
  have hf : (xml149_fun out.writerClass out.readerClass).base = some [out.readerClass] := rfl
  have := invoke_writer (C := ⟨E, some out.writerClass, own ++ inh, Cpp.run E (own ++ inh) (n + 1), n + 1⟩) (wc := out.writerClass) (rc := out.readerClass) (s := s2)
    (a := a) (d := d) (by rw [lookup_append, hl]; rfl) hm
  rw [hb, hf, if_pos (by simp [xml149_fun])]
  simp only [M.bind_run, hdf, Res.ok_bind, if_pos, hr, hi, this, M.pure_run]

end

/-! ### The data members of new objects -/

theorem init_xml_reader {E : Env} {cls : Str} {k : Kind} (hk : k.isXml = true) (s : St) : initFields E cls (readerFields k) [] s = .ok [] s := by
  rw [readerFields, if_pos hk]
  rfl

theorem init_xml_writer {E : Env} {cls : Str} {k : Kind} (hk : k.isXml = true) (s : St) : initFields E cls (writerFields k) [] s =
    .ok [(c!"m_delta_only", ⟨.prim .bool, ⟨s.mem.length, []⟩⟩)] { s with mem := s.mem ++ [.val (.bool false)] } := by
  rw [writerFields, if_pos hk]
  simp [initFields, tyOf, M.opt, eval, evals, initFrom, alloc]

/-- The data members of a reader, the first of them at `a`.  (Proof notion, models no code.) -/
def readerData (a : Nat) : List (Str × Var) :=
  [(c!"m_lookup", ⟨.item, ⟨a, []⟩⟩), (c!"m_multiline_string_key", ⟨.str, ⟨a + 1, []⟩⟩), (c!"m_multiline_string_value", ⟨.str, ⟨a + 2, []⟩⟩)]

/-- Those a writer adds.  (Proof notion, models no code.) -/
def writerData (a : Nat) : List (Str × Var) := [(c!"m_delta_only", ⟨.prim .bool, ⟨a, []⟩⟩), (c!"m_file", ⟨.ptr .file, ⟨a + 1, []⟩⟩)]

theorem init_ini_reader {E : Env} {cls : Str} (h : FileTypes E cls) (s : St) : initFields E cls (readerFields .nIni) [] s =
    .ok (readerData s.mem.length) { s with mem := s.mem ++ [.val (itemVal [] []), .val (.str []), .val (.str [])] } := by
  have ht : tyOf E (some cls) [] (.name [c!"read_item_S"]) = some .item := by
    simp [tyOf, hidden, h.itemM, h.item]
  have hf : readerFields .nIni = [⟨.name [c!"read_item_S"], c!"m_lookup", none⟩, ⟨.name [c!"std", c!"string"], c!"m_multiline_string_key", none⟩,
    ⟨.name [c!"std", c!"string"], c!"m_multiline_string_value", none⟩] := rfl
  rw [hf]
  simp [initFields, ht, M.opt, initV, alloc, readerData, itemVal]
  simp [tyOf]

theorem init_ini_writer {E : Env} {cls : Str} (s : St) : initFields E cls (writerFields .nIni) [] s =
    .ok (writerData s.mem.length) { s with mem := s.mem ++ [.val (.bool false), .null] } := by
  have hf : writerFields .nIni = [⟨.prim .bool, c!"m_delta_only", some (.braces [])⟩,
    ⟨.ptr (.name [c!"std", c!"FILE"]), c!"m_file", some (.braces [.null])⟩] := rfl
  rw [hf]
  simp [initFields, tyOf, M.opt, eval, evals, initFrom, load, coerce, alloc, writerData]

end Stfx.Cpp
