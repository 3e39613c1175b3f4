import Verif.Cpp.InputDecl
import Verif.Cpp.SchemaNames
import Verif.Props.C50_Written
/-
What the declarations of headers mean in C++, and that this is what the other theorems assume of them.
-/
set_option autoImplicit false
namespace Stfx.Cpp
open Stfx.Lexer Stfx.Run Stfx.Parser Stfx.Items Stfx.Gen

/-! ### Meaning of declarations -/

/-- The name a declaration declares.  C++ [basic.def]. -/
def IDecl.name : IDecl → Str
  | .enum _ n _ _ => n
  | .struct n _ => n

/-- Is this the declaration of the struct `n`?  C++ [class.name]. -/
def IDecl.isStruct (n : Str) : IDecl → Bool
  | .struct m _ => m = n
  | .enum .. => false

/-- Is this the declaration of the enum `n`?  C++ [dcl.enum]. -/
def IDecl.isEnum (n : Str) : IDecl → Bool
  | .enum _ m _ _ => m = n
  | .struct .. => false

/-- Arithmetic types of members; objects with members of type `char` are left out.  C++ [basic.fundamental]. -/
def primTy : Prim → Option MTy
  | .bool => some (.simple .bool)
  | .char => none
  | .short => some (.simple .short)
  | .ushort => some (.simple .unsignedShort)
  | .int => some (.simple .int)
  | .uint => some (.simple .unsignedInt)
  | .long => some (.simple .long)
  | .ulong => some (.simple .unsignedLong)
  | .float => some (.simple .float)
  | .double => some (.simple .double)

/-- The type of a member, if it is complete; pointers, references and other templates are left out.  C++ [dcl.type]. -/
def inputTy (ds : List IDecl) : ITy → Option MTy
  | .prim p => primTy p
  | .name [n] => if ds.any (IDecl.isStruct n) then some (.struct n) else if ds.any (IDecl.isEnum n) then some (.enum n) else none
  | .name q => if q = [c!"std", c!"string"] then some (.simple .stdString) else none
  | .tmpl q (.name [n]) => if q = [c!"std", c!"vector"] ∧ ds.any (IDecl.isStruct n) = true then some (.vec n) else none
  | _ => none

/-- The name of a data member, its type and whether it has a default member initialiser; arrays are left out.  C++ [class.mem]. -/
def inputMember (ds : List IDecl) : IMember → Option (Str × MTy × Bool)
  | .field t n none init => (inputTy ds t).map fun ty => (n, ty, init.isSome)
  | _ => none

/-- The source text of the value of an enumerator.  C++ [lex.icon], [lex.ccon]. -/
def spelling : Expr → Str
  | .num s => s
  | .chr s => c!"'" ++ s ++ c!"'"
  | _ => []

/-- An enumerator; `-` stands for no value, as in the records of stfx (struct_yacc.y:156).  C++ [dcl.enum]. -/
def inputLine (e : Str × Option Expr) : EnumLine :=
  match e.2 with
  | none => ⟨e.1, false, c!"-"⟩
  | some v => ⟨e.1, true, spelling v⟩

/-- The rules of C++ for the declarations of headers: a name is declared once, the types of members are complete, and the enumerators of
an enum have distinct names.  The order of declarations is not looked at.  C++ [basic.def.odr], [class.mem], [dcl.enum]. -/
def wellFormed (ds : List IDecl) : Bool :=
  decide (ds.map IDecl.name).Nodup && ds.all fun d => match d with
    | .struct _ ms => ms.all fun m => (inputMember ds m).isSome
    | .enum _ _ _ es => decide (es.map Prod.fst).Nodup

/-- The class table `T` is what the declarations mean.  The values of enumerators and default member initialisers are left open, except
that vectors inside of them are empty (there is no way to initialise a vector of structs from one value).  C++ [class], [dcl.enum]. -/
structure Means (ds : List IDecl) (T : CTable) : Prop where
  good : T.Good
  cls : ∀ n ms, IDecl.struct n ms ∈ ds → ∃ cs, T.cls n = some cs ∧ ms.map (inputMember ds) = cs.map fun c => some (c.name, c.ty, c.init.isSome)
  clsOnly : ∀ n cs, T.cls n = some cs → ∃ ms, IDecl.struct n ms ∈ ds
  enm : ∀ c n u es, IDecl.enum c n u es ∈ ds → ∃ val, T.enm n = some (⟨n, c, es.map inputLine⟩, val)
  enmOnly : ∀ n e val, T.enm n = some (e, val) → ∃ c u es, IDecl.enum c n u es ∈ ds
  fresh : ∀ n cs, T.cls n = some cs → ∀ c ∈ cs, ∀ v, c.init = some v → Fresh T c.ty v

/-- The declarations of several headers.  C++ [lex.phases], [cpp.include]. -/
def inputDecls : List Str → Option (List IDecl)
  | [] => some []
  | t :: ts => match parseInput t, inputDecls ts with
    | some a, some b => some (a ++ b)
    | _, _ => none

theorem inputDecls_plain {fs : List (Str × Header)} (hp : ∀ f ∈ fs, plainText f.1 = true) (ht : ∀ f ∈ fs, toksFile f.1 = some f.2.toks) :
    inputDecls (fs.map Prod.fst) = some ((declsOf fs).map declCpp) := by
  induction fs with
  | nil => rfl
  | cons f fs ih =>
    have h1 := parse_plain (hp f List.mem_cons_self) (ht f List.mem_cons_self)
    have h2 := ih (fun f h => hp f (List.mem_cons_of_mem _ h)) (fun f h => ht f (List.mem_cons_of_mem _ h))
    have e : declsOf (f :: fs) = f.2.decls ++ declsOf fs := rfl
    rw [List.map_cons, inputDecls, h1, h2, e, List.map_append]

/-! ### Names -/

theorem plain_lexemes {w : Str} {hd : Header} (hp : plainText w = true) (ht : toksFile w = some hd.toks) : ∀ t ∈ hd.toks, CleanTok t := by
  unfold plainText at hp
  cases hl : lexFrom LexSt.init w with
  | none => rw [hl] at hp; cases hp
  | some ls =>
    rw [hl] at hp
    simp only [Bool.and_eq_true, List.all_eq_true, decide_eq_true_eq] at hp
    have htoks : tokensOf ls = hd.toks := by simpa [toksFile, toksFrom, hl] using ht
    intro t h
    rw [← htoks] at h
    unfold tokensOf at h
    obtain ⟨l, hl', hlt⟩ := List.mem_filterMap.1 h
    exact clean_tok (clean_of (hp.1.1.1 l hl')) hlt

theorem plain_noKeywords {fs : List (Str × Header)} (hp : ∀ f ∈ fs, plainText f.1 = true) (ht : ∀ f ∈ fs, toksFile f.1 = some f.2.toks) :
    NoKeywords (declsOf fs) := by
  intro d hd n hn
  obtain ⟨f, hf, hd'⟩ := List.mem_flatMap.1 hd
  exact (plain_lexemes (hp f hf) (ht f hf) _ (List.mem_flatMap.2 ⟨d, hd', declNames_toks d n hn⟩)).name rfl

theorem name_declCpp (d : Decl) : (declCpp d).name = d.name := by cases d <;> rfl

theorem isStruct_declCpp (n : Str) (d : Decl) : IDecl.isStruct n (declCpp d) = Decl.isStruct n d := by cases d <;> rfl

theorem anyStruct_declCpp (n : Str) (ds : List Decl) : (ds.map declCpp).any (IDecl.isStruct n) = ds.any (Decl.isStruct n) := by
  induction ds with
  | nil => rfl
  | cons d ds ih => simp only [List.map_cons, List.any_cons, isStruct_declCpp, ih]

theorem inputMember_cpp {ds : List Decl} {m : Parser.Member} {r : Str × MTy × Bool} (h : inputMember (ds.map declCpp) (memberCpp m) = some r) :
    r = (m.name, memberType ds m, m.hasInit) := by
  have hi : ∀ d : Default, (initCpp d).isSome = decide (d ≠ .absent) := by intro d; cases d <;> rfl
  cases m with
  | simple ty n d =>
    cases ty <;> simp [inputMember, memberCpp, simpleCpp, inputTy, primTy, hi] at h <;>
      simp [← h, Parser.Member.name, memberType, Parser.Member.hasInit]
  | named ty n d =>
    simp only [inputMember, memberCpp, inputTy, anyStruct_declCpp, hi, Option.map_eq_some_iff] at h
    obtain ⟨t, h1, rfl⟩ := h
    by_cases hs : ds.any (Decl.isStruct ty) = true
    · rw [if_pos hs] at h1
      cases h1
      simp [Parser.Member.name, memberType, Parser.Member.hasInit, hs]
    · rw [if_neg hs] at h1
      split at h1
      · cases h1
        simp only [Parser.Member.name, memberType, Parser.Member.hasInit, if_neg hs]
      · cases h1
  | vector el n =>
    simp only [inputMember, memberCpp, inputTy, anyStruct_declCpp, Option.map_eq_some_iff] at h
    obtain ⟨t, h1, rfl⟩ := h
    split at h1
    · cases h1
      simp [Parser.Member.name, memberType, Parser.Member.hasInit]
    · cases h1

theorem members_eq {ds : List Decl} {ms : List Parser.Member} {cs : List CMember}
    (h : (ms.map memberCpp).map (inputMember (ds.map declCpp)) = cs.map fun c => some (c.name, c.ty, c.init.isSome)) :
    cs.map (fun c => (c.name, c.ty, c.init.isSome)) = ms.map fun m => (m.name, memberType ds m, m.hasInit) := by
  induction ms generalizing cs with
  | nil => cases cs with
    | nil => rfl
    | cons c cs => cases h
  | cons m ms ih =>
    cases cs with
    | nil => cases h
    | cons c cs =>
      simp only [List.map_cons, List.cons.injEq] at h ⊢
      exact ⟨inputMember_cpp h.1, ih h.2⟩

/-- The text of a character constant. -/
theorem spelling_chr {s : Str} {c : Char} (hs : s = ['\'', c, '\'']) (h : literal s = [.tok (.chr (litText s))]) : c!"'" ++ litText s ++ c!"'" = s := by
  subst hs
  have hf : pfirst '\'' = .chr [] := by decide
  by_cases h1 : c = '\''
  · subst h1; revert h; decide +kernel
  · by_cases h2 : c = '\\'
    · subst h2; revert h; decide +kernel
    · by_cases h3 : c = '\n'
      · subst h3; revert h; decide +kernel
      · have e : literal ['\'', c, '\''] = [.tok (.chr [c])] := by
          simp [literal, pscan, pstep, hf, h1, h2, h3]
        simp [litText, e]

theorem lexeme_rule (N : Nat) : ∀ (st : LexSt) (w : Str) (ls : List Lexeme), w.length ≤ N → lexFrom st w = some ls → ∀ l ∈ ls, l.rule ≠ 5 → l.rule ≠ 6 →
    ∃ bol sc, ruleLang bol sc l.rule l.text := by
  induction N with
  | zero =>
    intro st w ls hw h l hl
    have : w = [] := List.length_eq_zero_iff.1 (by omega)
    subst this
    have hls : ls = [] := by simpa [lexFrom, lexFuel] using h.symm
    subst hls
    cases hl
  | succ N ih =>
    intro st w ls hw h l hl h5 h6
    cases w with
    | nil => exact ih st [] ls (by simp) h l hl h5 h6
    | cons c w =>
      obtain ⟨l', n, w', ls', rfl, hn, htl⟩ := lex_cases h
      have hlen : w'.length ≤ N := by have := hn.shorter; simp only [List.length_cons] at *; omega
      rcases List.mem_cons.1 hl with rfl | hl
      · exact ⟨_, _, hn.whole h5 h6⟩
      · exact ih _ _ _ hlen htl l hl h5 h6

theorem chr_text {w : Str} {ts : List Token} (h : toksFile w = some ts) {s : Str} (hs : ⟨.charConstant, s⟩ ∈ ts) : ∃ c, s = ['\'', c, '\''] := by
  unfold toksFile toksFrom at h
  rw [Option.map_eq_some_iff] at h
  obtain ⟨ls, h1, rfl⟩ := h
  obtain ⟨l, hl, ht⟩ := List.mem_filterMap.1 hs
  unfold Lexeme.token? at ht
  rw [Option.map_eq_some_iff] at ht
  obtain ⟨k, hk, ht⟩ := ht
  have hr : l.rule = 36 := by
    injection ht with h2 h3
    subst h2
    unfold actKind at hk
    split at hk <;> first | cases hk | skip
    assumption
  have ht' : l.text = s := by
    injection ht with h2 h3
    rw [← h3, hr]
    rfl
  obtain ⟨bol, sc, hlang⟩ := lexeme_rule w.length _ _ _ (Nat.le_refl _) h1 l hl (by omega) (by omega)
  rw [hr, ht'] at hlang
  cases sc <;> simp [ruleLang] at hlang
  obtain ⟨c, _, hc⟩ := hlang
  exact ⟨c, hc⟩

theorem enumerators_vals (t : Bool) : ∀ (e : Enumerator) (es : List Enumerator), ∀ x ∈ e :: es, ∀ v, x.value = some v → v.tok ∈ enumeratorsToks t e es := by
  intro e es
  have h0 : ∀ (x : Enumerator) v, x.value = some v → v.tok ∈ x.toks := by
    intro x v h
    simp [Enumerator.toks, h]
  induction es generalizing e with
  | nil =>
    intro x hx v hv
    cases List.mem_singleton.1 hx
    exact List.mem_append_left _ (h0 _ v hv)
  | cons e' es ih =>
    intro x hx v hv
    rcases List.mem_cons.1 hx with rfl | hx
    · exact List.mem_append_left _ (h0 _ v hv)
    · exact List.mem_append_right _ (List.mem_cons_of_mem _ (ih e' x hx v hv))

section
variable {fs : List (Str × Header)} {T : CTable}

theorem lines_cpp (hp : ∀ f ∈ fs, plainText f.1 = true) (ht : ∀ f ∈ fs, toksFile f.1 = some f.2.toks) {c : Bool} {n : Str} {e : Enumerator}
    {es : List Enumerator} {t : Bool} (hd : Decl.enum c n e es t ∈ declsOf fs) :
    ((e :: es).map fun e => (e.name, e.value.map enumValCpp)).map inputLine = (e :: es).map lineOf := by
  rw [List.map_map]
  apply List.map_congr_left
  intro x hx
  obtain ⟨f, hf, hd'⟩ := List.mem_flatMap.1 hd
  obtain ⟨nm, v⟩ := x
  cases v with
  | none => rfl
  | some v =>
    cases v with
    | dec s => rfl
    | hex s => rfl
    | chr s =>
      have hmem : (⟨.charConstant, s⟩ : Token) ∈ f.2.toks := by
        refine List.mem_flatMap.2 ⟨_, hd', ?_⟩
        have := enumerators_vals t e es _ hx (.chr s) rfl
        have h3 : (⟨.charConstant, s⟩ : Token) ∈ enumeratorsToks t e es := this
        simp [Decl.toks, h3]
      obtain ⟨ch, hch⟩ := chr_text (ht f hf) hmem
      have hlit := (plain_lexemes (hp f hf) (ht f hf) _ hmem).char rfl
      simp only at hlit
      have := spelling_chr hch hlit
      simp only [Function.comp, inputLine, Option.map_some, enumValCpp, spelling, this]
      rfl

theorem struct_cpp {ds : List Decl} {n : Str} {ms : List IMember} (h : IDecl.struct n ms ∈ ds.map declCpp) :
    ∃ m ms', Decl.struct n m ms' ∈ ds ∧ ms = (m :: ms').map memberCpp := by
  obtain ⟨d, hd, e⟩ := List.mem_map.1 h
  cases d with
  | enum => cases e
  | struct n' m ms' => cases e; exact ⟨m, ms', hd, rfl⟩

theorem enum_cpp {ds : List Decl} {c : Bool} {n : Str} {u : Option ITy} {es : List (Str × Option Expr)} (h : IDecl.enum c n u es ∈ ds.map declCpp) :
    ∃ e es' t, Decl.enum c n e es' t ∈ ds ∧ es = (e :: es').map fun e => (e.name, e.value.map enumValCpp) := by
  obtain ⟨d, hd, e⟩ := List.mem_map.1 h
  cases d with
  | enum c' n' e' es' t => cases e; exact ⟨e', es', t, hd, rfl⟩
  | struct => cases e

/-- What C++ makes of the texts of the headers is what the other theorems assume of the class table. -/
theorem compiled_of_text {ds : List IDecl} (hp : ∀ f ∈ fs, plainText f.1 = true) (ht : ∀ f ∈ fs, toksFile f.1 = some f.2.toks)
    (hd : inputDecls (fs.map Prod.fst) = some ds) (hw : wellFormed ds = true) (hm : Means ds T) : Compiled (declsOf fs) T := by
  rw [inputDecls_plain hp ht] at hd
  injection hd with hd
  subst hd
  simp only [wellFormed, Bool.and_eq_true, decide_eq_true_eq, List.all_eq_true] at hw
  refine ⟨hm.good, ?_, ?_, ?_, ?_, ?_, ?_, hm.fresh⟩
  · intro n m ms h
    obtain ⟨cs, h1, h2⟩ := hm.cls n _ (List.mem_map.2 ⟨_, h, rfl⟩)
    exact ⟨cs, h1, members_eq h2⟩
  · intro n cs h
    obtain ⟨ms, h1⟩ := hm.clsOnly n cs h
    obtain ⟨m, ms', h2, _⟩ := struct_cpp h1
    exact ⟨m, ms', h2⟩
  · intro c n x xs t h
    obtain ⟨val, h1⟩ := hm.enm c n none _ (List.mem_map.2 ⟨_, h, rfl⟩)
    exact ⟨val, by rw [h1, lines_cpp hp ht h]⟩
  · intro n e val h
    obtain ⟨c, u, es, h1⟩ := hm.enmOnly n e val h
    obtain ⟨val', h3⟩ := hm.enm c n u es h1
    obtain ⟨x, xs, t, h2, rfl⟩ := enum_cpp h1
    rw [h, lines_cpp hp ht h2] at h3
    injection h3 with h3
    injection h3 with h3 _
    exact ⟨c, x, xs, t, h2, h3⟩
  · intro c n x xs t h
    have := hw.2 _ (List.mem_map.2 ⟨_, h, rfl⟩)
    simp only [declCpp, decide_eq_true_eq] at this
    rw [List.map_map] at this
    exact this
  · intro n m ms h el v hv
    have := hw.2 _ (List.mem_map.2 ⟨_, h, rfl⟩)
    simp only [declCpp, List.all_eq_true] at this
    have := this _ (List.mem_map.2 ⟨_, hv, rfl⟩)
    simp only [inputMember, memberCpp, inputTy, anyStruct_declCpp, Option.isSome_map] at this
    split at this
    · rename_i h; exact h.2
    · cases this

/-- Names are distinct and the types of members are declared. -/
theorem declared_of_text {ds : List IDecl} (hp : ∀ f ∈ fs, plainText f.1 = true) (ht : ∀ f ∈ fs, toksFile f.1 = some f.2.toks)
    (hd : inputDecls (fs.map Prod.fst) = some ds) (hw : wellFormed ds = true) :
    ((declsOf fs).map Decl.name).Nodup ∧ MembersDeclared (declsOf fs) := by
  rw [inputDecls_plain hp ht] at hd
  injection hd with hd
  subst hd
  simp only [wellFormed, Bool.and_eq_true, decide_eq_true_eq, List.all_eq_true] at hw
  refine ⟨?_, ?_⟩
  · have := hw.1
    rw [List.map_map] at this
    rwa [show (IDecl.name ∘ declCpp) = Decl.name from funext name_declCpp] at this
  · intro n m ms h ty nm d hmem
    have := hw.2 _ (List.mem_map.2 ⟨_, h, rfl⟩)
    simp only [declCpp, List.all_eq_true] at this
    have := this _ (List.mem_map.2 ⟨_, hmem, rfl⟩)
    simp only [inputMember, memberCpp, inputTy, Option.isSome_map] at this
    have key : ∃ x ∈ (declsOf fs).map declCpp, x.name = ty := by
      split at this
      · rename_i h
        obtain ⟨x, hx, hn⟩ := List.any_eq_true.1 h
        refine ⟨x, hx, ?_⟩
        cases x with
        | enum => cases hn
        | struct => simpa [IDecl.isStruct, IDecl.name] using hn
      · split at this
        · rename_i h
          obtain ⟨x, hx, hn⟩ := List.any_eq_true.1 h
          refine ⟨x, hx, ?_⟩
          cases x with
          | enum => simpa [IDecl.isEnum, IDecl.name] using hn
          | struct => cases hn
        · cases this
    obtain ⟨x, hx, rfl⟩ := key
    obtain ⟨y, hy, rfl⟩ := List.mem_map.1 hx
    rw [name_declCpp]
    exact List.mem_map.2 ⟨y, hy, rfl⟩

end

theorem map_some_eq {ds : List Decl} {ms : List Parser.Member} (h : ∀ m ∈ ms, (inputMember (ds.map declCpp) (memberCpp m)).isSome = true) :
    (ms.map memberCpp).map (inputMember (ds.map declCpp)) = ms.map fun m => some (m.name, memberType ds m, m.hasInit) := by
  rw [List.map_map]
  apply List.map_congr_left
  intro m hm
  obtain ⟨r, hr⟩ := Option.isSome_iff_exists.1 (h m hm)
  rw [Function.comp, hr, inputMember_cpp hr]

/-- The converse. -/
theorem means_of_compiled {fs : List (Str × Header)} {T : CTable} {ds : List IDecl} (hp : ∀ f ∈ fs, plainText f.1 = true)
    (ht : ∀ f ∈ fs, toksFile f.1 = some f.2.toks) (hd : inputDecls (fs.map Prod.fst) = some ds) (hw : wellFormed ds = true)
    (hc : Compiled (declsOf fs) T) : Means ds T := by
  rw [inputDecls_plain hp ht] at hd
  injection hd with hd
  subst hd
  simp only [wellFormed, Bool.and_eq_true, decide_eq_true_eq, List.all_eq_true] at hw
  refine ⟨hc.good, ?_, ?_, ?_, ?_, hc.fresh⟩
  · intro n ms h
    have hall := hw.2 _ h
    simp only [List.all_eq_true] at hall
    obtain ⟨m, ms', h1, rfl⟩ := struct_cpp h
    obtain ⟨cs, h2, h3⟩ := hc.cls n m ms' h1
    refine ⟨cs, h2, ?_⟩
    rw [map_some_eq fun x hx => hall _ (List.mem_map.2 ⟨x, hx, rfl⟩)]
    have := congrArg (List.map some) h3
    simpa only [List.map_map, Function.comp_def] using this.symm
  · intro n cs h
    obtain ⟨m, ms, h1⟩ := hc.clsOnly n cs h
    exact ⟨_, List.mem_map.2 ⟨_, h1, rfl⟩⟩
  · intro c n u es h
    obtain ⟨e, es', t, h1, rfl⟩ := enum_cpp h
    obtain ⟨val, h2⟩ := hc.enm c n e es' t h1
    exact ⟨val, by rw [h2, lines_cpp hp ht h1]⟩
  · intro n e val h
    obtain ⟨c, x, xs, t, h1, _⟩ := hc.enmOnly n e val h
    exact ⟨c, none, _, List.mem_map.2 ⟨_, h1, rfl⟩⟩

end Stfx.Cpp
