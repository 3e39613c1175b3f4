import Verif.Run.IniHead
import Verif.Run.Samples
/-
Sample headers for n_ini files, and checks of the hypotheses about n_ini files by computation (for examples).
-/
set_option autoImplicit false
namespace Stfx.Run
open Stfx.Items Stfx.Parser Stfx.Gen Stfx.Lexer

/-! ### Checks -/

/-- Check `IniShape`.  (Example, models no code.) -/
def iniShapeb (ms : List CMember) : Bool :=
  ms ≠ [] && decide ((ms.filter fun m => !isSimpleTy m.ty) = (ms.filter fun m => isEnumTy m.ty) ++ ms.filter fun m => isStructTy m.ty) &&
  (!ms.any (fun m => isEnumTy m.ty) || ms.any (fun m => isSimpleTy m.ty)) &&
  ms.all fun m => !m.ty.isLeaf || (m.name ≠ c!"items" && m.name ≠ c!"data")

theorem iniShapeb_sound {ms : List CMember} (h : iniShapeb ms = true) : IniShape ms := by
  unfold iniShapeb at h
  simp only [Bool.and_eq_true, decide_eq_true_eq, Bool.or_eq_true, List.all_eq_true] at h
  obtain ⟨⟨⟨h1, h2⟩, h3⟩, h4⟩ := h
  refine ⟨h1, h2, ?_, ?_⟩
  · intro he
    rcases h3 with h3 | h3
    · rw [he] at h3; cases h3
    · exact h3
  · intro m hm hl
    rcases h4 m hm with h | h
    · rw [hl] at h; cases h
    · exact h

mutual
/-- Check `IniFits`.  (Example, models no code.) -/
def iniFitsb (T : CTable) (p : Str → MTy → Val → Val → Bool) (v : Val) (path c : Str) : Bool :=
  match v with
  | .struct fs =>
    match T.cls c with
    | some ms =>
      match T.dflt c with
      | .struct ds => iniShapeb ms && decide (path.length ≤ 76) && (path ≠ [] || ms.all fun m => !m.ty.isLeaf) && iniFitsbF T p fs path ms ds
      | _ => false
    | none => false
  | .vec _ | .undef | .bool _ | .num _ | .flt _ | .dbl _ | .str _ => false
/-- (Example, models no code.) -/
def iniFitsbF (T : CTable) (p : Str → MTy → Val → Val → Bool) (fs : List (Str × Val)) (path : Str) (ms : List CMember)
    (ds : List (Str × Val)) : Bool :=
  match fs with
  | [] => true
  | (n, v) :: fs => (ms.all fun m => m.name ≠ n ||
      match m.ty with
      | .struct c' => iniFitsb T p v (lowerPath path (spaced n)) c'
      | .vec _ => true
      | ty => match ds.lookup n with
        | some d => p n ty d v
        | none => true) && iniFitsbF T p fs path ms ds
end

mutual
theorem iniFitsb_sound {T : CTable} {p : Str → MTy → Val → Val → Bool} {P : Str → MTy → Val → Val → Prop}
    (hp : ∀ n ty d v, p n ty d v = true → P n ty d v) : ∀ (v : Val) (path c : Str), iniFitsb T p v path c = true → IniFits T P path c v
  | .struct fs, path, c, h => by
    simp only [iniFitsb] at h
    split at h
    · rename_i ms hms
      split at h
      · rename_i ds hds
        simp only [Bool.and_eq_true, decide_eq_true_eq, Bool.or_eq_true, List.all_eq_true] at h
        have hF := iniFitsbF_sound hp fs path ms ds h.2
        refine .mk hms hds (iniShapeb_sound h.1.1.1) h.1.1.2 ?_ (fun m hm hl d v hd hv => (hF m hm v hv).1 hl d hd)
          (fun m hm c' hc v hv => (hF m hm v hv).2 c' hc)
        intro hpath m hm
        rcases h.1.2 with h | h
        · exact absurd hpath h
        · simpa using h m hm
      · cases h
    · cases h
  | .vec _, path, c, h => by simp [iniFitsb] at h
  | .undef, path, c, h => by simp [iniFitsb] at h
  | .bool _, path, c, h => by simp [iniFitsb] at h
  | .num _, path, c, h => by simp [iniFitsb] at h
  | .flt _, path, c, h => by simp [iniFitsb] at h
  | .dbl _, path, c, h => by simp [iniFitsb] at h
  | .str _, path, c, h => by simp [iniFitsb] at h
theorem iniFitsbF_sound {T : CTable} {p : Str → MTy → Val → Val → Bool} {P : Str → MTy → Val → Val → Prop}
    (hp : ∀ n ty d v, p n ty d v = true → P n ty d v) : ∀ (fs : List (Str × Val)) (path : Str) (ms : List CMember) (ds : List (Str × Val)),
    iniFitsbF T p fs path ms ds = true → ∀ m ∈ ms, ∀ v, fs.lookup m.name = some v →
      (m.ty.isLeaf = true → ∀ d, ds.lookup m.name = some d → P m.name m.ty d v) ∧
      ∀ c', m.ty = .struct c' → IniFits T P (lowerPath path (spaced m.name)) c' v
  | [], path, ms, ds, h, m, hm, v, hl => by cases hl
  | (n, w) :: fs, path, ms, ds, h, m, hm, v, hl => by
    simp only [iniFitsbF, Bool.and_eq_true, List.all_eq_true, Bool.or_eq_true, decide_eq_true_eq] at h
    by_cases hn : m.name = n
    · rw [hn] at hl
      simp only [List.lookup_cons_self, Option.some.injEq] at hl
      subst hl
      have hx := (h.1 m hm).resolve_left fun h => h hn
      refine ⟨?_, ?_⟩
      · intro hleaf d hd
        rw [hn] at hd ⊢
        cases hty : m.ty with
        | struct _ => rw [hty] at hleaf; cases hleaf
        | vec _ => rw [hty] at hleaf; cases hleaf
        | simple ty => rw [hty] at hx; simp only [hd] at hx; exact hp _ _ _ _ hx
        | enum e => rw [hty] at hx; simp only [hd] at hx; exact hp _ _ _ _ hx
      · intro c' hc'
        rw [hc'] at hx
        rw [hn]
        exact iniFitsb_sound hp w _ _ hx
    · have hb : (m.name == n) = false := by simpa using hn
      rw [List.lookup_cons, hb] at hl
      exact iniFitsbF_sound hp fs path ms ds h.2 m hm v hl
end

/-- Check `IniFit` (of members that are no floating point numbers).  (Example, models no code.) -/
def iniFitb (T : CTable) (L : IniLib) (n : Str) (ty : MTy) (v : Val) : Bool :=
  (match iniLeafText T L ty v with
    | .ok s => decide (n.length + 1 + s.length ≤ 78)
    | _ => false) &&
  match v with
  | .str s => decide (LineText s)
  | .flt _ => false
  | .dbl _ => false
  | _ => true

theorem iniFitb_sound {T : CTable} {L : IniLib} {n : Str} {ty : MTy} {v : Val} (h : iniFitb T L n ty v = true) : IniFit T L n ty v := by
  unfold iniFitb at h
  rw [Bool.and_eq_true] at h
  refine ⟨?_, ?_⟩
  · intro s hs
    have := h.1
    rw [hs] at this
    simpa using this
  · have := h.2
    cases v <;> simp_all

/-- Check `IniDelta`.  (Example, models no code.) -/
def iniDeltab (T : CTable) (L : IniLib) (n : Str) (ty : MTy) (d v : Val) : Bool :=
  d ≠ .undef && (if neq v d = .ok false then decide (v = d) else iniFitb T L n ty v)

theorem iniDeltab_sound {T : CTable} {L : IniLib} {n : Str} {ty : MTy} {d v : Val} (h : iniDeltab T L n ty d v = true) :
    IniDelta T L n ty d v := by
  unfold iniDeltab at h
  rw [Bool.and_eq_true, decide_eq_true_eq] at h
  refine ⟨h.1, ?_, ?_⟩
  · intro he
    rw [← neq_false] at he
    have := h.2
    rw [if_pos he] at this
    simpa using this
  · intro he
    rw [← neq_false] at he
    have := h.2
    rw [if_neg he] at this
    exact iniFitb_sound this

/-- Some library.  (Example, models no code.) -/
def someIniLib : IniLib := ⟨natText, natText, fun s => some (digitsVal s), fun s => some (digitsVal s)⟩

/-! ### Settings -/

/-- (Example, models no code.) -/
def confText : Str :=
  c!"enum class Level{low,high=5};struct Db{std::string " ++ c!"host{\"a\"};int max_conn{1};Level level{Level::low};" ++
  c!"};struct Opt{Db main_db;Db spare;};struct Conf{" ++ c!"Opt opt;Db other_db;};"

/-- (Example, models no code.) -/
def confDecls : Header where
  first := .enum true c!"Level" ⟨c!"low", none⟩ [⟨c!"high", some (.dec c!"5")⟩] false
  more := [
    .struct c!"Db" (.simple .stdString c!"host" (.val (.string c!"\"a\""))) [
      .simple .int c!"max_conn" (.val (.int c!"1")), .named c!"Level" c!"level" (.val (.enumerator c!"Level::low"))],
    .struct c!"Opt" (.named c!"Db" c!"main_db" .absent) [.named c!"Db" c!"spare" .absent],
    .struct c!"Conf" (.named c!"Opt" c!"opt" .absent) [.named c!"Db" c!"other_db" .absent]]

/-- (Example, models no code.) -/
def confFiles : List (Str × Header) := [(confText, confDecls)]

/-- (Example, models no code.) -/
def dbVal (host : Str) (n : Int) (l : Int) : Val := .struct [(c!"host", .str host), (c!"max_conn", .num n), (c!"level", .num l)]
/-- (Example, models no code.) -/
def confVal (a b c : Val) : Val := .struct [(c!"opt", .struct [(c!"main_db", a), (c!"spare", b)]), (c!"other_db", c)]

/-- (Example, models no code.) -/
def levelEnum : EnumS × List (Str × Int) := (⟨c!"Level", true, [⟨c!"low", false, c!"-"⟩, ⟨c!"high", true, c!"5"⟩]⟩, [(c!"low", 0), (c!"high", 5)])

/-- (Example, models no code.) -/
def confData : CData where
  cls := [
    (c!"Db", [⟨c!"host", .simple .stdString, some (.str c!"a")⟩, ⟨c!"max_conn", .simple .int, some (.num 1)⟩,
      ⟨c!"level", .enum c!"Level", some (.num 0)⟩]),
    (c!"Opt", [⟨c!"main_db", .struct c!"Db", none⟩, ⟨c!"spare", .struct c!"Db", none⟩]),
    (c!"Conf", [⟨c!"opt", .struct c!"Opt", none⟩, ⟨c!"other_db", .struct c!"Db", none⟩])]
  enm := [(c!"Level", levelEnum.1, levelEnum.2)]
  dflt := [(c!"Db", dbVal c!"a" 1 0), (c!"Opt", .struct [(c!"main_db", dbVal c!"a" 1 0), (c!"spare", dbVal c!"a" 1 0)]),
    (c!"Conf", confVal (dbVal c!"a" 1 0) (dbVal c!"a" 1 0) (dbVal c!"a" 1 0))]
  longBits := 64

theorem conf_generated (k : Kind) (out : OutSpec) : Generated confFiles k out (progOf confFiles k out) :=
  generated_of (by decide +kernel) k out
theorem conf_compiled : Compiled (confFiles.flatMap fun f => f.2.decls) confData.table := CData.compiled (by decide +kernel)
theorem conf_top : TopStruct (confFiles.flatMap fun f => f.2.decls) c!"Conf" := topStruct_of (by decide +kernel)
theorem conf_noInits : NoStructInits (confFiles.flatMap fun f => f.2.decls) := noStructInits_of (by decide +kernel)

/-! ### Enum members the readers miss -/

/-- (Example, models no code.) -/
def oddText : Str :=
  c!"enum class Level{low,high=5};struct Sub{int x{1};};" ++ c!"struct Late{int a{1};Sub s;Level l{Level::low};};" ++
  c!"struct Lone{Level l{Level::low};};struct Odd{" ++ c!"Late late;Lone lone;};"

/-- (Example, models no code.) -/
def oddDecls : Header where
  first := .enum true c!"Level" ⟨c!"low", none⟩ [⟨c!"high", some (.dec c!"5")⟩] false
  more := [
    .struct c!"Sub" (.simple .int c!"x" (.val (.int c!"1"))) [],
    .struct c!"Late" (.simple .int c!"a" (.val (.int c!"1"))) [.named c!"Sub" c!"s" .absent,
      .named c!"Level" c!"l" (.val (.enumerator c!"Level::low"))],
    .struct c!"Lone" (.named c!"Level" c!"l" (.val (.enumerator c!"Level::low"))) [],
    .struct c!"Odd" (.named c!"Late" c!"late" .absent) [.named c!"Lone" c!"lone" .absent]]

/-- (Example, models no code.) -/
def oddFiles : List (Str × Header) := [(oddText, oddDecls)]

/-- (Example, models no code.) -/
def oddVal (a x l lone : Int) : Val :=
  .struct [(c!"late", .struct [(c!"a", .num a), (c!"s", .struct [(c!"x", .num x)]), (c!"l", .num l)]),
    (c!"lone", .struct [(c!"l", .num lone)])]

/-- (Example, models no code.) -/
def oddData : CData where
  cls := [
    (c!"Sub", [⟨c!"x", .simple .int, some (.num 1)⟩]),
    (c!"Late", [⟨c!"a", .simple .int, some (.num 1)⟩, ⟨c!"s", .struct c!"Sub", none⟩, ⟨c!"l", .enum c!"Level", some (.num 0)⟩]),
    (c!"Lone", [⟨c!"l", .enum c!"Level", some (.num 0)⟩]),
    (c!"Odd", [⟨c!"late", .struct c!"Late", none⟩, ⟨c!"lone", .struct c!"Lone", none⟩])]
  enm := [(c!"Level", levelEnum.1, levelEnum.2)]
  dflt := [(c!"Sub", .struct [(c!"x", .num 1)]),
    (c!"Late", .struct [(c!"a", .num 1), (c!"s", .struct [(c!"x", .num 1)]), (c!"l", .num 0)]),
    (c!"Lone", .struct [(c!"l", .num 0)]), (c!"Odd", oddVal 1 1 0 0)]
  longBits := 64

theorem odd_generated (k : Kind) (out : OutSpec) : Generated oddFiles k out (progOf oddFiles k out) :=
  generated_of (by decide +kernel) k out
theorem odd_compiled : Compiled (oddFiles.flatMap fun f => f.2.decls) oddData.table := CData.compiled (by decide +kernel)
theorem odd_top : TopStruct (oddFiles.flatMap fun f => f.2.decls) c!"Odd" := topStruct_of (by decide +kernel)

end Stfx.Run
