import Verif.Run.Enum
/-
C++ objects of the types declared in the headers, as the generated code sees them.
-/
set_option autoImplicit false
namespace Stfx.Run
open Stfx.Items Stfx.Parser

/-- Outcome of running generated code, when generated code (process_items_xml.cpp:213-578,
process_items_ini.cpp:295-603) runs. -/
inductive R (α : Type) where
  | ok (a : α)
  /-- undefined behaviour -/
  | ub
  /-- the code is ill-formed: it does not compile, or calls a function that is not there -/
  | stuck
deriving DecidableEq, Repr

namespace R
variable {α β : Type}

/-- Sequencing of the statements of generated code, process_items_xml.cpp:213-578. -/
def bind (r : R α) (f : α → R β) : R β :=
  match r with
  | .ok a => f a
  | .ub => .ub
  | .stuck => .stuck

instance : Monad R where
  pure := R.ok
  bind := R.bind

@[simp] theorem ok_bind (a : α) (f : α → R β) : (R.ok a >>= f) = f a := rfl
@[simp] theorem ub_bind (f : α → R β) : ((R.ub : R α) >>= f) = .ub := rfl
@[simp] theorem stuck_bind (f : α → R β) : ((R.stuck : R α) >>= f) = .stuck := rfl
@[simp] theorem pure_eq (a : α) : (pure a : R α) = .ok a := rfl

theorem bind_eq_ok {r : R α} {f : α → R β} {b : β} : (r >>= f) = .ok b ↔ ∃ a, r = .ok a ∧ f a = .ok b := by
  cases r with
  | ok a => exact ⟨fun h => ⟨a, rfl, h⟩, by rintro ⟨a', h, h'⟩; cases h; exact h'⟩
  | ub => exact ⟨fun h => (nomatch h), by rintro ⟨a', h, h'⟩; cases h⟩
  | stuck => exact ⟨fun h => (nomatch h), by rintro ⟨a', h, h'⟩; cases h⟩

instance : LawfulMonad R := LawfulMonad.mk'
  (id_map := by intro α x; cases x <;> rfl)
  (pure_bind := by intros; rfl)
  (bind_assoc := by intro α β γ x f g; cases x <;> rfl)

end R

/-- The value of an object.  Enum objects hold the integer value; floating point objects their bit pattern, `*data`
of process_items_xml.cpp:220, process_items_ini.cpp:302. -/
inductive Val where
  /-- indeterminate: not initialised -/
  | undef
  | bool (b : Bool)
  | num (i : Int)
  | flt (bits : Nat)
  | dbl (bits : Nat)
  | str (s : Str)
  /-- members in the order of their declaration -/
  | struct (fs : List (Str × Val))
  | vec (vs : List Val)
deriving Repr

mutual
/-- Decides equality of objects.  (Proof notion, models no code.) -/
def Val.eqb : Val → Val → Bool
  | .undef, .undef => true
  | .bool a, .bool b => a = b
  | .num a, .num b => a = b
  | .flt a, .flt b => a = b
  | .dbl a, .dbl b => a = b
  | .str a, .str b => a = b
  | .struct a, .struct b => Val.eqbF a b
  | .vec a, .vec b => Val.eqbL a b
  | _, _ => false
/-- Decides equality of members.  (Proof notion, models no code.) -/
def Val.eqbF : List (Str × Val) → List (Str × Val) → Bool
  | [], [] => true
  | (n, a) :: as, (m, b) :: bs => n = m && Val.eqb a b && Val.eqbF as bs
  | _, _ => false
/-- Decides equality of elements.  (Proof notion, models no code.) -/
def Val.eqbL : List Val → List Val → Bool
  | [], [] => true
  | a :: as, b :: bs => Val.eqb a b && Val.eqbL as bs
  | _, _ => false
end

mutual
theorem Val.eqb_iff : ∀ a b : Val, Val.eqb a b = true ↔ a = b
  | .undef, b => by cases b <;> simp [Val.eqb]
  | .bool a, b => by cases b <;> simp [Val.eqb]
  | .num a, b => by cases b <;> simp [Val.eqb]
  | .flt a, b => by cases b <;> simp [Val.eqb]
  | .dbl a, b => by cases b <;> simp [Val.eqb]
  | .str a, b => by cases b <;> simp [Val.eqb]
  | .struct a, b => by cases b <;> simp [Val.eqb, Val.eqbF_iff a]
  | .vec a, b => by cases b <;> simp [Val.eqb, Val.eqbL_iff a]
theorem Val.eqbF_iff : ∀ a b : List (Str × Val), Val.eqbF a b = true ↔ a = b
  | [], b => by cases b <;> simp [Val.eqbF]
  | (n, a) :: as, b => by
    cases b with
    | nil => simp [Val.eqbF]
    | cons p bs => obtain ⟨m, b⟩ := p; simp [Val.eqbF, Val.eqb_iff a, Val.eqbF_iff as]
theorem Val.eqbL_iff : ∀ a b : List Val, Val.eqbL a b = true ↔ a = b
  | [], b => by cases b <;> simp [Val.eqbL]
  | a :: as, b => by
    cases b with
    | nil => simp [Val.eqbL]
    | cons p bs => simp [Val.eqbL, Val.eqb_iff a, Val.eqbL_iff as]
end

instance : DecidableEq Val := fun a b => decidable_of_iff _ (Val.eqb_iff a b)

/-- The type of a member, the types of struct_yacc.y, as the compiler sees them in `data->n`,
process_items_xml.cpp:439. -/
inductive MTy where
  | simple (ty : SimpleTy)
  | enum (n : Str)
  | struct (n : Str)
  /-- `std::vector` of a struct -/
  | vec (n : Str)
deriving DecidableEq, Repr

/-- A member of a struct as the compiler sees it.  `init`: the value of its default member initialiser, the `data->n`
of process_items_xml.cpp:439. -/
structure CMember where
  name : Str
  ty : MTy
  init : Option Val
deriving DecidableEq, Repr

/-- What the compiler knows of the headers.  `dflt`: the default-initialised object of a struct, included by the
generated file, process_items_xml.cpp:66-69. -/
structure CTable where
  cls : Str → Option (List CMember)
  enm : Str → Option (EnumS × EnumVals)
  dflt : Str → Val
  /-- bits of `long` -/
  longBits : Nat

namespace CTable
variable (T : CTable)

/-- A default-initialised object of a type: scalars are indeterminate, `T s;` and `T default_data;`,
process_items_xml.cpp:376, 420. -/
def dfltTy : MTy → Val
  | .simple .stdString => .str []
  | .simple _ => .undef
  | .enum _ => .undef
  | .struct n => T.dflt n
  | .vec _ => .vec []

/-- The value a member has in a default-initialised object, process_items_xml.cpp:376, 420. -/
def memberDflt (m : CMember) : Val :=
  match m.init with
  | some v => v
  | none => T.dfltTy m.ty

/-- Values of a simple type, process_items_xml.cpp:439. -/
def simpleVal : SimpleTy → Val → Bool
  | .bool, .bool _ => true
  | .int, .num i => inSigned 32 i
  | .unsignedInt, .num i => inUnsigned 32 i
  | .short, .num i => inSigned 16 i
  | .unsignedShort, .num i => inUnsigned 16 i
  | .long, .num i => inSigned T.longBits i
  | .unsignedLong, .num i => inUnsigned T.longBits i
  | .float, .flt b => decide (b < 2 ^ 32)
  | .double, .dbl b => decide (b < 2 ^ 64)
  | .stdString, .str _ => true
  | _, _ => false

/-- Objects of a type.  With `u` scalars may be indeterminate, process_items_xml.cpp:220. -/
inductive WT (u : Bool) : MTy → Val → Prop
  | undef {ty : MTy} : u = true → (∀ n, ty ≠ .struct n) → (∀ n, ty ≠ .vec n) → ty ≠ .simple .stdString → WT u ty .undef
  | simple {ty : SimpleTy} {v : Val} : simpleVal T ty v = true → WT u (.simple ty) v
  | enum {n : Str} {e : EnumS} {val : EnumVals} {i : Int} : T.enm n = some (e, val) → inSigned 32 i →
      holds e val i = true → WT u (.enum n) (.num i)
  | struct {n : Str} {ms : List CMember} {fs : List (Str × Val)} : T.cls n = some ms →
      fs.map Prod.fst = ms.map CMember.name →
      (∀ m ∈ ms, ∀ v, fs.lookup m.name = some v → WT u m.ty v) → WT u (.struct n) (.struct fs)
  | vec {n : Str} {vs : List Val} : (∀ v ∈ vs, WT u (.struct n) v) → WT u (.vec n) (.vec vs)

/-- What the C++ rules guarantee of the table: member names are distinct, and `dflt` is made up of the defaults of the
members, which are objects of their types, process_items_xml.cpp:66-69. -/
structure Good : Prop where
  nodup : ∀ n ms, T.cls n = some ms → (ms.map CMember.name).Nodup
  dflt : ∀ n ms, T.cls n = some ms → T.dflt n = .struct (ms.map fun m => (m.name, T.memberDflt m))
  wt : ∀ n ms, T.cls n = some ms → WT T true (.struct n) (T.dflt n)
  bits : 32 ≤ T.longBits

end CTable

/-! ### Members of an object -/

/-- Apply a function to a member; `stuck` if there is no such member, `data->n = ...`, process_items_xml.cpp:273. -/
def modifyField (n : Str) (f : Val → R Val) : List (Str × Val) → R (List (Str × Val))
  | [] => .stuck
  | (m, v) :: fs =>
    if m = n then f v >>= fun v' => .ok ((m, v') :: fs)
    else modifyField n f fs >>= fun fs' => .ok ((m, v) :: fs')

theorem modifyField_ok {n : Str} {f : Val → R Val} {fs : List (Str × Val)} {v v' : Val} (hl : fs.lookup n = some v)
    (hf : f v = .ok v') : ∃ fs', modifyField n f fs = .ok fs' ∧ fs'.map Prod.fst = fs.map Prod.fst ∧
      fs'.lookup n = some v' ∧ ∀ m, m ≠ n → fs'.lookup m = fs.lookup m := by
  induction fs with
  | nil => cases hl
  | cons p fs ih =>
    obtain ⟨k, w⟩ := p
    unfold modifyField
    by_cases h : k = n
    · subst h
      rw [if_pos rfl]
      simp only [List.lookup_cons_self, Option.some.injEq] at hl
      subst hl
      refine ⟨(k, v') :: fs, by rw [hf]; rfl, rfl, by simp, ?_⟩
      intro m hm
      have : (m == k) = false := by simpa using hm
      simp [List.lookup_cons, this]
    · rw [if_neg h]
      have hb : (n == k) = false := by simpa using fun h' => h h'.symm
      rw [List.lookup_cons, hb] at hl
      obtain ⟨fs', h1, h2, h3, h4⟩ := ih hl
      refine ⟨(k, w) :: fs', by rw [h1]; rfl, by simp [h2], by simp [List.lookup_cons, hb, h3], ?_⟩
      intro m hm
      by_cases hmk : m = k
      · subst hmk; simp
      · have : (m == k) = false := by simpa using hmk
        simp [List.lookup_cons, this, h4 m hm]

/-- Inversion of `modifyField`. -/
theorem modifyField_inv {n : Str} {f : Val → R Val} {fs fs' : List (Str × Val)} (h : modifyField n f fs = .ok fs') :
    ∃ v v', fs.lookup n = some v ∧ f v = .ok v' ∧ fs'.map Prod.fst = fs.map Prod.fst ∧ fs'.lookup n = some v' ∧
      ∀ m, m ≠ n → fs'.lookup m = fs.lookup m := by
  induction fs generalizing fs' with
  | nil => cases h
  | cons p fs ih =>
    obtain ⟨k, w⟩ := p
    unfold modifyField at h
    by_cases hk : k = n
    · subst hk
      rw [if_pos rfl, R.bind_eq_ok] at h
      obtain ⟨v', h1, h2⟩ := h
      injection h2 with h2
      subst h2
      refine ⟨w, v', by simp, h1, rfl, by simp, ?_⟩
      intro m hm
      have : (m == k) = false := by simpa using hm
      simp [List.lookup_cons, this]
    · rw [if_neg hk, R.bind_eq_ok] at h
      obtain ⟨g, h1, h2⟩ := h
      injection h2 with h2
      subst h2
      have hb : (n == k) = false := by simpa using fun h' => hk h'.symm
      obtain ⟨v, v', a1, a2, a3, a4, a5⟩ := ih h1
      refine ⟨v, v', by simp [List.lookup_cons, hb, a1], a2, by simp [a3], by simp [List.lookup_cons, hb, a4], ?_⟩
      intro m hm
      by_cases hmk : m = k
      · subst hmk; simp
      · have : (m == k) = false := by simpa using hmk
        simp [List.lookup_cons, this, a5 m hm]

/-- The object has a member iff it is among its names. -/
theorem lookup_isSome {fs : List (Str × Val)} {n : Str} (h : n ∈ fs.map Prod.fst) : ∃ v, fs.lookup n = some v := by
  induction fs with
  | nil => cases h
  | cons p fs ih =>
    obtain ⟨k, w⟩ := p
    by_cases hk : n = k
    · subst hk; exact ⟨w, by simp⟩
    · have hb : (n == k) = false := by simpa using hk
      rw [List.map_cons, List.mem_cons] at h
      obtain ⟨v, hv⟩ := ih (h.resolve_left hk)
      exact ⟨v, by simp [List.lookup_cons, hb, hv]⟩

theorem mem_names_of_lookup {fs : List (Str × Val)} {n : Str} {v : Val} (h : fs.lookup n = some v) :
    n ∈ fs.map Prod.fst := by
  induction fs with
  | nil => cases h
  | cons p fs ih =>
    obtain ⟨k, w⟩ := p
    by_cases hk : n = k
    · subst hk; simp
    · have hb : (n == k) = false := by simpa using hk
      simp only [List.lookup_cons, hb] at h
      exact List.mem_cons_of_mem _ (ih h)

/-- Two objects with the same distinct names and equal members are equal. -/
theorem fields_ext {fs gs : List (Str × Val)} (hn : fs.map Prod.fst = gs.map Prod.fst) (hd : (fs.map Prod.fst).Nodup)
    (h : ∀ n ∈ fs.map Prod.fst, fs.lookup n = gs.lookup n) : fs = gs := by
  induction fs generalizing gs with
  | nil =>
    cases gs with
    | nil => rfl
    | cons p gs => cases hn
  | cons p fs ih =>
    obtain ⟨k, v⟩ := p
    cases gs with
    | nil => cases hn
    | cons q gs =>
      obtain ⟨k', v'⟩ := q
      simp only [List.map_cons, List.cons.injEq] at hn
      obtain ⟨rfl, hn⟩ := hn
      rw [List.map_cons, List.nodup_cons] at hd
      have h0 := h k (by simp)
      simp only [List.lookup_cons_self, Option.some.injEq] at h0
      subst h0
      rw [ih hn hd.2]
      intro n hm
      have hne : n ≠ k := by rintro rfl; exact hd.1 hm
      have hb : (n == k) = false := by simpa using hne
      have := h n (List.mem_cons_of_mem _ hm)
      simpa [List.lookup_cons, hb] using this

end Stfx.Run
