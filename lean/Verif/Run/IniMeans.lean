import Verif.Run.IniTrip
import Verif.Run.XmlTyped
/-
What the texts in n_ini files mean: the conversions of process_items_ini.cpp:316-347, described without the functions that
do them.
-/
set_option autoImplicit false
namespace Stfx.Run
open Stfx.Items Stfx.Parser Stfx.Gen Stfx.Lexer

/-- The text starts, after white space, with the decimal number `i`.  (Specification notion, models no code.) -/
def Number (s : Str) (i : Int) : Prop :=
  ∃ ws sg ds rest, s = ws ++ sg ++ ds ++ rest ∧ (∀ c ∈ ws, isSpace c = true) ∧ ds ≠ [] ∧ (∀ c ∈ ds, isDigit c = true) ∧
    (∀ c r, rest = c :: r → isDigit c = false) ∧
    ((sg = c!"-" ∧ i = -(digitsVal ds : Int)) ∨ ((sg = [] ∨ sg = c!"+") ∧ i = digitsVal ds))

/-- The number that sign and magnitude stand for.  (Specification notion, models no code.) -/
def signed (p : Bool × Nat) : Int := if p.1 then -(p.2 : Int) else p.2

theorem takeWhile_stop {α : Type} {p : α → Bool} {a b : List α} (ha : ∀ x ∈ a, p x = true) (hb : ∀ x r, b = x :: r → p x = false) :
    (a ++ b).takeWhile p = a ∧ (a ++ b).dropWhile p = b := by
  induction a with
  | nil =>
    cases b with
    | nil => exact ⟨rfl, rfl⟩
    | cons x b => simp [hb x b rfl]
  | cons x a ih =>
    obtain ⟨h1, h2⟩ := ih fun y hy => ha y (List.mem_cons_of_mem _ hy)
    simp [ha x List.mem_cons_self, h1, h2]

theorem takeWhile_mem {α : Type} {p : α → Bool} {l : List α} {x : α} (h : x ∈ l.takeWhile p) : p x = true := by
  induction l with
  | nil => cases h
  | cons a l ih =>
    rw [List.takeWhile_cons] at h
    split at h
    · rcases List.mem_cons.1 h with rfl | h
      · assumption
      · exact ih h
    · cases h

theorem dropWhile_head {α : Type} {p : α → Bool} {l r : List α} {x : α} (h : l.dropWhile p = x :: r) : p x = false := by
  induction l with
  | nil => cases h
  | cons a l ih =>
    rw [List.dropWhile_cons] at h
    split at h
    · exact ih h
    · rename_i hp
      cases h
      simpa using hp

/-- `scanDec` finds the number the text starts with. -/
theorem scanDec_iff {s : Str} {i : Int} : Number s i ↔ ∃ p, scanDec s = some p ∧ signed p = i := by
  constructor
  · rintro ⟨ws, sg, ds, rest, rfl, hws, hne, hds, hrest, hcase⟩
    obtain ⟨d, ds', rfl⟩ := List.exists_cons_of_ne_nil hne
    have hd := hds d List.mem_cons_self
    have hhead : ∀ x r, sg ++ (d :: ds') ++ rest = x :: r → isSpace x = false := by
      intro x r hx
      rcases hcase with ⟨rfl, _⟩ | ⟨rfl | rfl, _⟩
      · cases hx; decide
      · cases hx; exact not_space_of_digit hd
      · cases hx; decide
    have h1 : (ws ++ sg ++ (d :: ds') ++ rest).dropWhile isSpace = sg ++ (d :: ds') ++ rest := by
      have := (takeWhile_stop hws hhead).2
      simpa [List.append_assoc] using this
    have h2 : sign (sg ++ (d :: ds') ++ rest) = (decide (sg = c!"-"), (d :: ds') ++ rest) := by
      rcases hcase with ⟨rfl, _⟩ | ⟨rfl | rfl, _⟩
      · rfl
      · obtain ⟨n1, n2⟩ := not_sign_of_digit hd
        unfold sign
        split
        · rename_i heq; injection heq with h3 _; exact absurd h3 n1
        · rename_i heq; injection heq with h3 _; exact absurd h3 n2
        · rfl
      · rfl
    refine ⟨(decide (sg = c!"-"), digitsVal (d :: ds')), ?_, ?_⟩
    · unfold scanDec
      rw [h1, h2]
      dsimp only
      rw [(takeWhile_stop hds hrest).1, if_neg hne]
    · rcases hcase with ⟨rfl, rfl⟩ | ⟨rfl | rfl, rfl⟩ <;> rfl
  · rintro ⟨p, h, rfl⟩
    unfold scanDec at h
    generalize hr : s.dropWhile isSpace = r at h
    generalize hg : sign r = g at h
    obtain ⟨neg, q⟩ := g
    dsimp only at h
    split at h
    · cases h
    rename_i hne
    cases h
    have hsg : ∃ sg, r = sg ++ q ∧ ((sg = c!"-" ∧ neg = true) ∨ ((sg = [] ∨ sg = c!"+") ∧ neg = false)) := by
      unfold sign at hg
      split at hg
      · cases hg; exact ⟨c!"-", rfl, Or.inl ⟨rfl, rfl⟩⟩
      · cases hg; exact ⟨c!"+", rfl, Or.inr ⟨Or.inr rfl, rfl⟩⟩
      · cases hg; exact ⟨[], rfl, Or.inr ⟨Or.inl rfl, rfl⟩⟩
    obtain ⟨sg, e, hsg⟩ := hsg
    refine ⟨s.takeWhile isSpace, sg, q.takeWhile isDigit, q.dropWhile isDigit, ?_, fun c hc => takeWhile_mem hc, hne,
      fun c hc => takeWhile_mem hc, fun c r h => dropWhile_head h, ?_⟩
    · rw [List.append_assoc, List.takeWhile_append_dropWhile, List.append_assoc, ← e, ← hr, List.takeWhile_append_dropWhile]
    · rcases hsg with ⟨h1, h2⟩ | ⟨h1, h2⟩
      · exact Or.inl ⟨h1, by rw [h2]; rfl⟩
      · exact Or.inr ⟨h1, by rw [h2]; rfl⟩

/-- A text starts with one number at most. -/
theorem Number.unique {s : Str} {i j : Int} (hi : Number s i) (hj : Number s j) : i = j := by
  obtain ⟨p, h1, h2⟩ := scanDec_iff.1 hi
  obtain ⟨q, h3, h4⟩ := scanDec_iff.1 hj
  rw [h1] at h3
  cases h3
  rw [← h2, h4]

theorem stoSigned_val {bits : Nat} {s : Str} {i : Int} : stoSigned bits s = .val i ↔ Number s i ∧ inSigned bits i := by
  rw [scanDec_iff]
  unfold stoSigned
  cases h : scanDec s with
  | none => simp
  | some p =>
    obtain ⟨neg, m⟩ := p
    dsimp only
    simp only [Option.some.injEq, exists_eq_left', signed]
    generalize (if neg = true then -(m : Int) else m) = j
    split
    · rename_i hr
      constructor
      · intro h; cases h; exact ⟨rfl, hr⟩
      · rintro ⟨rfl, _⟩; rfl
    · rename_i hr
      constructor
      · intro h; cases h
      · rintro ⟨rfl, h⟩; exact absurd h hr

/-- `std::stoul` takes numbers of either sign and reduces them to the range of its type. -/
theorem stoUnsigned_val {bits : Nat} {s : Str} {j : Int} :
    stoUnsigned bits s = .val j ↔ ∃ i, Number s i ∧ (i.natAbs : Int) < 2 ^ bits ∧ j = i % 2 ^ bits := by
  simp only [scanDec_iff]
  unfold stoUnsigned
  cases h : scanDec s with
  | none => simp
  | some p =>
    obtain ⟨neg, m⟩ := p
    dsimp only
    have hm : ((signed (neg, m)).natAbs : Int) = m := by
      unfold signed
      split <;> simp
    simp only [Option.some.injEq, exists_eq_left']
    split
    · rename_i hr
      have hj : (if neg = true then -(m : Int) % 2 ^ bits else m) = signed (neg, m) % 2 ^ bits := by
        unfold signed
        cases neg with
        | true => rfl
        | false =>
          simp only [Bool.false_eq_true, if_false]
          exact (Int.emod_eq_of_lt hr.1 hr.2).symm
      constructor
      · intro h
        cases h
        exact ⟨by rw [hm]; exact hr.2, hj⟩
      · rintro ⟨_, rfl⟩
        rw [hj]
    · rename_i hr
      constructor
      · intro h; cases h
      · rintro ⟨h, _⟩
        rw [hm] at h
        exact absurd ⟨by omega, h⟩ hr

/-- What a text means as the value of a member of a simple type.  Numbers are decimal numbers at the start of the text; what
follows them does not matter.  Numbers for types smaller than those the text is converted to are reduced to their range.
(Specification notion, models no code.) -/
def Reads (T : CTable) (L : IniLib) : SimpleTy → Str → Val → Prop
  | .bool, s, v => ∃ i, Number s i ∧ inSigned 32 i ∧ v = .bool (decide (i ≠ 0))
  | .int, s, v => ∃ i, Number s i ∧ inSigned 32 i ∧ v = .num i
  | .long, s, v => ∃ i, Number s i ∧ inSigned T.longBits i ∧ v = .num i
  | .short, s, v => ∃ i j, Number s i ∧ inSigned 32 i ∧ v = .num j ∧ inSigned 16 j ∧ (2 : Int) ^ 16 ∣ i - j
  | .unsignedInt, s, v => ∃ i j, Number s i ∧ (i.natAbs : Int) < 2 ^ T.longBits ∧ v = .num j ∧ inUnsigned 32 j ∧ (2 : Int) ^ 32 ∣ i - j
  | .unsignedShort, s, v => ∃ i j, Number s i ∧ (i.natAbs : Int) < 2 ^ T.longBits ∧ v = .num j ∧ inUnsigned 16 j ∧ (2 : Int) ^ 16 ∣ i - j
  | .unsignedLong, s, v => ∃ i j, Number s i ∧ (i.natAbs : Int) < 2 ^ T.longBits ∧ v = .num j ∧ inUnsigned T.longBits j ∧
      (2 : Int) ^ T.longBits ∣ i - j
  | .float, s, v => ∃ b, L.stof s = some b ∧ v = .flt b
  | .double, s, v => ∃ b, L.stod s = some b ∧ v = .dbl b
  | .stdString, s, v => v = .str s

theorem wrapUnsigned_iff {bits : Nat} {i j : Int} : j = wrapUnsigned bits i ↔ inUnsigned bits j ∧ (2 : Int) ^ bits ∣ i - j := by
  unfold wrapUnsigned
  constructor
  · rintro rfl
    refine ⟨wrapUnsigned_range bits i, ?_⟩
    exact Int.dvd_self_sub_emod
  · rintro ⟨⟨h1, h2⟩, k, hk⟩
    have : i = j + 2 ^ bits * k := by omega
    rw [this, Int.add_mul_emod_self_left]
    exact (Int.emod_eq_of_lt h1 h2).symm

theorem wrapSigned_iff {bits : Nat} (hb : 0 < bits) {i j : Int} :
    j = wrapSigned bits i ↔ inSigned bits j ∧ (2 : Int) ^ bits ∣ i - j := by
  constructor
  · rintro rfl
    refine ⟨wrapSigned_range hb i, ?_⟩
    unfold wrapSigned
    have := Int.dvd_self_sub_emod (x := i + 2 ^ (bits - 1)) (m := 2 ^ bits)
    rwa [show i - ((i + 2 ^ (bits - 1)) % 2 ^ bits - 2 ^ (bits - 1)) = i + 2 ^ (bits - 1) - (i + 2 ^ (bits - 1)) % 2 ^ bits by omega]
  · rintro ⟨⟨h1, h2⟩, k, hk⟩
    have hp : (2 : Int) ^ bits = 2 ^ (bits - 1) + 2 ^ (bits - 1) := by
      obtain ⟨b, rfl⟩ : ∃ b, bits = b + 1 := ⟨bits - 1, by omega⟩
      rw [Nat.add_sub_cancel, Int.pow_succ]
      omega
    have : i + 2 ^ (bits - 1) = (j + 2 ^ (bits - 1)) + 2 ^ bits * k := by omega
    unfold wrapSigned
    rw [this, Int.add_mul_emod_self_left, Int.emod_eq_of_lt (by omega) (by omega)]
    omega

/-- Reducing twice. -/
theorem wrap_wrap {a b : Nat} (h : a ≤ b) (i : Int) : wrapUnsigned a (i % 2 ^ b) = wrapUnsigned a i := by
  unfold wrapUnsigned
  have : (2 : Int) ^ a ∣ 2 ^ b := ⟨2 ^ (b - a), by rw [← Int.pow_add, Nat.add_sub_cancel' h]⟩
  exact Int.emod_emod_of_dvd i this

/-- The conversions do what `Reads` says. -/
theorem iniConv_reads {T : CTable} {L : IniLib} (hb : 32 ≤ T.longBits) (ty : SimpleTy) (s : Str) (v : Val) :
    iniConv T L ty s = .val v ↔ Reads T L ty s v := by
  have hconv : ∀ (f : Int → Val) (r : StoRes), r.conv f = .val v ↔ ∃ i, r = .val i ∧ v = f i := by
    intro f r
    cases r with
    | val i =>
      simp only [StoRes.conv, Conv.val.injEq, StoRes.val.injEq, exists_eq_left']
      exact eq_comm
    | throws => simp [StoRes.conv]
  cases ty with
  | bool => simp only [iniConv, hconv, stoSigned_val, Reads, and_assoc]
  | int => simp only [iniConv, hconv, stoSigned_val, Reads, and_assoc]
  | long => simp only [iniConv, hconv, stoSigned_val, Reads, and_assoc]
  | short =>
    simp only [iniConv, hconv, stoSigned_val, Reads]
    constructor
    · rintro ⟨i, ⟨h1, h2⟩, h3⟩
      obtain ⟨h4, h5⟩ := (wrapSigned_iff (bits := 16) (by decide)).1 (rfl : wrapSigned 16 i = _)
      exact ⟨i, _, h1, h2, h3, h4, h5⟩
    · rintro ⟨i, j, h1, h2, h3, h4, h5⟩
      exact ⟨i, ⟨h1, h2⟩, by rw [h3, (wrapSigned_iff (by decide)).2 ⟨h4, h5⟩]⟩
  | unsignedInt =>
    simp only [iniConv, hconv, stoUnsigned_val, Reads]
    constructor
    · rintro ⟨_, ⟨i, h1, h2, rfl⟩, h3⟩
      rw [wrap_wrap hb] at h3
      obtain ⟨h4, h5⟩ := wrapUnsigned_iff.1 (rfl : wrapUnsigned 32 i = _)
      exact ⟨i, _, h1, h2, h3, h4, h5⟩
    · rintro ⟨i, j, h1, h2, h3, h4, h5⟩
      exact ⟨_, ⟨i, h1, h2, rfl⟩, by rw [wrap_wrap hb, h3, wrapUnsigned_iff.2 ⟨h4, h5⟩]⟩
  | unsignedShort =>
    simp only [iniConv, hconv, stoUnsigned_val, Reads]
    have hb' : 16 ≤ T.longBits := by omega
    constructor
    · rintro ⟨_, ⟨i, h1, h2, rfl⟩, h3⟩
      rw [wrap_wrap hb'] at h3
      obtain ⟨h4, h5⟩ := wrapUnsigned_iff.1 (rfl : wrapUnsigned 16 i = _)
      exact ⟨i, _, h1, h2, h3, h4, h5⟩
    · rintro ⟨i, j, h1, h2, h3, h4, h5⟩
      exact ⟨_, ⟨i, h1, h2, rfl⟩, by rw [wrap_wrap hb', h3, wrapUnsigned_iff.2 ⟨h4, h5⟩]⟩
  | unsignedLong =>
    simp only [iniConv, hconv, stoUnsigned_val, Reads]
    constructor
    · rintro ⟨_, ⟨i, h1, h2, rfl⟩, h3⟩
      obtain ⟨h4, h5⟩ := wrapUnsigned_iff.1 (rfl : wrapUnsigned T.longBits i = _)
      exact ⟨i, _, h1, h2, h3, h4, h5⟩
    · rintro ⟨i, j, h1, h2, h3, h4, h5⟩
      exact ⟨_, ⟨i, h1, h2, rfl⟩, by rw [h3, wrapUnsigned_iff.2 ⟨h4, h5⟩]; rfl⟩
  | float =>
    simp only [iniConv, Reads]
    cases h : L.stof s with
    | none => simp
    | some b => simp [eq_comm]
  | double =>
    simp only [iniConv, Reads]
    cases h : L.stod s with
    | none => simp
    | some b => simp [eq_comm]
  | stdString => simp [iniConv, Reads, eq_comm]

/-- Either there is a value or an exception is thrown. -/
theorem iniConv_cases (T : CTable) (L : IniLib) (ty : SimpleTy) (s : Str) :
    (∃ v, iniConv T L ty s = .val v) ∨ iniConv T L ty s = .throws := by
  have hconv : ∀ (f : Int → Val) (r : StoRes), (∃ v, r.conv f = .val v) ∨ r.conv f = .throws := by
    intro f r
    cases r with
    | val i => exact Or.inl ⟨_, rfl⟩
    | throws => exact Or.inr rfl
  cases ty with
  | float =>
    simp only [iniConv]
    cases h : L.stof s with
    | none => exact Or.inr rfl
    | some b => exact Or.inl ⟨_, rfl⟩
  | double =>
    simp only [iniConv]
    cases h : L.stod s with
    | none => exact Or.inr rfl
    | some b => exact Or.inl ⟨_, rfl⟩
  | stdString => exact Or.inl ⟨_, rfl⟩
  | _ => exact hconv _ _

/-- Exceptions are thrown for texts without meaning. -/
theorem iniConv_throws {T : CTable} {L : IniLib} (hb : 32 ≤ T.longBits) (ty : SimpleTy) (s : Str) :
    iniConv T L ty s = .throws ↔ ∀ v, ¬ Reads T L ty s v := by
  constructor
  · intro h v hv
    rw [← iniConv_reads hb, h] at hv
    cases hv
  · intro h
    rcases iniConv_cases T L ty s with ⟨v, hv⟩ | h'
    · exact absurd ((iniConv_reads hb ty s v).1 hv) (h v)
    · exact h'

/-- The values `std::stof` and `std::stod` make of text are bit patterns of floating point numbers.
(Specification notion, models no code.) -/
structure IniLib.Bits (L : IniLib) : Prop where
  float : ∀ s b, L.stof s = some b → b < 2 ^ 32
  double : ∀ s b, L.stod s = some b → b < 2 ^ 64

/-- Values that texts stand for are values of the type. -/
theorem Reads.typed {T : CTable} {L : IniLib} (hL : L.Bits) {ty : SimpleTy} {s : Str} {v : Val} (h : Reads T L ty s v) :
    T.simpleVal ty v = true := by
  cases ty with
  | bool => obtain ⟨i, _, _, rfl⟩ := h; rfl
  | int => obtain ⟨i, _, hi, rfl⟩ := h; exact decide_eq_true hi
  | long => obtain ⟨i, _, hi, rfl⟩ := h; exact decide_eq_true hi
  | short => obtain ⟨i, j, _, _, rfl, hj, _⟩ := h; exact decide_eq_true hj
  | unsignedInt => obtain ⟨i, j, _, _, rfl, hj, _⟩ := h; exact decide_eq_true hj
  | unsignedShort => obtain ⟨i, j, _, _, rfl, hj, _⟩ := h; exact decide_eq_true hj
  | unsignedLong => obtain ⟨i, j, _, _, rfl, hj, _⟩ := h; exact decide_eq_true hj
  | float => obtain ⟨b, hb, rfl⟩ := h; exact decide_eq_true (hL.float s b hb)
  | double => obtain ⟨b, hb, rfl⟩ := h; exact decide_eq_true (hL.double s b hb)
  | stdString => cases h; rfl

/-- A text stands for one value at most. -/
theorem Reads.unique {T : CTable} {L : IniLib} (hb : 32 ≤ T.longBits) {ty : SimpleTy} {s : Str} {v w : Val} (hv : Reads T L ty s v)
    (hw : Reads T L ty s w) : v = w := by
  rw [← iniConv_reads hb] at hv hw
  rw [hv] at hw
  cases hw
  rfl

end Stfx.Run
