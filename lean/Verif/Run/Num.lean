import Verif.Text
/-
Integers as text: what `std::to_string`, `printf("%d")` and fmt write, and what `std::stoi`, `std::stol`, `std::stoul`
and `sscanf` read.  These are library contracts (the C and C++ standards), not code in /repo.
-/
set_option autoImplicit false
namespace Stfx.Run

/-! ### Printing -/

/-- The digit for a number below ten, library contract (C and C++ standard library), called from the code of
process_items_xml.cpp:231-320 and process_items_ini.cpp:319-347. -/
def digit (n : Nat) : Char := Char.ofNat (48 + n)

/-- Decimal digits of a number, library contract (C and C++ standard library), called from the code of
process_items_xml.cpp:231-320 and process_items_ini.cpp:319-347. -/
def natText (n : Nat) : Str :=
  if n < 10 then [digit n] else natText (n / 10) ++ [digit (n % 10)]
termination_by n

/-- `std::to_string` of an integer, `%d`, `%u`, `{}`, library contract (C and C++ standard library), called from the
code of process_items_xml.cpp:231-320 and process_items_ini.cpp:319-347. -/
def intText (i : Int) : Str := if i < 0 then '-' :: natText i.natAbs else natText i.natAbs

/-! ### Scanning -/

/-- `isspace` in the "C" locale, library contract (C and C++ standard library), called from the code of
process_items_xml.cpp:231-320 and process_items_ini.cpp:319-347. -/
def isSpace (c : Char) : Bool := c = ' ' || c = '\t' || c = '\n' || c = '\x0b' || c = '\x0c' || c = '\r'

/-- `isdigit`, library contract (C and C++ standard library), called from the code of process_items_xml.cpp:231-320
and process_items_ini.cpp:319-347. -/
def isDigit (c : Char) : Bool := 48 ≤ c.toNat && c.toNat ≤ 57

/-- The value of a digit string, library contract (C and C++ standard library), called from the code of
process_items_xml.cpp:231-320 and process_items_ini.cpp:319-347. -/
def digitsVal (s : Str) : Nat := s.foldl (fun a c => 10 * a + (c.toNat - 48)) 0

/-- An optional sign: is it a minus, and what follows, library contract (C and C++ standard library), called from the
code of process_items_xml.cpp:231-320 and process_items_ini.cpp:319-347. -/
def sign : Str → Bool × Str
  | '-' :: s => (true, s)
  | '+' :: s => (false, s)
  | s => (false, s)

/-- The decimal number a string starts with after white space: sign, magnitude and whether there is one, library
contract (C and C++ standard library), called from the code of process_items_xml.cpp:231-320 and
process_items_ini.cpp:319-347. -/
def scanDec (s : Str) : Option (Bool × Nat) :=
  let (neg, r) := sign (s.dropWhile isSpace)
  let ds := r.takeWhile isDigit
  if ds = [] then none else some (neg, digitsVal ds)

/-- Range of a signed integer type of `bits` bits, of the members read and written by process_items_xml.cpp:238-320. -/
def inSigned (bits : Nat) (i : Int) : Prop := -(2 : Int) ^ (bits - 1) ≤ i ∧ i < (2 : Int) ^ (bits - 1)
/-- Range of an unsigned integer type, of the members read and written by process_items_xml.cpp:238-320. -/
def inUnsigned (bits : Nat) (i : Int) : Prop := 0 ≤ i ∧ i < (2 : Int) ^ bits

instance (bits : Nat) (i : Int) : Decidable (inSigned bits i) := by unfold inSigned; infer_instance
instance (bits : Nat) (i : Int) : Decidable (inUnsigned bits i) := by unfold inUnsigned; infer_instance

/-- What `std::stoi` and its relatives do, library contract (C and C++ standard library), called from the code of
process_items_xml.cpp:231-320 and process_items_ini.cpp:319-347. -/
inductive StoRes where
  | val (i : Int)
  /-- `std::invalid_argument` or `std::out_of_range` -/
  | throws
deriving DecidableEq, Repr

/-- `std::stoi` (32 bits), `std::stol`, library contract (C and C++ standard library), called from the code of
process_items_xml.cpp:231-320 and process_items_ini.cpp:319-347. -/
def stoSigned (bits : Nat) (s : Str) : StoRes :=
  match scanDec s with
  | none => .throws
  | some (neg, m) =>
    let i : Int := if neg then -(m : Int) else m
    if inSigned bits i then .val i else .throws

/-- `std::stoul`: a minus sign negates the value in the unsigned type, library contract (C and C++ standard library),
called from the code of process_items_xml.cpp:231-320 and process_items_ini.cpp:319-347. -/
def stoUnsigned (bits : Nat) (s : Str) : StoRes :=
  match scanDec s with
  | none => .throws
  | some (neg, m) =>
    if inUnsigned bits m then .val (if neg then (-(m : Int)) % (2 : Int) ^ bits else m) else .throws

/-- What `sscanf` with one conversion does, library contract (C and C++ standard library), called from the code of
process_items_xml.cpp:231-320 and process_items_ini.cpp:319-347. -/
inductive ScanRes where
  | val (i : Int)
  /-- no conversion; the target is not written -/
  | fail
  /-- the value does not fit: undefined behaviour -/
  | ub
deriving DecidableEq, Repr

/-- `isxdigit`, library contract (C and C++ standard library), called from the code of process_items_xml.cpp:231-320
and process_items_ini.cpp:319-347. -/
def hexVal (c : Char) : Option Nat :=
  if isDigit c then some (c.toNat - 48)
  else if 97 ≤ c.toNat ∧ c.toNat ≤ 102 then some (c.toNat - 87)
  else if 65 ≤ c.toNat ∧ c.toNat ≤ 70 then some (c.toNat - 55)
  else none

/-- `sscanf(s, "%x", &u)` on a string that starts, after white space, with `0x` or `0X`.  Simplification: `0x` without
a digit after it counts as no conversion, library contract (C and C++ standard library), called from the code of
process_items_xml.cpp:231-320 and process_items_ini.cpp:319-347. -/
def scanHex (s : Str) : ScanRes :=
  let ds := ((s.dropWhile isSpace).drop 2).takeWhile fun c => (hexVal c).isSome
  if ds = [] then .fail
  else
    let v := ds.foldl (fun a c => 16 * a + (hexVal c).getD 0) 0
    if inUnsigned 32 v then .val v else .ub

/-- `XMLUtil::IsPrefixHex` of tinyxml2, library contract (C and C++ standard library), called from the code of
process_items_xml.cpp:231-320 and process_items_ini.cpp:319-347. -/
def isHex (s : Str) : Bool :=
  match s.dropWhile isSpace with
  | '0' :: x :: _ => x = 'x' || x = 'X'
  | _ => false

/-- Conversion of an out of range value to a signed type: modulo 2^bits, the casts of process_items_xml.cpp:284 and
process_items_ini.cpp:338. -/
def wrapSigned (bits : Nat) (i : Int) : Int :=
  (i + (2 : Int) ^ (bits - 1)) % (2 : Int) ^ bits - (2 : Int) ^ (bits - 1)
/-- Conversion to an unsigned type, the casts of process_items_xml.cpp:295, 477 and process_items_ini.cpp:326, 341. -/
def wrapUnsigned (bits : Nat) (i : Int) : Int := i % (2 : Int) ^ bits

/-- `XMLUtil::ToInt` of tinyxml2: `%x` for hexadecimal text, else `%d`, library contract (C and C++ standard
library), called from the code of process_items_xml.cpp:231-320 and process_items_ini.cpp:319-347. -/
def toInt (s : Str) : ScanRes :=
  if isHex s then
    match scanHex s with
    | .val v => .val (wrapSigned 32 v)
    | r => r
  else
    match scanDec s with
    | none => .fail
    | some (neg, m) =>
      let i : Int := if neg then -(m : Int) else m
      if inSigned 32 i then .val i else .ub

/-- `XMLUtil::ToUnsigned` of tinyxml2: `%x` for hexadecimal text, else `%u`, library contract (C and C++ standard
library), called from the code of process_items_xml.cpp:231-320 and process_items_ini.cpp:319-347. -/
def toUnsigned (s : Str) : ScanRes :=
  if isHex s then scanHex s
  else
    match scanDec s with
    | none => .fail
    | some (neg, m) =>
      if inUnsigned 32 m then .val (if neg then (-(m : Int)) % (2 : Int) ^ 32 else m) else .ub

/-! ### Round trips -/

theorem digit_toNat {n : Nat} (h : n < 10) : (digit n).toNat = 48 + n := by
  have : n = 0 ∨ n = 1 ∨ n = 2 ∨ n = 3 ∨ n = 4 ∨ n = 5 ∨ n = 6 ∨ n = 7 ∨ n = 8 ∨ n = 9 := by omega
  rcases this with rfl | rfl | rfl | rfl | rfl | rfl | rfl | rfl | rfl | rfl <;> decide

theorem digit_isDigit {n : Nat} (h : n < 10) : isDigit (digit n) = true := by
  unfold isDigit; rw [digit_toNat h]; simp; omega

theorem natText_digits (n : Nat) : ∀ c ∈ natText n, isDigit c = true := by
  induction n using Nat.strongRecOn with
  | ind n ih =>
    intro c hc
    rw [natText] at hc
    split at hc
    · rename_i h
      rw [List.mem_singleton] at hc
      rw [hc]; exact digit_isDigit h
    · rw [List.mem_append, List.mem_singleton] at hc
      rcases hc with hc | hc
      · exact ih _ (by omega) c hc
      · rw [hc]; exact digit_isDigit (by omega)

theorem natText_ne_nil (n : Nat) : natText n ≠ [] := by
  rw [natText]; split <;> simp

theorem natText_val (n : Nat) : digitsVal (natText n) = n := by
  induction n using Nat.strongRecOn with
  | ind n ih =>
    rw [natText]
    split
    · rename_i h
      simp [digitsVal, digit_toNat h]
    · unfold digitsVal
      rw [List.foldl_append]
      have := ih (n / 10) (by omega)
      unfold digitsVal at this
      rw [this]
      simp only [List.foldl_cons, List.foldl_nil, digit_toNat (show n % 10 < 10 by omega)]
      omega

theorem takeWhile_all {α : Type} (p : α → Bool) {l : List α} (h : ∀ a ∈ l, p a = true) : l.takeWhile p = l := by
  induction l with
  | nil => rfl
  | cons a l ih =>
    rw [List.takeWhile_cons, h a List.mem_cons_self, if_pos rfl, ih fun b hb => h b (List.mem_cons_of_mem _ hb)]

theorem not_space_of_digit {c : Char} (h : isDigit c = true) : isSpace c = false := by
  unfold isDigit at h
  simp only [Bool.and_eq_true, decide_eq_true_eq] at h
  unfold isSpace
  have : ∀ d : Char, d.toNat < 48 → c ≠ d := by
    rintro d hd rfl; omega
  simp [this]

theorem not_sign_of_digit {c : Char} (h : isDigit c = true) : c ≠ '-' ∧ c ≠ '+' := by
  unfold isDigit at h
  simp only [Bool.and_eq_true, decide_eq_true_eq] at h
  have : ∀ d : Char, d.toNat < 48 → c ≠ d := by
    rintro d hd rfl; omega
  exact ⟨this _ (by decide), this _ (by decide)⟩

theorem sign_of_digits {s : Str} (h : ∀ c ∈ s, isDigit c = true) : sign s = (false, s) := by
  cases s with
  | nil => rfl
  | cons c s =>
    have := not_sign_of_digit (h c List.mem_cons_self)
    unfold sign
    split
    · rename_i heq; injection heq with h1 _; exact absurd h1 this.1
    · rename_i heq; injection heq with h1 _; exact absurd h1 this.2
    · rfl

theorem dropSpace_cons {c : Char} {s : Str} (h : isSpace c = false) : (c :: s).dropWhile isSpace = c :: s := by
  rw [List.dropWhile_cons, h]; rfl

theorem scanDec_intText (i : Int) : scanDec (intText i) = some (decide (i < 0), i.natAbs) := by
  have hd := natText_digits i.natAbs
  have hn := natText_ne_nil i.natAbs
  unfold intText
  split
  · rename_i hi
    unfold scanDec
    rw [dropSpace_cons (by decide)]
    simp only [sign, takeWhile_all _ hd, if_neg hn, natText_val, hi, decide_true]
  · rename_i hi
    have hds : (natText i.natAbs).dropWhile isSpace = natText i.natAbs := by
      cases h : natText i.natAbs with
      | nil => rfl
      | cons c s =>
        rw [h] at hd
        exact dropSpace_cons (not_space_of_digit (hd c List.mem_cons_self))
    unfold scanDec
    rw [hds, sign_of_digits hd]
    simp only [takeWhile_all _ hd, if_neg hn, natText_val, hi, decide_false]

theorem natAbs_sign (i : Int) : (if decide (i < 0) = true then -(i.natAbs : Int) else (i.natAbs : Int)) = i := by
  by_cases h : i < 0
  · simp [h]; omega
  · simp [h]; omega

/-- `std::stoi(std::to_string(i)) == i`. -/
theorem stoSigned_intText {bits : Nat} {i : Int} (h : inSigned bits i) : stoSigned bits (intText i) = .val i := by
  unfold stoSigned
  rw [scanDec_intText]
  simp only [natAbs_sign, if_pos h]

theorem stoUnsigned_intText {bits : Nat} {i : Int} (h : inUnsigned bits i) : stoUnsigned bits (intText i) = .val i := by
  unfold stoUnsigned
  rw [scanDec_intText]
  have h0 : ¬ i < 0 := by have := h.1; omega
  have hi : (i.natAbs : Int) = i := by omega
  simp only [hi, if_pos h, h0, decide_false, Bool.false_eq_true, if_false]

theorem head_natText (n : Nat) : ∃ c s, natText n = c :: s ∧ isDigit c = true := by
  cases h : natText n with
  | nil => exact absurd h (natText_ne_nil n)
  | cons c s => exact ⟨c, s, rfl, natText_digits n c (by rw [h]; exact List.mem_cons_self)⟩

theorem isHex_of_digits {s : Str} (h : ∀ c ∈ s, isDigit c = true) : isHex s = false := by
  cases s with
  | nil => rfl
  | cons c s =>
    unfold isHex
    rw [dropSpace_cons (not_space_of_digit (h c List.mem_cons_self))]
    split
    · rename_i x r heq
      injection heq with h1 h2
      have hx := h x (by rw [h2]; simp)
      unfold isDigit at hx
      simp only [Bool.and_eq_true, decide_eq_true_eq] at hx
      have : ∀ d : Char, 57 < d.toNat → x ≠ d := by rintro d hd rfl; omega
      simp [this]
    · rfl

theorem isHex_intText (i : Int) : isHex (intText i) = false := by
  unfold intText
  split
  · unfold isHex
    rw [dropSpace_cons (by decide)]
    rfl
  · exact isHex_of_digits (natText_digits _)

theorem toInt_intText {i : Int} (h : inSigned 32 i) : toInt (intText i) = .val i := by
  unfold toInt
  rw [isHex_intText, scanDec_intText]
  simp only [natAbs_sign, if_pos h, Bool.false_eq_true, if_false]

theorem toUnsigned_intText {i : Int} (h : inUnsigned 32 i) : toUnsigned (intText i) = .val i := by
  unfold toUnsigned
  rw [isHex_intText, scanDec_intText]
  have h0 : ¬ i < 0 := by have := h.1; omega
  have hi : (i.natAbs : Int) = i := by omega
  simp only [hi, if_pos h, h0, decide_false, Bool.false_eq_true, if_false]

theorem intText_inj {i j : Int} (h : intText i = intText j) : i = j := by
  have h1 := scanDec_intText i
  rw [h, scanDec_intText j] at h1
  injection h1 with h1
  injection h1 with h2 h3
  have h4 : (i < 0) ↔ (j < 0) := by
    by_cases a : i < 0 <;> by_cases b : j < 0 <;> simp [a, b] at h2 ⊢
  omega

theorem wrapSigned_id {bits : Nat} (hb : 0 < bits) {i : Int} (h : inSigned bits i) : wrapSigned bits i = i := by
  unfold wrapSigned
  obtain ⟨h1, h2⟩ := h
  have hp : (2 : Int) ^ bits = 2 * (2 : Int) ^ (bits - 1) := by
    obtain ⟨b, rfl⟩ : ∃ b, bits = b + 1 := ⟨bits - 1, by omega⟩
    rw [Int.pow_succ]; simp; omega
  rw [Int.emod_eq_of_lt (by omega) (by omega)]
  omega

theorem wrapUnsigned_id {bits : Nat} {i : Int} (h : inUnsigned bits i) : wrapUnsigned bits i = i := by
  unfold wrapUnsigned
  exact Int.emod_eq_of_lt h.1 h.2

end Stfx.Run
