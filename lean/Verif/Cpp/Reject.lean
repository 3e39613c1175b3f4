import Verif.Cpp.FileText
/-
Attribute readers of `unsigned short` and `unsigned long` members are no C++.
-/
set_option autoImplicit false
set_option maxRecDepth 4000
namespace Stfx.Cpp
open Stfx.Gen Stfx.Parser Stfx.Items

theorem pMany_fail {p : List Tok → Option (Stmt × List Tok)} {k n : Nat} {ts r : List Tok} {ss : List Stmt}
    (h : pN p k ts = some (ss, r)) (hr : ∀ r', r ≠ .op .rbrace :: r') (hp : p r = none) : pMany p n ts = none := by
  induction k generalizing ts ss n with
  | zero =>
    simp only [pN] at h
    cases h
    cases n with
    | zero => rfl
    | succ n => rw [pMany.eq_3 _ _ _ hr, hp]
  | succ k ih =>
    obtain ⟨s, r1, ss1, hb, hp', hk, rfl⟩ := pN_inv h
    cases n with
    | zero => rfl
    | succ n => rw [pMany.eq_3 _ _ _ hb, hp']; simp only [ih hk]

/-- The text makes every file it is in, after complete definitions, ill-formed.  (Proof notion, models no code.) -/
def BadDef (text : Str) : Prop :=
  ∃ ts, scan isLetter wordTok .start text = (ts, .start) ∧ ∀ fuel n r, ts.length + 60 ≤ fuel → pFile false fuel n (ts ++ r) = none

/-- The statements are followed by tokens at which no statement starts.  (Proof notion, models no code.) -/
def BadStmts (text : Str) : Prop :=
  ∃ ts, scan isLetter wordTok .start text = (ts, .start) ∧ ∀ f r, ts.length ≤ f → ∃ k ss r', pN (pStmt false (f + 60)) k (ts ++ r) = some (ss, r') ∧
    (∀ r'', r' ≠ .op .rbrace :: r'') ∧ pStmt false (f + 60) r' = none

theorem bad_stmt {r : Rd} (h : Rd.Named r) (hs : Rd.standard r = false) : BadStmts r.text := by
  cases r with
  | attr ty n =>
    cases ty <;> try cases hs
    case attr.unsignedShort.refl =>
      exact ⟨_, attrib51_scan h, fun f r _ => ⟨0, [], _, rfl, by simp [attrib51_toks], by kernel_rfl⟩⟩
    case attr.unsignedLong.refl =>
      exact ⟨_, attrib57_scan h, fun f r _ => ⟨0, [], _, rfl, by simp [attrib57_toks], by kernel_rfl⟩⟩
  | _ => cases hs

theorem BadStmts.before {a b : Str} {ss : List Stmt} (ha : Chunk 40 false a ss) (hb : BadStmts b)
    (hh : ∀ ts, scan isLetter wordTok .start b = (ts, .start) → ∃ t r, ts = t :: r ∧ Next t) : BadStmts (a ++ b) := by
  obtain ⟨ts, h1, i1⟩ := ha
  obtain ⟨us, h2, hb⟩ := hb
  refine ⟨ts ++ us, scans h1 h2, fun f r hf => ?_⟩
  rw [List.length_append] at hf
  obtain ⟨k, ss', r', h3, h4, h5⟩ := hb f r (by omega)
  obtain ⟨t, us', rfl, ht⟩ := hh us h2
  have := (i1.mono (e := 60) (by decide)).parse f t (us' ++ r) (by omega) ht
  exact ⟨_, _, r', by rw [List.append_assoc]; exact pN_append this h3, h4, h5⟩

theorem BadStmts.after {a b : Str} {us : List Tok} (ha : BadStmts a) (hb : scan isLetter wordTok .start b = (us, .start)) :
    BadStmts (a ++ b) := by
  obtain ⟨ts, h1, h⟩ := ha
  refine ⟨ts ++ us, scans h1 hb, fun f r hf => ?_⟩
  rw [List.length_append] at hf
  obtain ⟨k, ss, r', h3, h4, h5⟩ := h f (us ++ r) (by omega)
  exact ⟨k, ss, r', by rw [List.append_assoc]; exact h3, h4, h5⟩

theorem bad_head {r : Rd} (h : Rd.Named r) (hs : Rd.standard r = false) (ts : List Tok)
    (ht : scan isLetter wordTok .start r.text = (ts, .start)) : ∃ t r, ts = t :: r ∧ Next t := by
  cases r with
  | attr ty n =>
    cases ty <;> try cases hs
    case attr.unsignedShort.refl =>
      have := (attrib51_scan h).symm.trans ht
      cases this
      exact ⟨_, _, rfl, .lbrace⟩
    case attr.unsignedLong.refl =>
      have := (attrib57_scan h).symm.trans ht
      cases this
      exact ⟨_, _, rfl, .lbrace⟩
  | _ => cases hs

/-- The text of reader statements has tokens. -/
theorem rd_scans {r : Rd} (h : Rd.Named r) : ∃ us, scan isLetter wordTok .start r.text = (us, .start) := by
  obtain ⟨us, h, _⟩ := rd_chunk (ext := true) h (.inl rfl)
  exact ⟨us, h⟩

theorem flatMap_scans {α : Type} {text : α → Str} {l : List α} (h : ∀ x ∈ l, ∃ us, scan isLetter wordTok .start (text x) = (us, .start)) :
    ∃ us, scan isLetter wordTok .start (l.flatMap text) = (us, .start) := by
  induction l with
  | nil => exact ⟨[], rfl⟩
  | cons x l ih =>
    obtain ⟨us, h1⟩ := h x List.mem_cons_self
    obtain ⟨vs, h2⟩ := ih fun y hy => h y (List.mem_cons_of_mem _ hy)
    exact ⟨us ++ vs, scans h1 h2⟩

/-- A list with an element that fails a test is split at the first such element. -/
theorem first_false {α : Type} {p : α → Bool} {l : List α} (h : ∃ x ∈ l, p x = false) :
    ∃ a x b, l = a ++ x :: b ∧ (∀ y ∈ a, p y = true) ∧ p x = false := by
  induction l with
  | nil => obtain ⟨x, hx, _⟩ := h; cases hx
  | cons y l ih =>
    cases hp : p y with
    | false => exact ⟨[], y, l, rfl, (fun _ h => by cases h), hp⟩
    | true =>
      obtain ⟨x, hx, hx'⟩ := h
      rcases List.mem_cons.1 hx with rfl | hx
      · rw [hp] at hx'; cases hx'
      · obtain ⟨a, x, b, rfl, h1, h2⟩ := ih ⟨x, hx, hx'⟩
        refine ⟨y :: a, x, b, rfl, fun z hz => ?_, h2⟩
        rcases List.mem_cons.1 hz with rfl | hz
        · exact hp
        · exact h1 z hz

theorem bad_stmts {l : List Rd} (h : ∀ r ∈ l, Rd.Named r) (hs : ∃ r ∈ l, Rd.standard r = false) : BadStmts (l.flatMap Rd.text) ∧
    ∀ ts, scan isLetter wordTok .start (l.flatMap Rd.text) = (ts, .start) → ∃ t r, ts = t :: r ∧ Next t := by
  obtain ⟨a, x, b, rfl, h1, h2⟩ := first_false hs
  have hx : Rd.Named x := h x (by simp)
  obtain ⟨us, hb⟩ := flatMap_scans (text := Rd.text) (l := b) fun y hy => rd_scans (h y (by simp [hy]))
  have h3 := (bad_stmt hx h2).after hb
  have h4 : Chunk 40 false (a.flatMap Rd.text) (a.flatMap rdTree) := .flatMap fun r hr => rd_chunk (h r (by simp [hr])) (.inr (h1 r hr))
  have h5 : ∀ ts, scan isLetter wordTok .start (x.text ++ b.flatMap Rd.text) = (ts, .start) → ∃ t r, ts = t :: r ∧ Next t := by
    intro ts ht
    obtain ⟨vs, hv⟩ := rd_scans hx
    obtain ⟨t, r, rfl, hn⟩ := bad_head hx h2 vs hv
    rw [scans hv hb] at ht
    cases ht
    exact ⟨t, _, rfl, hn⟩
  rw [List.flatMap_append, List.flatMap_cons]
  refine ⟨h3.before h4 h5, ?_⟩
  intro ts ht
  obtain ⟨ws, h6, i6⟩ := h4
  obtain ⟨vs, hv⟩ := rd_scans hx
  have h7 := scans hv hb
  obtain ⟨t, r, h8, hn⟩ := h5 _ h7
  rw [scans h6 h7] at ht
  cases ht
  cases ws with
  | nil => exact ⟨t, r, h8, hn⟩
  | cons w ws => exact ⟨w, _, rfl, i6.head _ _ rfl⟩

theorem bad_def {k : Kind} {cls n : Str} {ch : Bool} {ss cs : List Rd} (hc : Ident cls) (hn : Ident n) (hk : k ≠ .xml)
    (hss : ∀ r ∈ ss, Rd.Named r) (hcs : ∀ r ∈ cs, Rd.Named r) (hbad : ∃ r ∈ ss, Rd.standard r = false) :
    BadDef (Item.text (.defRd k cls n ch ss cs)) := by
  obtain ⟨hb, hh⟩ := bad_stmts hss hbad
  have hb := hb.before xml225_chunk hh
  obtain ⟨us, hu⟩ := flatMap_scans (text := Rd.text) fun r hr => rd_scans (hcs r hr)
  obtain ⟨vs, hv⟩ : ∃ vs, scan isLetter wordTok .start (if ch then T.attrib83 else []) = (vs, .start) := by
    obtain ⟨vs, h, _⟩ := chDecl_chunk (ext := true) ch
    exact ⟨vs, h⟩
  obtain ⟨ts, ht, hp⟩ := hb.after (scans hv (scans hu xml396_scan))
  have h2 : Item.text (.defRd k cls n ch ss cs) =
      T.attrib22 cls n ++ (T.xml225 ++ ss.flatMap Rd.text ++ ((if ch then T.attrib83 else []) ++ (cs.flatMap Rd.text ++ T.xml396))) := by
    simp only [← List.append_assoc]
    cases k <;> first | exact absurd rfl hk | rfl
  refine ⟨_, by rw [h2]; exact scans (attrib22_scan hc hn) ht, fun fuel n' r hf => ?_⟩
  rw [List.length_append] at hf
  cases n' with
  | zero => rfl
  | succ n' =>
    have e : attrib22_toks cls n ++ ts ++ r = .kw .bool_ :: ((attrib22_toks cls n).tail ++ ts ++ r) := rfl
    obtain ⟨k', ss', r', h3, h4, h5⟩ := hp (fuel - 60) r (by omega)
    rw [e, pFile.eq_5 _ _ _ _ (by simp) (by simp) (by simp), ← e, List.append_assoc]
    have h6 := attrib22_head (ext := false) (cls := cls) (n := n) (fuel - 60) (ts ++ r)
    rw [show fuel - 60 + 60 = fuel by omega] at h3 h5 h6
    rw [h6, pMany_fail h3 h4 h5]
    rfl

/-- A file with such a piece is rejected. -/
theorem reject {is js : List Item} {i : Item} (h : ∀ i ∈ is, ItemNamed false i) (hi : BadDef i.text)
    (hj : ∃ us, scan isLetter wordTok .start (js.flatMap Item.text) = (us, .start)) : parse false (fileText (is ++ i :: js)) = none := by
  obtain ⟨ts, h1, k, hk, h2⟩ : DefChunk false (is.flatMap Item.text) (is.flatMap itemFuns) := .flatMap fun i hi => item_chunk (h i hi)
  obtain ⟨us, h3, h4⟩ := hi
  obtain ⟨vs, h5⟩ := hj
  unfold fileText
  rw [List.flatMap_append, List.flatMap_cons, parse]
  have hl : lex (is.flatMap Item.text ++ (i.text ++ js.flatMap Item.text)) = some (ts ++ (us ++ vs)) := by
    rw [lex, scans h1 (scans h3 h5)]
  rw [hl]
  simp only
  have := h2 ((ts ++ (us ++ vs)).length + 100) ((ts ++ (us ++ vs)).length + 1 - k) (us ++ vs) (by simp; omega)
  rw [show (ts ++ (us ++ vs)).length + 1 - k + k = (ts ++ (us ++ vs)).length + 1 by simp; omega] at this
  rw [this, h4 _ _ _ (by simp; omega)]
  rfl

end Stfx.Cpp
